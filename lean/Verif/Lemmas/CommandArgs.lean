import Verif.Lemmas.CommandLine
/-! # Where the values in a namespace come from, for arbitrary arguments -/

namespace SG.Cli
variable {F : Type}

/-- The text is an argument, or what follows an equals sign in one. -/
def Src (args : List Text) (t : Text) : Prop := t ∈ args ∨ ∃ p, p ++ '=' :: t ∈ args

/-- Some argument is the option or an abbreviation of it. -/
def Mentions (args : List Text) (o : Opt) : Prop :=
  ∃ p, ['-', '-'] <+: p ∧ p <+: o.long ∧ (p ∈ args ∨ ∃ v, p ++ '=' :: v ∈ args)

def TokFrom (P : Parser) (args : List Text) : Tok → Prop
  | .arg t => t ∈ args
  | .opt o _ e => o ∈ helpOpt :: P ∧ (o.short = none → Mentions args o) ∧ ∀ b t, e = some (b, t) → o.short = none → Src args t
  | _ => True

theorem partEq_some {t e : Text} (h : (partEq t).2 = some e) : t = (partEq t).1 ++ '=' :: e := by
  unfold partEq at *
  simp only at h ⊢
  have hd : ∀ t : Text, t.dropWhile (fun x => decide (x ≠ '=')) = [] ∨ ∃ e, t.dropWhile (fun x => decide (x ≠ '=')) = '=' :: e := by
    intro t
    induction t with
    | nil => exact .inl rfl
    | cons a t ih =>
      rw [List.dropWhile_cons]
      split
      · exact ih
      · rename_i ha
        right
        simp only [ne_eq, decide_not, Bool.not_eq_true', decide_eq_false_iff_not, Classical.not_not] at ha
        exact ⟨t, by rw [ha]⟩
  rcases hd t with h' | ⟨e', h'⟩
  · rw [h'] at h; cases h
  · rw [h'] at h
    cases h
    conv => lhs; rw [← List.takeWhile_append_dropWhile (p := fun x => decide (x ≠ '=')) (l := t), h']

theorem long_prefix {P : Parser} (hP : Good P) {o : Opt} (ho : o ∈ helpOpt :: P) : ['-', '-'] <+: o.long := by
  obtain ⟨c, n, e⟩ := hP.long o ho
  exact ⟨c :: n, by rw [e]; rfl⟩

theorem prefix_dashes {t : Text} (h1 : t.head? = some '-') (h2 : (t.drop 1).head? = some '-') : ['-', '-'] <+: t := by
  match t, h1, h2 with
  | a :: b :: t, h1, h2 =>
    simp only [List.head?_cons, Option.some.injEq, List.drop_succ_cons, List.drop_zero] at h1 h2
    subst h1 h2
    exact ⟨t, rfl⟩

theorem tok_candidates {P : Parser} (hP : Good P) {args : List Text} {t : Text} (ht : t ∈ args) (h1 : t.head? = some '-') (hl : t.length ≠ 1)
    {k : Tok} (hk : k ∈ candidates P t) : TokFrom P args k := by
  unfold candidates at hk
  split at hk
  · rename_i h2
    obtain ⟨x, hx, rfl⟩ := List.mem_map.1 hk
    obtain ⟨hx1, hx2⟩ := List.mem_filter.1 hx
    obtain ⟨ho, hkey⟩ := mem_optMap.1 hx1
    refine ⟨ho, fun hs => ?_, fun b e he hs => ?_⟩
    · have hx1' : x.1 = x.2.long := by
        rcases hkey with h | ⟨c, hc, -⟩
        · exact h
        · rw [hs] at hc; cases hc
      have hp : (partEq t).1 <+: x.2.long := by rw [← hx1']; exact List.isPrefixOf_iff_prefix.1 hx2
      refine ⟨_, ?_, hp, ?_⟩
      · obtain ⟨r, rfl⟩ := prefix_dashes h1 h2
        unfold partEq
        simp only [List.cons_append, List.nil_append]
        rw [List.takeWhile_cons, if_pos (by decide), List.takeWhile_cons, if_pos (by decide)]
        exact ⟨_, rfl⟩
      · cases he : (partEq t).2 with
        | none =>
          left
          have : (partEq t).1 = t := by
            unfold partEq at he ⊢
            simp only at he ⊢
            have hd : t.dropWhile (fun x => decide (x ≠ '=')) = [] := by
              split at he
              · assumption
              · cases he
            have := List.takeWhile_append_dropWhile (p := fun x => decide (x ≠ '=')) (l := t)
            rwa [hd, List.append_nil] at this
          rw [this]; exact ht
        | some e =>
          right
          exact ⟨e, by rw [← partEq_some he]; exact ht⟩
    · simp only [Option.map_eq_some_iff] at he
      obtain ⟨e', he', hb⟩ := he
      cases hb
      exact .inr ⟨_, by rw [← partEq_some he']; exact ht⟩
  · rename_i h2
    obtain ⟨x, hx, hk⟩ := List.mem_filterMap.1 hk
    obtain ⟨ho, hkey⟩ := mem_optMap.1 hx
    obtain ⟨c, n, hlong⟩ := hP.long _ ho
    have hsome : x.2.short ≠ none := by
      rcases hkey with h | ⟨c, hc, -⟩
      · exfalso
        split at hk
        · rename_i h3
          rw [h, hlong] at h3
          have := congrArg List.length h3
          rw [List.length_take] at this
          simp only [List.length_cons] at this
          omega
        · split at hk
          · rename_i h3
            obtain ⟨r, hr⟩ := List.isPrefixOf_iff_prefix.1 h3
            rw [h, hlong] at hr
            match t, h1, hl, h2, hr with
            | [], h1, _, _, _ => cases h1
            | [a], _, hl, _, _ => exact hl rfl
            | a :: b :: t, _, _, h2, hr =>
              simp only [List.cons_append, List.cons.injEq] at hr
              exact h2 (by simp [hr.2.1])
          · cases hk
      · rw [hc]; simp
    have : ∃ s e, k = .opt x.2 s e := by
      split at hk
      · cases hk; exact ⟨_, _, rfl⟩
      · split at hk
        · cases hk; exact ⟨_, _, rfl⟩
        · cases hk
    obtain ⟨s, e, rfl⟩ := this
    exact ⟨ho, fun hs => absurd hs hsome, fun _ _ _ hs => absurd hs hsome⟩

theorem tok_abbrev {P : Parser} (hP : Good P) {args : List Text} {t : Text} (ht : t ∈ args) (h1 : t.head? = some '-') (hl : t.length ≠ 1)
    {k : Tok} (hk : parseAbbrev P t = some k) : TokFrom P args k := by
  unfold parseAbbrev at hk
  split at hk
  · cases hk
    split
    · exact ht
    · split
      · exact ht
      · trivial
  · rename_i k' hc
    cases hk
    exact tok_candidates hP ht h1 hl (by rw [hc]; simp)
  · cases hk

theorem tok_parseOptional {P : Parser} (hP : Good P) {args : List Text} {t : Text} (ht : t ∈ args)
    {k : Tok} (hk : parseOptional P t = some k) : TokFrom P args k := by
  unfold parseOptional at hk
  split at hk
  · cases hk; exact ht
  · rename_i h1
    have h1 : t.head? = some '-' := by simpa using h1
    split at hk
    · rename_i o hl
      cases hk
      obtain ⟨ho, hkey⟩ := mem_optMap.1 (lookup_some hl)
      refine ⟨ho, fun hs => ?_, fun _ _ h => by cases h⟩
      rcases hkey with h | ⟨c, hc, -⟩
      · simp only at h
        exact ⟨t, by rw [h]; exact long_prefix hP ho, by rw [h]; exact List.prefix_rfl, .inl ht⟩
      · rw [hs] at hc; cases hc
    · split at hk
      · cases hk; exact ht
      · rename_i hl
        split at hk
        · exact tok_abbrev hP ht h1 hl hk
        · rename_i e he
          split at hk
          · rename_i o hlk
            cases hk
            obtain ⟨ho, hkey⟩ := mem_optMap.1 (lookup_some hlk)
            refine ⟨ho, fun hs => ?_, fun b e' h _ => ?_⟩
            · rcases hkey with h | ⟨c, hc, -⟩
              · simp only at h
                exact ⟨(partEq t).1, by rw [h]; exact long_prefix hP ho, by rw [h]; exact List.prefix_rfl, .inr ⟨e, by rw [← partEq_some he]; exact ht⟩⟩
              · rw [hs] at hc; cases hc
            · cases h
              exact .inr ⟨_, by rw [← partEq_some he]; exact ht⟩
          · exact tok_abbrev hP ht h1 hl hk

theorem tok_classify {P : Parser} (hP : Good P) {args : List Text} : ∀ (ts : List Text) (ks : List Tok), (∀ t ∈ ts, t ∈ args) →
    classify P ts = some ks → ∀ k ∈ ks, TokFrom P args k
  | [], ks, _, h, k, hk => by cases h; cases hk
  | t :: ts, ks, hs, h, k, hk => by
    rw [classify] at h
    split at h
    · cases h
      rcases List.mem_cons.1 hk with rfl | hk
      · trivial
      · obtain ⟨u, hu, rfl⟩ := List.mem_map.1 hk
        exact hs u (by simp [hu])
    · split at h
      · cases h
      · rename_i k' hp
        obtain ⟨ks', h', rfl⟩ := Option.map_eq_some_iff.1 h
        rcases List.mem_cons.1 hk with rfl | hk
        · exact tok_parseOptional hP (hs t (by simp)) hp
        · exact tok_classify hP ts ks' (fun u hu => hs u (by simp [hu])) h' k hk

/-- The invariant of the loop. -/
def NsFrom (P : Parser) (args : List Text) (ns : Ns F) : Prop :=
  ∀ n v, ns n = some v → (∃ o ∈ helpOpt :: P, o.long = n ∧ (o.short = none → Mentions args o)) ∧ ∀ t, v = .text t → Src args t

theorem NsFrom.set {P : Parser} {args : List Text} {ns : Ns F} (h : NsFrom P args ns) {o : Opt} (ho : o ∈ helpOpt :: P)
    (hm : o.short = none → Mentions args o) {v : Val F} (hv : ∀ t, v = .text t → Src args t) : NsFrom P args (ns.set o v) := by
  intro n u hu
  unfold Ns.set at hu
  split at hu
  · rename_i e
    cases hu
    exact ⟨⟨o, ho, e.symm, hm⟩, hv⟩
  · exact h n u hu

theorem cluster_mem {P : Parser} : ∀ (e : Text) (o : Opt) (b : Bool) (os : List Opt) (m : Bool), cluster P o b e = some (os, m) →
    ∀ x ∈ os, x = o ∨ ∃ c, lookup P ['-', c] = some x
  | [], o, b, os, m, h, _, _ => by cases h
  | c :: e, o, b, os, m, h, x, hx => by
    rw [cluster.eq_def] at h
    simp only at h
    split at h
    · cases h
    · split at h
      · cases h
        exact .inl (List.mem_singleton.1 hx)
      · rename_i o' hl
        split at h
        · cases h
          simp only [List.mem_cons, List.not_mem_nil, or_false] at hx
          rcases hx with rfl | rfl
          · exact .inl rfl
          · exact .inr ⟨c, hl⟩
        · cases h
        · obtain ⟨r, hr, e'⟩ := Option.map_eq_some_iff.1 h
          cases e'
          rcases List.mem_cons.1 hx with rfl | hx
          · exact .inl rfl
          · rcases cluster_mem _ _ _ _ _ hr x hx with rfl | hx
            · exact .inr ⟨c, hl⟩
            · exact .inr hx

theorem lookup_short_some {P : Parser} (hP : Good P) {c : Char} {o : Opt} (h : lookup P ['-', c] = some o) :
    o ∈ helpOpt :: P ∧ o.short ≠ none := by
  obtain ⟨ho, hk⟩ := mem_optMap.1 (lookup_some h)
  refine ⟨ho, ?_⟩
  rcases hk with hk | ⟨d, hd, -⟩
  · obtain ⟨a, n, e⟩ := hP.long _ ho
    simp only at hk e
    rw [e] at hk
    cases hk
  · simp only at hd
    rw [hd]; simp

theorem takeFlags_from {P : Parser} {args : List Text} : ∀ (os : List Opt) (ns ns' : Ns F),
    (∀ x ∈ os, x ∈ helpOpt :: P ∧ (x.short = none → Mentions args x)) → NsFrom P args ns → takeFlags ns os = some ns' → NsFrom P args ns'
  | [], ns, ns', _, h, e => by cases e; exact h
  | o :: os, ns, ns', ho, h, e => by
    rw [takeFlags] at e
    split at e
    · cases e
    · exact takeFlags_from os _ _ (fun x hx => ho x (by simp [hx]))
        (h.set (ho o (by simp)).1 (ho o (by simp)).2 (by intro t e; cases e)) e

theorem convert_text {pf : Text → Option F} {pi : Text → Option Int} {k : Kind} {t u : Text} (h : convert pf pi k t = some (.text u)) : u = t := by
  unfold convert at h
  split at h
  · obtain ⟨x, -, e⟩ := Option.map_eq_some_iff.1 h; cases e
  · obtain ⟨x, -, e⟩ := Option.map_eq_some_iff.1 h; cases e
  · cases h; rfl

theorem consume_from {pf : Text → Option F} {pi : Text → Option Int} {P : Parser} (hP : Good P) {args : List Text} (ks : List Tok) (ns : Ns F)
    (ex : Bool) (ns' : Ns F) (hk : ∀ k ∈ ks, TokFrom P args k) (h : NsFrom P args ns) (e : consume pf pi P ks ns ex = .ok ns') :
    NsFrom P args ns' ∧ ∀ o ∈ P, o.required = true → ns' o.long ≠ none := by
  match ks with
  | [] =>
    rw [consume, finish] at e
    split at e
    · cases e
    · rename_i hr
      split at e
      · cases e
      · cases e
        refine ⟨h, fun o ho hq hn => hr ?_⟩
        rw [List.any_eq_true]
        exact ⟨o, ho, by rw [hq, hn]; rfl⟩
  | .arg _ :: ks =>
    rw [consume] at e
    exact consume_from hP ks _ _ _ (fun k h => hk k (by simp [h])) h e
  | .unknown :: ks =>
    rw [consume] at e
    exact consume_from hP ks _ _ _ (fun k h => hk k (by simp [h])) h e
  | .dashes :: ks =>
    rw [consume] at e
    exact consume_from hP ks _ _ _ (fun k h => hk k (by simp [h])) h e
  | .opt o s none :: ks =>
    obtain ⟨h1, h2, -⟩ := hk (.opt o s none) (by simp)
    rw [consume] at e
    split at e
    · cases e
    · exact consume_from hP ks _ _ _ (fun k h => hk k (by simp [h])) (h.set h1 h2 (by intro t e; cases e)) e
    · split at e
      · rename_i t ks'
        split at e
        · cases e
        · rename_i v hv
          refine consume_from hP ks' _ _ _ (fun k h => hk k (by simp [h])) (h.set h1 h2 ?_) e
          rintro u rfl
          rw [convert_text hv]
          exact .inl (hk (.arg t) (by simp))
      · cases e
  | .opt o s (some (b, t)) :: ks =>
    obtain ⟨h1, h2, h3⟩ := hk (.opt o s (some (b, t))) (by simp)
    rw [consume] at e
    split at e
    · split at e
      · cases e
      · split at e
        · cases e
        · rename_i os m hc
          split at e
          · cases e
          · rename_i ns1 hf
            refine consume_from hP ks _ _ _ (fun k h => hk k (by simp [h])) (takeFlags_from os ns ns1 ?_ h hf) e
            intro x hx
            rcases cluster_mem _ _ _ _ _ hc x hx with rfl | ⟨c, hl⟩
            · exact ⟨h1, h2⟩
            · obtain ⟨i1, i2⟩ := lookup_short_some hP hl
              exact ⟨i1, fun hs => absurd hs i2⟩
    · rename_i hkind
      split at e
      · cases e
      · rename_i v hv
        refine consume_from hP ks _ _ _ (fun k h => hk k (by simp [h])) (h.set h1 h2 ?_) e
        rintro u rfl
        rw [convert_text hv]
        refine h3 b t rfl ?_
        rcases List.mem_cons.1 h1 with rfl | ho
        · exact absurd (.inl rfl) hkind
        · cases hs : o.short with
          | none => rfl
          | some c => exact absurd (.inr (hP.shortFlag o ho (by rw [hs]; simp))) hkind
termination_by ks.length

/-- Accepted command lines: where values come from, and that required options are mentioned. -/
theorem parseArgs_from {pf : Text → Option F} {pi : Text → Option Int} {P : Parser} (hP : Good P) {args : List Text} {ns : Ns F}
    (h : parseArgs pf pi P args = .ok ns) :
    (∀ n t, ns n = some (.text t) → Src args t) ∧ ∀ o ∈ P, o.required = true → o.short = none → Mentions args o := by
  unfold parseArgs at h
  split at h
  · cases h
  · rename_i ks hc
    obtain ⟨h1, h2⟩ := consume_from hP ks _ _ _ (tok_classify hP args ks (fun _ h => h) hc) (by intro n v h; cases h) h
    refine ⟨fun n t hn => (h1 n _ hn).2 t rfl, fun o ho hq hs => ?_⟩
    cases hv : ns o.long with
    | none => exact absurd hv (h2 o ho hq)
    | some v =>
      obtain ⟨⟨o', ho', e, hm⟩, -⟩ := h1 _ _ hv
      have k1 := lookup_long hP ho'
      rw [e, lookup_long hP (List.mem_cons.2 (.inr ho))] at k1
      cases k1
      exact hm hs

end SG.Cli
