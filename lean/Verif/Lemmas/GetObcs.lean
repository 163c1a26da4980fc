import Verif.Model.GetObcs
import Verif.Lemmas.Lists
/-! Lemmas about the `getobcs` model: inversion of successful calls, the assembly loops, file names. -/

set_option linter.unusedSectionVars false
namespace SG
variable {F W : Type} [PyFloat F]

/-! ## Actions and loops -/

theorem Act.bind_ok_inv {σ α β : Type} {m : Act σ α} {f : α → Act σ β} {s s'' : σ} {b : β}
    (h : Act.bind m f s = some (s'', .ok b)) : ∃ s' a, m s = some (s', .ok a) ∧ f a s' = some (s'', .ok b) := by
  unfold Act.bind at h
  cases hm : m s with
  | none => rw [hm] at h; cases h
  | some x =>
    obtain ⟨s', r⟩ := x
    rw [hm] at h
    cases r with
    | error e => cases h
    | ok a => exact ⟨s', a, rfl, h⟩

theorem Act.bind_of_ok {σ α β : Type} {m : Act σ α} {f : α → Act σ β} {s s' : σ} {a : α}
    (h : m s = some (s', .ok a)) : Act.bind m f s = f a s' := by
  unfold Act.bind; rw [h]

theorem Act.bind_of_error {σ α β : Type} {m : Act σ α} {f : α → Act σ β} {s s' : σ} {e : PyErr}
    (h : m s = some (s', .error e)) : Act.bind m f s = some (s', .error e) := by
  unfold Act.bind; rw [h]

theorem Act.lift_ok_inv {σ α : Type} {x : Py α} {s s' : σ} {a : α}
    (h : (Act.lift x : Act σ α) s = some (s', .ok a)) : s' = s ∧ x = .ok a := by
  unfold Act.lift at h
  cases h; exact ⟨rfl, rfl⟩

theorem foldlM_post {σ β : Type} (l : List β) (f : σ → β → Py σ) (I : Nat → σ → Prop) (s0 s' : σ)
    (h : l.foldlM f s0 = .ok s') (h0 : I 0 s0)
    (hstep : ∀ k (hk : k < l.length) s s1, I k s → f s l[k] = .ok s1 → I (k + 1) s1) : I l.length s' := by
  induction l generalizing I s0 with
  | nil => cases h; exact h0
  | cons a t ih =>
    rw [List.foldlM_cons] at h
    cases hf : f s0 a with
    | error e => rw [hf] at h; cases h
    | ok s1 =>
      rw [hf] at h
      refine ih (fun k => I (k + 1)) s1 h (hstep 0 (by simp) s0 s1 h0 hf) (fun k hk s s1 hs hf => ?_)
      exact hstep (k + 1) (by simpa using hk) s s1 hs (by simpa using hf)

theorem range_post {σ : Type} (n : Nat) (f : σ → Nat → Py σ) (I : Nat → σ → Prop) (s0 s' : σ)
    (h : (List.range n).foldlM f s0 = .ok s') (h0 : I 0 s0)
    (hstep : ∀ k s s1, k < n → I k s → f s k = .ok s1 → I (k + 1) s1) : I n s' := by
  have := foldlM_post (List.range n) f I s0 s' h h0 (by
    intro k hk s s1 hs hf
    simp only [List.length_range] at hk
    exact hstep k s s1 hk hs (by simpa using hf))
  simpa using this

theorem bind_ok_inv {α β : Type} {x : Py α} {f : α → Py β} {b : β} (h : (x >>= f) = .ok b) :
    ∃ a, x = .ok a ∧ f a = .ok b := by
  cases x with
  | error e => cases h
  | ok a => exact ⟨a, rfl, h⟩

theorem mapM_ok_get {α β : Type} (f : α → Py β) (l : List α) (r : List β) (h : l.mapM f = .ok r) :
    r.length = l.length ∧ ∀ (n : Nat) x, l[n]? = some x → ∃ y, r[n]? = some y ∧ f x = .ok y := by
  induction l generalizing r with
  | nil => rw [List.mapM_nil] at h; cases h; simp
  | cons a t ih =>
    rw [List.mapM_cons] at h
    obtain ⟨b, hb, h⟩ := bind_ok_inv h
    obtain ⟨bs, hbs, h⟩ := bind_ok_inv h
    cases h
    obtain ⟨hl, hg⟩ := ih bs hbs
    refine ⟨by simp [hl], fun n x hx => ?_⟩
    cases n with
    | zero => simp at hx; subst hx; exact ⟨b, by simp, hb⟩
    | succ n => simpa using hg n x (by simpa using hx)

/-! ## One line of a boundary array -/

/-- What a successful `setLine` does. -/
theorem setLine_ok {a a' : Arr3 F} {d t : Nat} {vals : List F} (h : setLine a d t vals = .ok a') :
    (vals.length = a.n0 ∨ vals.length = 1) ∧ a'.n0 = a.n0 ∧ a'.n1 = a.n1 ∧ a'.n2 = a.n2 ∧
      ∀ p d' t', a'.get p d' t' = if d' = d ∧ t' = t then
        vals.getD (if vals.length = a.n0 then p else 0) Arith.zero else a.get p d' t' := by
  unfold setLine at h
  by_cases hc : vals.length = a.n0 ∨ vals.length = 1
  · rw [if_pos hc] at h; cases h; exact ⟨hc, rfl, rfl, rfl, fun _ _ _ => rfl⟩
  · rw [if_neg hc] at h; cases h

/-- Position `p` of a line holds the value at cell `q` of the partition. -/
def LineOK (M : Mat F) (obs : Side → List Int × Bool) (kd : Kind) (n0 : Side → Nat) (d t : Nat)
    (arrs : Side → Arr3 F) (s : Side) : Prop :=
  (obs s).2 = true → ∀ p, p < n0 s →
    ∃ ij, (partitionOf s kd (obs s).1)[if (partitionOf s kd (obs s).1).length = n0 s then p else 0]? = some ij ∧
      M.atI ij.1 ij.2 = .ok ((arrs s).get p d t)

/-- The innermost loop body (getobcs.py:453-463). -/
def sideStep (M : Mat F) (obs : Side → List Int × Bool) (kd : Kind) (d t : Nat) (arrs : Side → Arr3 F) (s : Side) :
    Py (Side → Arr3 F) :=
  if (obs s).2 then do
    let vals ← takeCells M (partitionOf s kd (obs s).1)
    let a ← setLine (arrs s) d t vals
    return fun s' => if s' = s then a else arrs s'
  else .ok arrs

theorem sideStep_ok {M : Mat F} {obs : Side → List Int × Bool} {kd : Kind} {d t : Nat} {arrs arrs' : Side → Arr3 F}
    {s : Side} (h : sideStep M obs kd d t arrs s = .ok arrs') :
    (∀ s', s' ≠ s → arrs' s' = arrs s') ∧
    ((arrs' s).n0 = (arrs s).n0 ∧ (arrs' s).n1 = (arrs s).n1 ∧ (arrs' s).n2 = (arrs s).n2) ∧
    (∀ p d' t', ¬(d' = d ∧ t' = t) → (arrs' s).get p d' t' = (arrs s).get p d' t') ∧
    LineOK M obs kd (fun s => (arrs s).n0) d t arrs' s := by
  unfold sideStep at h
  by_cases hd : (obs s).2 = true
  · rw [if_pos hd] at h
    obtain ⟨vals, hv, h⟩ := bind_ok_inv h
    obtain ⟨a, ha, h⟩ := bind_ok_inv h
    cases h
    obtain ⟨hl, e0, e1, e2, hg⟩ := setLine_ok ha
    obtain ⟨hlen, hcell⟩ := mapM_ok_get _ _ _ hv
    refine ⟨fun s' hs => if_neg hs, ?_, ?_, ?_⟩
    · simp only [if_pos]; exact ⟨e0, e1, e2⟩
    · intro p d' t' hne
      simp only [if_pos]
      rw [hg, if_neg hne]
    · intro _ p hp
      have hp : p < (arrs s).n0 := hp
      rw [← hlen]
      have hq : (if vals.length = (arrs s).n0 then p else 0) < (partitionOf s kd (obs s).1).length := by
        split <;> omega
      obtain ⟨y, hy, hx⟩ := hcell _ _ (List.getElem?_eq_getElem hq)
      refine ⟨_, List.getElem?_eq_getElem hq, ?_⟩
      rw [hx]
      simp only [if_pos]
      rw [hg, if_pos ⟨rfl, rfl⟩, List.getD_eq_getElem?_getD, hy]; rfl
  · rw [if_neg hd] at h; cases h
    exact ⟨fun _ _ => rfl, ⟨rfl, rfl, rfl⟩, fun _ _ _ _ => rfl, fun h => absurd h hd⟩

theorem sides_ok {M : Mat F} {obs : Side → List Int × Bool} {kd : Kind} {d t : Nat} {arrs arrs' : Side → Arr3 F}
    (h : Side.all.foldlM (sideStep M obs kd d t) arrs = .ok arrs') (s : Side) :
    ((arrs' s).n0 = (arrs s).n0 ∧ (arrs' s).n1 = (arrs s).n1 ∧ (arrs' s).n2 = (arrs s).n2) ∧
    (∀ p d' t', ¬(d' = d ∧ t' = t) → (arrs' s).get p d' t' = (arrs s).get p d' t') ∧
    LineOK M obs kd (fun s => (arrs s).n0) d t arrs' s := by
  have key : ∀ (l : List Side) (arrs arrs' : Side → Arr3 F), l.Nodup → l.foldlM (sideStep M obs kd d t) arrs = .ok arrs' →
      (s ∉ l → arrs' s = arrs s) ∧ (s ∈ l →
        ((arrs' s).n0 = (arrs s).n0 ∧ (arrs' s).n1 = (arrs s).n1 ∧ (arrs' s).n2 = (arrs s).n2) ∧
        (∀ p d' t', ¬(d' = d ∧ t' = t) → (arrs' s).get p d' t' = (arrs s).get p d' t') ∧
        LineOK M obs kd (fun s => (arrs s).n0) d t arrs' s) := by
    intro l
    induction l with
    | nil => intro a a' _ h; cases h; exact ⟨fun _ => rfl, fun h => by cases h⟩
    | cons b l ih =>
      intro a a' hn h
      rw [List.foldlM_cons] at h
      obtain ⟨a1, h1, h2⟩ := bind_ok_inv h
      obtain ⟨o, dim, oth, line⟩ := sideStep_ok h1
      obtain ⟨i1, i2⟩ := ih a1 a' (List.nodup_cons.1 hn).2 h2
      refine ⟨fun hs => ?_, fun hs => ?_⟩
      · rw [List.mem_cons, not_or] at hs
        rw [i1 hs.2, o s hs.1]
      · rcases List.mem_cons.1 hs with rfl | hs
        · have e := i1 (List.nodup_cons.1 hn).1
          rw [e]
          refine ⟨dim, oth, ?_⟩
          intro hd p hp
          rw [e]; exact line hd p hp
        · have hne : s ≠ b := fun e => (List.nodup_cons.1 hn).1 (e ▸ hs)
          have e := o s hne
          obtain ⟨j1, j2, j3⟩ := i2 hs
          rw [e] at j1
          refine ⟨j1, fun p d' t' hh => (j2 p d' t' hh).trans (by rw [e]), ?_⟩
          intro hd p hp
          have := j3 hd p (by show p < (a1 s).n0; rw [e]; exact hp)
          simp only [e] at this
          exact this
  exact (key Side.all arrs arrs' (by decide) h).2 (by cases s <;> decide)

/-- The loops of `assemble` (getobcs.py:401-475): every line of every active side. -/
theorem assemble_ok {xe : Xesmf F W} {r : Kind → Regridder W} {run : RunDir F} {obs : Side → List Int × Bool}
    {ni nj : Nat} {times : List Nat} {resp : Resp} {arrs : Side → Arr3 F}
    (h : assemble xe r run obs ni nj times resp = .ok arrs) :
    ∃ nd, depthCount (run.read resp.name (times.headD 0)) = .ok nd ∧
      (∀ s, (arrs s).n0 = s.len ni nj ∧ (arrs s).n1 = nd ∧ (arrs s).n2 = times.length) ∧
      ∀ t, t < times.length → ∃ v, run.read resp.name (times.getD t 0) = .ok v ∧
        ∀ d, d < nd → ∃ M, interpolate xe r resp.kind v d = .ok M ∧
          ∀ s, LineOK M obs resp.kind (fun s => s.len ni nj) d t arrs s := by
  unfold assemble at h
  obtain ⟨nd, hnd, h⟩ := bind_ok_inv h
  refine ⟨nd, hnd, ?_⟩
  have inv := range_post times.length _ (fun t (a : Side → Arr3 F) =>
    (∀ s, (a s).n0 = s.len ni nj ∧ (a s).n1 = nd ∧ (a s).n2 = times.length) ∧
    ∀ t', t' < t → ∃ v, run.read resp.name (times.getD t' 0) = .ok v ∧
      ∀ d, d < nd → ∃ M, interpolate xe r resp.kind v d = .ok M ∧
        ∀ s, LineOK M obs resp.kind (fun s => s.len ni nj) d t' a s) _ _ h
    ⟨fun s => ⟨rfl, rfl, rfl⟩, fun t' ht => absurd ht (by omega)⟩ ?_
  · exact inv
  · intro t a a1 ht ⟨hdim, hdone⟩ hstep
    obtain ⟨v, hv, hstep⟩ := bind_ok_inv hstep
    have inv2 := range_post nd _ (fun d (b : Side → Arr3 F) =>
      (∀ s, (b s).n0 = s.len ni nj ∧ (b s).n1 = nd ∧ (b s).n2 = times.length) ∧
      (∀ s p d' t', t' ≠ t → (b s).get p d' t' = (a s).get p d' t') ∧
      ∀ d', d' < d → ∃ M, interpolate xe r resp.kind v d' = .ok M ∧
        ∀ s, LineOK M obs resp.kind (fun s => s.len ni nj) d' t b s) _ _ hstep
      ⟨hdim, fun _ _ _ _ _ => rfl, fun d' hd => absurd hd (by omega)⟩ ?_
    · obtain ⟨h1, h2, h3⟩ := inv2
      refine ⟨h1, fun t' ht' => ?_⟩
      by_cases e : t' = t
      · subst e; exact ⟨v, hv, h3⟩
      · obtain ⟨v', hv', hall⟩ := hdone t' (by omega)
        refine ⟨v', hv', fun d hd => ?_⟩
        obtain ⟨M, hM, hl⟩ := hall d hd
        refine ⟨M, hM, fun s hs p hp => ?_⟩
        rw [h2 s p d t' e]
        exact hl s hs p hp
    · intro d b b1 hd ⟨bdim, bout, bdone⟩ hst
      obtain ⟨M, hM, hst⟩ := bind_ok_inv hst
      have hs := sides_ok (M := M) (obs := obs) (kd := resp.kind) (d := d) (t := t) (arrs := b) (arrs' := b1) hst
      refine ⟨fun s => ?_, fun s p d' t' hne => ?_, fun d' hd' => ?_⟩
      · obtain ⟨⟨e0, e1, e2⟩, -, -⟩ := hs s
        rw [e0, e1, e2]; exact bdim s
      · obtain ⟨-, e, -⟩ := hs s
        rw [e p d' t' (fun h => hne h.2), bout s p d' t' hne]
      · by_cases e : d' = d
        · subst e
          refine ⟨M, hM, fun s hd p hp => ?_⟩
          have := (hs s).2.2 hd p (by show p < (b s).n0; rw [(bdim s).1]; exact hp)
          simp only [(bdim s).1] at this
          exact this
        · obtain ⟨M', hM', hl⟩ := bdone d' (by omega)
          refine ⟨M', hM', fun s hd p hp => ?_⟩
          rw [(hs s).2.1 p d' t (fun h => e h.1)]
          exact hl s hd p hp

/-! ## File names -/

theorem pathJoin_inj (dir a b : Text) (h : pathJoin dir a = pathJoin dir b) : a = b := by
  unfold pathJoin at h
  by_cases hc : dir = [] ∨ dir.getLast? = some '/'
  · rw [if_pos hc, if_pos hc] at h; exact List.append_cancel_left h
  · rw [if_neg hc, if_neg hc] at h
    have := List.append_cancel_left h
    injection this

theorem obFileName_inj (s s' : Side) (r r' : Resp) (h : obFileName s r = obFileName s' r') : s = s' ∧ r = r' := by
  unfold obFileName at h
  injection h with _ h
  injection h with _ h
  injection h with h1 h2
  refine ⟨?_, ?_⟩
  · revert h1; cases s <;> cases s' <;> decide
  · revert h2; cases r <;> cases r' <;> decide

theorem writeObs_weights [F64 F] (dir : Text) (resp : Resp) (obs : Side → List Int × Bool) (arrs : Side → Arr3 F)
    (k : Disk W) : (writeObs dir resp obs arrs k).weights = k.weights := by
  unfold writeObs
  generalize Side.all = l
  induction l generalizing k with
  | nil => rfl
  | cons a t ih => rw [List.foldl_cons, ih]; split <;> rfl

theorem writeObs_out [F64 F] (dir : Text) (resp : Resp) (obs : Side → List Int × Bool) (arrs : Side → Arr3 F)
    (k : Disk W) :
    (∀ s, (obs s).2 = true →
      (writeObs dir resp obs arrs k).out (pathJoin dir (obFileName s resp)) = some (arr3Bytes (arrs s))) ∧
    ∀ n, (∀ s, (obs s).2 = true → n ≠ pathJoin dir (obFileName s resp)) →
      (writeObs dir resp obs arrs k).out n = k.out n := by
  have key : ∀ (l : List Side) (k : Disk W), l.Nodup →
      (∀ s, s ∈ l → (obs s).2 = true →
        (l.foldl (fun (k : Disk W) s => if (obs s).2 then
          { k with out := fun n => if n = pathJoin dir (obFileName s resp) then some (arr3Bytes (arrs s)) else k.out n }
          else k) k).out (pathJoin dir (obFileName s resp)) = some (arr3Bytes (arrs s))) ∧
      ∀ n, (∀ s, s ∈ l → (obs s).2 = true → n ≠ pathJoin dir (obFileName s resp)) →
        (l.foldl (fun (k : Disk W) s => if (obs s).2 then
          { k with out := fun n => if n = pathJoin dir (obFileName s resp) then some (arr3Bytes (arrs s)) else k.out n }
          else k) k).out n = k.out n := by
    intro l
    induction l with
    | nil => intro k _; exact ⟨fun s hs => (by cases hs), fun _ _ => rfl⟩
    | cons a t ih =>
      intro k hn
      rw [List.foldl_cons]
      obtain ⟨i1, i2⟩ := ih (if (obs a).2 then
          { k with out := fun n => if n = pathJoin dir (obFileName a resp) then some (arr3Bytes (arrs a)) else k.out n }
          else k) (List.nodup_cons.1 hn).2
      refine ⟨fun s hs hd => ?_, fun n hne => ?_⟩
      · rcases List.mem_cons.1 hs with rfl | hs
        · rw [i2 _ (fun s' hs' _ e => by
            obtain ⟨rfl, -⟩ := obFileName_inj _ _ _ _ (pathJoin_inj _ _ _ e)
            exact (List.nodup_cons.1 hn).1 hs'), if_pos hd]
          exact if_pos rfl
        · exact i1 s hs hd
      · rw [i2 n (fun s hs => hne s (by simp [hs]))]
        by_cases hd : (obs a).2 = true
        · rw [if_pos hd]; exact if_neg (hne a (by simp) hd)
        · rw [if_neg hd]
  obtain ⟨h1, h2⟩ := key Side.all k (by decide)
  exact ⟨fun s hd => h1 s (by cases s <;> decide) hd, fun n hn => h2 n (fun s _ hd => hn s hd)⟩

/-- The loop over responses. -/
theorem responses_ok [F64 F] {xe : Xesmf F W} {r : Kind → Regridder W} {run : RunDir F} {obs : Side → List Int × Bool}
    {ni nj : Nat} {times : List Nat} {dir : Text} (l : List Resp) (hl : l.Nodup) {k k' : Disk W}
    (h : responses xe r run obs ni nj times dir l k = some (k', .ok ())) :
    k'.weights = k.weights ∧
    (∀ resp ∈ l, run.names.any (isResult resp.name) = true → ∃ arrs, assemble xe r run obs ni nj times resp = .ok arrs ∧
      ∀ s, (obs s).2 = true → k'.out (pathJoin dir (obFileName s resp)) = some (arr3Bytes (arrs s))) ∧
    ∀ n, (∀ resp ∈ l, run.names.any (isResult resp.name) = true → ∀ s, (obs s).2 = true →
      n ≠ pathJoin dir (obFileName s resp)) → k'.out n = k.out n := by
  induction l generalizing k with
  | nil => cases h; exact ⟨rfl, fun r hr => (by cases hr), fun _ _ => rfl⟩
  | cons a t ih =>
    unfold responses at h
    by_cases hp : run.names.any (isResult a.name) = true
    · rw [if_pos hp] at h
      cases ha : assemble xe r run obs ni nj times a with
      | error e => rw [ha] at h; cases h
      | ok arrs =>
        rw [ha] at h
        obtain ⟨i0, i1, i2⟩ := ih (List.nodup_cons.1 hl).2 h
        obtain ⟨w1, w2⟩ := writeObs_out dir a obs arrs k
        refine ⟨i0.trans (writeObs_weights ..), fun resp hr hpr => ?_, fun n hn => ?_⟩
        · rcases List.mem_cons.1 hr with rfl | hr
          · refine ⟨arrs, ha, fun s hd => ?_⟩
            rw [i2 _ (fun r' hr' _ s' _ e => by
              obtain ⟨-, rfl⟩ := obFileName_inj _ _ _ _ (pathJoin_inj _ _ _ e)
              exact (List.nodup_cons.1 hl).1 hr')]
            exact w1 s hd
          · exact i1 resp hr hpr
        · rw [i2 n (fun r' hr' => hn r' (by simp [hr']))]
          exact w2 n (hn a (by simp) hp)
    · rw [if_neg hp] at h
      obtain ⟨i0, i1, i2⟩ := ih (List.nodup_cons.1 hl).2 h
      refine ⟨i0, fun resp hr hpr => ?_, fun n hn => i2 n (fun r' hr' => hn r' (by simp [hr']))⟩
      rcases List.mem_cons.1 hr with rfl | hr
      · exact absurd hpr hp
      · exact i1 resp hr hpr

/-- A successful call, stage by stage. -/
theorem getobcs_ok [F64 F] {geod : Geod F} {fs : Files F} {fuel : Nat} {xe : Xesmf F W} {runs : Text → RunDir F}
    {a : ObcsArgs F} {k k' : Disk W} (h : getobcs geod fs fuel xe runs a k = some (k', .ok ())) :
    ∃ dir p g obs r k1 times, a.parentResultsdir = some dir ∧ dir ≠ [] ∧
      parentGrid fs (runs dir) a = .ok p ∧ regionalGrid fs a = .ok g ∧ obVectors a.ob g.2.1 g.2.2 = .ok obs ∧
      regridders geod fs fuel xe (resultsDirOf a dir) p g k = some (k1, .ok r) ∧
      resultTimes (runs dir) = .ok times ∧ times ≠ [] ∧
      responses xe r (runs dir) obs g.2.1 g.2.2 times (resultsDirOf a dir) Resp.all k1 = some (k', .ok ()) := by
  unfold getobcs at h
  cases hd : a.parentResultsdir with
  | none => rw [hd] at h; cases h
  | some dir =>
    rw [hd] at h
    cases dir with
    | nil => cases h
    | cons c d =>
      obtain ⟨k1, p, h1, h2⟩ := Act.bind_ok_inv h
      obtain ⟨e1, hp⟩ := Act.lift_ok_inv h1
      obtain ⟨k2, g, h3, h4⟩ := Act.bind_ok_inv h2
      obtain ⟨e2, hg⟩ := Act.lift_ok_inv h3
      obtain ⟨k3, obs, h5, h6⟩ := Act.bind_ok_inv h4
      obtain ⟨e3, ho⟩ := Act.lift_ok_inv h5
      obtain ⟨k4, r, hr, h7⟩ := Act.bind_ok_inv h6
      obtain ⟨k5, times, h8, h9⟩ := Act.bind_ok_inv h7
      obtain ⟨e5, ht⟩ := Act.lift_ok_inv h8
      obtain ⟨k6, v, h10, h11⟩ := Act.bind_ok_inv h9
      obtain ⟨e6, hv⟩ := Act.lift_ok_inv h10
      rw [e3, e2, e1] at hr
      rw [e6, e5] at h11
      refine ⟨c :: d, p, g, obs, r, k4, times, rfl, by simp, hp, hg, ho, hr, ht, ?_, h11⟩
      rintro rfl
      cases hv

end SG
