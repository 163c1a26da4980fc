import Verif.Lemmas.IeeeDecimal
import Verif.Lemmas.IeeeSingle
import Verif.Props.MdsIters
import Verif.Props.MdsWrite
/-! # C123: times of mds files, as doubles

The times `wrmds` writes are decimals with 13 digits.  Here the text and `float()` are those of the interpreter (`Model/MdsFloats`), so nothing is assumed of
them: what comes back is within a relative error of 10⁻¹², exact for times of at most 13 digits, and stable from then on. -/

set_option linter.unusedSectionVars false
set_option exponentiation.threshold 5000

namespace SG
namespace Dbl

theorem digit_plain {c : Char} (h : c.isDigit = true) : isPySpace c = false ∧ c ≠ '-' ∧ c ≠ '+' ∧ c ≠ '.' ∧ c ≠ 'E' := by
  simp only [Char.isDigit, ge_iff_le, Bool.and_eq_true, decide_eq_true_eq] at h
  have h1 : 48 ≤ c.toNat := UInt32.le_iff_toNat_le.1 h.1
  have h2 : c.toNat ≤ 57 := UInt32.le_iff_toNat_le.1 h.2
  refine ⟨?_, ?_, ?_, ?_, ?_⟩
  · unfold isPySpace
    simp only [Bool.or_eq_false_iff, Bool.and_eq_false_iff, decide_eq_false_iff_not, beq_eq_false_iff_ne]
    omega
  all_goals
    intro hc
    rw [hc] at h1 h2
    revert h1 h2
    decide

theorem padZero_digits (k n : Nat) : (∀ c ∈ padZero k (natText n), c.isDigit = true) ∧ padZero k (natText n) ≠ [] ∧ textVal (padZero k (natText n)) = n := by
  unfold padZero
  refine ⟨fun c hc => ?_, fun h => natText_ne_nil n (List.append_eq_nil_iff.1 h).2, by rw [textVal_zeros, textVal_natText]⟩
  rcases List.mem_append.1 hc with h | h
  · rw [(List.mem_replicate.1 h).2]; rfl
  · exact natText_digit n c h

theorem intOfText_exp (L : Nat) : intOfText (expText L) = some ((L : Int) - 400) := by
  have key : ∀ n : Nat, (if padZero 2 (natText n) ≠ [] ∧ (padZero 2 (natText n)).all Char.isDigit = true then some (textVal (padZero 2 (natText n))) else none) = some n := by
    intro n
    obtain ⟨h1, h2, h3⟩ := padZero_digits 2 n
    rw [if_pos ⟨h2, List.all_eq_true.2 h1⟩, h3]
  unfold expText
  split
  · rename_i h
    simp only [intOfText, key]
    show some (-((400 - L : Nat) : Int)) = _
    rw [Nat.cast_sub (by omega), neg_sub]; rfl
  · rename_i h
    simp only [intOfText, key]
    show some ((L - 400 : Nat) : Int) = _
    rw [Nat.cast_sub (by omega)]; rfl

theorem expText_last (L : Nat) : ∀ c ∈ (expText L).getLast?, c.isDigit = true := by
  intro c hc
  unfold expText at hc
  split at hc
  all_goals
    obtain ⟨h1, h2, -⟩ := padZero_digits 2 (if L < 400 then 400 - L else L - 400)
    rename_i h
    simp only [h, if_true, if_false] at h1 h2
    rw [List.getLast?_cons_of_ne_nil h2] at hc
    exact h1 c (List.mem_of_mem_getLast? hc)

theorem expText_chars (L : Nat) : ∀ c ∈ expText L, c.isDigit = true ∨ c = '-' ∨ c = '+' := by
  intro c hc
  unfold expText at hc
  split at hc
  all_goals
    rcases List.mem_cons.1 hc with h | h
    · simp [h]
    · exact .inl ((padZero_digits 2 _).1 c h)

theorem expText_length (L : Nat) (h : L ≤ 709) : (expText L).length ≤ 4 := by
  have key : ∀ n : Nat, n < 1000 → (padZero 2 (natText n)).length ≤ 3 := by
    intro n hn
    have := natTextAux_length (n + 1) n 3 (Nat.lt_succ_self n) (by simpa using hn) (by norm_num)
    have : (natText n).length ≤ 3 := this
    unfold padZero
    rw [List.length_append, List.length_replicate]; omega
  unfold expText
  split
  all_goals
    have := key (if L < 400 then 400 - L else L - 400) (by split <;> omega)
    rename_i h
    simp only [h, if_true, if_false] at this
    rw [List.length_cons]
    exact Nat.succ_le_succ this

theorem expText_length2 (L : Nat) (h1 : 300 < L) (h2 : L < 500) : (expText L).length = 3 := by
  unfold expText
  split
  · obtain ⟨a, -, -⟩ := padZero_spec (k := 2) (n := 400 - L) (by omega) (by norm_num)
    simp [a]
  · obtain ⟨a, -, -⟩ := padZero_spec (k := 2) (n := L - 400) (by omega) (by norm_num)
    simp [a]

/-- The parts of the text of a finite double. -/
theorem text_parts {t : Dbl} (ht : t.isFin = true) : ∃ (c : Char) (P : Text), text t = signText t.neg ++ (c :: '.' :: P ++ 'E' :: expText (decimal t.mag).2) ∧
    c.isDigit = true ∧ (∀ x ∈ P, x.isDigit = true) ∧ P.length = 12 ∧ textVal (c :: P) = (decimal t.mag).1 ∧ (decimal t.mag).2 ≤ 709 := by
  have hb : (decimal t.mag).1 < 10 ^ 13 ∧ (decimal t.mag).2 ≤ 709 := by
    by_cases h0 : t.mag = 0
    · rw [h0]; exact ⟨by decide +kernel, by decide +kernel⟩
    · obtain ⟨-, a, -, b, -⟩ := decimal_spec h0 (mag_le ht)
      exact ⟨a, b⟩
  obtain ⟨h1, h2, h3⟩ := padZero_spec hb.1 (by norm_num)
  have e : text t = signText t.neg ++ dotted (padZero 13 (natText (decimal t.mag).1)) ++ 'E' :: expText (decimal t.mag).2 := by
    unfold text
    rw [fin_not_nan ht, fin_not_inf ht]
    simp only [Bool.false_eq_true, if_false]
  cases hP : padZero 13 (natText (decimal t.mag).1) with
  | nil => rw [hP] at h1; cases h1
  | cons c P =>
    rw [hP] at h1 h2 h3 e
    refine ⟨c, P, ?_, h2 c (by simp), fun x hx => h2 x (by simp [hx]), by simpa using h1, h3, hb.2⟩
    rw [e]; simp [dotted]

theorem decimalOfText_parts {c : Char} {P : Text} (L : Nat) (hc : c.isDigit = true) (hP : ∀ x ∈ P, x.isDigit = true) (hl : P.length = 12) :
    decimalOfText (c :: '.' :: P ++ 'E' :: expText L) = some (textVal (c :: P), (L : Int) - 412) := by
  have t1 := takeWhile_stop (p := Char.isDigit) (a := [c]) (b := '.' :: P ++ 'E' :: expText L) (by simp [hc]) (by intro x hx; simp at hx; rw [← hx]; decide)
  have t2 := takeWhile_stop (p := Char.isDigit) (a := P) (b := 'E' :: expText L) (List.all_eq_true.2 hP) (by intro x hx; simp at hx; rw [← hx]; decide)
  unfold decimalOfText
  have e : c :: '.' :: P ++ 'E' :: expText L = [c] ++ ('.' :: P ++ 'E' :: expText L) := rfl
  rw [e, t1.1, t1.2]
  have e2 : ('.' :: P ++ 'E' :: expText L).tail = P ++ 'E' :: expText L := rfl
  have e3 : ('.' :: P ++ 'E' :: expText L).head? = some '.' := rfl
  simp only [e2, e3, if_true, t2.1, t2.2]
  rw [if_neg (by simp), if_pos (by simp), intOfText_exp, hl]
  simp only [Option.map_some]
  congr 2
  push_cast; ring

/-- `float()` of the text of a double. -/
theorem ofText_text {t : Dbl} (ht : t.isFin = true) : ofText (text t) = .ok (reread t) := by
  obtain ⟨c, P, e, hc, hP, hl, hv, -⟩ := text_parts ht
  have hd := decimalOfText_parts (decimal t.mag).2 hc hP hl
  have hbl : 15 ≤ (c :: '.' :: P ++ 'E' :: expText (decimal t.mag).2).length := by simp [hl]; omega
  have hlast : ∀ x ∈ (c :: '.' :: P ++ 'E' :: expText (decimal t.mag).2).getLast?, isPySpace x = false := by
    intro x hx
    have hne : expText (decimal t.mag).2 ≠ [] := by unfold expText; split <;> simp
    rw [List.getLast?_append_of_ne_nil _ (by simp), List.getLast?_cons_of_ne_nil hne] at hx
    exact (digit_plain (expText_last _ x hx)).1
  generalize hB : c :: '.' :: P ++ 'E' :: expText (decimal t.mag).2 = B at *
  have hhead : B.head? = some c := by rw [← hB]; rfl
  have hBne : B ≠ [] := by intro h; rw [h] at hhead; cases hhead
  have hs : strip isPySpace (text t) = text t := by
    have := strip_core (p := isPySpace) (a := []) (b := text t) (c := []) rfl rfl (by
      intro x hx
      rw [e] at hx
      cases hn : t.neg with
      | true => rw [hn] at hx; simp [signText] at hx; rw [← hx]; decide
      | false =>
        rw [hn] at hx
        simp only [signText, Bool.false_eq_true, if_false, List.nil_append, hhead, Option.mem_def, Option.some.injEq] at hx
        rw [← hx]; exact (digit_plain hc).1) (by
      intro x hx
      rw [e, List.getLast?_append_of_ne_nil _ hBne] at hx
      exact hlast x hx) (by rw [e]; simp [hBne])
    simpa using this
  have fin : ∀ s : Bool, (if (B.map Char.toLower = "inf".toList ∨ B.map Char.toLower = "infinity".toList) then (.ok (infD s) : Py Dbl)
      else if B.map Char.toLower = "nan".toList then .ok nanD
      else match decimalOfText B with
        | none => .error .valueError
        | some (D, x) => .ok (ofDecimal s D x)) = .ok (ofDecimal s (textVal (c :: P)) (((decimal t.mag).2 : Int) - 412)) := by
    intro s
    have hlen : ∀ w : Text, w.length < 15 → B.map Char.toLower ≠ w := by
      intro w hw h
      have := congrArg List.length h
      rw [List.length_map] at this
      omega
    rw [if_neg (by rintro (h | h); exacts [hlen _ (by decide) h, hlen _ (by decide) h]), if_neg (hlen _ (by decide)), hd]
  unfold ofText
  rw [hs, e]
  unfold reread
  rw [← hv]
  cases hn : t.neg with
  | true =>
    have h1 : (signText true ++ B).head? = some '-' := rfl
    have h2 : (signText true ++ B).tail = B := rfl
    simp only [h1, h2, true_or, if_true, decide_true]
    exact fin true
  | false =>
    have h1 : signText false ++ B = B := rfl
    have hm : c ≠ '-' := (digit_plain hc).2.1
    have hp : c ≠ '+' := (digit_plain hc).2.2.1
    simp only [h1, hhead, Option.some.injEq, hm, hp, or_self, if_false, decide_false]
    exact fin false

theorem text_reread {t : Dbl} (ht : t.isFin = true) (h : t.mag = 0 ∨ (2 ^ 1000)⁻¹ ≤ |t.val|) : text (reread t) = text t := by
  obtain ⟨f, n, -, -⟩ := reread_spec ht
  unfold text
  rw [fin_not_nan ht, fin_not_inf ht, fin_not_nan f, fin_not_inf f, n, decimal_reread ht h]

end Dbl

/-- A number that can be written with at most 13 decimal digits. -/
def Spec.Short (t : Dbl) : Prop := ∃ c k : Nat, c < 10 ^ 13 ∧ (|t.val| = c * 10 ^ k ∨ |t.val| * 10 ^ k = c)

/-- What comes back of a time `t`: a number `u` with the same sign within 10⁻¹² of it; the same one if 13 digits suffice. -/
structure Spec.Kept (t u : Dbl) : Prop where
  fin : u.isFin = true
  sign : u.neg = t.neg
  near : |u.val - t.val| ≤ (10 ^ 12)⁻¹ * |t.val|
  short : Spec.Short t → u = t

theorem kept {t : Dbl} (ht : t.isFin = true) : Spec.Kept t (Dbl.reread t) := by
  obtain ⟨a, b, c, d⟩ := Dbl.reread_spec ht
  refine ⟨a, b, c, ?_⟩
  rintro ⟨q, k, hq, h | h⟩
  · refine d q (k + 400) hq ?_
    rw [h, pow_add]
    generalize (10 : ℝ) ^ 400 = w
    ring
  · by_cases h0 : t.mag = 0
    · rw [Dbl.reread_zero h0, ← h0, Dbl.encode_self t ht]
    · have hk : k ≤ 400 := by
        by_contra hc
        have U0 := Dbl.U_pos
        have m1 : (1 : ℝ) ≤ t.mag := by exact_mod_cast Nat.pos_of_ne_zero h0
        have hU : Dbl.U * 10 ^ 13 ≤ 10 ^ 400 := by
          have : 2 ^ 1074 * 10 ^ 13 ≤ 10 ^ 400 := by decide +kernel
          have h' : ((2 ^ 1074 * 10 ^ 13 : Nat) : ℝ) ≤ ((10 ^ 400 : Nat) : ℝ) := Nat.cast_le.2 this
          have c4 : ((10 ^ 400 : Nat) : ℝ) = 10 ^ 400 := by generalize 400 = k; push_cast; rfl
          rw [Nat.cast_mul, Dbl.U_cast, c4] at h'
          push_cast at h'; rw [show (10 : ℝ) ^ 13 = 10000000000000 by norm_num]; exact h'
        have hp : (10 : ℝ) ^ 400 ≤ 10 ^ k := pow_le_pow_right₀ (by norm_num) (by omega)
        rw [Dbl.abs_val, div_mul_eq_mul_div, div_eq_iff U0.ne'] at h
        have q1 : (q : ℝ) < 10 ^ 13 := by exact_mod_cast hq
        generalize (10 : ℝ) ^ 400 = w at *
        have : (10 : ℝ) ^ k ≤ t.mag * 10 ^ k := le_mul_of_one_le_left (by positivity) m1
        nlinarith
      refine d q (400 - k) hq ?_
      rw [← h, mul_assoc, ← pow_add]
      congr 2; omega

/-- Times that can be written and read: finite, and except for the first one not both negative and with three digits in the exponent (the text of such
a number fills all 20 characters, so that nothing separates it from the one before). -/
def Spec.Times (ts : List Dbl) : Prop :=
  ts ≠ [] ∧ (∀ t ∈ ts, t.isFin = true) ∧ ∀ t ∈ ts.tail, t.neg = false ∨ (1 / 10 ^ 98 ≤ |t.val| ∧ |t.val| ≤ 10 ^ 98)

theorem text_length {t : Dbl} (ht : t.isFin = true) (h : t.neg = false ∨ (1 / 10 ^ 98 ≤ |t.val| ∧ |t.val| ≤ 10 ^ 98)) : (Dbl.text t).length < 20 := by
  obtain ⟨c, P, e, -, -, hl, -, hL⟩ := Dbl.text_parts ht
  rw [e]
  rcases h with h | ⟨h1, h2⟩
  · have := Dbl.expText_length _ hL
    rw [h]
    simp [Dbl.signText, hl]; omega
  · have U0 := Dbl.U_pos
    have h0 : t.mag ≠ 0 := by
      intro h0
      rw [Dbl.abs_val, h0] at h1
      simp at h1
      have : (0 : ℝ) < (10 ^ 98)⁻¹ := by positivity
      linarith
    obtain ⟨q1, q2, h12, -, err, -⟩ := Dbl.decimal_spec h0 (Dbl.mag_le ht)
    have hR : (t.mag : ℝ) * 10 ^ 400 / Dbl.U = |t.val| * 10 ^ 400 := by rw [Dbl.abs_val]; ring
    rw [hR] at err
    obtain ⟨a, b⟩ := abs_le.1 err
    have r1 : (10 : ℝ) ^ 302 ≤ |t.val| * 10 ^ 400 := by
      calc (10 : ℝ) ^ 302 = 1 / 10 ^ 98 * 10 ^ 400 := by
            rw [show (10 : ℝ) ^ 400 = 10 ^ 302 * 10 ^ 98 by rw [← pow_add]]
            have : (10 : ℝ) ^ 98 ≠ 0 := by positivity
            generalize (10 : ℝ) ^ 302 = v
            field_simp
        _ ≤ _ := mul_le_mul_of_nonneg_right h1 (pow_nonneg (by norm_num) _)
    have r2 : |t.val| * 10 ^ 400 ≤ (10 : ℝ) ^ 498 := by
      calc |t.val| * 10 ^ 400 ≤ 10 ^ 98 * 10 ^ 400 := mul_le_mul_of_nonneg_right h2 (pow_nonneg (by norm_num) _)
        _ = _ := by rw [← pow_add]
    generalize |t.val| * 10 ^ 400 = R at *
    have qr1 : (10 : ℝ) ^ 12 ≤ ((Dbl.decimal t.mag).1 : ℝ) := by exact_mod_cast q1
    have qr2 : ((Dbl.decimal t.mag).1 : ℝ) ≤ 10 ^ 13 := by exact_mod_cast q2.le
    generalize (Dbl.decimal t.mag).1 = q at *
    generalize (Dbl.decimal t.mag).2 = L at *
    have R0 : 0 < R := lt_of_lt_of_le (pow_pos (by norm_num) _) r1
    have hk : (10 ^ 12 : ℝ)⁻¹ / 2 * R ≤ 1 / 2 * R := by gcongr; norm_num
    have P0 : (0 : ℝ) < 10 ^ (L - 12) := by positivity
    have hL1 : 300 < L := by
      by_contra hc
      have : (10 : ℝ) ^ (L - 12) ≤ 10 ^ 288 := pow_le_pow_right₀ (by norm_num) (by omega)
      have e : (10 : ℝ) ^ 302 = 10 ^ 14 * 10 ^ 288 := by rw [← pow_add]
      rw [e] at r1
      have : (q : ℝ) * 10 ^ (L - 12) ≤ 10 ^ 13 * 10 ^ 288 := mul_le_mul qr2 this P0.le (by positivity)
      have p : (0 : ℝ) < 10 ^ 288 := pow_pos (by norm_num) _
      generalize (10 : ℝ) ^ 288 = w at *
      norm_num at *
      linarith
    have hL2 : L < 500 := by
      by_contra hc
      have : (10 : ℝ) ^ 488 ≤ 10 ^ (L - 12) := pow_le_pow_right₀ (by norm_num) (by omega)
      have e : (10 : ℝ) ^ 498 = 10 ^ 10 * 10 ^ 488 := by rw [← pow_add]
      rw [e] at r2
      have p : (0 : ℝ) < 10 ^ 488 := pow_pos (by norm_num) _
      have : (10 : ℝ) ^ 12 * 10 ^ 488 ≤ q * 10 ^ (L - 12) := mul_le_mul qr1 this p.le (by positivity)
      generalize (10 : ℝ) ^ 488 = w at *
      norm_num at *
      linarith
    have := Dbl.expText_length2 L hL1 hL2
    have hs : (Dbl.signText t.neg).length ≤ 1 := by cases t.neg <;> simp [Dbl.signText]
    simp [hl, this]; omega

theorem timeText {t : Dbl} (ht : t.isFin = true) : Spec.TimeText Dbl.ofText Dbl.text Dbl.reread t := by
  obtain ⟨c, P, e, hc, hP, -, -, -⟩ := Dbl.text_parts ht
  refine ⟨Dbl.ofText_text ht, ?_, fun x hx => ?_⟩
  · rw [List.any_eq_true]
    exact ⟨'.', by rw [e]; simp, rfl⟩
  · rw [e] at hx
    have dg : ∀ x : Char, x.isDigit = true → x ∉ [' ', ',', '\'', '"', '/', '\n', ']'] := by
      intro x hx hm
      simp only [List.mem_cons, List.not_mem_nil, or_false] at hm
      rcases hm with h | h | h | h | h | h | h <;> rw [h] at hx <;> exact absurd hx (by decide)
    rcases List.mem_append.1 hx with h | h
    · cases hn : t.neg <;> rw [hn] at h <;> simp [Dbl.signText] at h
      rw [h]; decide
    · simp only [List.cons_append, List.mem_cons, List.mem_append] at h
      rcases h with h | h | h | h | h
      · rw [h]; exact dg c hc
      · rw [h]; decide
      · exact dg x (hP x h)
      · rw [h]; decide
      · rcases Dbl.expText_chars _ x h with h | h | h
        · exact dg x h
        · rw [h]; decide
        · rw [h]; decide

/-- Arguments of `wrmds` whose names and times can be written and read. -/
structure Spec.DoubleLabels (args : WrArgs Dbl) : Prop where
  simulation : ∀ s ∈ args.simulation, Spec.Name s
  times : ∀ ts ∈ args.times, Spec.Times ts
  fields : ∀ fs ∈ args.fields, fs ≠ [] ∧ ∀ f ∈ fs, Spec.Name f ∧ '}' ∉ f

theorem doubleLabels {args : WrArgs Dbl} (h : Spec.DoubleLabels args) : Spec.Labels Dbl.ofText Dbl.text Dbl.reread args where
  simulation := h.simulation
  times ts hts := by
    obtain ⟨h1, h2, h3⟩ := h.times ts hts
    exact ⟨h1, fun t ht => timeText (h2 t ht), fun t ht => text_length (h2 t (List.mem_of_mem_tail ht)) (h3 t ht)⟩
  fields := h.fields

section
variable [Libm]

/-- **C123**: the times of an array of doubles come back from the meta file as `Spec.Kept` says. -/
theorem C123_times (d : MdsDir) (fbase : Text) (arr : NdArr Dbl) (args : WrArgs Dbl) (fill : Dbl) (ts : List Dbl) (lead dims : List Nat)
    (hsplit : Spec.Split args.ndims args.nrecords arr.shape lead dims) (h2 : 2 ≤ dims.length) (hlead : ∀ n ∈ lead, 0 < n)
    (hlab : Spec.DoubleLabels args) (ht : args.times = some ts) (hstale : ∀ n ∈ d.names, ¬ Spec.TileName (nameOf fbase args.itr) n) :
    ∃ (w : Written) (b : NdArr Dbl) (m : MetaDict Dbl) (us : List Dbl), wrmds Dbl.text fbase arr args = .ok w ∧
      rdmdsMeta Dbl.ofText (d.write w) fbase { itrs := Spec.itrsFor args.itr, endian := args.endian, fill := fill } =
        .ok (b, Spec.returnedItrs args.itr, m) ∧
      m.get "timeinterval".toList = some (.lists [us.map .flt]) ∧ List.Forall₂ Spec.Kept ts us ∧
      ((∀ t ∈ ts, t.mag = 0 ∨ (2 ^ 1000)⁻¹ ≤ |t.val|) → wrmds Dbl.text fbase arr { args with times := some us } = .ok w) := by
  obtain ⟨w, b, m, h3, h4, h5, h6⟩ := C108_returned_meta Dbl.ofText Dbl.text Dbl.reread d fbase arr args fill lead dims hsplit h2 hlead
    (doubleLabels hlab) hstale
  refine ⟨w, b, m, ts.map Dbl.reread, h3, h5, ?_, ?_, fun hbig => ?_⟩
  · rw [h6]
    show args.times.map _ = _
    rw [ht, List.map_map]
    rfl
  · rw [List.forall₂_map_right_iff, List.forall₂_same]
    exact fun t h => kept ((hlab.times ts ht).2.1 t h)
  · rw [← h3]
    have e : (ts.map Dbl.reread).flatMap (fun t => padLeft 20 (Dbl.text t)) = ts.flatMap fun t => padLeft 20 (Dbl.text t) := by
      rw [List.flatMap_map]
      refine List.flatMap_congr fun t h => ?_
      rw [Dbl.text_reread ((hlab.times ts ht).2.1 t h) (hbig t h)]
    have mt : ∀ nd dims p r i f sm, metaText Dbl.text ⟨nd, dims, p, r, i, some (ts.map Dbl.reread), f, sm⟩ =
        metaText Dbl.text ⟨nd, dims, p, r, i, some ts, f, sm⟩ := fun nd dims p r i f sm => by
      simp only [metaText, e]
    clear h3 h4 h5 h6 hstale hlab hbig hsplit
    obtain ⟨itr, prec, nd, nr, times, f, sm, en⟩ := args
    obtain rfl : times = some ts := ht
    unfold wrmds
    simp only [mt]
    rfl

/-- **C123**, `deltat` and `times`: the iteration number is the number of whole steps until the last time, with no rounding anywhere. -/
theorem C123_number (d : MdsDir) (fbase : Text) (arr : NdArr Dbl) (c : WrFull Dbl) (dt t : Dbl) (ts : List Dbl) (n : Int)
    (hd : dt.isFin = true) (hpos : 0 < dt.val) (ht : t.isFin = true) (h0 : 0 ≤ t.val) (h1 : t.val ≤ 2 ^ 1000) (hq : t.val < 2 ^ 49 * dt.val)
    (hdt : c.deltat = some dt) (hi : c.itr = none) (hts : c.times = some (ts ++ [t])) (hn : n * dt.val ≤ t.val ∧ t.val < (n + 1) * dt.val) :
    wrmdsOn Dbl.text Dbl.timeArith d fbase arr c = wrmdsOn Dbl.text Dbl.timeArith d fbase arr { c with itr := some n, deltat := none } :=
  (C112_deltat Dbl.text Dbl.timeArith Dbl.val d fbase arr c dt hpos hdt).1 ts t hi hts (fun _ => Dbl.itrOf_ok ht hd h0 h1 hpos hq) n hn

/-- **C123**, there and back: if `deltat` is a whole number of seconds and the time is below 10¹³, the time written for an iteration number comes back
exactly, and with it the number. -/
theorem C123_there_and_back (d : MdsDir) (fbase : Text) (arr : NdArr Dbl) (args : WrArgs Dbl) (fill dt : Dbl) (D n : Nat)
    (lead dims : List Nat) (hsplit : Spec.Split args.ndims args.nrecords arr.shape lead dims) (h2 : 2 ≤ dims.length) (hlead : ∀ n ∈ lead, 0 < n)
    (hlab : Spec.DoubleLabels args) (hi : args.itr = some n) (ht : args.times = none)
    (hstale : ∀ m ∈ d.names, ¬ Spec.TileName (nameOf fbase (some n)) m)
    (hd : dt.isFin = true) (hD : dt.val = D) (hD0 : 0 < D) (hlt : n * D < 10 ^ 13) :
    ∃ (d' : MdsDir) (b : NdArr Dbl) (m : MetaDict Dbl) (t : Dbl),
      wrmdsOn Dbl.text Dbl.timeArith d fbase arr { args.call with deltat := some dt } = (d', .ok ()) ∧
      rdmdsMeta Dbl.ofText d' fbase { itrs := .one n, endian := args.endian, fill := fill } = .ok (b, [(n : Int)], m) ∧
      m.get "timeinterval".toList = some (.lists [[.flt t]]) ∧ t.val = n * D ∧
      ∀ d2 fbase2 arr2 (c : WrFull Dbl), c.deltat = some dt → c.itr = none → c.times = some [t] →
        wrmdsOn Dbl.text Dbl.timeArith d2 fbase2 arr2 c = wrmdsOn Dbl.text Dbl.timeArith d2 fbase2 arr2 { c with itr := some n, deltat := none } := by
  have D1 : (1 : ℝ) ≤ D := by exact_mod_cast hD0
  have hpos : 0 < dt.val := by rw [hD]; linarith
  have hn13 : n < 10 ^ 13 := lt_of_le_of_lt (Nat.le_mul_of_pos_right n hD0) hlt
  have h53 : 10 ^ 13 ≤ 2 ^ 53 := by norm_num
  -- the product is exact
  have hof : Dbl.ofInt n = Dbl.encode false (n * 2 ^ 1074) := by
    unfold Dbl.ofInt
    rw [Int.natAbs_natCast, roundFrac_exact (by norm_num) ⟨n, 1074, lt_of_lt_of_le hn13 h53, rfl⟩, decide_eq_false (by omega)]
  have onf : (Dbl.ofInt n).isFin = true := by rw [hof]; exact (Dbl.nat_ok false (hn13.le.trans h53)).1
  have onv : (Dbl.ofInt n).val = n := by rw [hof]; exact Dbl.nat_val (hn13.le.trans h53)
  have hprod : dt.val * (Dbl.ofInt n).val = ((n * D : Nat) : ℝ) := by rw [hD, onv]; push_cast; ring
  have hb : ((n * D : Nat) : ℝ) ≤ 10 ^ 13 := by exact_mod_cast hlt.le
  have mf : (Dbl.mul dt (Dbl.ofInt n)).isFin = true := by
    refine Dbl.fin_mul hd onf ?_
    rw [hprod, abs_of_nonneg (Nat.cast_nonneg _)]
    exact hb.trans ((by norm_num : (10 : ℝ) ^ 13 ≤ 2 ^ 50).trans (Dbl.top_big 50 (by norm_num)))
  have mv : (Dbl.mul dt (Dbl.ofInt n)).val = ((n * D : Nat) : ℝ) := by
    have := Dbl.mul_nearest mf (Dbl.encode false (n * D * 2 ^ 1074))
    rw [hprod, Dbl.nat_val (hlt.le.trans h53), sub_self, abs_zero] at this
    have := abs_eq_zero.1 (le_antisymm this (abs_nonneg _))
    linarith
  have hshort : Spec.Short (Dbl.mul dt (Dbl.ofInt n)) := ⟨n * D, 0, hlt, .inl (by rw [mv, abs_of_nonneg (Nat.cast_nonneg _)]; simp)⟩
  have hre := (kept mf).short hshort
  have hneg : (Dbl.mul dt (Dbl.ofInt n)).neg = false := by
    rw [Dbl.mul_fin hd onf] at mf ⊢
    rw [(Dbl.encode_fin (Dbl.roundFrac_sig _ (Nat.two_pow_pos _)) mf).2.1, Dbl.neg_of_pos hpos, hof, (Dbl.nat_ok false (hn13.le.trans h53)).2.1]
    rfl
  have hlab' : Spec.DoubleLabels { args with times := some [Dbl.timeArith.timeOf dt n] } :=
    ⟨hlab.simulation, fun ts h => by
      have h : ts = [Dbl.mul dt (Dbl.ofInt n)] := by
        have : some [Dbl.mul dt (Dbl.ofInt n)] = some ts := h
        exact (Option.some.inj this).symm
      rw [h]
      exact ⟨by simp, by simpa using mf, by simp⟩, hlab.fields⟩
  obtain ⟨d', b, m, h3, h4, -, -, -, h5⟩ := C112_time_from_number Dbl.ofText Dbl.text Dbl.reread Dbl.timeArith Dbl.val d fbase arr args fill dt n lead dims
    hsplit h2 hlead hi ht (doubleLabels hlab') hstale hpos
  refine ⟨d', b, m, Dbl.mul dt (Dbl.ofInt n), h3, h4, ?_, by rw [mv]; push_cast; rfl, fun d2 fbase2 arr2 c c1 c2 c3 => ?_⟩
  · rw [h5]
    show some (MetaVal.lists [[.flt (Dbl.reread (Dbl.mul dt (Dbl.ofInt n)))]]) = _
    rw [hre]
  · refine C123_number d2 fbase2 arr2 c dt _ [] n hd hpos mf (by rw [mv]; exact Nat.cast_nonneg _) ?_ ?_ c1 c2 c3 ?_
    · rw [mv]
      refine hb.trans ((by norm_num : (10 : ℝ) ^ 13 ≤ 2 ^ 50).trans (pow_le_pow_right₀ (by norm_num) (by norm_num)))
    · rw [mv, hD]
      have : ((n : ℝ)) < 2 ^ 49 := by
        have h : (n : ℝ) < ((10 ^ 13 : Nat) : ℝ) := by exact_mod_cast hn13
        refine h.trans (by norm_num)
      push_cast
      exact mul_lt_mul_of_pos_right this (by linarith)
    · rw [mv, hD]; push_cast
      constructor
      · exact le_refl _
      · nlinarith

end

/-! ## Concrete cases -/
namespace ExDbl

local instance libm : Libm := ⟨id, id, id, fun _ => Dbl.nanD⟩

def arr : NdArr Dbl := ⟨[2, 1, 2, 3], fun i => Dbl.lit (10 + ravel [2, 1, 2, 3] i) 7⟩

/-- A third of a second before one hour, and -π: both have more than 13 digits. -/
def times : List Dbl := [Dbl.lit 10799 3, Dbl.opp Dbl.piD]
def args : WrArgs Dbl := { itr := some 7, prec := .f64, ndims := some 2, times := some times }

example : times.map (fun t => String.ofList (Dbl.text t)) = ["3.599666666667E+03", "-3.141592653590E+00"] := by decide +kernel

/-- Neither comes back exactly. -/
example : times.map Dbl.reread ≠ times ∧ (times.map Dbl.reread).map Dbl.text = times.map Dbl.text := by decide +kernel

theorem between {t : Dbl} (h : 2 ^ 1074 ≤ t.mag ∧ t.mag ≤ 4000 * 2 ^ 1074) : 1 ≤ |t.val| ∧ |t.val| ≤ 4000 := by
  have U0 := Dbl.U_pos
  have h1 : ((2 ^ 1074 : Nat) : ℝ) ≤ t.mag := Nat.cast_le.2 h.1
  have h2 : (t.mag : ℝ) ≤ ((4000 * 2 ^ 1074 : Nat) : ℝ) := Nat.cast_le.2 h.2
  rw [Nat.cast_mul, Dbl.U_cast] at h2
  rw [Dbl.U_cast] at h1
  rw [Dbl.abs_val, le_div_iff₀ U0, div_le_iff₀ U0, one_mul]
  exact ⟨h1, by exact_mod_cast h2⟩

theorem betweenAll : ∀ t ∈ times, 1 ≤ |t.val| ∧ |t.val| ≤ 4000 := fun t h => between ((by decide +kernel :
  ∀ t ∈ times, 2 ^ 1074 ≤ t.mag ∧ t.mag ≤ 4000 * 2 ^ 1074) t h)

theorem labels : Spec.DoubleLabels args where
  simulation := fun s hs => by cases hs
  times := fun ts hts => by
    obtain rfl : times = ts := Option.some.inj hts
    refine ⟨by decide, by decide +kernel, fun t ht => .inr ?_⟩
    obtain ⟨h1, h2⟩ := betweenAll t (List.mem_of_mem_tail ht)
    refine ⟨le_trans ?_ h1, h2.trans ?_⟩
    · rw [div_le_one (by positivity)]; exact one_le_pow₀ (by norm_num)
    · exact (by norm_num : (4000 : ℝ) ≤ 10 ^ 4).trans (pow_le_pow_right₀ (by norm_num) (by norm_num))
  fields := fun s hs => by cases hs

example := C123_times ExWr.dir "T".toList arr args (Dbl.lit 0 1) times [2, 1] [2, 3] ⟨rfl, rfl, fun _ h => by cases h⟩ (by decide) (by decide)
  labels rfl (ExWrite.noStale 7 (.inl rfl))

/-- The condition for writing the same files again. -/
example : ∀ t ∈ times, t.mag = 0 ∨ (2 ^ 1000)⁻¹ ≤ |t.val| := fun t h =>
  .inr (le_trans (inv_le_one_of_one_le₀ (one_le_pow₀ (by norm_num))) (betweenAll t h).1)

theorem lit_val (n : Nat) (h : n ≤ 2 ^ 53) (e : Dbl.lit n 1 = Dbl.encode false (n * 2 ^ 1074)) : (Dbl.lit n 1).val = n := by
  rw [e]; exact Dbl.nat_val h

/-- Steps of an hour: three and a half hours are in step 3. -/
example (d : MdsDir) := C123_number d "T".toList arr { times := some [Dbl.lit 0 1, Dbl.lit 12600 1], deltat := some (Dbl.lit 3600 1) }
  (Dbl.lit 3600 1) (Dbl.lit 12600 1) [Dbl.lit 0 1] 3 (by decide +kernel)
  (by rw [lit_val 3600 (by norm_num) (by decide +kernel)]; norm_num) (by decide +kernel)
  (by rw [lit_val 12600 (by norm_num) (by decide +kernel)]; norm_num)
  (by rw [lit_val 12600 (by norm_num) (by decide +kernel)]
      exact (by norm_num : ((12600 : Nat) : ℝ) ≤ 2 ^ 20).trans (pow_le_pow_right₀ (by norm_num) (by norm_num)))
  (by rw [lit_val 12600 (by norm_num) (by decide +kernel), lit_val 3600 (by norm_num) (by decide +kernel)]; norm_num) rfl rfl rfl
  (by rw [lit_val 12600 (by norm_num) (by decide +kernel), lit_val 3600 (by norm_num) (by decide +kernel)]; norm_num)

/-- Iteration 4 with steps of 3600 s. -/
example := C123_there_and_back ExWr.dir "T".toList arr { prec := .f64, ndims := some 2, itr := some 4 } (Dbl.lit 0 1) (Dbl.lit 3600 1) 3600 4 [2, 1] [2, 3]
  ⟨rfl, rfl, fun _ h => by cases h⟩ (by decide) (by decide) ⟨fun s hs => (by cases hs), fun s hs => (by cases hs), fun s hs => (by cases hs)⟩ rfl rfl
  (ExWrite.noStale 4 (.inr rfl)) (by decide +kernel) (lit_val 3600 (by norm_num) (by decide +kernel)) (by norm_num) (by norm_num)

/-- With steps of 0.1 it fails: the time of iteration 3 is written as `3.000000000000E-01`, which is read as 0.3, and `0.3//0.1` is 2.  The time itself,
`0.1*3`, is in step 3. -/
example : (Dbl.text (Dbl.timeArith.timeOf (Dbl.lit 1 10) 3) = "3.000000000000E-01".toList) ∧
    (Dbl.ofText "3.000000000000E-01".toList).toOption = some (Dbl.lit 3 10) ∧
    (Dbl.timeArith.itrOf (Dbl.lit 3 10) (Dbl.lit 1 10)).toOption = some 2 ∧
    (Dbl.timeArith.itrOf (Dbl.timeArith.timeOf (Dbl.lit 1 10) 3) (Dbl.lit 1 10)).toOption = some 3 := by decide +kernel

end ExDbl
end SG
