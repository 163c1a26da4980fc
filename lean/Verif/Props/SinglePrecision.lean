import Verif.Lemmas.IeeeSingle
import Verif.Props.MdsData
/-! # C120: what a round trip through a single precision mds file does to the values -/
set_option linter.unusedSectionVars false
set_option exponentiation.threshold 5000

namespace SG

namespace Spec
/-- A single precision number: an integer of at most 24 bits times `2^k`, `-149 ≤ k ≤ 104`. -/
def IsSingle (x : Dbl) : Prop := x.isFin = true ∧ ∃ (m : Int) (k : Nat), k ≤ 253 ∧ m.natAbs < 2 ^ 24 ∧ x.val = m * 2 ^ k / 2 ^ 149

/-- What becomes of `x` when it is stored in single precision: a number in range changes by at most half a unit in the 24th bit (or of the smallest
single), singles do not change, numbers that are too large become infinite, infinities and NaN stay. -/
structure StoredAs (x y : Dbl) : Prop where
  close : x.isFin = true → |x.val| ≤ 2 ^ 127 → y.isFin = true ∧ |y.val - x.val| ≤ (2 ^ 24)⁻¹ * |x.val| + (2 ^ 150)⁻¹
  sign : x.isNaN = false → y.neg = x.neg
  same : IsSingle x → y = x
  single : y.isFin = true → IsSingle y
  overflow : x.isFin = true → 2 ^ 128 ≤ |x.val| → y.isInf = true
  inf : x.isInf = true → y = x
  nan : x.isNaN = true → y.isNaN = true
end Spec

namespace Sgl

theorem single_keep {x : Dbl} (h : x.isFin = true) {q j : Nat} (hq : q < 2 ^ 24) (hj : j ≤ 253) (hm : x.mag = q * 2 ^ j * 2 ^ 925) :
    toDbl (ofDbl x) = x := by
  have hs : Sig 24 (q * 2 ^ j) := ⟨q, j, hq, rfl⟩
  have hlt : q * 2 ^ j < 2 ^ 277 := by
    calc q * 2 ^ j < 2 ^ 24 * 2 ^ j := Nat.mul_lt_mul_of_pos_right hq (Nat.two_pow_pos _)
      _ = 2 ^ (24 + j) := by rw [pow_add]
      _ ≤ 2 ^ 277 := Nat.pow_le_pow_right (by norm_num) (by omega)
  rw [ofDbl_fin h, hm, roundFrac_mul (Nat.two_pow_pos _), roundFrac_exact (by norm_num) hs]
  obtain ⟨e1, e2, e3⟩ := encode_ok (s := x.neg) ⟨q, j, hq.le, rfl⟩ hlt
  unfold toDbl
  rw [if_neg e1, e2, e3, ← hm]
  exact Dbl.encode_self _ h

theorem inf_eq {x : Dbl} (h : x.isInf = true) : x = Dbl.infD x.neg := by
  have : x.expo = 2047 ∧ x.frac = 0 := by simpa [Dbl.isInf] using h
  conv_lhs => rw [← Dbl.pack_self x, this.1, this.2]
  rfl

theorem not_nan_cases {x : Dbl} (h : x.isNaN = false) : x.isFin = true ∨ x.isInf = true := by
  have he : x.expo < 2048 := Nat.mod_lt _ (by norm_num)
  simp only [Dbl.isNaN, Dbl.isFin, Dbl.isInf, decide_eq_true_eq, decide_eq_false_iff_not] at *
  by_cases hc : x.expo = 2047
  · right; tauto
  · left; omega

theorem infD_neg (s : Bool) : (Dbl.infD s).neg = s := by cases s <;> decide +kernel
theorem infD_isInf (s : Bool) : (Dbl.infD s).isInf = true := by cases s <;> decide +kernel

theorem toDbl_single {b : BitVec 32} (h : (toDbl b).isFin = true) : Spec.IsSingle (toDbl b) := by
  have he : expo b ≠ 255 := by
    intro hc
    unfold toDbl at h
    rw [if_pos hc] at h
    split at h
    · rw [Dbl.infD_not_fin] at h; exact absurd h (by decide)
    · rw [Dbl.nanD_not_fin] at h; exact absurd h (by decide)
  obtain ⟨-, h2, h3⟩ := toDbl_spec he
  refine ⟨h, ?_⟩
  obtain ⟨q, k, hk, hq, e⟩ : ∃ q k, k ≤ 253 ∧ q < 2 ^ 24 ∧ mag b = q * 2 ^ k := by
    have hf := frac_lt b
    have hx := expo_lt b
    unfold mag
    split
    · exact ⟨frac b, 0, by norm_num, by omega, by simp⟩
    · exact ⟨_, expo b - 1, by omega, by omega, rfl⟩
  refine ⟨if neg b then -(q : Int) else q, k, hk, by split <;> simpa using hq, ?_⟩
  have U0 := Dbl.U_pos
  unfold Dbl.val
  rw [Dbl.int_cast, h2, h3, e, Nat.cast_mul, cast_925]
  rw [Nat.cast_mul, Nat.cast_pow, Nat.cast_ofNat]
  generalize Dbl.U = U at *
  split <;> push_cast <;> field_simp

theorem single_mag {x : Dbl} (h : Spec.IsSingle x) : ∃ q j, q < 2 ^ 24 ∧ j ≤ 253 ∧ x.mag = q * 2 ^ j * 2 ^ 925 := by
  obtain ⟨-, m, k, hk, hm, e⟩ := h
  refine ⟨m.natAbs, k, hm, hk, ?_⟩
  have U0 := Dbl.U_pos
  have ha := Dbl.abs_val x
  rw [e, abs_div, abs_mul, abs_of_pos (show (0 : ℝ) < 2 ^ k by positivity), abs_of_pos (show (0 : ℝ) < 2 ^ 149 by positivity)] at ha
  have : (x.mag : ℝ) = ((m.natAbs * 2 ^ k * 2 ^ 925 : Nat) : ℝ) := by
    rw [Nat.cast_mul, Nat.cast_mul, cast_925, Nat.cast_natAbs, Nat.cast_pow, Nat.cast_ofNat, Int.cast_abs]
    generalize Dbl.U = U at *
    rw [eq_div_iff U0.ne'] at ha
    rw [← ha]; ring
  exact_mod_cast this

theorem storedAs (x : Dbl) : Spec.StoredAs x (toDbl (ofDbl x)) where
  close h hx := ⟨single_fin h hx, (single_err h (single_fin h hx)).1⟩
  sign h := by
    rcases not_nan_cases h with hf | hi
    · rw [ofDbl_fin hf]
      unfold toDbl
      by_cases hn : roundFrac 24 x.mag (2 ^ 925) < 2 ^ 277
      · obtain ⟨e1, e2, e3⟩ := encode_ok (s := x.neg) (roundFrac_sig x.mag) hn
        have := (toDbl_spec e1).2.1
        unfold toDbl at this
        rw [this, e2]
      · rw [encode_big (not_lt.1 hn), if_pos (pack_expo _ (by norm_num) (by norm_num)), if_pos (pack_frac _ (by norm_num) (by norm_num)), infD_neg,
          pack_neg _ (by norm_num) (by norm_num)]
    · rw [single_isInf hi, infD_neg]
  same h := by
    obtain ⟨q, j, hq, hj, hm⟩ := single_mag h
    exact single_keep h.1 hq hj hm
  single h := toDbl_single h
  overflow h hx := by rw [single_inf h hx]; exact infD_isInf _
  inf h := by rw [single_isInf h, ← inf_eq h]
  nan h := by rw [single_nan h]; exact Dbl.nanD_isNaN

end Sgl

section
variable [Libm]

/-- **C120**: an array of doubles that `wrmds` writes in single precision (its default) comes back from `rdmds` with the same shape, every value stored as
`Spec.StoredAs` says. -/
theorem C120_single_round_trip (pf : Text → Py Dbl) (fe : Dbl → Text) (rnd : Dbl → Dbl) (d : MdsDir)
    (fbase : Text) (arr : NdArr Dbl) (args : WrArgs Dbl) (fill : Dbl) (lead dims : List Nat) (hprec : args.prec = .f32)
    (hsplit : Spec.Split args.ndims args.nrecords arr.shape lead dims) (h2 : 2 ≤ dims.length) (hlead : ∀ n ∈ lead, 0 < n)
    (hlab : Spec.Labels pf fe rnd args) (hstale : ∀ n ∈ d.names, ¬ Spec.TileName (nameOf fbase args.itr) n) :
    ∃ (w : Written) (b : NdArr Dbl), wrmds fe fbase arr args = .ok w ∧
      rdmds pf (d.write w) fbase { itrs := Spec.itrsFor args.itr, endian := args.endian, fill := fill } = .ok b ∧
      b.shape = (if 1 < prodL lead then [prodL lead] else []) ++ dims ∧
      List.Forall₂ Spec.StoredAs arr.toList b.toList := by
  obtain ⟨w, b, hw, hr, hs, ht⟩ := C59_data_round_trip pf fe rnd d fbase arr args fill lead dims hsplit h2 hlead hlab hstale
  refine ⟨w, b, hw, hr, hs, ?_⟩
  rw [ht, hprec, List.forall₂_map_right_iff, List.forall₂_same]
  exact fun x _ => Sgl.storedAs x

end

/-! ### A concrete case: a tenth, a number out of range and a single, written with the default precision -/
section Example

/-- No sine or cosine is needed here. -/
local instance exSLibm : Libm := ⟨id, id, id, fun l => l.headD Dbl.nanD⟩

def exSArr : NdArr Dbl := ⟨[1, 3], fun idx => if idx = [0, 0] then Dbl.lit 1 10 else if idx = [0, 1] then Dbl.lit (2 ^ 130) 1 else Dbl.lit 1 3⟩

example := C120_single_round_trip (fun _ => .error .valueError) (fun _ => "0".toList) id ⟨[], fun _ => [], fun _ => []⟩ "T".toList exSArr
  { } (Dbl.lit 0 1) [] [1, 3] rfl ⟨rfl, rfl, by simp⟩ (by decide) (by simp)
  ⟨by simp, by simp, by simp⟩ (by simp)

/-- A tenth comes back as the nearest single, `0x3DCCCCCD`, the large number as infinity. -/
example : (do
    let w ← wrmds (fun _ => "0".toList) "T".toList exSArr { }
    let b ← rdmds (fun _ => .error .valueError) ((⟨[], fun _ => [], fun _ => []⟩ : MdsDir).write w) "T".toList { fill := Dbl.lit 0 1 }
    return (b.shape, b.toList)) = (.ok ([1, 3], [Sgl.toDbl 0x3DCCCCCD#32, Dbl.infD false, Sgl.toDbl 0x3EAAAAAB#32]) : Py (List Nat × List Dbl)) := by
  decide +kernel

example : (Dbl.lit 1 10).isFin = true ∧ Sgl.toDbl 0x3DCCCCCD#32 ≠ Dbl.lit 1 10 := by decide +kernel

end Example

end SG
