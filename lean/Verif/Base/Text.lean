/-! # Text

Text is a list of characters.  Decimal numbers as Python's `str(int)` / `int(str)` write and read them. -/

namespace SG

abbrev Text := List Char

/-- The character of a decimal digit. -/
def digitChar (d : Nat) : Char := Char.ofNat (48 + d)

def natTextAux : Nat → Nat → Text
  | 0, _ => []
  | fuel + 1, n => if n < 10 then [digitChar n] else natTextAux fuel (n / 10) ++ [digitChar (n % 10)]

/-- `str(n)`: decimal digits, most significant first, no leading zeros. -/
def natText (n : Nat) : Text := natTextAux (n + 1) n

/-- The number written by a list of digits. -/
def textVal (ds : Text) : Nat := ds.foldl (fun n c => 10 * n + (c.toNat - '0'.toNat)) 0

theorem textVal_snoc (ds : Text) (c : Char) : textVal (ds ++ [c]) = 10 * textVal ds + (c.toNat - 48) := by
  simp [textVal, List.foldl_append]

theorem digitChar_val (d : Nat) (h : d < 10) : (digitChar d).toNat - 48 = d ∧ (digitChar d).isDigit = true := by
  have : ∀ d : Fin 10, (digitChar d).toNat - 48 = d ∧ (digitChar d).isDigit = true := by decide
  exact this ⟨d, h⟩

theorem natTextAux_spec (fuel n : Nat) (h : n < fuel) :
    textVal (natTextAux fuel n) = n ∧ (∀ c ∈ natTextAux fuel n, c.isDigit = true) ∧ natTextAux fuel n ≠ [] := by
  induction fuel generalizing n with
  | zero => omega
  | succ fuel ih =>
    unfold natTextAux
    by_cases h10 : n < 10
    · rw [if_pos h10]
      obtain ⟨h1, h2⟩ := digitChar_val n h10
      refine ⟨?_, ?_, by simp⟩
      · have := textVal_snoc [] (digitChar n)
        rw [List.nil_append] at this; rw [this, h1]; simp [textVal]
      · intro c hc; simp at hc; rw [hc]; exact h2
    · rw [if_neg h10]
      obtain ⟨i1, i2, -⟩ := ih (n / 10) (by omega)
      obtain ⟨h1, h2⟩ := digitChar_val (n % 10) (by omega)
      refine ⟨?_, ?_, by simp⟩
      · rw [textVal_snoc, i1, h1]; omega
      · intro c hc
        rcases List.mem_append.1 hc with hc | hc
        · exact i2 c hc
        · simp at hc; rw [hc]; exact h2

theorem textVal_natText (n : Nat) : textVal (natText n) = n := (natTextAux_spec _ _ (Nat.lt_succ_self n)).1
theorem natText_digit (n : Nat) : ∀ c ∈ natText n, c.isDigit = true := (natTextAux_spec _ _ (Nat.lt_succ_self n)).2.1
theorem natText_ne_nil (n : Nat) : natText n ≠ [] := (natTextAux_spec _ _ (Nat.lt_succ_self n)).2.2

theorem natText_inj {a b : Nat} (h : natText a = natText b) : a = b := by
  rw [← textVal_natText a, h, textVal_natText]

/-- A delimiter that is not in either prefix splits uniquely. -/
theorem split_unique {α : Type} [DecidableEq α] {x : α} {a b c d : List α} (ha : x ∉ a) (hb : x ∉ b)
    (h : a ++ x :: c = b ++ x :: d) : a = b ∧ c = d := by
  induction a generalizing b with
  | nil =>
    cases b with
    | nil => injection h with _ h; exact ⟨rfl, h⟩
    | cons y b => injection h with h1 h2; exact absurd (by simp [h1]) hb
  | cons z a ih =>
    cases b with
    | nil => injection h with h1 h2; exact absurd (by simp [h1]) ha
    | cons y b =>
      injection h with h1 h2
      obtain ⟨e1, e2⟩ := ih (fun hm => ha (by simp [hm])) (fun hm => hb (by simp [hm])) h2
      exact ⟨by rw [h1, e1], e2⟩

theorem not_mem_natText {x : Char} (hx : x.isDigit = false) (n : Nat) : x ∉ natText n := by
  intro h; rw [natText_digit n x h] at hx; cases hx

end SG
