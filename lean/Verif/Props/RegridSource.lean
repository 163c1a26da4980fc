import Verif.Props.Regrid
/-! # C38: where `regrid` takes its data from -/

set_option linter.unusedSectionVars false

namespace SG

/-! ## `os.path.splitext` -/

/-- The file name (part after the last slash) ends in `.csv`, and what precedes has a character other than a dot. -/
def Spec.HasCsvExtension (name : String) : Prop :=
  ∃ dir stem : List Char, name.toList = dir ++ stem ++ ['.', 'c', 's', 'v'] ∧
    (dir = [] ∨ ∃ d, dir = d ++ ['/']) ∧ '/' ∉ stem ∧ ∃ c ∈ stem, c ≠ '.'

theorem rfind_cases (c : Char) (p : List Char) :
    (rfind c p = -1 ∧ ∀ m : Nat, p[m]? ≠ some c) ∨
    ∃ k : Nat, rfind c p = k ∧ p[k]? = some c ∧ ∀ m : Nat, k < m → p[m]? ≠ some c := by
  unfold rfind
  cases h : ((List.range p.length).filter fun k => p[k]? == some c).getLast? with
  | none =>
    left
    refine ⟨rfl, fun m hm => ?_⟩
    rw [List.getLast?_eq_none_iff] at h
    have : m ∈ (List.range p.length).filter fun k => p[k]? == some c := by
      rw [List.mem_filter, List.mem_range]
      refine ⟨?_, by rw [hm]; simp⟩
      obtain ⟨h, -⟩ := List.getElem?_eq_some_iff.1 hm
      exact h
    rw [h] at this; cases this
  | some k =>
    right
    obtain ⟨ys, hys⟩ := List.getLast?_eq_some_iff.1 h
    have hmem : k ∈ (List.range p.length).filter fun k => p[k]? == some c := by rw [hys]; simp
    rw [List.mem_filter] at hmem
    refine ⟨k, rfl, by simpa using hmem.2, fun m hkm hm => ?_⟩
    have hm' : m ∈ (List.range p.length).filter fun k => p[k]? == some c := by
      rw [List.mem_filter, List.mem_range]
      obtain ⟨h, -⟩ := List.getElem?_eq_some_iff.1 hm
      exact ⟨h, by rw [hm]; simp⟩
    have hs : ((List.range p.length).filter fun k => p[k]? == some c).Pairwise (· < ·) :=
      List.Pairwise.filter _ List.pairwise_lt_range
    rw [hys] at hs hm'
    rw [List.pairwise_append] at hs
    rcases List.mem_append.1 hm' with h1 | h1
    · have := hs.2.2 m h1 k (by simp); omega
    · simp at h1; omega

theorem rfind_eq (c : Char) (p : List Char) (k : Nat) (h : p[k]? = some c)
    (hm : ∀ m : Nat, k < m → p[m]? ≠ some c) : rfind c p = k := by
  rcases rfind_cases c p with ⟨-, h2⟩ | ⟨k', e, h1, h2⟩
  · exact absurd h (h2 k)
  · rw [e]
    have a : ¬ k < k' := fun hk => hm k' hk h1
    have b : ¬ k' < k := fun hk => h2 k hk h
    omega

theorem isCsv_iff (name : String) : isCsv name = true ↔ Spec.HasCsvExtension name := by
  have hcsv : ".csv".toList = ['.', 'c', 's', 'v'] := by decide
  unfold isCsv splitextExt Spec.HasCsvExtension
  rw [hcsv]
  generalize name.toList = p
  dsimp only
  constructor
  · intro h
    rw [beq_iff_eq] at h
    split at h
    case isFalse => cases h
    rename_i hc
    obtain ⟨hsd, hany⟩ := hc
    rw [List.any_eq_true] at hany
    obtain ⟨m, hm, hb⟩ := hany
    rw [List.mem_range] at hm
    simp only [Bool.and_eq_true, decide_eq_true_eq, bne_iff_ne] at hb
    rcases rfind_cases '.' p with ⟨e, -⟩ | ⟨k, e, hk, -⟩
    · rcases rfind_cases '/' p with ⟨e', -⟩ | ⟨k', e', -⟩ <;> omega
    rw [e] at h hb hsd
    have hk' : p = p.take k ++ ['.', 'c', 's', 'v'] := by
      rw [← h]; exact (List.take_append_drop k p).symm
    have hpm : ∃ c, p[m]? = some c ∧ c ≠ '.' := by
      refine ⟨p[m], List.getElem?_eq_getElem hm, fun h => hb.2 ?_⟩
      rw [List.getElem?_eq_getElem hm, h]
    obtain ⟨x, hx, hxd⟩ := hpm
    rcases rfind_cases '/' p with ⟨e', hno⟩ | ⟨k', e', hs, hno⟩
    · refine ⟨[], p.take k, hk', .inl rfl, ?_, x, ?_, hxd⟩
      · intro hmem
        obtain ⟨n, hn⟩ := List.mem_iff_getElem?.1 (List.mem_of_mem_take hmem)
        exact hno n hn
      · refine List.mem_iff_getElem?.2 ⟨m, ?_⟩
        rw [List.getElem?_take_of_lt (by omega)]; exact hx
    · rw [e'] at hb hsd
      have hsplit : p.take k = p.take (k' + 1) ++ (p.take k).drop (k' + 1) := by
        have := (List.take_append_drop (k' + 1) (p.take k)).symm
        rwa [List.take_take, Nat.min_eq_left (by omega)] at this
      refine ⟨p.take (k' + 1), (p.take k).drop (k' + 1), ?_, .inr ⟨p.take k', ?_⟩, ?_, x, ?_, hxd⟩
      · rw [← hsplit]; exact hk'
      · obtain ⟨hlt, hg⟩ := List.getElem?_eq_some_iff.1 hs
        rw [List.take_succ_eq_append_getElem hlt, hg]
      · intro hmem
        obtain ⟨n, hn⟩ := List.mem_iff_getElem?.1 hmem
        rw [List.getElem?_drop] at hn
        have hlt : k' + 1 + n < k := by
          obtain ⟨h, -⟩ := List.getElem?_eq_some_iff.1 hn
          rw [List.length_take] at h; omega
        rw [List.getElem?_take_of_lt hlt] at hn
        exact hno _ (by omega) hn
      · refine List.mem_iff_getElem?.2 ⟨m - (k' + 1), ?_⟩
        rw [List.getElem?_drop, List.getElem?_take_of_lt (by omega)]
        rw [show k' + 1 + (m - (k' + 1)) = m by omega]; exact hx
  · rintro ⟨dir, stem, rfl, hdir, hslash, x, hx, hxd⟩
    have hdot : rfind '.' (dir ++ stem ++ ['.', 'c', 's', 'v']) = ((dir.length + stem.length : Nat) : Int) := by
      apply rfind_eq
      · rw [List.getElem?_append_right (by simp)]; simp
      · intro m hm
        rw [List.getElem?_append_right (by simp; omega)]
        simp only [List.length_append]
        obtain ⟨n, hn⟩ : ∃ n, m - (dir.length + stem.length) = n + 1 := ⟨m - (dir.length + stem.length) - 1, by omega⟩
        rw [hn, List.getElem?_cons_succ]
        match n with
        | 0 => simp
        | 1 => simp
        | 2 => simp
        | n + 3 => simp
    have hafter : ∀ m, dir.length ≤ m → (dir ++ stem ++ ['.', 'c', 's', 'v'])[m]? ≠ some '/' := by
      intro m hm h
      rw [List.append_assoc, List.getElem?_append_right hm] at h
      have := List.mem_of_getElem? h
      simp [hslash] at this
    have hsep : rfind '/' (dir ++ stem ++ ['.', 'c', 's', 'v']) = (dir.length : Int) - 1 := by
      rcases hdir with rfl | ⟨d, rfl⟩
      · rcases rfind_cases '/' ([] ++ stem ++ ['.', 'c', 's', 'v']) with ⟨h, -⟩ | ⟨k, -, h, -⟩
        · rw [h]; rfl
        · exact absurd h (hafter k (by simp))
      · rw [rfind_eq '/' _ d.length (by simp) (fun m hm => hafter m (by simp; omega))]
        simp
    rw [hdot, hsep, if_pos ?_]
    · rw [beq_iff_eq, show ((dir.length + stem.length : Nat) : Int).toNat = (dir ++ stem).length by
        rw [List.length_append]; rfl]
      exact List.drop_left
    · refine ⟨by omega, ?_⟩
      rw [List.any_eq_true]
      obtain ⟨n, hn⟩ := List.mem_iff_getElem?.1 hx
      obtain ⟨hlt, -⟩ := List.getElem?_eq_some_iff.1 hn
      refine ⟨dir.length + n, by rw [List.mem_range]; simp; omega, ?_⟩
      simp only [Bool.and_eq_true, decide_eq_true_eq, bne_iff_ne]
      refine ⟨by omega, ?_⟩
      rw [List.append_assoc, List.getElem?_append_right (by omega), List.getElem?_append_left (by omega),
        show dir.length + n - dir.length = n by omega, hn]
      simpa using hxd

/-! ## Sources -/

variable {F : Type} [PyFloat F] [F64 F]

/-- A name is given: not missing and not the empty string. -/
def Spec.Given (s : Option String) (name : String) : Prop := s = some name ∧ name ≠ ""
/-- A count is given: not missing and not zero. -/
def Spec.GivenN (s : Option Nat) (n : Nat) : Prop := s = some n ∧ n ≠ 0

/-- The outcome (grid and counts, or exception) of a call; `none` while the rotation loop is still running. -/
def Spec.outcome (r : Option (Option (MatDict F) × Py (Grid F × Int × Int))) : Option (Py (Grid F × Int × Int)) :=
  r.map Prod.snd

theorem strTruthy_some {s : Option String} {n : String} (h : Spec.Given s n) : strTruthy s = some n := by
  obtain ⟨rfl, h⟩ := h; exact if_neg h
theorem strTruthy_none {s : Option String} (h : ∀ n, ¬ Spec.Given s n) : strTruthy s = none := by
  cases s with
  | none => rfl
  | some n =>
    have : n = "" := by
      apply Classical.byContradiction; intro hn; exact h n ⟨rfl, hn⟩
    exact if_pos this
theorem natTruthy_some {s : Option Nat} {n : Nat} (h : Spec.GivenN s n) : natTruthy s = some n := by
  obtain ⟨rfl, h⟩ := h; exact if_neg h
theorem natTruthy_none {s : Option Nat} (h : ∀ n, ¬ Spec.GivenN s n) : natTruthy s = none := by
  cases s with
  | none => rfl
  | some n =>
    have : n = 0 := by
      apply Classical.byContradiction; intro hn; exact h n ⟨rfl, hn⟩
    exact if_pos this

/-- Calls with the same data, corner points and subscales have the same outcome. -/
theorem outcome_congr (geod : Geod F) (fs fs' : Files F) (fuel : Nat) (a a' : RegridArgs F) (x y : NArr F)
    (g g' : Grid F) (h : readSource fs a = .ok ⟨x, y, g⟩) (h' : readSource fs' a' = .ok ⟨x, y, g'⟩)
    (hq : (a'.lon1, a'.lat1, a'.lon2, a'.lat2, a'.lonSub, a'.latSub) =
      (a.lon1, a.lat1, a.lon2, a.lat2, a.lonSub, a.latSub)) :
    Spec.outcome (regrid geod fs fuel a) = Spec.outcome (regrid geod fs' fuel a') := by
  simp only [Prod.mk.injEq] at hq
  obtain ⟨q1, q2, q3, q4, q5, q6⟩ := hq
  unfold regrid
  rw [h, h', q1, q2, q3, q4, q5, q6]
  dsimp only
  cases regridXY geod a.lon1 a.lat1 a.lon2 a.lat2 a.lonSub a.latSub fuel (x, y) with
  | none => rfl
  | some sr => rfl

/-- The same call on a dictionary instead of files. -/
def Spec.onDict (a : RegridArgs F) (d : MatDict F) : RegridArgs F :=
  { a with mitgridfile := none, xgFile := none, ygFile := none, ni := none, nj := none, matrices := some d }

theorem readSource_onDict (fs : Files F) (a : RegridArgs F) (d : MatDict F) (XC : Mat F)
    (h : d.rest .XC = .arr XC) : readSource fs (Spec.onDict a d) = .ok d := by
  unfold readSource Spec.onDict
  simp only [strTruthy, h]

theorem readSource_mitgrid (fs : Files F) (a : RegridArgs F) (f : String) (hf : Spec.Given a.mitgridfile f) :
    readSource fs a = match natTruthy a.ni, natTruthy a.nj with
    | some ni, some nj => do
      let b ← fs.open f
      let g ← readMitgrid b ni nj a.strict
      let x ← g.arr .XG
      let y ← g.arr .YG
      return ⟨.ofF x, .ofF y, g⟩
    | _, _ => .error .valueError := by
  unfold readSource; rw [strTruthy_some hf]; rfl

theorem readSource_xy (fs : Files F) (a : RegridArgs F) (hf : ∀ f, ¬ Spec.Given a.mitgridfile f) (xf yf : String)
    (hx : Spec.Given a.xgFile xf) (hy : Spec.Given a.ygFile yf) :
    readSource fs a = match natTruthy a.ni, natTruthy a.nj with
      | some ni, some nj =>
        if isCsv xf && isCsv yf then do
          let x ← fs.csv xf
          let y ← fs.csv yf
          return ⟨.ofC x, .ofC y, Grid.allNone⟩
        else do
          let xr ← fs.open xf
          let x ← reshapeF (fromfile xr : List F) (ni + 1) (nj + 1)
          let yr ← fs.open yf
          let y ← reshapeF (fromfile yr : List F) (ni + 1) (nj + 1)
          return ⟨.ofF x, .ofF y, Grid.allNone⟩
      | _, _ => .error .valueError := by
  unfold readSource; rw [strTruthy_none hf, strTruthy_some hx, strTruthy_some hy]; rfl

/-- **C38**, first choice: with a `mitgridfile`, the outcome is that of a call on the dictionary that
`read_mitgridfile` returns (an exception raised there being passed on); `xg_file`, `yg_file` and
`mitgrid_matrices` are irrelevant. -/
theorem C38_mitgridfile_first (geod : Geod F) (fs : Files F) (fuel : Nat) (a : RegridArgs F) (f : String)
    (hf : Spec.Given a.mitgridfile f) (ni nj : Nat) (hni : Spec.GivenN a.ni ni) (hnj : Spec.GivenN a.nj nj)
    (bytes : List Byte) (hb : fs.bin f = some bytes) :
    match (readMitgrid bytes ni nj a.strict : Py (Grid F)) with
    | .error e => Spec.outcome (regrid geod fs fuel a) = some (.error e)
    | .ok g => ∀ XG YG, g .XG = .arr XG → g .YG = .arr YG → ∀ XC, g .XC = .arr XC →
        Spec.outcome (regrid geod fs fuel a) =
          Spec.outcome (regrid geod fs fuel (Spec.onDict a ⟨.ofF XG, .ofF YG, g⟩)) := by
  have hr := readSource_mitgrid fs a f hf
  rw [natTruthy_some hni, natTruthy_some hnj] at hr
  dsimp only at hr
  unfold Files.open at hr
  rw [hb] at hr
  dsimp only at hr
  rw [Py.ok_bind] at hr
  cases hg : (readMitgrid bytes ni nj a.strict : Py (Grid F)) with
  | error e =>
    rw [hg] at hr
    unfold regrid
    rw [show readSource fs a = .error e from hr]
    rfl
  | ok g =>
    intro XG YG hx hy XC hc
    rw [hg, Py.ok_bind] at hr
    unfold Grid.arr at hr
    rw [hx, hy] at hr
    exact outcome_congr geod fs fs fuel a _ _ _ _ _ hr (readSource_onDict fs a _ XC hc) rfl

/-- **C38**, second choice: without `mitgridfile`, two names with extension `.csv` are parsed as csv; the
outcome is that of a call on a dictionary with the parsed arrays, whatever `mitgrid_matrices` is. -/
theorem C38_csv_second (geod : Geod F) (fs : Files F) (fuel : Nat) (a : RegridArgs F)
    (hf : ∀ f, ¬ Spec.Given a.mitgridfile f) (xf yf : String) (hx : Spec.Given a.xgFile xf)
    (hy : Spec.Given a.ygFile yf) (ni nj : Nat) (hni : Spec.GivenN a.ni ni) (hnj : Spec.GivenN a.nj nj)
    (hcx : Spec.HasCsvExtension xf) (hcy : Spec.HasCsvExtension yf)
    (x y : Mat F) (hxx : fs.csv xf = .ok x) (hyy : fs.csv yf = .ok y)
    (rest : Grid F) (XC : Mat F) (hr : rest .XC = .arr XC) :
    Spec.outcome (regrid geod fs fuel a) =
      Spec.outcome (regrid geod fs fuel (Spec.onDict a ⟨.ofC x, .ofC y, rest⟩)) := by
  have h := readSource_xy fs a hf xf yf hx hy
  rw [natTruthy_some hni, natTruthy_some hnj] at h
  dsimp only at h
  rw [(isCsv_iff xf).2 hcx, (isCsv_iff yf).2 hcy, hxx, hyy] at h
  exact outcome_congr geod fs fs fuel a _ _ _ _ _ h (readSource_onDict fs a _ XC hr) rfl

/-- **C38**, second choice: if not both names have extension `.csv`, both files are read as column-ordered big-endian
doubles of shape `(ni+1, nj+1)`, and the outcome is that of a call on a dictionary with these arrays; a file of another
size raises `ValueError`. -/
theorem C38_binary_second (geod : Geod F) (fs : Files F) (fuel : Nat) (a : RegridArgs F)
    (hf : ∀ f, ¬ Spec.Given a.mitgridfile f) (xf yf : String) (hx : Spec.Given a.xgFile xf)
    (hy : Spec.Given a.ygFile yf) (ni nj : Nat) (hni : Spec.GivenN a.ni ni) (hnj : Spec.GivenN a.nj nj)
    (hc : ¬ (Spec.HasCsvExtension xf ∧ Spec.HasCsvExtension yf))
    (xb yb : List Byte) (hxb : fs.bin xf = some xb) (hyb : fs.bin yf = some yb) :
    ((xb.length / 8 ≠ (ni + 1) * (nj + 1) ∨ yb.length / 8 ≠ (ni + 1) * (nj + 1)) →
      Spec.outcome (regrid geod fs fuel a) = some (.error .valueError)) ∧
    (xb.length / 8 = (ni + 1) * (nj + 1) → yb.length / 8 = (ni + 1) * (nj + 1) →
      ∃ x y : Mat F, (x.rows = ni + 1 ∧ x.cols = nj + 1 ∧ y.rows = ni + 1 ∧ y.cols = nj + 1) ∧
        (∀ i j, i ≤ ni → j ≤ nj → Spec.doubleAt F xb (i + j * (ni + 1)) = some (x.get i j) ∧
          Spec.doubleAt F yb (i + j * (ni + 1)) = some (y.get i j)) ∧
        ∀ (rest : Grid F) (XC : Mat F), rest .XC = .arr XC →
          Spec.outcome (regrid geod fs fuel a) =
            Spec.outcome (regrid geod fs fuel (Spec.onDict a ⟨.ofF x, .ofF y, rest⟩))) := by
  have h := readSource_xy fs a hf xf yf hx hy
  have hnc : (isCsv xf && isCsv yf) = false := by
    cases hb : (isCsv xf && isCsv yf) with
    | false => rfl
    | true =>
      rw [Bool.and_eq_true, isCsv_iff, isCsv_iff] at hb
      exact absurd hb hc
  rw [natTruthy_some hni, natTruthy_some hnj] at h
  dsimp only at h
  rw [hnc] at h
  unfold Files.open reshapeF at h
  rw [hxb, hyb] at h
  dsimp only at h
  rw [if_neg (by simp), Py.ok_bind, fromfile_length] at h
  refine ⟨fun hbad => ?_, fun hxl hyl => ?_⟩
  · have : readSource fs a = .error .valueError := by
      rw [h]
      by_cases hxl : xb.length / 8 = (ni + 1) * (nj + 1)
      · rw [if_pos hxl, Py.ok_bind, Py.ok_bind, fromfile_length, if_neg (by rcases hbad with h | h <;> omega)]; rfl
      · rw [if_neg hxl]; rfl
    unfold regrid; rw [this]; rfl
  · rw [if_pos hxl, Py.ok_bind, Py.ok_bind, fromfile_length, if_pos hyl] at h
    refine ⟨_, _, ⟨rfl, rfl, rfl, rfl⟩, fun i j hi hj => ?_, fun rest XC hr =>
      outcome_congr geod fs fs fuel a _ _ _ _ _ h (readSource_onDict fs a _ XC hr) rfl⟩
    have hlt : i + j * (ni + 1) < (ni + 1) * (nj + 1) := by
      have : j * (ni + 1) ≤ nj * (ni + 1) := Nat.mul_le_mul_right _ hj
      have e : (ni + 1) * (nj + 1) = nj * (ni + 1) + (ni + 1) := by
        rw [Nat.mul_add, Nat.mul_one, Nat.mul_comm nj]
      omega
    have key : ∀ b : List Byte, b.length / 8 = (ni + 1) * (nj + 1) →
        Spec.doubleAt F b (i + j * (ni + 1)) =
          some ((fromfile b : List F).getD (i + j * (ni + 1)) Arith.zero) := by
      intro b hb
      have hl : i + j * (ni + 1) < (fromfile b : List F).length := by rw [fromfile_length]; omega
      rw [List.getD_eq_getElem?_getD, List.getElem?_eq_getElem hl, Option.getD_some,
        ← List.getElem?_eq_getElem hl, fromfile_get]
      rfl
    exact ⟨key xb hxl, key yb hyl⟩

/-- **C38**, counts: a file source without nonzero `ni` and `nj` raises `ValueError`. -/
theorem C38_counts_required (geod : Geod F) (fs : Files F) (fuel : Nat) (a : RegridArgs F)
    (hsrc : (∃ f, Spec.Given a.mitgridfile f) ∨
      ((∃ x, Spec.Given a.xgFile x) ∧ ∃ y, Spec.Given a.ygFile y))
    (hn : (∀ n, ¬ Spec.GivenN a.ni n) ∨ ∀ n, ¬ Spec.GivenN a.nj n) :
    Spec.outcome (regrid geod fs fuel a) = some (.error .valueError) := by
  have hm : ∀ {α : Type} (k : Nat → Nat → Py α),
      (match natTruthy a.ni, natTruthy a.nj with
        | some ni, some nj => k ni nj
        | _, _ => .error .valueError) = .error .valueError := by
    intro α k
    rcases hn with h | h <;> rw [natTruthy_none h]
    cases natTruthy a.ni <;> rfl
  have : readSource fs a = .error .valueError := by
    by_cases hf : ∃ f, Spec.Given a.mitgridfile f
    · obtain ⟨f, hf⟩ := hf
      rw [readSource_mitgrid fs a f hf]
      exact hm _
    · rcases hsrc with h | ⟨⟨x, hx⟩, ⟨y, hy⟩⟩
      · exact absurd h hf
      · rw [readSource_xy fs a (fun f h => hf ⟨f, h⟩) x y hx hy]
        exact hm _
  unfold regrid; rw [this]; rfl

/-- **C38**, third choice: without file names the dictionary is used, whatever `ni` and `nj` are (and a single
name of the pair is ignored). -/
theorem C38_matrices_third (geod : Geod F) (fs : Files F) (fuel : Nat) (a : RegridArgs F) (d : MatDict F)
    (hf : ∀ f, ¬ Spec.Given a.mitgridfile f)
    (hxy : (∀ x, ¬ Spec.Given a.xgFile x) ∨ ∀ y, ¬ Spec.Given a.ygFile y)
    (hd : a.matrices = some d) :
    regrid geod fs fuel a = regrid geod fs fuel (Spec.onDict a d) := by
  have h : readSource fs a = readSource fs (Spec.onDict a d) ∧ usesCallersDict a = true := by
    unfold readSource usesCallersDict
    rw [strTruthy_none hf]
    rcases hxy with h | h <;> rw [strTruthy_none h]
    · rw [hd]; exact ⟨rfl, rfl⟩
    · rw [hd]
      cases strTruthy a.xgFile <;> exact ⟨rfl, rfl⟩
  unfold regrid
  rw [h.1, h.2, hd]
  rfl

/-- **C38**: with no source at all `ValueError` is raised. -/
theorem C38_no_source (geod : Geod F) (fs : Files F) (fuel : Nat) (a : RegridArgs F)
    (hf : ∀ f, ¬ Spec.Given a.mitgridfile f)
    (hxy : (∀ x, ¬ Spec.Given a.xgFile x) ∨ ∀ y, ¬ Spec.Given a.ygFile y)
    (hd : a.matrices = none) :
    regrid geod fs fuel a = some (none, .error .valueError) := by
  have h : readSource fs a = .error .valueError := by
    unfold readSource
    rw [strTruthy_none hf]
    rcases hxy with h | h <;> rw [strTruthy_none h, hd]
    cases strTruthy a.xgFile <;> rfl
  unfold regrid
  rw [h, hd]

/-! ## Examples -/

/-- A 3 x 2 tile (2 x 1 cells) of points `(10 i, 10 j)`. -/
def exDict : MatDict Toy where
  xg := .ofC ⟨3, 2, fun i _ => Toy.ofInt (10 * i)⟩
  yg := .ofC ⟨3, 2, fun _ j => Toy.ofInt (10 * j)⟩
  rest := fun _ => .arr ⟨2, 1, fun _ _ => 0⟩

def exArgs (lon1 lat1 lon2 lat2 : Toy) (ls lt : Int) : RegridArgs Toy where
  strict := false
  mitgridfile := none
  xgFile := none
  ygFile := none
  matrices := some exDict
  ni := none
  nj := none
  lon1 := lon1
  lat1 := lat1
  lon2 := lon2
  lat2 := lat2
  lonSub := ls
  latSub := lt

def exFiles : Files Toy := ⟨fun _ => none, fun _ => .error .ioError⟩

def okCounts : Option (Option (MatDict Toy) × Py (Grid Toy × Int × Int)) → Option (Int × Int)
  | some (_, .ok (_, ni, nj)) => some (ni, nj)
  | _ => none

-- success without rotation, 2 x 1 cells divided by 1 x 2 (C32-C34, C36 partial, C39 with subscale 1)
set_option maxRecDepth 40000 in
example : okCounts (regrid Toy.geod exFiles 4 (exArgs 0 10 20 0 1 2)) = some (2, 2) := by decide
-- the same corners exchanged: success after two turns (C30, C35, C36)
set_option maxRecDepth 40000 in
example : okCounts (regrid Toy.geod exFiles 4 (exArgs 20 0 0 10 1 2)) = some (2, 2) := by decide
example : nearest Toy.geod 20 0 exDict.xg exDict.yg = .ok (2, 0, 0) ∧
    nearest Toy.geod 0 10 exDict.xg exDict.yg = .ok (0, 1, 0) := ⟨rfl, rfl⟩
/-- the caller's grid after that call: longitudes now decrease along `i` -/
example : ((regrid Toy.geod exFiles 4 (exArgs 20 0 0 10 1 2)).map fun r =>
    r.1.map fun d => d.xg.mat.toList) = some (some [20, 20, 10, 10, 0, 0]) := by
  set_option maxRecDepth 40000 in decide
-- the other diagonal: one turn, 1 x 2 cells
set_option maxRecDepth 40000 in
example : okCounts (regrid Toy.geod exFiles 4 (exArgs 0 0 20 10 1 1)) = some (1, 2) := by decide
/-- one corner with NaN coordinates: the hypotheses of C31 hold, and `regrid` never stops -/
example : ∀ fuel, regrid Toy.geod exFiles fuel (exArgs 0 0 PyFloat.nan 10 1 1) = none := by
  refine C31_hangs_if_one_corner_unlocated Toy.geod exFiles (exArgs 0 0 PyFloat.nan 10 1 1) exDict rfl (NArr.ofC_wf _)
    ⟨rfl, rfl, by decide⟩ (.inl ⟨⟨0, 0, by decide, by decide, by decide⟩, ?_⟩)
  rintro ⟨i, j, hi, hj, h⟩
  have hi' : i < 3 := hi
  have hj' : j < 2 := hj
  match i, j, hi', hj' with
  | 0, 0, _, _ => revert h; decide
  | 0, 1, _, _ => revert h; decide
  | 1, 0, _, _ => revert h; decide
  | 1, 1, _, _ => revert h; decide
  | 2, 0, _, _ => revert h; decide
  | 2, 1, _, _ => revert h; decide
/-- C39's hypotheses on the same tile -/
example : Spec.UniqueNearest Toy.geod 0 10 (exDict.xg, exDict.yg) 0 1 := by
  refine ⟨by decide, by decide, by decide, fun i j hi hj hne => ?_⟩
  have hi' : i < 3 := hi
  have hj' : j < 2 := hj
  match i, j, hi', hj' with
  | 0, 0, _, _ => decide
  | 0, 1, _, _ => exact absurd rfl hne
  | 1, 0, _, _ => decide
  | 1, 1, _, _ => decide
  | 2, 0, _, _ => decide
  | 2, 1, _, _ => decide
/-- non-positive subscale -/
example : regrid Toy.geod exFiles 4 (exArgs 0 10 20 0 0 1) = some (some exDict, .error .indexError) ∨
    ∃ d e, regrid Toy.geod exFiles 4 (exArgs 0 10 20 0 0 1) = some (d, .error e) := by
  right
  obtain ⟨out, h⟩ : ∃ out, regrid Toy.geod exFiles 4 (exArgs 0 10 20 0 0 1) = some out := ⟨_, rfl⟩
  obtain ⟨e, he⟩ := C34_regrid_rejects_subscale Toy.geod exFiles 4 (exArgs 0 10 20 0 0 1)
    (fun d hd => by cases hd; exact NArr.ofC_wf _) (by decide) out.1 out.2 h
  exact ⟨out.1, e, by rw [h, ← he]⟩

example : Spec.HasCsvExtension "a.d/xg.csv" :=
  ⟨"a.d/".toList, "xg".toList, by decide, .inr ⟨"a.d".toList, by decide⟩, by decide, 'x', by decide, by decide⟩
/-- a hidden file `.csv` has no extension; `.CSV` is another extension -/
example : ¬ Spec.HasCsvExtension "dir/.csv" ∧ ¬ Spec.HasCsvExtension "xg.CSV" := by
  rw [← isCsv_iff, ← isCsv_iff]; decide

/-- csv and binary sources: 2 x 1 cells in `x.csv`/`y.csv`; six doubles in `x.bin` -/
def exFiles2 : Files Toy where
  bin n := if n = "x.bin" then some (List.replicate 48 0) else none
  csv n := if n = "x.csv" then .ok exDict.xg.mat else if n = "y.csv" then .ok exDict.yg.mat else .error .ioError

def exArgsCsv : RegridArgs Toy :=
  { exArgs 0 10 20 0 1 2 with
    mitgridfile := some "", xgFile := some "x.csv", ygFile := some "y.csv", ni := some 2, nj := some 1 }

set_option maxRecDepth 40000 in
example : okCounts (regrid Toy.geod exFiles2 4 exArgsCsv) = some (2, 2) := by decide
example : Spec.Given exArgsCsv.xgFile "x.csv" ∧ (∀ f, ¬ Spec.Given exArgsCsv.mitgridfile f) ∧
    Spec.GivenN exArgsCsv.ni 2 ∧ Spec.HasCsvExtension "x.csv" :=
  ⟨⟨rfl, by decide⟩, fun f h => h.2 (Option.some.inj h.1).symm, ⟨rfl, by decide⟩, (isCsv_iff _).1 (by decide)⟩
/-- all points equal, so one row: `ValueError` -/
example : Spec.outcome (regrid Toy.geod exFiles2 4
    { exArgsCsv with xgFile := some "x.bin", ygFile := some "x.bin" }) = some (.error .valueError) := rfl

end SG
