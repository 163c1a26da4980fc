import Verif.Model.GetObcs
import Verif.Spec.Format
/-! # Specification of `getobcs` (types of the model, none of its functions) -/

namespace SG.Spec
variable {F : Type}

/-- Names of the responses MITgcm writes. -/
def respName : Resp → Text
  | .T => "T".toList | .S => "S".toList | .Eta => "Eta".toList | .W => "W".toList
  | .U => "U".toList | .UICE => "UICE".toList | .V => "V".toList | .VICE => "VICE".toList

/-- The points of the grid on which a response lives. -/
def points : Resp → SG.Kind
  | .U | .UICE => .u
  | .V | .VICE => .v
  | _ => .tracer

/-- A result file of a response: `<response>.<anything>.data`. -/
def IsResult (r : Resp) (name : Text) : Prop := ∃ mid : Text, name = respName r ++ ".".toList ++ mid ++ ".data".toList

/-- There is a result file. -/
def Present (names : List Text) (r : Resp) : Prop := ∃ n ∈ names, IsResult r n

/-- Letter of a boundary. -/
def sideLetter : Side → Text
  | .N => "N".toList | .S => "S".toList | .E => "E".toList | .W => "W".toList

/-- The documented file name of a boundary: `OBNt`, `OBWuice`, ... -/
def obName (s : Side) (r : Resp) : Text :=
  "OB".toList ++ sideLetter s ++
  (match r with
    | .T => "t".toList | .S => "s".toList | .Eta => "eta".toList | .W => "w".toList
    | .U => "u".toList | .UICE => "uice".toList | .V => "v".toList | .VICE => "vice".toList)

/-- A file of a directory; one slash in between. -/
def inDir (dir name : Text) : Text :=
  if dir = [] then name else if dir.getLast? = some '/' then dir ++ name else dir ++ "/".toList ++ name

/-- The directory in which boundary files are put: as given, otherwise beside the parent results. -/
def OutDir (a : ObcsArgs F) (parent dir : Text) : Prop :=
  (∀ d, a.resultsdir = some d → d ≠ [] → dir = d) ∧
  ((a.resultsdir = none ∨ a.resultsdir = some []) →
    ∃ base slashes : Text, parent = base ++ slashes ∧ (∀ c ∈ slashes, c = '/') ∧ base.getLast? ≠ some '/' ∧
      dir = base ++ "_obcs".toList)

/-- Cells along a boundary of a grid of `ni` by `nj` cells. -/
def sideLength (s : Side) (ni nj : Nat) : Nat := if s = .N ∨ s = .S then ni else nj

/-- The part of a weight file name that tells the kind of points. -/
def kindText : SG.Kind → Text
  | .tracer => "tracer".toList
  | .u => "U".toList
  | .v => "V".toList

/-- Path of the weight file for grids of the given shapes, e.g. `dir/bilinear_20x16_40x32_tracer.nc`. -/
def weightPath (dir : Text) (shapeIn shapeOut : Nat × Nat) (kd : SG.Kind) : Text :=
  inDir dir ("bilinear_".toList ++ natText shapeIn.1 ++ "x".toList ++ natText shapeIn.2 ++ "_".toList ++
    natText shapeOut.1 ++ "x".toList ++ natText shapeOut.2 ++ "_".toList ++ kindText kd ++ ".nc".toList)

/-- The bytes are the big-endian doubles of an array, the last index varying fastest. -/
def BytesOf [F64 F] (A : Arr3 F) (bytes : List Byte) : Prop :=
  bytes.length = 8 * (A.n0 * A.n1 * A.n2) ∧
  ∀ p d t, p < A.n0 → d < A.n1 → t < A.n2 →
    beDouble bytes ((p * A.n1 + d) * A.n2 + t) = some (F64.toBits (A.get p d t)).toNat

/-- The grid a call is given, as a dictionary, and its size: the named file with the given size, otherwise the dictionary, whose size is
that of `XC`. -/
def GivenGrid [PyFloat F] [F64 F] (fs : Files F) (strict : Bool) (file : Option String) (ni nj : Option Nat)
    (matrices : Option (MatDict F)) (d : MatDict F) (n m : Nat) : Prop :=
  (∃ f, file = some f ∧ f ≠ "" ∧ ∃ bytes g x y, fs.open f = .ok bytes ∧ ni = some n ∧ nj = some m ∧
    readMitgrid bytes n m strict = .ok g ∧ g .XG = .arr x ∧ g .YG = .arr y ∧ d = ⟨.ofF x, .ofF y, g⟩) ∨
  ((file = none ∨ file = some "") ∧ matrices = some d ∧ ∃ xc, d.rest .XC = .arr xc ∧ xc.rows = n ∧ xc.cols = m)

/-- The parent grid of a call with a parent grid argument. -/
def ParentGrid [PyFloat F] [F64 F] (fs : Files F) (a : ObcsArgs F) (d : MatDict F) (n m : Nat) : Prop :=
  GivenGrid fs a.strict a.parentFile a.niParent a.njParent a.parentMatrices d n m

/-- The regional grid of a call. -/
def RegionalGrid [PyFloat F] [F64 F] (fs : Files F) (a : ObcsArgs F) (d : MatDict F) (n m : Nat) : Prop :=
  GivenGrid fs a.strict a.regionalFile a.niRegional a.njRegional a.regionalMatrices d n m

/-- `pts` are the longitudes and latitudes of the tracer, u or v points of a grid `d` of `n` by `m` cells.  The velocity points are every
second corner of the grid refined by `regrid` between two opposite corners with both subscales 2. -/
def PointsOf [PyFloat F] [F64 F] (geod : Geod F) (fs : Files F) (fuel : Nat) (d : MatDict F) (n m : Nat) (kd : SG.Kind)
    (pts : Mat F × Mat F) : Prop :=
  match kd with
  | .tracer => d.rest .XC = .arr pts.1 ∧ d.rest .YC = .arr pts.2
  | kd => ∃ lon1 lat1 lon2 lat2 after fine sizes x y,
      d.xg.mat.atI 0 (-1) = .ok lon1 ∧ d.yg.mat.atI 0 (-1) = .ok lat1 ∧
      d.xg.mat.atI (-1) 0 = .ok lon2 ∧ d.yg.mat.atI (-1) 0 = .ok lat2 ∧
      regrid geod fs fuel ⟨false, none, none, none, some d, some n, some m, lon1, lat1, lon2, lat2, 2, 2⟩ =
        some (after, .ok (fine, sizes)) ∧
      fine .XG = .arr x ∧ fine .YG = .arr y ∧
      (∀ i j, pts.1.get i j = if kd = .u then x.get (2 * i) (2 * j + 1) else x.get (2 * i + 1) (2 * j)) ∧
      (∀ i j, pts.2.get i j = if kd = .u then y.get (2 * i) (2 * j + 1) else y.get (2 * i + 1) (2 * j)) ∧
      pts.1.rows = (if kd = .u then (x.rows + 1) / 2 else x.rows / 2) ∧
      pts.1.cols = (if kd = .u then x.cols / 2 else (x.cols + 1) / 2)

/-- Zero-based index across the boundary chosen by an accepted argument.  Without an argument: the outermost tracer cells. -/
def obIndex (s : Side) (ni nj : Nat) : ObArg → Int
  | .vec [z] =>
    if z = 0 then edge s ni nj
    else match s with
      | .N => if z < 0 then nj + z else z - 1
      | .E => if z < 0 then ni + z else z - 1
      | _ => z - 1
  | _ => edge s ni nj
where
  edge (s : Side) (ni nj : Nat) : Int :=
    match s with
    | .N => nj - 1
    | .S => 0
    | .E => ni - 1
    | .W => 0

/-- Position along the boundary whose value goes to position `p`: `p` itself, except that the single value of a one-element vector
goes everywhere. -/
def obPos (a : ObArg) (p : Nat) : Nat :=
  match a with
  | .vec [z] => if z = 0 then p else 0
  | _ => p

/-- The cell with index `x` across and `q` along a boundary, for a response on points of the given kind: normal velocities
of S and W are taken one point further in. -/
def obCell (s : Side) (kd : SG.Kind) (x : Int) (q : Nat) : Int × Int :=
  match s with
  | .N => (q, x)
  | .S => (q, if kd = .v then x + 1 else x)
  | .E => (x, q)
  | .W => (if kd = .u then x + 1 else x, q)

/-- Outermost tracer cells; normal velocities on the inner face. -/
def defaultCell (s : Side) (kd : SG.Kind) (ni nj p : Nat) : Nat × Nat :=
  match s, kd with
  | .N, _ => (p, nj - 1)
  | .S, .v => (p, 1)
  | .S, _ => (p, 0)
  | .E, _ => (ni - 1, p)
  | .W, .u => (1, p)
  | .W, _ => (0, p)

variable {W : Type}

/-- `M` is the interpolation of level `d` of a result, by the weights of `r`; velocities are extended by zeros to the size of the
interpolator's input. -/
def Interpolated [PyFloat F] (xe : Xesmf F W) (r : Regridder W) (kd : SG.Kind) (v : Vol F) (d : Nat) (M : Mat F) : Prop :=
  (∀ n, v.depths = some n → d < n) ∧
  ∃ m : Mat F,
    (if kd = .tracer then m.rows = v.rows ∧ m.cols = v.cols
      else m.rows = r.shapeIn.1 ∧ m.cols = r.shapeIn.2 ∧ v.rows ≤ m.rows ∧ v.cols ≤ m.cols) ∧
    (∀ i j, i < m.rows → j < m.cols → m.get i j =
      if i < v.rows ∧ j < v.cols then v.get i j (if v.depths.isSome then d else 0) else Arith.zero) ∧
    xe.apply r.w r.shapeIn r.shapeOut m = .ok M

/-- The interpolators of a call writing to `dir`, from a grid `dp` (`np` by `mp`) to a grid `dg` (`ng` by `mg`): they work on the points of the two
grids, and there is a weight file with their weights afterwards.  If there was one before, it is used; otherwise weights are computed. -/
def Interpolators [PyFloat F] [F64 F] (geod : Geod F) (fs : Files F) (fuel : Nat) (xe : Xesmf F W) (dir : Text) (dp : MatDict F) (np mp : Nat)
    (dg : MatDict F) (ng mg : Nat) (k k' : Disk W) (r : SG.Kind → Regridder W) : Prop :=
  ∀ kd,
    k'.weights (weightPath dir (r kd).shapeIn (r kd).shapeOut kd) = some (r kd).w ∧
    (∀ w, k.weights (weightPath dir (r kd).shapeIn (r kd).shapeOut kd) = some w → (r kd).w = w) ∧
    ∃ gin gout, PointsOf geod fs fuel dp np mp kd gin ∧ PointsOf geod fs fuel dg ng mg kd gout ∧
      (r kd).shapeIn = (gin.1.rows, gin.1.cols) ∧ (r kd).shapeOut = (gout.1.rows, gout.1.cols) ∧
      (k.weights (weightPath dir (r kd).shapeIn (r kd).shapeOut kd) = none → xe.build gin gout = .ok (r kd).w)

/-- `A` is the boundary array of a response: element `(p,d,t)` is the value of the interpolated result of depth `d` at the `t`-th
time step at the `p`-th boundary cell. -/
def Boundary [PyFloat F] (xe : Xesmf F W) (r : SG.Kind → Regridder W) (run : RunDir F) (ob : Side → ObArg) (ni nj : Nat)
    (times : List Nat) (resp : Resp) (s : Side) (A : Arr3 F) : Prop :=
  A.n0 = sideLength s ni nj ∧ A.n2 = times.length ∧
  (∃ v0, run.read (respName resp) (times.headD 0) = .ok v0 ∧ A.n1 = v0.depths.getD 1) ∧
  ∀ t, (ht : t < times.length) → ∃ v, run.read (respName resp) times[t] = .ok v ∧
    ∀ d, d < A.n1 → ∃ M, Interpolated xe (r (points resp)) (points resp) v d M ∧
      ∀ p, p < A.n0 →
        M.atI (obCell s (points resp) (obIndex s ni nj (ob s)) (obPos (ob s) p)).1
          (obCell s (points resp) (obIndex s ni nj (ob s)) (obPos (ob s) p)).2 = .ok (A.get p d t)

/-- What a call leaves in the results directory, given the interpolators `r`. -/
def ObcsOutput [PyFloat F] [F64 F] (xe : Xesmf F W) (r : SG.Kind → Regridder W) (run : RunDir F) (ob : Side → ObArg) (ni nj : Nat)
    (times : List Nat) (dir : Text) (k k' : Disk W) : Prop :=
  (∀ resp : Resp, Present run.names resp → ∀ s : Side, ∃ (A : Arr3 F) (bytes : List Byte),
    k'.out (inDir dir (obName s resp)) = some bytes ∧ BytesOf A bytes ∧ Boundary xe r run ob ni nj times resp s A) ∧
  ∀ n, (∀ resp : Resp, Present run.names resp → ∀ s, n ≠ inDir dir (obName s resp)) → k'.out n = k.out n

/-- Name of a result file: response, time step in ten digits, then `tile` (empty, or like `.001.002`), `.data`. -/
def resultName (resp : Text) (t : Nat) (tile : Text) : Text :=
  resp ++ '.' :: (List.replicate (10 - (natText t).length) '0' ++ natText t) ++ tile ++ ['.', 'd', 'a', 't', 'a']

noncomputable instance (r : Resp) : DecidablePred (IsResult r) := fun _ => Classical.propDecidable _

end SG.Spec
