import Verif.Model.Commands
import Verif.Model.MdsWrite
/-! # What the commands print with `-v`

The messages of the four `main` functions, of `mkgrid`, of `regrid` (up to line 201) and of `matchedges`, one text per line.  Left out: the
progress of `read_mitgridfile`, the arrays printed by `regrid`, `fill`, `edges`, `areas` and `tomitgrid`, usage and help texts, tracebacks.
`fmt` is `'{:9.4f}'.format`, which does not raise on floats. -/

namespace SG.Cli
variable {F : Type} [PyFloat F] [F64 F]

/-- `'writing {0:s} with ni={1:d}, nj={2:d}...'` (mkgrid.py:180-181, regrid.py:342-343, addfringe.py:191-192); `what` is `writing ` or
`writing combined tile to ` (stitch.py:222-224). -/
def writingMsg (what : String) (f : Text) (ni nj : Nat) : Text :=
  what.toList ++ f ++ " with ni=".toList ++ natText ni ++ ", nj=".toList ++ natText nj ++ "...".toList

/-- `'...done.'` -/
def doneMsg : Text := "...done.".toList

/-- The end of each `main`, when `pre` has been printed and `r` computed: the two messages around `write_mitgridfile`.  With `-v` and no output file it is
`'{0:s}'.format(None)` that raises `TypeError`. -/
def report (v : Bool) (what : String) (pre : List Text) (w : World) (f : Option Text) (r : Py (Grid F × Nat × Nat)) : List Text × World × End :=
  match r with
  | .error e => (pre, w, .raised e)
  | .ok (g, ni, nj) =>
    if v then
      match f with
      | none => (pre, w, .raised .typeError)
      | some t =>
        let o := writeOut w (some t) (.ok (g, ni, nj))
        (pre ++ writingMsg what t ni nj :: (match o.2 with | .done => [doneMsg] | _ => []), o)
    else (pre, writeOut w f (.ok (g, ni, nj)))

/-- `'{0}'.format` of an int or `None`. -/
def intOrNone : Option Int → Text
  | some z => intText z
  | none => "None".toList

/-- mkgrid.py:89-90 -/
def creatingMsg (ls lt : Option Int) : Text :=
  "creating simple ".toList ++ intOrNone ls ++ " x ".toList ++ intOrNone lt ++ " rectangular grid between the extents".toList

/-- `'({0:9.4f},{1:9.4f}) and ({2:9.4f},{3:9.4f})'` (mkgrid.py:91-92, regrid.py:198-199) -/
def pointsText (fmt : F → Text) (lon1 lat1 lon2 lat2 : F) : Text :=
  "(".toList ++ fmt lon1 ++ ",".toList ++ fmt lat1 ++ ") and (".toList ++ fmt lon2 ++ ",".toList ++ fmt lat2 ++ ")".toList

/-- `sgmkgrid` (mkgrid.py:166-184) with what it prints. -/
def sgmkgridV (fmt : F → Text) (pf : Text → Option F) (pi : Text → Option Int) (geod : Geod F) (args : List Text) (w : World) :
    List Text × World × End :=
  match parseArgs pf pi mkgridParser args with
  | .exit n => ([], w, .exit n)
  | .ok ns =>
    let first := creatingMsg (ns.int "--lon_subscale") (ns.int "--lat_subscale")
    if ns.flag "--verbose" then
      match ns.float "--lon1", ns.float "--lat1", ns.float "--lon2", ns.float "--lat2" with
      | some a, some b, some c, some d =>
        report true "writing " [first, pointsText fmt a b c d] w (ns.text "--outfile") (mkgridCall geod ns)
      | _, _, _, _ => ([first], w, .raised .typeError)
    else report false "writing " [] w (ns.text "--outfile") (mkgridCall geod ns)

/-- `'({0},{1}), (i,j)_se = ({2},{3})'` -/
def cornersText (c : Corners) : Text :=
  "(i,j)_nw = (".toList ++ intText c.1.1 ++ ",".toList ++ intText c.1.2 ++ "), (i,j)_se = (".toList ++ intText c.2.1 ++ ",".toList ++
    intText c.2.2 ++ ")".toList

def rotationMsg : Text := "performing 90 degree XG, YG rotation...".toList
def startMsg (c : Corners) : Text := "...start: ".toList ++ cornersText c
def endMsg (c : Corners) : Text := "...end:   ".toList ++ cornersText c

/-- The messages of the rotation loop (regrid.py:184-193). -/
def alignSays (geod : Geod F) (lon1 lat1 lon2 lat2 : F) : Nat → NArr F × NArr F → Corners → List Text
  | 0, _, _ => []
  | fuel + 1, s, c =>
    if aligned c then []
    else
      let s' := (s.1.rot90, s.2.rot90)
      rotationMsg :: startMsg c :: (match locate geod lon1 lat1 lon2 lat2 s' with
        | .error _ => []
        | .ok c' => endMsg c' :: alignSays geod lon1 lat1 lon2 lat2 fuel s' c')

/-- regrid.py:196-197 -/
def remeshingMsg (c : Corners) : Text :=
  "remeshing ".toList ++ natText (c.1.1 - c.2.1).natAbs ++ " x ".toList ++ natText (c.1.2 - c.2.2).natAbs ++ " cell grid based on".toList
/-- regrid.py:198-199 -/
def locatedMsg (fmt : F → Text) (a : RegridArgs F) : Text :=
  "located corner points ".toList ++ pointsText fmt a.lon1 a.lat1 a.lon2 a.lat2
/-- `'resulting grid will be {0} x {1} cells (lon/lat subscale = {2}/{3})'` -/
def resultingText (ni nj ls lt : Int) : Text :=
  "resulting grid will be ".toList ++ intText ni ++ " x ".toList ++ intText nj ++ " cells (lon/lat subscale = ".toList ++ intText ls ++
    "/".toList ++ intText lt ++ ")".toList
/-- regrid.py:200-201 -/
def resultingMsg (a : RegridArgs F) (c : Corners) : Text :=
  resultingText (((c.1.1 - c.2.1).natAbs : Int) * a.lonSub) (((c.1.2 - c.2.2).natAbs : Int) * a.latSub) a.lonSub a.latSub

/-- What `regrid` prints with `verbose` (regrid.py:176-201). -/
def regridSays (fmt : F → Text) (geod : Geod F) (fs : Files F) (fuel : Nat) (a : RegridArgs F) : List Text :=
  match readSource fs a with
  | .error _ => []
  | .ok d =>
    match locate geod a.lon1 a.lat1 a.lon2 a.lat2 (d.xg, d.yg) with
    | .error _ => []
    | .ok c =>
      if c.1.1 = c.2.1 ∨ c.1.2 = c.2.2 then []
      else
        alignSays geod a.lon1 a.lat1 a.lon2 a.lat2 fuel (d.xg, d.yg) c ++
          (match align geod a.lon1 a.lat1 a.lon2 a.lat2 fuel (d.xg, d.yg) c with
          | some (_, .ok c') => [remeshingMsg c', locatedMsg fmt a, resultingMsg a c']
          | _ => [])

/-- `sgregrid` (regrid.py:322-345) with what it prints. -/
def sgregridV (fmt : F → Text) (pf : Text → Option F) (pi : Text → Option Int) (csv : List Byte → Py (Mat F)) (geod : Geod F) (fuel : Nat)
    (args : List Text) (w : World) : Option (List Text × World × End) :=
  match parseArgs pf pi regridParser args with
  | .exit n => some ([], w, .exit n)
  | .ok ns =>
    (regrid geod (w.files csv) fuel (regridCall ns)).map fun r =>
      report (ns.flag "--verbose") "writing "
        (if ns.flag "--verbose" then regridSays fmt geod (w.files csv) fuel (regridCall ns) else []) w (ns.text "--outfile")
        (r.2.map fun r => (r.1, r.2.1.toNat, r.2.2.toNat))

/-- `"western "`, ... (matchedges.py:107-148) -/
def edgeName : Edge → Text
  | .N => "northern ".toList
  | .S => "southern ".toList
  | .E => "eastern ".toList
  | .W => "western ".toList

/-- `msg` (matchedges.py:107-157) -/
def edgesMsg (ae be : Edge) : Text :=
  edgeName ae ++ "edge of tile 'a' matches ".toList ++ edgeName be ++ "edge of tile 'b'".toList

/-- The edges found by `matchedges`, when line 157 is reached (matchedges.py:65-157). -/
def edgesFound (geod : Geod F) (aXG aYG bXG bYG : Mat F) : Py (Edge × Edge) := do
  let a1 ← cornerDist geod aXG aYG aXG aYG (0, 0) (-1, -1)
  let a2 ← cornerDist geod aXG aYG aXG aYG (-1, 0) (0, -1)
  let b1 ← cornerDist geod bXG bYG bXG bYG (0, 0) (-1, -1)
  let b2 ← cornerDist geod bXG bYG bXG bYG (-1, 0) (0, -1)
  let nomDiag := (a1 +ₚ a2 +ₚ b1 +ₚ b2) /ₚ PyFloat.four
  let ab ← minDists (fun ca cb => cornerDist geod aXG aYG bXG bYG ca cb)
  let ba ← minDists (fun cb ca => cornerDist geod aXG aYG bXG bYG ca cb)
  let t := nomDiag *ₚ PyFloat.tol
  if PyFloat.lt t (amin [amin ab.toList, amin ba.toList]) then throw .valueError
  match detect ab t with
  | none => throw .valueError
  | some ae =>
    match detect ba t with
    | none => throw .valueError
    | some be => do
      if ae.code + be.code ≠ Edge.N.code + Edge.S.code ∧
          ae.code + be.code ≠ Edge.E.code + Edge.W.code then throw .valueError
      return (ae, be)

/-- What `addfringe`, and `stitch` which calls it, print with `verbose` (addfringe.py:91-102). -/
def addfringeSays (geod : Geod F) (strict : Bool) (fa : List Byte) (nia nja : Nat) (fb : List Byte) (nib njb : Nat) : List Text :=
  let r : Py (Edge × Edge) := do
    let a ← (readMitgrid fa nia nja strict : Py (Grid F))
    let b ← (readMitgrid fb nib njb strict : Py (Grid F))
    let aXG ← a.arr .XG
    let aYG ← a.arr .YG
    let bXG ← b.arr .XG
    let bYG ← b.arr .YG
    edgesFound geod aXG aYG bXG bYG
  match r with
  | .ok (ae, be) => [edgesMsg ae be]
  | .error _ => []

/-- The same when the files have to be found first. -/
def tilesSay (geod : Geod F) (w : World) (ns : Ns F) : List Text :=
  match twoTiles w ns with
  | .error _ => []
  | .ok f => addfringeSays geod (ns.flag "--strict") f.1 (ns.nat "--nia") (ns.nat "--nja") f.2 (ns.nat "--nib") (ns.nat "--njb")

/-- `sgaddfringe` (addfringe.py:169-197) with what it prints. -/
def sgaddfringeV (pf : Text → Option F) (pi : Text → Option Int) (geod : Geod F) (args : List Text) (w : World) : List Text × World × End :=
  match parseArgs pf pi twoTilesParser args with
  | .exit n => ([], w, .exit n)
  | .ok ns =>
    report (ns.flag "--verbose") "writing "
      (if ns.flag "--verbose" then
        ("computing boundary grid information for ".toList ++ (ns.text "--tilea").getD [] ++ ",".toList) ::
          ("using data from ".toList ++ (ns.text "--tileb").getD [] ++ "...".toList) :: tilesSay geod w ns else [])
      w (ns.text "--outfile") do
      let f ← twoTiles w ns
      let r ← (addfringe geod (ns.flag "--strict") f.1 (ns.nat "--nia") (ns.nat "--nja") f.2 (ns.nat "--nib") (ns.nat "--njb") :
        Py (Edge × Edge × Grid F))
      return (r.2.2, ns.nat "--nia", ns.nat "--nja")

/-- `sgstitch` (stitch.py:202-230) with what it prints. -/
def sgstitchV (pf : Text → Option F) (pi : Text → Option Int) (geod : Geod F) (args : List Text) (w : World) : List Text × World × End :=
  match parseArgs pf pi twoTilesParser args with
  | .exit n => ([], w, .exit n)
  | .ok ns =>
    report (ns.flag "--verbose") "writing combined tile to "
      (if ns.flag "--verbose" then
        ("joining ".toList ++ (ns.text "--tilea").getD [] ++ " and ".toList ++ (ns.text "--tileb").getD [] ++
          " along a common edge...".toList) :: tilesSay geod w ns else [])
      w (ns.text "--outfile") do
      let f ← twoTiles w ns
      stitch geod (ns.flag "--strict") f.1 (ns.nat "--nia") (ns.nat "--nja") f.2 (ns.nat "--nib") (ns.nat "--njb")

end SG.Cli
