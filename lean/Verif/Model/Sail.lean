import Verif.Model.Mesh
import Verif.Model.Csys

/-!
# `yacht_geometry/sail_geometry.py`, `yacht_geometry/sail_factory.py`
-/

namespace PySailing

open Classical in
/-- `SailGeometry.rotate_points_around_le(points, p1, p2, twist)`,
`yacht_geometry/sail_geometry.py:168-180`.  `twist[0]` of an empty array is an `IndexError`.  In
the second branch every call returns an array of shape `(1, 3)`, `np.squeeze` drops the first
axis and `np.array` stacks: the concatenation of the one-point results. -/
noncomputable def rotatePointsAroundLe (points : List V3) (p1 p2 : V3) (twist : List ℝ) :
    Py (List V3) :=
  match twist with
  | [] => .error .indexError
  | t0 :: _ =>
    if ∀ t ∈ twist, t = t0 then rotatePointsAroundArbitraryAxis points p1 p2 (deg2rad t0)
    else do
      let rs ← (points.zip twist).mapM fun q =>
        rotatePointsAroundArbitraryAxis [q.1] p1 p2 (deg2rad q.2)
      return rs.flatten

/-- `np.min` of a non-empty array, `yacht_geometry/sail_geometry.py:123`. -/
noncomputable def npMin (x : ℝ) (xs : List ℝ) : ℝ := xs.foldl min x

/-- `np.average`, `yacht_geometry/sail_geometry.py:124`. -/
noncomputable def npAverage (xs : List ℝ) : ℝ := xs.sum / xs.length

/-- The dictionary lookup `twist_dict[LLT_twist]`, `yacht_geometry/sail_geometry.py:122-127`.
`np.min` of an empty array raises `ValueError` while the dictionary is built. -/
noncomputable def twistDict (twist : List ℝ) (mode : String) : Py (List ℝ) :=
  match twist with
  | [] => .error .valueError
  | x :: xs =>
    if mode = "sheeting_angle_const" then .ok (List.replicate twist.length (npMin x xs))
    else if mode = "average_const" then .ok (List.replicate twist.length (npAverage twist))
    else if mode = "real_twist" then .ok twist
    else .error .keyError

/-- `np.hstack([twist] * sh1).reshape(sh1, sh0).transpose().flatten()`,
`yacht_geometry/sail_geometry.py:128-129`. -/
noncomputable def twistPerPoint (twist : List ℝ) (sh0 sh1 : ℕ) : Py (List ℝ) :=
  let h := (List.replicate sh1 twist).flatten
  if h.length = sh1 * sh0 then
    .ok ((List.range sh0).flatMap fun i => (List.range sh1).map fun j => h.getD (j * sh0 + i) 0)
  else .error .valueError

/-- `mesh[::sh1]` of an array with `sh0 * sh1` rows, `sh1 ≥ 1`,
`yacht_geometry/sail_geometry.py:131`. -/
def everyNth (mesh : List V3) (sh0 sh1 : ℕ) : List V3 :=
  (List.range sh0).map fun i => mesh.getD (i * sh1) 0

open Classical in
/-- `np.testing.assert_almost_equal(actual, desired)` on arrays of points of equal shape,
`yacht_geometry/sail_geometry.py:135`. -/
noncomputable def assertAlmostEqual (a b : List V3) : Py Unit :=
  if a.length = b.length ∧ ∀ q ∈ a.zip b, q.1.almostEq q.2 then .ok () else .error .assertionError

/-- A `nan` result reaches `assert_almost_equal` and fails there (nan against a number):
`yacht_geometry/sail_geometry.py:133-135`. -/
def nanFailsAssert {α : Type} (r : Py α) : Py α :=
  match r with
  | .error .nonFinite => .error .assertionError
  | r => r

/-- The twist step for one side of the water, `yacht_geometry/sail_geometry.py:131-135` and
`137-141`: rotation about the line from the first to the last point of `mesh[::sh1]`, and the
check that these points stay. -/
noncomputable def twistMesh (mesh : List V3) (sh0 sh1 : ℕ) (twist : List ℝ) : Py (List V3) := do
  let le := everyNth mesh sh0 sh1
  let p2 := le.getD (sh0 - 1) 0
  let p1 := le.getD 0 0
  let tr ← nanFailsAssert (rotatePointsAroundLe mesh p1 p2 twist)
  assertAlmostEqual (everyNth tr sh0 sh1) le
  return tr

/-- Arguments of `SailGeometry.__init__`, `yacht_geometry/sail_geometry.py:23-27`. -/
structure SailInput where
  head : V3
  tack : V3
  csys : Csys
  ns : ℕ
  nc : ℕ
  chords : List ℝ
  twist : Option (List ℝ)
  mode : Option String
  camber : List ℝ
  distance : List ℝ
  name : String

/-- The public state of a `SailGeometry` object, `yacht_geometry/sail_geometry.py:99-100`,
`158-164`, `29-36`. -/
structure SailGeom where
  panelsAbove : List Panel
  panelsUnder : List Panel
  panelsAboveZero : List Panel
  panelsUnderZero : List Panel
  te : List Bool
  le : List Bool
  ns : ℕ
  nc : ℕ
  name : String
  tackMounting : V3

/-- `SailGeometry.panels`, `yacht_geometry/sail_geometry.py:160`. -/
def SailGeom.panels (g : SailGeom) : List Panel := g.panelsAbove ++ g.panelsUnder

/-- `[x, y, -z]`, `yacht_geometry/sail_geometry.py:72-75`. -/
def flipZ (p : V3) : V3 := ⟨p.x, p.y, -p.z⟩

/-- The twist block of `SailGeometry.__init__`, `yacht_geometry/sail_geometry.py:115-144`.  The
value of `twist_dict[LLT_twist]` is overwritten on the next line (128) and not used. -/
noncomputable def twistBlock (s : SailInput) (sh0 sh1 : ℕ) (mesh under : List V3) :
    Py (List V3 × List V3) :=
  match s.twist, s.mode with
  | some tw, some mode => do
    let _ ← twistDict tw mode
    let t ← twistPerPoint tw sh0 sh1
    let tr ← twistMesh mesh sh0 sh1 t
    let tru ← twistMesh under sh0 sh1 t.reverse
    return (tr, tru)
  | _, _ => .ok (mesh, under)

/-- `SailGeometry.__init__`, `yacht_geometry/sail_geometry.py:23-164`. -/
noncomputable def sailGeometry (s : SailInput) : Py SailGeom := do
  let leNW := s.head
  let leSW := s.tack
  let leNWu := flipZ s.tack
  let leSWu := flipZ s.head
  let mesh ← makeAirfoilMesh leSW leNW s.nc s.ns s.chords s.distance s.camber
  let aboveZero := makePanelsFromMeshSpanwise mesh.swapaxes
  let sh0 := mesh.n0
  let sh1 := mesh.n1
  let meshU ← makeAirfoilMesh leSWu leNWu s.nc s.ns s.chords.reverse s.distance s.camber.reverse
  let underZero := makePanelsFromMeshSpanwise meshU.swapaxes
  let rmesh := mesh.flatten.map s.csys.rotatePointWithMirror
  let rmeshU := meshU.flatten.map s.csys.rotatePointWithMirror
  let (tr, tru) ← twistBlock s sh0 sh1 rmesh rmeshU
  let above := makePanelsFromMeshSpanwise (NdMesh.reshape sh0 sh1 tr).swapaxes
  let under := makePanelsFromMeshSpanwise (NdMesh.reshape sh0 sh1 tru).swapaxes
  if above.te = under.te then
    if above.le = under.le then
      return {
        panelsAbove := above.panels, panelsUnder := under.panels
        panelsAboveZero := aboveZero.panels, panelsUnderZero := underZero.panels
        te := above.te, le := above.le, ns := s.ns, nc := s.nc, name := s.name
        tackMounting := s.tack }
    else .error .assertionError
  else .error .assertionError

/-- The public state of a `SailSet` object, `yacht_geometry/sail_geometry.py:211-241`. -/
structure SailSet where
  sails : List SailGeom
  panels : List Panel
  te : List Bool
  le : List Bool
  zeroMesh : List Panel

/-- `SailSet.__init__`, `yacht_geometry/sail_geometry.py:212-230`; `np.concatenate` of an empty
list is a `ValueError`. -/
def sailSet (sails : List SailGeom) : Py SailSet :=
  if sails = [] then .error .valueError
  else .ok {
    sails := sails
    panels := (sails.map SailGeom.panelsAbove).flatten ++ (sails.map SailGeom.panelsUnder).flatten
    te := (sails.map SailGeom.te).flatten ++ (sails.map SailGeom.te).flatten
    le := (sails.map SailGeom.le).flatten ++ (sails.map SailGeom.le).flatten
    zeroMesh := (sails.map SailGeom.panelsAboveZero).flatten
      ++ (sails.map SailGeom.panelsUnderZero).flatten }

/-- `extract_above_water_quantities(quantities)`, `solver/additional_functions.py:24-36`:
the first half and its sum. -/
def extractAboveWater {α : Type} [Add α] [Zero α] (q : List α) : List α × α :=
  let half := q.length / 2
  (q.take half, (q.take half).sum)

/-! ## `SailFactory` -/

/-- The fields of a `SailFactory` object, `yacht_geometry/sail_factory.py:7-17`. -/
structure SailFactory where
  csys : Csys
  ns : ℕ
  nc : ℕ
  rakeDeg : ℝ
  sheer : ℝ

namespace SailFactory

/-- `self.rake`, `yacht_geometry/sail_factory.py:13`. -/
noncomputable def rake (f : SailFactory) : ℝ := deg2rad f.rakeDeg

/-- `self.sheer_above_waterline_xyz`, `yacht_geometry/sail_factory.py:15-17`. -/
noncomputable def sheerXyz (f : SailFactory) : V3 :=
  ⟨-f.sheer * Real.cos f.rake, 0, f.sheer * Real.sin f.rake⟩

/-- Tack and head mounting of `make_main_sail`, `yacht_geometry/sail_factory.py:20-31`. -/
noncomputable def mainMounting (f : SailFactory) (luff boom : ℝ) : V3 × V3 :=
  let boomXyz : V3 := ⟨-boom * Real.cos f.rake, 0, boom * Real.sin f.rake⟩
  let tack : V3 := ⟨f.sheerXyz.x + boomXyz.x, 0, f.sheerXyz.z + boomXyz.z⟩
  let head : V3 := ⟨tack.x - luff * Real.cos f.rake, 0, tack.z + luff * Real.sin f.rake⟩
  (tack, head)

/-- `make_main_sail`, `yacht_geometry/sail_factory.py:19-37`. -/
noncomputable def makeMainSail (f : SailFactory) (luff boom : ℝ) (chords : List ℝ)
    (twist : Option (List ℝ)) (mode : Option String) (camber distance : List ℝ) : Py SailGeom :=
  let m := f.mainMounting luff boom
  sailGeometry {
    head := m.2, tack := m.1, csys := f.csys, ns := f.ns, nc := f.nc, chords := chords,
    twist := twist, mode := mode, camber := camber, distance := distance, name := "main_sail" }

open Classical in
/-- Tack and head mounting of `make_jib`, `yacht_geometry/sail_factory.py:41-54`.  A zero
forestay or a zero `sin(rake)` is a division by zero (`nan`/`inf`). -/
noncomputable def jibMounting (f : SailFactory) (luff base height mastLOA : ℝ) : Py (V3 × V3) :=
  let forestay := Real.sqrt (base * base + height * height
    - 2 * base * height * Real.cos f.rake)
  if forestay = 0 then .error .nonFinite
  else if Real.sin f.rake = 0 then .error .nonFinite
  else
    let angle := Real.arcsin (height * Real.sin f.rake / forestay)
    let tack : V3 := ⟨-base + f.sheerXyz.x - mastLOA / Real.sin f.rake, 0, f.sheerXyz.z⟩
    let head : V3 := ⟨tack.x + luff * Real.cos angle, 0, tack.z + luff * Real.sin angle⟩
    .ok (tack, head)

/-- `make_jib`, `yacht_geometry/sail_factory.py:39-60`. -/
noncomputable def makeJib (f : SailFactory) (luff base height mastLOA : ℝ) (chords : List ℝ)
    (twist : Option (List ℝ)) (mode : Option String) (camber distance : List ℝ) : Py SailGeom := do
  let m ← f.jibMounting luff base height mastLOA
  sailGeometry {
    head := m.2, tack := m.1, csys := f.csys, ns := f.ns, nc := f.nc, chords := chords,
    twist := twist, mode := mode, camber := camber, distance := distance, name := "jib" }

end SailFactory

end PySailing
