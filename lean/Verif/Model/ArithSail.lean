import Verif.Model.ArithWing
import Verif.Model.Sail
import Verif.Model.Wind

/-!
# `yacht_geometry/`, `inlet/` with any arithmetic

`SailGeometry.__init__`, the winds at the pressure points and the calculation for a set of sails once more, with every operation
done by an arithmetic, in the order of the source text; `Model/Sail.lean` and `Model/Wind.lean` are the same program with exact
real numbers.
-/

namespace PySailing

/-- The operations of `FullArith`, and `np.log` (`inlet/winds.py:91`), `pow` (`inlet/winds.py:117`) and `multi_dot`
(`rotations/geometry_calc.py:69`; numpy chooses the order of the products) for one column of points. -/
structure SailArith extends FullArith where
  log : ℝ → ℝ
  pow : ℝ → ℝ → ℝ
  multiDot : List (Matrix (Fin 4) (Fin 4) ℝ) → (Fin 4 → ℝ) → Fin 4 → ℝ

/-- Exact operations: the arithmetic of `Model/Sail.lean` and `Model/Wind.lean`, `yacht_geometry/sail_geometry.py`,
`inlet/winds.py`. -/
noncomputable def exactSail : SailArith where
  toFullArith := exactFull
  log := Real.log
  pow x y := x ^ y
  multiDot Ms v := Ms.prod.mulVec v

namespace SailArith

variable (A : SailArith)

/-! ## Airfoil and mesh -/

/-- `np.linspace(0, 1, n)`, `thin_airfoil/vlm_airfoil.py:22`: numpy multiplies `0, 1, ...` by the step `1 / (n - 1)` and sets the
last entry to 1; that it adds the start 0 is left out. -/
noncomputable def linspace01 (n : ℕ) : List ℝ :=
  if n = 1 then [0]
  else (List.range n).map fun i : ℕ => if i + 1 = n then 1 else A.mul (A.lit i) (A.div 1 (A.lit ((n : ℝ) - 1)))

open Classical in
/-- `__get_y_camber(x)`, `thin_airfoil/vlm_airfoil.py:78-86`; a quotient by a square that underflows to zero is no number. -/
noncomputable def yCamber (m p x : ℝ) : Py ℝ :=
  let d := A.sub (A.lit 1) p
  if x < p ∧ x ≥ 0 then
    if A.mul p p = 0 then .error .nonFinite
    else .ok (A.div (A.mul m (A.sub (A.mul (A.mul (A.lit 2) p) x) (A.mul x x))) (A.mul p p))
  else if x ≥ p ∧ x ≤ 1 then
    if A.mul d d = 0 then .error .nonFinite
    else .ok (A.div (A.mul m (A.sub (A.add (A.sub (A.lit 1) (A.mul (A.lit 2) p)) (A.mul (A.mul (A.lit 2) p) x)) (A.mul x x)))
      (A.mul d d))
  else .error .valueError

open Classical in
/-- The camber line of `VlmAirfoil(m, p, 0.0, n)`: pairs of `xc` and `yc`, `thin_airfoil/vlm_airfoil.py:8-23`, `64-76`.  The other
arrays of the object are not used for the mesh and left out; thickness 0 passes its check. -/
noncomputable def airfoilLine (m p : ℝ) (n : ℕ) : Py (List (ℝ × ℝ)) :=
  if ¬ (m ≤ A.lit 0.3 ∧ m ≥ 0) then .error (.sysExit 1)
  else if ¬ (p ≤ A.lit 0.9 ∧ p ≥ 0) then .error (.sysExit 1)
  else do
    let yc ← (A.linspace01 n).mapM (A.yCamber m p)
    return (A.linspace01 n).zip yc

/-- `te_line += chords_vec`, `solver/mesher.py:42-43`; see `teLine`. -/
noncomputable def teLine (leLine : List V3) (chords : List ℝ) : Py (List V3) :=
  if chords.length = leLine.length then
    .ok (List.zipWith (fun p c => A.vadd p ⟨c, 0, 0⟩) leLine chords)
  else match chords with
    | [c] => .ok (leLine.map fun p => A.vadd p ⟨c, 0, 0⟩)
    | _ => .error .valueError

/-- Body of the loop of `make_airfoil_mesh`, `solver/mesher.py:58-67`. -/
noncomputable def airfoilRow (n : ℕ) (distance camber : List ℝ) (r : ℕ) (p1 p2 : V3) : Py (List V3) := do
  let p ← idx distance r
  let m ← idx camber r
  let line ← A.airfoilLine m p n
  let c := A.sub p2.x p1.x
  return line.map fun q => ⟨A.add (A.mul c q.1) p1.x, A.mul c q.2, p1.z⟩

/-- `make_airfoil_mesh(...)`, `solver/mesher.py:28-69`. -/
noncomputable def makeAirfoilMesh (leSW leNW : V3) (nc ns : ℕ) (chords distance camber : List ℝ) : Py NdMesh := do
  let leLine := A.discreteSegment leSW leNW ns
  let te ← A.teLine leLine chords
  let n := nc + 1
  let rows ← ((leLine.zip te).zipIdx).mapM fun q => A.airfoilRow n distance camber q.2 q.1.1 q.1.2
  return NdMesh.ofRows n rows

/-! ## Heel, leeway, twist -/

/-- Heeling, reverse heeling and leeway matrix of `CSYS_transformations`, `rotations/csys_transformations.py:13-15`. -/
noncomputable def csysMatrices (c : Csys) : Py (M3 × M3 × M3) := do
  let h ← A.rotationMatrix Csys.ex (A.deg2rad (-c.heelDeg))
  let r ← A.rotationMatrix Csys.ex (A.deg2rad c.heelDeg)
  let y ← A.rotationMatrix Csys.ez (A.deg2rad c.leewayDeg)
  return (h, r, y)

open Classical in
/-- `rotate_point_with_mirror`, `rotations/csys_transformations.py:43-53`. -/
noncomputable def rotatePointWithMirror (M : M3 × M3 × M3) (p : V3) : V3 :=
  A.mulVec M.2.2 (if p.z > 0 then A.mulVec M.1 p else A.mulVec M.2.1 p)

/-- `R_x`, `rotations/geometry_calc.py:59`. -/
def matRx (b c v : ℝ) : Matrix (Fin 4) (Fin 4) ℝ :=
  !![1, 0, 0, 0; 0, A.div c v, A.div (-b) v, 0; 0, A.div b v, A.div c v, 0; 0, 0, 0, 1]
/-- `R_x_inv`, `rotations/geometry_calc.py:60`. -/
def matRxInv (b c v : ℝ) : Matrix (Fin 4) (Fin 4) ℝ :=
  !![1, 0, 0, 0; 0, A.div c v, A.div b v, 0; 0, A.div (-b) v, A.div c v, 0; 0, 0, 0, 1]
/-- `R_y`, `rotations/geometry_calc.py:62`. -/
def matRy (a v l : ℝ) : Matrix (Fin 4) (Fin 4) ℝ :=
  !![A.div v l, 0, A.div (-a) l, 0; 0, 1, 0, 0; A.div a l, 0, A.div v l, 0; 0, 0, 0, 1]
/-- `R_y_inv`, `rotations/geometry_calc.py:63`. -/
def matRyInv (a v l : ℝ) : Matrix (Fin 4) (Fin 4) ℝ :=
  !![A.div v l, 0, A.div a l, 0; 0, 1, 0, 0; A.div (-a) l, 0, A.div v l, 0; 0, 0, 0, 1]
/-- `R_z`, `rotations/geometry_calc.py:65-67`. -/
def matRz (theta : ℝ) : Matrix (Fin 4) (Fin 4) ℝ :=
  !![A.cos theta, -A.sin theta, 0, 0; A.sin theta, A.cos theta, 0, 0; 0, 0, 1, 0; 0, 0, 0, 1]

/-- `v`, `rotations/geometry_calc.py:50-54`. -/
noncomputable def axisV (p1 p2 : V3) : ℝ :=
  A.sqrt (A.add (A.mul (A.vsub p2 p1).y (A.vsub p2 p1).y) (A.mul (A.vsub p2 p1).z (A.vsub p2 p1).z))

/-- One column of `ps_new`, `rotations/geometry_calc.py:47-70`. -/
noncomputable def rotateAboutLineCore (p1 p2 : V3) (theta : ℝ) (p : V3) : V3 :=
  let axis := A.vsub p2 p1
  let l := A.norm axis
  let v := A.axisV p1 p2
  dehomog (A.multiDot [matDinv p1, A.matRxInv axis.y axis.z v, A.matRyInv axis.x v l, A.matRz theta, A.matRy axis.x v l,
    A.matRx axis.y axis.z v, matD p1] (homog p))

open Classical in
/-- `rotate_points_around_arbitrary_axis(ps, p1, p2, theta)`, `rotations/geometry_calc.py:35-70`. -/
noncomputable def rotatePointsAroundArbitraryAxis (ps : List V3) (p1 p2 : V3) (theta : ℝ) : Py (List V3) :=
  if ps ≠ [] ∧ (A.axisV p1 p2 = 0 ∨ A.norm (A.vsub p2 p1) = 0) then .error .nonFinite
  else .ok (ps.map (A.rotateAboutLineCore p1 p2 theta))

open Classical in
/-- `SailGeometry.rotate_points_around_le(points, p1, p2, twist)`, `yacht_geometry/sail_geometry.py:168-180`. -/
noncomputable def rotatePointsAroundLe (points : List V3) (p1 p2 : V3) (twist : List ℝ) : Py (List V3) :=
  match twist with
  | [] => .error .indexError
  | t0 :: _ =>
    if ∀ t ∈ twist, t = t0 then A.rotatePointsAroundArbitraryAxis points p1 p2 (A.deg2rad t0)
    else do
      let rs ← (points.zip twist).mapM fun q => A.rotatePointsAroundArbitraryAxis [q.1] p1 p2 (A.deg2rad q.2)
      return rs.flatten

/-- One comparison of `np.testing.assert_almost_equal`, `yacht_geometry/sail_geometry.py:135`: numpy tests
`abs(desired - actual) < 1.5 * 10**(-7)`. -/
def almostEq (a b : ℝ) : Prop := |A.sub b a| < A.mul (A.lit 1.5) (A.lit 1e-7)

open Classical in
/-- `np.testing.assert_almost_equal(actual, desired)`, `yacht_geometry/sail_geometry.py:135`. -/
noncomputable def assertAlmostEqual (a b : List V3) : Py Unit :=
  if a.length = b.length ∧ ∀ q ∈ a.zip b, A.almostEq q.1.x q.2.x ∧ A.almostEq q.1.y q.2.y ∧ A.almostEq q.1.z q.2.z then .ok ()
  else .error .assertionError

/-- The twist step for one side of the water, `yacht_geometry/sail_geometry.py:131-135` and `137-141`. -/
noncomputable def twistMesh (mesh : List V3) (sh0 sh1 : ℕ) (twist : List ℝ) : Py (List V3) := do
  let le := everyNth mesh sh0 sh1
  let p2 := le.getD (sh0 - 1) 0
  let p1 := le.getD 0 0
  let tr ← nanFailsAssert (A.rotatePointsAroundLe mesh p1 p2 twist)
  A.assertAlmostEqual (everyNth tr sh0 sh1) le
  return tr

/-- The twist block of `SailGeometry.__init__`, `yacht_geometry/sail_geometry.py:115-144`.  The values in `twist_dict` are not
used, so that it does not matter how they are rounded. -/
noncomputable def twistBlock (s : SailInput) (sh0 sh1 : ℕ) (mesh under : List V3) : Py (List V3 × List V3) :=
  match s.twist, s.mode with
  | some tw, some mode => do
    let _ ← twistDict tw mode
    let t ← twistPerPoint tw sh0 sh1
    let tr ← A.twistMesh mesh sh0 sh1 t
    let tru ← A.twistMesh under sh0 sh1 t.reverse
    return (tr, tru)
  | _, _ => .ok (mesh, under)

/-- `SailGeometry.__init__`, `yacht_geometry/sail_geometry.py:23-164`, with the matrices of its `CSYS_transformations`. -/
noncomputable def sailGeometry (s : SailInput) : Py SailGeom := do
  let M ← A.csysMatrices s.csys
  let mesh ← A.makeAirfoilMesh s.tack s.head s.nc s.ns s.chords s.distance s.camber
  let aboveZero := makePanelsFromMeshSpanwise mesh.swapaxes
  let sh0 := mesh.n0
  let sh1 := mesh.n1
  let meshU ← A.makeAirfoilMesh (flipZ s.head) (flipZ s.tack) s.nc s.ns s.chords.reverse s.distance s.camber.reverse
  let underZero := makePanelsFromMeshSpanwise meshU.swapaxes
  let rmesh := mesh.flatten.map (A.rotatePointWithMirror M)
  let rmeshU := meshU.flatten.map (A.rotatePointWithMirror M)
  let (tr, tru) ← A.twistBlock s sh0 sh1 rmesh rmeshU
  let above := makePanelsFromMeshSpanwise (NdMesh.reshape sh0 sh1 tr).swapaxes
  let under := makePanelsFromMeshSpanwise (NdMesh.reshape sh0 sh1 tru).swapaxes
  if above.te = under.te then
    if above.le = under.le then
      return {
        panelsAbove := above.panels, panelsUnder := under.panels
        panelsAboveZero := aboveZero.panels, panelsUnderZero := underZero.panels
        te := above.te, le := above.le, ns := s.ns, nc := s.nc, name := s.name
        tackMounting := s.tack }
    else .error .assertionError
  else .error .assertionError

/-! ## Winds -/

/-- `length_to_xyz_vector`, `inlet/winds.py:16`, `30-35`. -/
noncomputable def lengthToXyz (w : WindObj) (speed : ℝ) : V3 :=
  ⟨A.mul speed (A.cos (A.deg2rad w.alphaDeg)), A.mul speed (A.sin (A.deg2rad w.alphaDeg)), 0⟩

open Classical in
/-- `np.log(height / roughness) / np.log(reference / roughness)`, `inlet/winds.py:91`; see `WindObj.logFactor`. -/
noncomputable def logFactor (r ref h : ℝ) : Py ℝ :=
  if r = 0 then .error .zeroDivision
  else if A.div h r ≤ 0 then .error .nonFinite
  else if A.div ref r < 0 then .error .nonFinite
  else if A.div ref r = 0 then .ok 0
  else if A.log (A.div ref r) = 0 then .error .nonFinite
  else .ok (A.div (A.log (A.div h r)) (A.log (A.div ref r)))

open Classical in
/-- `pow((height - water_level) / reference, coeff)`, `inlet/winds.py:117`; see `WindObj.expFactor`. -/
noncomputable def expFactor (c ref wl h : ℝ) : Py ℝ :=
  if ref = 0 then
    if c = 0 then .ok 1
    else if c < 0 ∧ A.sub h wl ≠ 0 then .ok 0
    else .error .nonFinite
  else
    let b := A.div (A.sub h wl) ref
    if c = 0 then .ok 1
    else if b < 0 ∧ ¬ ∃ n : ℤ, c = n then .error .nonFinite
    else if b = 0 ∧ c < 0 then .error .nonFinite
    else .ok (A.pow b c)

/-- `get_true_wind_speed_at_h`, `inlet/winds.py:64-66`, `89-93`, `116-119`. -/
noncomputable def trueWindAt (w : WindObj) (h : ℝ) : Py V3 :=
  match w.profile with
  | .flat => .ok (A.lengthToXyz w w.twsRef)
  | .log (some r) (some ref) => do
      let f ← A.logFactor r ref h
      .ok (A.lengthToXyz w (A.mul w.twsRef f))
  | .log _ _ => .error .typeError
  | .exp (some c) (some ref) (some wl) => do
      let f ← A.expFactor c ref wl h
      .ok (A.lengthToXyz w (A.mul w.twsRef f))
  | .exp _ _ _ => .error .typeError

/-- `get_app_infs_at_h`, `inlet/winds.py:55-57`. -/
def appInfs (w : WindObj) (tws : V3) : V3 := ⟨A.add tws.x w.vYacht, tws.y, tws.z⟩

/-- `V_app_infs` of `InletConditions`, `inlet/inlet_conditions.py:10-16`.  Lengths and angles of the winds are not used in the
calculation and left out; they raise an error if there are no points. -/
noncomputable def windsAt (w : WindObj) (cps : List V3) : Py (List V3) := do
  let tws ← cps.mapM fun p => A.trueWindAt w |p.z|
  if tws = [] then .error .valueError else .ok (tws.map (A.appInfs w))

/-! ## Calculation -/

/-- `Vlm.__post_init__`, `solver/vlm.py:54-76`: winds at the pressure points and results. -/
noncomputable def vlm (a : VlmInput) : Py (List V3 × VlmArrays) := do
  let vars ← nanTrap (A.calculateVlmVariables a.panels a.te a.g a.nc a.ns)
  let V ← nanTrap (A.windsAt a.wind (vars.map PanelVars.cp))
  let sol ← A.vlmCore (fun i : Fin vars.length => vars[i]) (fun i => (a.panels.map A.panelArea).getD i 0)
    (fun i => a.te.getD i false) (fun i => a.le.getD i false) a.ns a.rho a.g (fun i => V.getD i 0)
  .ok (V, sol.arrays)

/-- Geometries, sail set and solver for given sails, `runner/sail.py:111-145`, `runner/cli.py:65-67`. -/
noncomputable def calculateSails (ss : List SailInput) (nc ns : ℕ) (rho g : ℝ) (w : WindObj) : Py (List V3 × VlmArrays) := do
  let sails ← ss.mapM A.sailGeometry
  let set ← sailSet sails
  A.vlm ⟨set.panels, nc, ns, rho, w, set.te, set.le, g⟩

end SailArith

end PySailing
