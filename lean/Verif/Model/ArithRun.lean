import Verif.Model.ArithSail
import Verif.Model.Main
import Verif.Model.Spline

/-!
# `runner/cli.py` with any arithmetic

A run of the program from the contents of `variables.py` to the results of the solver and the sheet `Integrals`, once more, with
every operation done by an arithmetic, in the order of the source text; `Model/Interpolator.lean`, `Model/Runner.lean`,
`Model/Csys.lean`, `Model/Results.lean` and `Model/Main.lean` are the same program with exact real numbers.  Left out: the lines of
the deck (they are only drawn), the centre of effort, lengths and angles of velocities and the tables of the single panels.
-/

namespace PySailing

/-- The operations of `SailArith`, and `np.arcsin` (`yacht_geometry/sail_factory.py:45`),
`R.from_rotvec(angle * axis).as_matrix()` (`rotations/csys_transformations.py:18-36`, for the axes `[1, 0, 0]` and `[0, 0, 1]`) and
scipy's interpolating spline (`solver/interpolator.py:11`). -/
structure RunArith extends SailArith where
  arcsin : ℝ → ℝ
  rotvec : V3 → ℝ → M3
  spline : SplineFn

/-- Exact operations: the arithmetic of `Model/Main.lean`, `runner/cli.py`. -/
noncomputable def exactRun : RunArith where
  toSailArith := exactSail
  arcsin := Real.arcsin
  rotvec axis theta := scipyMatrix (theta • axis)
  spline := fitpackSpline

namespace RunArith

variable (A : RunArith)

/-! ## Sail data -/

/-- `if twist is None: twist = a * self.girths + b`, `runner/container.py:75-77`, `87-89`; see `SailConf.withTwist`. -/
noncomputable def withTwist (c : SailConf) (a b : ℝ) : Py SailConf :=
  match c.twist with
  | some _ => .ok c
  | none => match c.girths with
    | some g => .ok { c with twist := some (g.map fun x => A.add (A.mul (A.lit a) x) (A.lit b)) }
    | none => .error .typeError

open Classical in
/-- One value of `np.interp(x_new, x, y)`, `solver/interpolator.py:10`; see `interp1`.  A quotient by a difference that is rounded
to zero is no number. -/
noncomputable def interp1 (x : ℝ) : List (ℝ × ℝ) → Py ℝ
  | [] => .ok 0
  | [(_, fa)] => .ok fa
  | (a, fa) :: (b, fb) :: rest =>
    if x < b then
      if x ≤ a then .ok fa
      else if A.sub b a = 0 then .error .nonFinite
      else .ok (A.add (A.mul (A.div (A.sub fb fa) (A.sub b a)) (A.sub x a)) fa)
    else interp1 x ((b, fb) :: rest)

/-- `np.interp(x_new, x, y)`, `solver/interpolator.py:10`; see `npInterp`. -/
noncomputable def npInterp (xNew xs ys : List ℝ) : Py (List ℝ) :=
  if xs = [] then .error .valueError
  else if xs.length ≠ ys.length then .error .valueError
  else xNew.mapM fun x => A.interp1 x (xs.zip ys)

/-- `interpolate_girths(x, y, n_points)`, `solver/interpolator.py:5-17`. -/
noncomputable def interpolateGirths (kind : String) (x y : List ℝ) (n : ℕ) : Py (List ℝ) :=
  let xNew := A.linspace01 n
  if kind = "linear" then A.npInterp xNew x y
  else if kind = "spline" then A.spline xNew x y
  else .error .keyError

/-- The four interpolated arrays of one sail, `runner/sail.py:123-128`, `136-140`; see `interpolatedSail`. -/
noncomputable def interpolatedSail (s : SolverConf) (c : SailConf) : Py (List ℝ × List ℝ × List ℝ × List ℝ) := do
  let girths ← needArray s.interpolation c.girths
  let chords ← needArray s.interpolation c.chords
  let chords' ← A.interpolateGirths s.interpolation girths chords (s.ns + 1)
  let twist ← needArray s.interpolation c.twist
  let twist' ← A.interpolateGirths s.interpolation girths twist (s.ns + 1)
  let camber ← needArray s.interpolation c.camber
  let camber' ← A.interpolateGirths s.interpolation girths camber (s.ns + 1)
  let distance ← needArray s.interpolation c.distance
  let distance' ← A.interpolateGirths s.interpolation girths distance (s.ns + 1)
  .ok (chords', twist', camber', distance')

/-! ## Sails -/

/-- `self.rake`, `yacht_geometry/sail_factory.py:13`. -/
noncomputable def rake (f : SailFactory) : ℝ := A.deg2rad f.rakeDeg

/-- `self.sheer_above_waterline_xyz`, `yacht_geometry/sail_factory.py:15-17`. -/
noncomputable def sheerXyz (f : SailFactory) : V3 :=
  ⟨A.mul (-f.sheer) (A.cos (A.rake f)), 0, A.mul f.sheer (A.sin (A.rake f))⟩

/-- Tack and head mounting of `make_main_sail`, `yacht_geometry/sail_factory.py:20-31`. -/
noncomputable def mainMounting (f : SailFactory) (luff boom : ℝ) : V3 × V3 :=
  let boomXyz : V3 := ⟨A.mul (-boom) (A.cos (A.rake f)), 0, A.mul boom (A.sin (A.rake f))⟩
  let tack : V3 := ⟨A.add (A.sheerXyz f).x boomXyz.x, 0, A.add (A.sheerXyz f).z boomXyz.z⟩
  let head : V3 := ⟨A.sub tack.x (A.mul luff (A.cos (A.rake f))), 0, A.add tack.z (A.mul luff (A.sin (A.rake f)))⟩
  (tack, head)

/-- The argument of the square root of the cosine theorem, `yacht_geometry/sail_factory.py:41-43`. -/
noncomputable def forestaySquare (f : SailFactory) (base height : ℝ) : ℝ :=
  A.sub (A.add (A.mul base base) (A.mul height height)) (A.mul (A.mul (A.mul (A.lit 2) base) height) (A.cos (A.rake f)))

open Classical in
/-- Tack and head mounting of `make_jib`, `yacht_geometry/sail_factory.py:41-54`; the root of a negative number, the arc sine of a
number beyond one and a quotient by zero are no numbers. -/
noncomputable def jibMounting (f : SailFactory) (luff base height mastLOA : ℝ) : Py (V3 × V3) :=
  let q := A.forestaySquare f base height
  let forestay := A.sqrt q
  if q < 0 ∨ forestay = 0 then .error .nonFinite
  else if A.sin (A.rake f) = 0 then .error .nonFinite
  else
    let s := A.div (A.mul height (A.sin (A.rake f))) forestay
    if 1 < |s| then .error .nonFinite
    else
      let angle := A.arcsin s
      let tack : V3 := ⟨A.sub (A.add (-base) (A.sheerXyz f).x) (A.div mastLOA (A.sin (A.rake f))), 0, (A.sheerXyz f).z⟩
      let head : V3 := ⟨A.add tack.x (A.mul luff (A.cos angle)), 0, A.add tack.z (A.mul luff (A.sin angle))⟩
      .ok (tack, head)

/-- Arguments of `SailGeometry` for the jib, `runner/sail.py:118-130`, `yacht_geometry/sail_factory.py:39-60`. -/
noncomputable def jibInput (s : SolverConf) (rig : RigConf) (jib : SailConf) (csys : Csys) : Py SailInput := do
  let (chords, twist, camber, distance) ← A.interpolatedSail s jib
  let luff ← need rig.jibLuff
  let base ← need rig.base
  let height ← need rig.height
  let m ← A.jibMounting (rig.factory s csys) luff base height rig.mastLOA
  .ok {
    head := m.2, tack := m.1, csys := csys, ns := s.ns, nc := s.nc, chords := chords,
    twist := some twist, mode := some s.lltTwist, camber := camber, distance := distance, name := "jib" }

/-- Arguments of `SailGeometry` for the main sail, `runner/sail.py:132-142`, `yacht_geometry/sail_factory.py:19-37`. -/
noncomputable def mainInput (s : SolverConf) (rig : RigConf) (main : SailConf) (csys : Csys) : Py SailInput := do
  let (chords, twist, camber, distance) ← A.interpolatedSail s main
  let luff ← need rig.mainLuff
  let m := A.mainMounting (rig.factory s csys) luff rig.boom
  .ok {
    head := m.2, tack := m.1, csys := csys, ns := s.ns, nc := s.nc, chords := chords,
    twist := some twist, mode := some s.lltTwist, camber := camber, distance := distance, name := "main_sail" }

/-- `Sail.sail_set`, `runner/sail.py:111-148`. -/
noncomputable def sailSetOf (s : SolverConf) (rig : RigConf) (main jib : SailConf) (csys : Csys) : Py SailSet := do
  let js ← if rig.sailsDef = "jib" ∨ rig.sailsDef = "jib_and_main" then
      (A.jibInput s rig jib csys >>= A.sailGeometry).map fun g => [g]
    else .ok []
  let ms ← if rig.sailsDef = "main" ∨ rig.sailsDef = "jib_and_main" then
      (A.mainInput s rig main csys >>= A.sailGeometry).map fun g => [g]
    else .ok []
  sailSet (js ++ ms)

/-! ## Coordinate systems -/

/-- `np.testing.assert_almost_equal` on two 3x3 arrays, `rotations/csys_transformations.py:21`; see `SailArith.almostEq`. -/
def matAlmostEq (a b : M3) : Prop :=
  (A.almostEq a.r0.x b.r0.x ∧ A.almostEq a.r0.y b.r0.y ∧ A.almostEq a.r0.z b.r0.z) ∧
  (A.almostEq a.r1.x b.r1.x ∧ A.almostEq a.r1.y b.r1.y ∧ A.almostEq a.r1.z b.r1.z) ∧
  (A.almostEq a.r2.x b.r2.x ∧ A.almostEq a.r2.y b.r2.y ∧ A.almostEq a.r2.z b.r2.z)

open Classical in
/-- `CSYS_transformations.__init__`, `rotations/csys_transformations.py:9-41`: heeling, reverse heeling and leeway matrix, after
the comparison with scipy's matrices. -/
noncomputable def csysInit (c : Csys) : Py (M3 × M3 × M3) := do
  let M ← A.csysMatrices c
  let r ← A.rotationMatrix Csys.ez (A.deg2rad (-c.leewayDeg))
  if A.matAlmostEq M.1 (A.rotvec Csys.ex (A.deg2rad (-c.heelDeg))) ∧
     A.matAlmostEq M.2.1 (A.rotvec Csys.ex (A.deg2rad c.heelDeg)) ∧
     A.matAlmostEq M.2.2 (A.rotvec Csys.ez (A.deg2rad c.leewayDeg)) ∧
     A.matAlmostEq r (A.rotvec Csys.ez (A.deg2rad (-c.leewayDeg)))
  then .ok M else .error .assertionError

/-! ## Integrals -/

open Classical in
/-- One row of `calc_moment_arm_in_shifted_csys`, `solver/forces.py:11-17`. -/
noncomputable def momentArm (v p : V3) : V3 :=
  ⟨A.sub p.x v.x, A.sub p.y v.y, if p.z > 0 then A.sub p.z v.z else A.add p.z v.z⟩

/-- `calc_moments(cp_points, forces)`, `solver/forces.py:21-26`. -/
def calcMoments (r F : List V3) : Py (List V3) :=
  if r.length = F.length then .ok (List.zipWith A.cross r F) else .error .valueError

/-- The loop over the sails, `results/inviscid_flow.py:69-83`; see `flowSails`. -/
def flowSails : List SailGeom → List (List V3) → List (List V3) → PyDict → Py PyDict
  | [], _, _, d => .ok d
  | s :: ss, F :: Fs, r :: rs, d => do
    let M ← A.calcMoments r F
    flowSails ss Fs rs ((d.setVec ("F_" ++ s.name ++ "_total_COG") (A.vsum F)).setVec ("M_" ++ s.name ++ "_total_COG") (A.vsum M))
  | _ :: _, _, _, _ => .error .indexError

/-- The sheet `Integrals`, `results/inviscid_flow.py:15-106`, `136-181`, from the matrix `Y` of the leeway, the reference point
`v`, the centre of lateral resistance, the pressure points and the forces. -/
noncomputable def integrals (sails : List SailGeom) (Y : M3) (v clr : V3) (cps force : List V3) : Py PyDict := do
  let r := cps.map (A.momentArm v)
  let half := force.length / 2
  let Fs ← arraySplit (force.take half) sails.length
  let rs ← arraySplit (r.take half) sails.length
  let dyn ← A.flowSails sails Fs rs PyDict.empty
  let M ← A.calcMoments r force
  let F := A.vsum (force.take half)
  let Mt := A.vsum (M.take (M.length / 2))
  let Fc := A.vsum ((force.map (A.mulVec Y)).take half)
  let Mc := A.vsum ((M.map (A.mulVec Y)).take (M.length / 2))
  let K := A.cross clr (-F)
  let Kc := A.mulVec Y K
  .ok ((((((PyDict.empty.setVec "F_sails_total_COG" F).setVec "F_sails_total_COW" Fc).setVec "M_sails_total_COG" Mt).setMomentCow
    "M_sails_total_COW" Mc).update
    ((((PyDict.empty.setVec "M_keel_total_COG" K).setMomentCow "M_keel_total_COW" Kc).setVec
      "M_total_COG" (A.vadd Mt K)).setMomentCow "M_total_COW" (A.vadd Mc Kc))).update dyn)

/-! ## The run -/

/-- Coordinate systems, sail set and centre of lateral resistance, `runner/cli.py:49-66`, `rotations/csys_transformations.py:67-73`,
`yacht_geometry/hull_geometry.py:39`. -/
noncomputable def prepareGeometry (c : Config) : Py ((M3 × M3 × M3) × SailSet × V3) := do
  let main ← A.withTwist c.main 12 5
  let jib ← A.withTwist c.jib 15 7
  let M ← A.csysInit ⟨c.heelDeg, c.leewayDeg, c.vRef⟩
  windPostInit c.wind
  sailPostInit c.rig (some main) (some jib)
  let set ← A.sailSetOf c.solver c.rig main jib ⟨c.heelDeg, c.leewayDeg, c.vRef⟩
  let _ ← need c.rig.base
  .ok (M, set, A.mulVec M.2.2 (A.mulVec M.1 c.clrUpright))

/-- Everything before the first output, `runner/cli.py:49-70`: apparent winds at the pressure points, results of the solver, sheet
`Integrals`.  The pressure points are those of `SailArith.vlm`. -/
noncomputable def prepare (c : Config) : Py (List V3 × VlmArrays × PyDict) := do
  let g ← A.prepareGeometry c
  let vars ← nanTrap (A.calculateVlmVariables g.2.1.panels g.2.1.te (-1) c.solver.nc c.solver.ns)
  let r ← A.vlm (c.vlmInput g.2.1 (windGetProfile c.wind))
  let d ← A.integrals g.2.1.sails g.1.2.2 c.vRef g.2.2 (vars.map PanelVars.cp) r.2.force
  .ok (r.1, r.2, d)

end RunArith

end PySailing
