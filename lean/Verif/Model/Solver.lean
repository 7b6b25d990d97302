import Verif.Model.Velocity
import Verif.Model.Mesh
import Verif.Model.Wind
import Mathlib.LinearAlgebra.Matrix.NonsingularInverse

/-!
# `solver/coefs.py`, `solver/forces.py`, `solver/vlm.py`

Arrays of length `K` are functions on `Fin K`; loops that accumulate over `range(K)` are finite
sums.
-/

namespace PySailing

/-! ## Panel variables -/

/-- A row of the array `rings`, `solver/coefs.py:190`. -/
@[ext]
structure Ring where
  A : V3
  B : V3
  C : V3
  D : V3

/-- One row of the seven arrays returned by `calculate_vlm_variables`, `solver/coefs.py:207`. -/
@[ext]
structure PanelVars where
  normal : V3
  ctrP : V3
  cp : V3
  ring : Ring
  span : V3
  leMid : V3
  teMid : V3

/-- `np.cross(vect_A, vect_B)`, `solver/coefs.py:149-150`, `165` (and `86-87`, `110`). -/
def normalRaw (q : Panel) : V3 := V3.cross (q.p3 - q.p1) (q.p4 - q.p2)

/-- `B`, `solver/coefs.py:159-162` (and `n_B`, `181-184`): a quarter of the way from `p2` to
`p1`. -/
noncomputable def quarterB (q : Panel) : V3 := q.p2 + (1 / 4 : ℝ) • (q.p1 - q.p2)

/-- `C`, `solver/coefs.py:160-163` (and `n_C`, `182-185`): a quarter of the way from `p3` to
`p4`. -/
noncomputable def quarterC (q : Panel) : V3 := q.p3 + (1 / 4 : ℝ) • (q.p4 - q.p3)

/-- `A` of a trailing edge panel, `solver/coefs.py:171` (and `99`). -/
noncomputable def behindA (q : Panel) : V3 := q.p1 + (1 / 4 : ℝ) • (q.p1 - q.p2)

/-- `D` of a trailing edge panel, `solver/coefs.py:172` (and `102`). -/
noncomputable def behindD (q : Panel) : V3 := q.p4 + (1 / 4 : ℝ) • (q.p4 - q.p3)

/-- Everything computed from the panel itself and the rear edge `A`, `D` of its ring,
`solver/coefs.py:143-194`. -/
noncomputable def panelVars (g : ℝ) (q : Panel) (A D : V3) : PanelVars :=
  let leMid := (1 / 2 : ℝ) • (q.p2 + q.p3)
  let teMid := (1 / 2 : ℝ) • (q.p1 + q.p4)
  let dist := teMid - leMid
  { normal := (1 / (normalRaw q).norm) • normalRaw q
    ctrP := leMid + (0.75 : ℝ) • dist
    cp := leMid + (0.25 : ℝ) • dist
    ring := ⟨A, quarterB q, quarterC q, D⟩
    span := g • (quarterC q - quarterB q)
    leMid := leMid
    teMid := teMid }

/-- Body of the inner loop of `calculate_vlm_variables`, `solver/coefs.py:141-194`, for panel `k` of
a chunk; the arrays written to have `nc * ns` rows per chunk. -/
noncomputable def vlmVarsAt (g : ℝ) (nc ns : ℕ) (grid : List Panel) (teGrid : List Bool) (k : ℕ) :
    Py PanelVars := do
  let q ← idx grid k
  if nc * ns ≤ k then .error .indexError
  else
    let te ← idx teGrid k
    if te then .ok (panelVars g q (behindA q) (behindD q))
    else
      let next ← idx grid (k + ns)
      .ok (panelVars g q (quarterB next) (quarterC next))

open Classical in
/-- `calculate_vlm_variables(panels, trailing_edge_info, gamma_orientation, n_chordwise,
n_spanwise)`, `solver/coefs.py:115-207`.  `K / (nc * ns)` raises `ZeroDivisionError` for an empty
grid; `np.array_split(panels, 0)` is a `ValueError`; the final `reshape(K, 3)` is a `ValueError`
when the number of rows does not match.  A panel with parallel diagonals has a `nan` normal. -/
noncomputable def calculateVlmVariables (panels : List Panel) (te : List Bool) (g : ℝ)
    (nc ns : ℕ) : Py (List PanelVars) :=
  if nc * ns = 0 then .error .zeroDivision
  else do
    let G := panels.length / (nc * ns)
    let chunks ← arraySplit panels G
    let teChunks ← arraySplit te G
    let vars ← (chunks.zip teChunks).mapM fun c =>
      (List.range c.1.length).mapM (vlmVarsAt g nc ns c.1 c.2)
    if G * (nc * ns) ≠ panels.length then .error .valueError
    else if ∃ q ∈ panels, normalRaw q = 0 then .error .nonFinite
    else .ok vars.flatten

open Classical in
/-- `calculate_normals_collocations_cps_rings_spans_leading_trailing_mid_points(panels, g)`,
`solver/coefs.py:59-113` (used by `Aircraft`): like the above, but every ring ends a quarter chord
behind its own panel. -/
noncomputable def calculateAircraftVariables (panels : List Panel) (g : ℝ) : Py (List PanelVars) :=
  if ∃ q ∈ panels, normalRaw q = 0 then .error .nonFinite
  else .ok (panels.map fun q => panelVars g q (behindA q) (behindD q))

/-! ## Influence coefficients and the linear system -/

variable {K : ℕ}

/-- The vector `a` of `calc_velocity_coefs`, `solver/coefs.py:30-40`: velocity at `p` due to vortex
`j` of unit strength, a ring or (trailing edge) a horseshoe along the local wind. -/
noncomputable def velCoef (L : Fin K → PanelVars) (te : Fin K → Bool) (V : Fin K → V3) (g : ℝ)
    (p : V3) (j : Fin K) : V3 :=
  let r := (L j).ring
  if te j then vortexHorseshoeV2 p r.A r.B r.C r.D (V j) g
  else vortexRing p r.A r.B r.C r.D g

/-- All entries computed by `calc_velocity_coefs` at the points `pts` are finite: no point lies on
a trailing vortex, `solver/coefs.py:38-40` with `solver/velocity.py:75-80`. -/
def coefsDefined (L : Fin K → PanelVars) (te : Fin K → Bool) (V : Fin K → V3)
    (pts : Fin K → V3) : Prop :=
  ∀ i j, te j = true → wakeDefined (pts i) (L j).ring.A (V j) ∧ wakeDefined (pts i) (L j).ring.D (V j)

open Classical in
/-- `calc_velocity_coefs(V_app_infw, points, rings, normals, trailing_edge_info, g)`,
`solver/coefs.py:21-48`: the matrix of normal components and the array of vectors. -/
noncomputable def calcVelocityCoefs (L : Fin K → PanelVars) (te : Fin K → Bool) (V : Fin K → V3)
    (g : ℝ) (pts : Fin K → V3) : Py (Matrix (Fin K) (Fin K) ℝ × (Fin K → Fin K → V3)) :=
  if coefsDefined L te V pts then
    .ok (fun i j => (velCoef L te V g (pts i) j).dot (L i).normal,
      fun i j => velCoef L te V g (pts i) j)
  else .error .nonFinite

/-- `calculate_RHS(V_app_infw, normals)`, `solver/coefs.py:210-213`. -/
def calculateRHS (V : Fin K → V3) (normals : Fin K → V3) : Fin K → ℝ :=
  fun i => -((V i).dot (normals i))

open Classical in
/-- `solve_eq(coefs, RHS)`, `solver/coefs.py:216-225`: `np.linalg.solve`, `LinAlgError` for a
singular matrix (library behaviour, in exact arithmetic). -/
noncomputable def solveEq (A : Matrix (Fin K) (Fin K) ℝ) (b : Fin K → ℝ) : Py (Fin K → ℝ) :=
  if A.det = 0 then .error .linAlgError else .ok (A⁻¹.mulVec b)

/-- `calc_induced_velocity(v_ind_coeff, gamma_magnitude)`, `solver/velocity.py:168-183`. -/
noncomputable def calcInducedVelocity (c : Fin K → Fin K → V3) (gamma : Fin K → ℝ) : Fin K → V3 :=
  fun i => ∑ j, gamma j • c i j

/-- `calculate_app_fs(V_app_infs, v_ind_coeff, gamma_magnitude)`,
`solver/velocity.py:186-197`: induced velocity and total velocity. -/
noncomputable def calculateAppFs (V : Fin K → V3) (c : Fin K → Fin K → V3) (gamma : Fin K → ℝ) :
    (Fin K → V3) × (Fin K → V3) :=
  let ind := calcInducedVelocity c gamma
  (ind, fun i => V i + ind i)

open Classical in
/-- `is_no_flux_BC_satisfied(V_app_fw, panels, areas, normals)`, `solver/forces.py:119-131`
(`panels` is not used). -/
noncomputable def isNoFluxBCSatisfied (V : Fin K → V3) (areas : Fin K → ℝ) (normals : Fin K → V3) :
    Py Bool :=
  let flux : Fin K → ℝ := fun i => -((V i).dot (normals i))
  if ∃ i, areas i < 1e-14 then .error .valueError
  else if ∃ i, |flux i| > 1e-12 then .error .valueError
  else .ok true

/-! ## Forces -/

/-- `gamma_magnitude[i - n_spanwise]` is in range, `solver/forces.py:108`: Python indices of an
array of length `K` run from `-K`. -/
def wrapOk (i : Fin K) (ns : ℕ) : Prop := -(K : ℤ) ≤ (i.val : ℤ) - ns

/-- The row denoted by the Python index `i - n_spanwise`, `solver/forces.py:108` (when `wrapOk`):
negative indices count from the end. -/
def wrapIndex (i : Fin K) (ns : ℕ) : Fin K := ⟨(i.val + K - ns) % K, Nat.mod_lt _ i.pos⟩

/-- `case1x1`, `solver/forces.py:96`: no panel is flagged as leading edge. -/
def case1x1 (le : Fin K → Bool) : Bool := !(List.finRange K).any le

/-- Bound vortex strength used for the force on panel `i`, `solver/forces.py:104-108`. -/
def gammaForForce (le : Fin K → Bool) (gamma : Fin K → ℝ) (ns : ℕ) (i : Fin K) : ℝ :=
  if le i || case1x1 le then gamma i else gamma i - gamma (wrapIndex i ns)

/-- `force[i]`, `solver/forces.py:104-109`. -/
noncomputable def panelForce (L : Fin K → PanelVars) (le : Fin K → Bool) (ns : ℕ) (rho : ℝ)
    (gamma : Fin K → ℝ) (V : Fin K → V3) (i : Fin K) : V3 :=
  rho • V3.cross (V i) (gammaForForce le gamma ns i • (L i).span)

open Classical in
/-- `calc_force_wrapper(V_app_infw, gamma_magnitude, rho, cp, rings, n_spanwise, normals,
span_vectors, trailing_edge_info, leading_edges_info, force_name, gamma_orientation)`,
`solver/forces.py:51-111`: force, velocity at cp, induced velocity.  A name that is not allowed
ends in `sys.exit()` (status 0). -/
noncomputable def calcForceWrapper (L : Fin K → PanelVars) (te le : Fin K → Bool) (ns : ℕ)
    (rho g : ℝ) (V : Fin K → V3) (gamma : Fin K → ℝ) (name : String) :
    Py ((Fin K → V3) × (Fin K → V3) × (Fin K → V3)) :=
  if ¬ (name = "lift" ∨ name = "drag" ∨ name = "force_xyz") then .error (.sysExit 0)
  else do
    let c ← calcVelocityCoefs L te V g (fun i => (L i).cp)
    let v := calculateAppFs V c.2 gamma
    let Vcalc := if name = "lift" then V else if name = "drag" then v.1 else v.2
    if ∃ i, (le i || case1x1 le) = false ∧ ¬ wrapOk i ns then .error .indexError
    else .ok (panelForce L le ns rho gamma Vcalc, v.2, v.1)

open Classical in
/-- `calc_pressure(forces, normals, areas)`, `solver/forces.py:114-116`. -/
noncomputable def calcPressure (force normals : Fin K → V3) (areas : Fin K → ℝ) : Py (Fin K → ℝ) :=
  if ∃ i, areas i = 0 then .error .nonFinite
  else .ok fun i => (force i).dot (normals i) / areas i

open Classical in
/-- `calc_pressure_coeff(pressure, rho, V)`, `solver/forces.py:133-144`. -/
noncomputable def calcPressureCoeff (pressure : Fin K → ℝ) (rho : ℝ) (V : Fin K → V3) :
    Py (Fin K → ℝ) :=
  if ∃ i, 0.5 * rho * (V i).dot (V i) = 0 then .error .nonFinite
  else .ok fun i => pressure i / (0.5 * rho * (V i).dot (V i))

/-! ## `Vlm` -/

/-- `nan`s that appear before the no-flux check: they propagate through the solution (a `nan`
coefficient or normal of panel `i` makes the flux through panel `i` a `nan`), and
`is_no_flux_BC_satisfied` raises `ValueError` for `nan` (`solver/forces.py:128-129`). -/
def nanTrap {α : Type} (r : Py α) : Py α :=
  match r with
  | .error .nonFinite => .error .valueError
  | r => r

/-- Assembly and solution of the system and the no-flux assertion, `solver/vlm.py:62-68` (and
`runner/aircraft.py:60-65`): circulations, induced and total velocity at the control points. -/
noncomputable def solveLattice (L : Fin K → PanelVars) (areas : Fin K → ℝ) (te : Fin K → Bool)
    (g : ℝ) (V : Fin K → V3) : Py ((Fin K → ℝ) × (Fin K → V3) × (Fin K → V3)) := do
  let c ← nanTrap (calcVelocityCoefs L te V g (fun i => (L i).ctrP))
  let rhs := calculateRHS V (fun i => (L i).normal)
  let gamma ← solveEq c.1 rhs
  let v := calculateAppFs V c.2 gamma
  let ok ← isNoFluxBCSatisfied v.2 areas (fun i => (L i).normal)
  if ok then .ok (gamma, v.1, v.2) else .error .assertionError

/-- The computed attributes of a `Vlm` object, `solver/vlm.py:33-50`, `75-76`. -/
structure VlmSolution (K : ℕ) where
  gamma : Fin K → ℝ
  vIndCtrl : Fin K → V3
  vFsCtrl : Fin K → V3
  force : Fin K → V3
  vFsCp : Fin K → V3
  vIndCp : Fin K → V3
  pressure : Fin K → ℝ
  pCoeffs : Fin K → ℝ
  lift : Fin K → V3
  drag : Fin K → V3

/-- `Vlm.__post_init__` from the influence coefficients on, `solver/vlm.py:60-76`. -/
noncomputable def vlmCore (L : Fin K → PanelVars) (areas : Fin K → ℝ) (te le : Fin K → Bool)
    (ns : ℕ) (rho g : ℝ) (V : Fin K → V3) : Py (VlmSolution K) := do
  let (gamma, vi, vf) ← solveLattice L areas te g V
  let (force, vFsCp, vIndCp) ← calcForceWrapper L te le ns rho g V gamma "force_xyz"
  let pressure ← calcPressure force (fun i => (L i).normal) areas
  let pc ← calcPressureCoeff pressure rho V
  let (lift, _, _) ← calcForceWrapper L te le ns rho g V gamma "lift"
  let (drag, _, _) ← calcForceWrapper L te le ns rho g V gamma "drag"
  .ok ⟨gamma, vi, vf, force, vFsCp, vIndCp, pressure, pc, lift, drag⟩

/-- The arguments of `Vlm(...)`, `solver/vlm.py:23-30`, `52`. -/
structure VlmInput where
  panels : List Panel
  nc : ℕ
  ns : ℕ
  rho : ℝ
  wind : WindObj
  te : List Bool
  le : List Bool
  g : ℝ := -1

/-- The attributes of a `Vlm` object, `solver/vlm.py:21-50`. -/
structure Vlm where
  input : VlmInput
  areas : List ℝ
  vars : List PanelVars
  inlet : Inlet
  sol : VlmSolution vars.length

/-- `Vlm.__post_init__` after the inlet conditions, `solver/vlm.py:60-76`, with the winds at the
pressure points as a list.  The arrays have the same length; flags, areas and winds are read with a
default that is not used in this case (numba does not check bounds). -/
noncomputable def vlmSolve (a : VlmInput) (vars : List PanelVars) (V : List V3) :
    Py (VlmSolution vars.length) :=
  vlmCore (fun i : Fin vars.length => vars[i]) (fun i => (getPanelsArea a.panels).getD i 0)
    (fun i => a.te.getD i false) (fun i => a.le.getD i false) a.ns a.rho a.g (fun i => V.getD i 0)

/-- `Vlm.__post_init__`, `solver/vlm.py:54-76`. -/
noncomputable def vlm (a : VlmInput) : Py Vlm := do
  let vars ← nanTrap (calculateVlmVariables a.panels a.te a.g a.nc a.ns)
  let inlet ← nanTrap (inletConditions a.wind a.rho (vars.map PanelVars.cp))
  let sol ← vlmSolve a vars inlet.vAppInfs
  .ok ⟨a, getPanelsArea a.panels, vars, inlet, sol⟩

/-- The result attributes of a `Vlm` object as arrays, `solver/vlm.py:33-50`, `75-76`. -/
structure VlmArrays where
  gamma : List ℝ
  vIndCtrl : List V3
  vFsCtrl : List V3
  force : List V3
  vFsCp : List V3
  vIndCp : List V3
  pressure : List ℝ
  pCoeffs : List ℝ
  lift : List V3
  drag : List V3

/-- The arrays of a solution, `solver/vlm.py:33-50`, `75-76`. -/
def VlmSolution.arrays (s : VlmSolution K) : VlmArrays where
  gamma := List.ofFn s.gamma
  vIndCtrl := List.ofFn s.vIndCtrl
  vFsCtrl := List.ofFn s.vFsCtrl
  force := List.ofFn s.force
  vFsCp := List.ofFn s.vFsCp
  vIndCp := List.ofFn s.vIndCp
  pressure := List.ofFn s.pressure
  pCoeffs := List.ofFn s.pCoeffs
  lift := List.ofFn s.lift
  drag := List.ofFn s.drag

/-- The arrays of a `Vlm` object, `solver/vlm.py:33-50`, `75-76`. -/
def Vlm.out (r : Vlm) : VlmArrays := r.sol.arrays

/-- `Vlm.__post_init__`, `solver/vlm.py:54-76`, with any array of winds at the pressure points in
place of the one computed from `winds` (used to state properties for arbitrary wind fields). -/
noncomputable def vlmWithWinds (a : VlmInput) (V : List V3) : Py VlmArrays := do
  let vars ← nanTrap (calculateVlmVariables a.panels a.te a.g a.nc a.ns)
  let sol ← vlmSolve a vars V
  .ok sol.arrays

end PySailing
