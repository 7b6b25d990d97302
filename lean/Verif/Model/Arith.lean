import Verif.Model.AnySolver

/-!
# `solver/` with any arithmetic

The functions from the panels and winds to forces and pressures once more, now with every addition, subtraction,
multiplication, division, scalar product, norm, literal and linear solution done by an arithmetic `A`, in the order of the
source text.  `Model/Solver.lean` is the same program with exact real numbers.  Signs and comparisons of machine numbers are
exact.
-/

namespace PySailing

/-- Operations on machine numbers used in `solver/*.py`: values of literals and of `np.pi`, the four operations,
`np.dot` and rows of matrix products (`solver/coefs.py:41`, `solver/coefs.py:211`, `solver/forces.py:115`),
`np.linalg.norm` and `np.linalg.solve` (`solver/coefs.py:224`). -/
structure Arith where
  lit : ℝ → ℝ
  add : ℝ → ℝ → ℝ
  sub : ℝ → ℝ → ℝ
  mul : ℝ → ℝ → ℝ
  div : ℝ → ℝ → ℝ
  dot : V3 → V3 → ℝ
  norm : V3 → ℝ
  solve : LinearSolver

/-- Exact operations: the arithmetic of `Model/Solver.lean`, `solver/coefs.py`, `solver/velocity.py`. -/
noncomputable def exactArith : Arith where
  lit x := x
  add x y := x + y
  sub x y := x - y
  mul x y := x * y
  div x y := x / y
  dot := V3.dot
  norm := V3.norm
  solve _ := solveEq

namespace Arith

variable (A : Arith)

/-- `a + b` of arrays of length three, `solver/velocity.py:134`. -/
def vadd (a b : V3) : V3 := ⟨A.add a.x b.x, A.add a.y b.y, A.add a.z b.z⟩

/-- `a - b` of arrays, `solver/velocity.py:36-38`. -/
def vsub (a b : V3) : V3 := ⟨A.sub a.x b.x, A.sub a.y b.y, A.sub a.z b.z⟩

/-- `s * a` of a number and an array, `solver/velocity.py:55-56`. -/
def vmul (s : ℝ) (a : V3) : V3 := ⟨A.mul s a.x, A.mul s a.y, A.mul s a.z⟩

/-- `a / s`, `solver/velocity.py:54`. -/
def vdiv (a : V3) (s : ℝ) : V3 := ⟨A.div a.x s, A.div a.y s, A.div a.z s⟩

/-- `np.cross(a, b)`, `solver/velocity.py:40`. -/
def cross (a b : V3) : V3 :=
  ⟨A.sub (A.mul a.y b.z) (A.mul a.z b.y), A.sub (A.mul a.z b.x) (A.mul a.x b.z), A.sub (A.mul a.x b.y) (A.mul a.y b.x)⟩

/-! ## `solver/velocity.py` -/

/-- The test `is_in_vortex_core([r1, r2, sq])`, `solver/velocity.py:8-19`, `48-49`; `sq` is the array
`[|r1 x r2|^2]`. -/
def inCore (p p1 p2 : V3) : Prop :=
  let c := A.cross (A.vsub p p1) (A.vsub p p2)
  A.norm (A.vsub p p1) < A.lit 1e-8 ∨ A.norm (A.vsub p p2) < A.lit 1e-8 ∨
    A.norm ⟨A.mul (A.norm c) (A.norm c), 0, 0⟩ < A.lit 1e-8

/-- `gamma / (4 * np.pi)`, `solver/velocity.py:56`, `81`. -/
noncomputable def strength (gamma : ℝ) : ℝ := A.div gamma (A.mul (A.lit 4) (A.lit Real.pi))

open Classical in
/-- `vortex_line(p, p1, p2, gamma)`, `solver/velocity.py:23-58`. -/
noncomputable def vortexLine (p p1 p2 : V3) (gamma : ℝ) : V3 :=
  let r0 := A.vsub p2 p1
  let r1 := A.vsub p p1
  let r2 := A.vsub p p2
  let c := A.cross r1 r2
  if A.inCore p p1 p2 then 0
  else
    let q := A.vdiv c (A.mul (A.norm c) (A.norm c))
    let q := A.vmul (A.dot r0 (A.vsub (A.vdiv r1 (A.norm r1)) (A.vdiv r2 (A.norm r2)))) q
    A.vmul (A.strength gamma) q

/-- No division by zero in `vortex_line`, `solver/velocity.py:54-56`. -/
def lineDefined (p p1 p2 : V3) : Prop :=
  let c := A.cross (A.vsub p p1) (A.vsub p p2)
  A.inCore p p1 p2 ∨ A.mul (A.norm c) (A.norm c) ≠ 0 ∧ A.norm (A.vsub p p1) ≠ 0 ∧ A.norm (A.vsub p p2) ≠ 0 ∧
    A.mul (A.lit 4) (A.lit Real.pi) ≠ 0

/-- The denominator `norm_ap * (norm_ap - np.dot(u_inf, ap))`, `solver/velocity.py:79-80`. -/
def wakeDen (P Q r0 : V3) : ℝ :=
  let u := A.vdiv r0 (A.norm r0)
  let ap := A.vsub P Q
  A.mul (A.norm ap) (A.sub (A.norm ap) (A.dot u ap))

/-- `vortex_infinite_line(P, A, r0, gamma)`, `solver/velocity.py:64-82`. -/
noncomputable def vortexInfiniteLine (P Q r0 : V3) (gamma : ℝ) : V3 :=
  A.vmul (A.strength gamma) (A.vdiv (A.cross (A.vdiv r0 (A.norm r0)) (A.vsub P Q)) (A.wakeDen P Q r0))

/-- No division by zero in `vortex_infinite_line`, `solver/velocity.py:75-81`. -/
def wakeDefined (P Q r0 : V3) : Prop :=
  A.norm r0 ≠ 0 ∧ A.wakeDen P Q r0 ≠ 0 ∧ A.mul (A.lit 4) (A.lit Real.pi) ≠ 0

/-- `vortex_horseshoe_v2(p, A, B, C, D, V, gamma)`, `solver/velocity.py:113-137`. -/
noncomputable def vortexHorseshoeV2 (p a b c d V : V3) (gamma : ℝ) : V3 :=
  A.vadd (A.vadd (A.vadd (A.vadd (A.vortexLine p a b gamma) (A.vortexLine p b c gamma)) (A.vortexLine p c d gamma))
    (A.vortexInfiniteLine p d V gamma)) (A.vortexInfiniteLine p a V (A.mul (A.lit (-1)) gamma))

/-- `vortex_ring(p, A, B, C, D, gamma)`, `solver/velocity.py:142-161`. -/
noncomputable def vortexRing (p a b c d : V3) (gamma : ℝ) : V3 :=
  A.vadd (A.vadd (A.vadd (A.vortexLine p a b gamma) (A.vortexLine p b c gamma)) (A.vortexLine p c d gamma))
    (A.vortexLine p d a gamma)

/-! ## `solver/coefs.py`, `solver/panels.py` -/

/-- `np.cross(vect_A, vect_B)`, `solver/coefs.py:149-150`, `165`. -/
def normalRaw (q : Panel) : V3 := A.cross (A.vsub q.p3 q.p1) (A.vsub q.p4 q.p2)

/-- `B`, `n_B`, `solver/coefs.py:159-162`, `181-184`. -/
noncomputable def quarterB (q : Panel) : V3 := A.vadd q.p2 (A.vdiv (A.vsub q.p1 q.p2) (A.lit 4))

/-- `C`, `n_C`, `solver/coefs.py:160-163`, `182-185`. -/
noncomputable def quarterC (q : Panel) : V3 := A.vadd q.p3 (A.vdiv (A.vsub q.p4 q.p3) (A.lit 4))

/-- `A` of a trailing edge panel, `solver/coefs.py:171`. -/
noncomputable def behindA (q : Panel) : V3 := A.vadd q.p1 (A.vdiv (A.vsub q.p1 q.p2) (A.lit 4))

/-- `D` of a trailing edge panel, `solver/coefs.py:172`. -/
noncomputable def behindD (q : Panel) : V3 := A.vadd q.p4 (A.vdiv (A.vsub q.p4 q.p3) (A.lit 4))

/-- The row of a panel whose ring ends at `a`, `d`, `solver/coefs.py:143-194`. -/
noncomputable def panelVars (g : ℝ) (q : Panel) (a d : V3) : PanelVars :=
  let leMid := A.vdiv (A.vadd q.p2 q.p3) (A.lit 2)
  let teMid := A.vdiv (A.vadd q.p1 q.p4) (A.lit 2)
  let dist := A.vsub teMid leMid
  { normal := A.vdiv (A.normalRaw q) (A.norm (A.normalRaw q))
    ctrP := A.vadd leMid (A.vmul (A.lit 0.75) dist)
    cp := A.vadd leMid (A.vmul (A.lit 0.25) dist)
    ring := ⟨a, A.quarterB q, A.quarterC q, d⟩
    span := A.vmul g (A.vsub (A.quarterC q) (A.quarterB q))
    leMid := leMid
    teMid := teMid }

/-- One iteration of `get_panels_area`, `solver/panels.py:117-130`. -/
noncomputable def panelArea (q : Panel) : ℝ :=
  let s0 := A.vsub q.p2 q.p1
  let s1 := A.vsub q.p3 q.p2
  let s2 := A.vsub q.p4 q.p3
  A.add (A.add 0 (A.mul (A.lit 0.5) (A.norm (A.cross s0 s1)))) (A.mul (A.lit 0.5) (A.norm (A.cross s1 s2)))

end Arith

/-- Body of the inner loop of `calculate_vlm_variables`, `solver/coefs.py:141-194`, with `own` for what is computed from a
trailing edge panel and `inner` for what is computed from another panel and the next one. -/
def variablesAt {α β : Type} (own : α → β) (inner : α → α → β) (nc ns : ℕ) (grid : List α) (teGrid : List Bool) (k : ℕ) :
    Py β := do
  let q ← idx grid k
  if nc * ns ≤ k then .error .indexError
  else
    let te ← idx teGrid k
    if te then .ok (own q)
    else
      let next ← idx grid (k + ns)
      .ok (inner q next)

open Classical in
/-- The loops of `calculate_vlm_variables`, `solver/coefs.py:126-207`; `bad` marks the panels whose normal is a `nan`. -/
noncomputable def variablesOf {α β : Type} (own : α → β) (inner : α → α → β) (bad : α → Prop) (panels : List α) (te : List Bool)
    (nc ns : ℕ) : Py (List β) :=
  if nc * ns = 0 then .error .zeroDivision
  else do
    let G := panels.length / (nc * ns)
    let chunks ← arraySplit panels G
    let teChunks ← arraySplit te G
    let vars ← (chunks.zip teChunks).mapM fun c =>
      (List.range c.1.length).mapM (variablesAt own inner nc ns c.1 c.2)
    if G * (nc * ns) ≠ panels.length then .error .valueError
    else if ∃ q ∈ panels, bad q then .error .nonFinite
    else .ok vars.flatten

namespace Arith

variable (A : Arith)

/-- `calculate_vlm_variables(...)`, `solver/coefs.py:115-207`. -/
noncomputable def calculateVlmVariables (panels : List Panel) (te : List Bool) (g : ℝ) (nc ns : ℕ) : Py (List PanelVars) :=
  variablesOf (fun q => A.panelVars g q (A.behindA q) (A.behindD q)) (fun q n => A.panelVars g q (A.quarterB n) (A.quarterC n))
    (fun q => A.norm (A.normalRaw q) = 0) panels te nc ns

variable {K : ℕ}

/-- The vector `a` of `calc_velocity_coefs`, `solver/coefs.py:30-40`. -/
noncomputable def velCoef (L : Fin K → PanelVars) (te : Fin K → Bool) (V : Fin K → V3) (g : ℝ) (p : V3) (j : Fin K) : V3 :=
  let r := (L j).ring
  if te j then A.vortexHorseshoeV2 p r.A r.B r.C r.D (V j) g
  else A.vortexRing p r.A r.B r.C r.D g

/-- No entry computed by `calc_velocity_coefs` is a `nan` or infinite, `solver/coefs.py:38-40`. -/
def coefsDefined (L : Fin K → PanelVars) (te : Fin K → Bool) (V : Fin K → V3) (pts : Fin K → V3) : Prop :=
  ∀ i j, A.lineDefined (pts i) (L j).ring.A (L j).ring.B ∧ A.lineDefined (pts i) (L j).ring.B (L j).ring.C ∧
    A.lineDefined (pts i) (L j).ring.C (L j).ring.D ∧ (te j = false → A.lineDefined (pts i) (L j).ring.D (L j).ring.A) ∧
    (te j = true → A.wakeDefined (pts i) (L j).ring.D (V j) ∧ A.wakeDefined (pts i) (L j).ring.A (V j))

open Classical in
/-- `calc_velocity_coefs(...)`, `solver/coefs.py:21-48`. -/
noncomputable def calcVelocityCoefs (L : Fin K → PanelVars) (te : Fin K → Bool) (V : Fin K → V3) (g : ℝ) (pts : Fin K → V3) :
    Py (Matrix (Fin K) (Fin K) ℝ × (Fin K → Fin K → V3)) :=
  if A.coefsDefined L te V pts then
    .ok (fun i j => A.dot (A.velCoef L te V g (pts i) j) (L i).normal, fun i j => A.velCoef L te V g (pts i) j)
  else .error .nonFinite

/-- `calculate_RHS(V_app_infw, normals)`, `solver/coefs.py:210-213`. -/
def calculateRHS (V normals : Fin K → V3) : Fin K → ℝ := fun i => -A.dot (V i) (normals i)

/-- `calc_induced_velocity(v_ind_coeff, gamma_magnitude)`, `solver/velocity.py:168-183`: the loop over `j`. -/
def calcInducedVelocity (c : Fin K → Fin K → V3) (gamma : Fin K → ℝ) : Fin K → V3 :=
  fun i => (List.finRange K).foldl (fun s j => A.vadd s (A.vmul (gamma j) (c i j))) 0

/-- `calculate_app_fs(V_app_infs, v_ind_coeff, gamma_magnitude)`, `solver/velocity.py:186-197`. -/
def calculateAppFs (V : Fin K → V3) (c : Fin K → Fin K → V3) (gamma : Fin K → ℝ) : (Fin K → V3) × (Fin K → V3) :=
  let ind := A.calcInducedVelocity c gamma
  (ind, fun i => A.vadd (V i) (ind i))

open Classical in
/-- `is_no_flux_BC_satisfied(V_app_fw, panels, areas, normals)`, `solver/forces.py:119-131`. -/
noncomputable def isNoFluxBCSatisfied (V : Fin K → V3) (areas : Fin K → ℝ) (normals : Fin K → V3) : Py Bool :=
  if ∃ i, areas i < A.lit 1e-14 then .error .valueError
  else if ∃ i, |-A.dot (V i) (normals i)| > A.lit 1e-12 then .error .valueError
  else .ok true

/-- Assembly, solution and no-flux assertion, `solver/vlm.py:62-68`. -/
noncomputable def solveLattice (L : Fin K → PanelVars) (areas : Fin K → ℝ) (te : Fin K → Bool) (g : ℝ) (V : Fin K → V3) :
    Py ((Fin K → ℝ) × (Fin K → V3) × (Fin K → V3)) := do
  let c ← nanTrap (A.calcVelocityCoefs L te V g (fun i => (L i).ctrP))
  let gamma ← A.solve K c.1 (A.calculateRHS V (fun i => (L i).normal))
  let v := A.calculateAppFs V c.2 gamma
  let ok ← A.isNoFluxBCSatisfied v.2 areas (fun i => (L i).normal)
  if ok then .ok (gamma, v.1, v.2) else .error .assertionError

/-! ## `solver/forces.py`, `solver/vlm.py` -/

/-- Bound vortex strength used for the force on panel `i`, `solver/forces.py:104-108`. -/
def gammaForForce (le : Fin K → Bool) (gamma : Fin K → ℝ) (ns : ℕ) (i : Fin K) : ℝ :=
  if le i || case1x1 le then gamma i else A.sub (gamma i) (gamma (wrapIndex i ns))

/-- `force[i]`, `solver/forces.py:104-109`. -/
def panelForce (L : Fin K → PanelVars) (le : Fin K → Bool) (ns : ℕ) (rho : ℝ) (gamma : Fin K → ℝ) (V : Fin K → V3) (i : Fin K) :
    V3 :=
  A.vmul rho (A.cross (V i) (A.vmul (A.gammaForForce le gamma ns i) (L i).span))

open Classical in
/-- `calc_force_wrapper(...)`, `solver/forces.py:51-111`. -/
noncomputable def calcForceWrapper (L : Fin K → PanelVars) (te le : Fin K → Bool) (ns : ℕ) (rho g : ℝ) (V : Fin K → V3)
    (gamma : Fin K → ℝ) (name : String) : Py ((Fin K → V3) × (Fin K → V3) × (Fin K → V3)) :=
  if ¬ (name = "lift" ∨ name = "drag" ∨ name = "force_xyz") then .error (.sysExit 0)
  else do
    let c ← A.calcVelocityCoefs L te V g (fun i => (L i).cp)
    let v := A.calculateAppFs V c.2 gamma
    let Vcalc := if name = "lift" then V else if name = "drag" then v.1 else v.2
    if ∃ i, (le i || case1x1 le) = false ∧ ¬ wrapOk i ns then .error .indexError
    else .ok (A.panelForce L le ns rho gamma Vcalc, v.2, v.1)

open Classical in
/-- `calc_pressure(forces, normals, areas)`, `solver/forces.py:114-116`. -/
noncomputable def calcPressure (force normals : Fin K → V3) (areas : Fin K → ℝ) : Py (Fin K → ℝ) :=
  if ∃ i, areas i = 0 then .error .nonFinite
  else .ok fun i => A.div (A.dot (force i) (normals i)) (areas i)

open Classical in
/-- `calc_pressure_coeff(pressure, rho, V)`, `solver/forces.py:133-144`. -/
noncomputable def calcPressureCoeff (pressure : Fin K → ℝ) (rho : ℝ) (V : Fin K → V3) : Py (Fin K → ℝ) :=
  if ∃ i, A.mul (A.mul (A.lit 0.5) rho) (A.dot (V i) (V i)) = 0 then .error .nonFinite
  else .ok fun i => A.div (pressure i) (A.mul (A.mul (A.lit 0.5) rho) (A.dot (V i) (V i)))

/-- `Vlm.__post_init__` from the influence coefficients on, `solver/vlm.py:60-76`. -/
noncomputable def vlmCore (L : Fin K → PanelVars) (areas : Fin K → ℝ) (te le : Fin K → Bool) (ns : ℕ) (rho g : ℝ)
    (V : Fin K → V3) : Py (VlmSolution K) := do
  let (gamma, vi, vf) ← A.solveLattice L areas te g V
  let (force, vFsCp, vIndCp) ← A.calcForceWrapper L te le ns rho g V gamma "force_xyz"
  let pressure ← A.calcPressure force (fun i => (L i).normal) areas
  let pc ← A.calcPressureCoeff pressure rho V
  let (lift, _, _) ← A.calcForceWrapper L te le ns rho g V gamma "lift"
  let (drag, _, _) ← A.calcForceWrapper L te le ns rho g V gamma "drag"
  .ok ⟨gamma, vi, vf, force, vFsCp, vIndCp, pressure, pc, lift, drag⟩

/-- `Vlm.__post_init__`, `solver/vlm.py:54-76`, with the winds at the pressure points given; arrays are read as in
`vlmSolve`. -/
noncomputable def vlmWithWinds (a : VlmInput) (V : List V3) : Py VlmArrays := do
  let vars ← nanTrap (A.calculateVlmVariables a.panels a.te a.g a.nc a.ns)
  let sol ← A.vlmCore (fun i : Fin vars.length => vars[i]) (fun i => (a.panels.map A.panelArea).getD i 0)
    (fun i => a.te.getD i false) (fun i => a.le.getD i false) a.ns a.rho a.g (fun i => V.getD i 0)
  .ok sol.arrays

end Arith

end PySailing
