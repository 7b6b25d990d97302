import Verif.Model.Solver

/-!
# `solver/vlm.py` with any routine in place of `np.linalg.solve`

`np.linalg.solve` (`solver/coefs.py:216-225`) is a library routine that works with rounded numbers.  Here it is a
parameter: whatever the routine returns is handed on to the no-flux check and to the forces.
-/

namespace PySailing

/-- A routine for linear systems: the matrix and the right-hand side to a vector, or an exception,
`solver/coefs.py:216-225` (`solve_eq`). -/
abbrev LinearSolver := ∀ K : ℕ, Matrix (Fin K) (Fin K) ℝ → (Fin K → ℝ) → Py (Fin K → ℝ)

variable {K : ℕ}

/-- Assembly, solution and no-flux assertion, `solver/vlm.py:62-68`, with `solve` for `solve_eq`. -/
noncomputable def solveLatticeWith (solve : LinearSolver) (L : Fin K → PanelVars) (areas : Fin K → ℝ) (te : Fin K → Bool)
    (g : ℝ) (V : Fin K → V3) : Py ((Fin K → ℝ) × (Fin K → V3) × (Fin K → V3)) := do
  let c ← nanTrap (calcVelocityCoefs L te V g (fun i => (L i).ctrP))
  let rhs := calculateRHS V (fun i => (L i).normal)
  let gamma ← solve K c.1 rhs
  let v := calculateAppFs V c.2 gamma
  let ok ← isNoFluxBCSatisfied v.2 areas (fun i => (L i).normal)
  if ok then .ok (gamma, v.1, v.2) else .error .assertionError

/-- `Vlm.__post_init__` from the influence coefficients on, `solver/vlm.py:60-76`, with `solve` for `solve_eq`. -/
noncomputable def vlmCoreWith (solve : LinearSolver) (L : Fin K → PanelVars) (areas : Fin K → ℝ) (te le : Fin K → Bool)
    (ns : ℕ) (rho g : ℝ) (V : Fin K → V3) : Py (VlmSolution K) := do
  let (gamma, vi, vf) ← solveLatticeWith solve L areas te g V
  let (force, vFsCp, vIndCp) ← calcForceWrapper L te le ns rho g V gamma "force_xyz"
  let pressure ← calcPressure force (fun i => (L i).normal) areas
  let pc ← calcPressureCoeff pressure rho V
  let (lift, _, _) ← calcForceWrapper L te le ns rho g V gamma "lift"
  let (drag, _, _) ← calcForceWrapper L te le ns rho g V gamma "drag"
  .ok ⟨gamma, vi, vf, force, vFsCp, vIndCp, pressure, pc, lift, drag⟩

/-- `Vlm.__post_init__`, `solver/vlm.py:54-76`, with `solve` for `solve_eq`; arrays are read as in `vlmSolve`. -/
noncomputable def vlmWith (solve : LinearSolver) (a : VlmInput) : Py Vlm := do
  let vars ← nanTrap (calculateVlmVariables a.panels a.te a.g a.nc a.ns)
  let inlet ← nanTrap (inletConditions a.wind a.rho (vars.map PanelVars.cp))
  let sol ← vlmCoreWith solve (fun i : Fin vars.length => vars[i]) (fun i => (getPanelsArea a.panels).getD i 0)
    (fun i => a.te.getD i false) (fun i => a.le.getD i false) a.ns a.rho a.g (fun i => inlet.vAppInfs.getD i 0)
  .ok ⟨a, getPanelsArea a.panels, vars, inlet, sol⟩

end PySailing
