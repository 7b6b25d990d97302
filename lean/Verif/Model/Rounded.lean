import Verif.Model.AnySolver

/-!
# `solver/vlm.py:60-68` with rounded arithmetic

The program computes with rounded numbers.  Here every routine between the lattice and the circulations is a parameter:
the influence coefficients, the right-hand side, the linear solver, the velocities at the control points and their
components along the normals.  The lattice and the winds are those of the exact model.
-/

namespace PySailing

/-- Routines in place of those of the program: `calc_velocity_coefs` (`solver/coefs.py:21-48`), `calculate_RHS`
(`solver/coefs.py:210-213`), `solve_eq` (`solver/coefs.py:216-225`), the total velocity of `calculate_app_fs`
(`solver/velocity.py:186-197`) and the flux of `is_no_flux_BC_satisfied` (`solver/forces.py:119-121`). -/
structure Routines where
  coefs : ∀ K : ℕ, (Fin K → PanelVars) → (Fin K → Bool) → (Fin K → V3) → ℝ →
    Py (Matrix (Fin K) (Fin K) ℝ × (Fin K → Fin K → V3))
  rhs : ∀ K : ℕ, (Fin K → V3) → (Fin K → V3) → Fin K → ℝ
  solve : LinearSolver
  appFs : ∀ K : ℕ, (Fin K → V3) → (Fin K → Fin K → V3) → (Fin K → ℝ) → Fin K → V3
  flux : ∀ K : ℕ, (Fin K → V3) → (Fin K → V3) → Fin K → ℝ

/-- The routines of the exact model, same lines. -/
noncomputable def exactRoutines : Routines where
  coefs _ L te V g := nanTrap (calcVelocityCoefs L te V g (fun i => (L i).ctrP))
  rhs _ := calculateRHS
  solve _ := solveEq
  appFs _ V c γ := (calculateAppFs V c γ).2
  flux _ v n i := -((v i).dot (n i))

variable {K : ℕ}

open Classical in
/-- Assembly, solution and no-flux check, `solver/vlm.py:62-68` with `solver/forces.py:119-131`, by the routines `R`: the
circulations. -/
noncomputable def solveLatticeBy (R : Routines) (L : Fin K → PanelVars) (areas : Fin K → ℝ) (te : Fin K → Bool)
    (g : ℝ) (V : Fin K → V3) : Py (Fin K → ℝ) := do
  let c ← R.coefs K L te V g
  let gamma ← R.solve K c.1 (R.rhs K V (fun i => (L i).normal))
  let flux := R.flux K (R.appFs K V c.2 gamma) (fun i => (L i).normal)
  if ∃ i, areas i < 1e-14 then .error .valueError
  else if ∃ i, |flux i| > 1e-12 then .error .valueError
  else .ok gamma

/-- The circulations `gamma_magnitude` of `Vlm.__post_init__`, `solver/vlm.py:54-68`, by the routines `R`. -/
noncomputable def circulationsBy (R : Routines) (a : VlmInput) : Py (List ℝ) := do
  let vars ← nanTrap (calculateVlmVariables a.panels a.te a.g a.nc a.ns)
  let inlet ← nanTrap (inletConditions a.wind a.rho (vars.map PanelVars.cp))
  let gamma ← solveLatticeBy R (fun i : Fin vars.length => vars[i]) (fun i => (getPanelsArea a.panels).getD i 0)
    (fun i => a.te.getD i false) a.g (fun i => inlet.vAppInfs.getD i 0)
  .ok (List.ofFn gamma)

end PySailing
