import Verif.Model.Coefs
import Verif.Model.Csys

/-!
# `runner/aircraft.py`
-/

namespace PySailing

/-- Arguments of `Aircraft(...)`, `runner/aircraft.py:15`.  Panel counts are natural numbers;
`V` is an array of three floats. -/
structure AircraftInput where
  chord : ℝ
  half : ℝ
  aoaDeg : ℝ
  ns : ℕ
  nc : ℕ
  V : V3
  rho : ℝ := 1.225
  g : ℝ := 1

/-- The panels of the wing, `runner/aircraft.py:41-53`: corners at `z = ∓ half_wing_span`, rotated by
`-AoA` about the z axis. -/
noncomputable def AircraftInput.panelSet (a : AircraftInput) : Py PanelSet := do
  let Rz ← rotationMatrix Csys.ez (deg2rad (-a.aoaDeg))
  .ok (makePanelsFromLeTePoints (Rz.mulVec ⟨0, 0, -a.half⟩) (Rz.mulVec ⟨a.chord, 0, -a.half⟩)
    (Rz.mulVec ⟨0, 0, a.half⟩) (Rz.mulVec ⟨a.chord, 0, a.half⟩) a.nc a.ns)

/-- `self.__S`, `runner/aircraft.py:28`. -/
noncomputable def AircraftInput.S (a : AircraftInput) : ℝ := 2 * a.half * a.chord

/-- Attributes of an `Aircraft` object, `runner/aircraft.py:16-73`. -/
structure Aircraft where
  input : AircraftInput
  AR : ℝ
  CLTheoretical : ℝ
  CDTheoretical : ℝ
  panelSet : PanelSet
  vars : List PanelVars
  gamma : Fin vars.length → ℝ
  force : Fin vars.length → V3
  pressure : Fin vars.length → ℝ
  CL : ℝ
  CD : ℝ
  Cp : ℝ

open Classical in
/-- `Aircraft.__init__`, `runner/aircraft.py:15-73`.  Without panels the array of winds has one
dimension only and the compiled `calc_velocity_coefs` refuses it (`TypeError`).  The quotient for `Cp`
(line 73) is finite when the one in `get_vlm_CL_CD_free_wing` is. -/
noncomputable def aircraft (a : AircraftInput) : Py Aircraft := do
  if a.chord = 0 then .error .zeroDivision
  else
    let AR := 2 * a.half / a.chord
    let th ← getCLCDFreeWing AR a.aoaDeg
    let ps ← a.panelSet
    if ps.panels = [] then .error .typeError
    else
      let vars ← nanTrap (calculateAircraftVariables ps.panels a.g)
      let L : Fin vars.length → PanelVars := fun i => vars[i]
      let te : Fin vars.length → Bool := fun i => ps.te.getD i false
      let le : Fin vars.length → Bool := fun i => ps.le.getD i false
      let areas : Fin vars.length → ℝ := fun i => (getPanelsArea ps.panels).getD i 0
      let s ← solveLattice L areas te a.g (fun _ => a.V)
      let f ← calcForceWrapper L te le a.ns a.rho a.g (fun _ => a.V) s.1 "force_xyz"
      let p ← calcPressure f.1 (fun i => (L i).normal) areas
      let c ← getVlmCLCD (List.ofFn f.1) a.V a.rho a.S
      .ok ⟨a, AR, th.1, th.2, ps, vars, s.1, f.1, p, c.1, c.2,
        (List.ofFn p).sum / (0.5 * a.rho * a.V.norm ^ 2 * a.S)⟩

/-- `Aircraft.Cxyz`, `runner/aircraft.py:84-89`. -/
noncomputable def Aircraft.Cxyz (w : Aircraft) : Py V3 :=
  getVlmCxyz (List.ofFn w.force) w.input.V w.input.rho w.input.S

end PySailing
