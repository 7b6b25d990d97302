import Verif.Model.Solver

/-!
# Force coefficients: the rest of `solver/coefs.py`, section plots of the command line run
-/

namespace PySailing

/-! ## Section coefficients -/

/-- `x.reshape(n_chordwise, n_spanwise)[:, j]`, `solver/coefs.py:281`, `283`, `318`. -/
def stripColumn {α : Type} (nc ns : ℕ) (xs : List α) (j : ℕ) : Py (List α) :=
  if xs.length ≠ nc * ns then .error .valueError
  else (List.range nc).mapM fun m => idx xs (m * ns + j)

open Classical in
/-- The coefficient of one panel, `solver/coefs.py:274`. -/
noncomputable def panelC (rho : ℝ) (x : (V3 × V3) × ℝ) : Py ℝ :=
  let d := 0.5 * rho * x.1.2.norm ^ 2 * x.2
  if d = 0 then .error .nonFinite else .ok (x.1.1.norm / d)

open Classical in
/-- The coefficient of strip `j` of a sail with panel coefficients `c` and areas `a`,
`solver/coefs.py:279-287`. -/
noncomputable def sectionC (nc ns : ℕ) (c a : List ℝ) (j : ℕ) : Py ℝ := do
  let cs ← stripColumn nc ns c j
  let as ← stripColumn nc ns a j
  if as.sum = 0 then .error .nonFinite else .ok ((List.zipWith (· * ·) cs as).sum / as.sum)

/-- The body of the loop over sails of `get_C`, `solver/coefs.py:272-289`. -/
noncomputable def sailC (nc ns : ℕ) (rho : ℝ) (force wind : List V3) (areas : List ℝ) :
    Py (List ℝ) := do
  let c ← ((force.zip wind).zip areas).mapM (panelC rho)
  (List.range ns).mapM (sectionC nc ns c areas)

/-- `get_C(panels, areas, force, wind, n_spanwise, n_chordwise, rho)`, `solver/coefs.py:259-290`;
`K` is `panels.shape[0]`.  Simplification: `areas`, `force` and `wind` are assumed to have the same
length (as in a `Vlm` object), so elementwise operations do not fail. -/
noncomputable def getC (K : ℕ) (areas : List ℝ) (force wind : List V3) (ns nc : ℕ) (rho : ℝ) :
    Py (List (List ℝ)) :=
  if ns * nc * 2 = 0 then .error .zeroDivision
  else do
    let k := K / (ns * nc * 2)
    let winds ← npSplit wind (2 * k)
    let forces ← npSplit force (2 * k)
    let sailAreas ← npSplit areas (2 * k)
    (List.range k).mapM fun i => do
      let f ← idx forces i
      let w ← idx winds i
      let a ← idx sailAreas i
      sailC nc ns rho f w a

/-- `cl` of `get_data_for_coeff_plot`, `solver/coefs.py:301`. -/
noncomputable def Vlm.sectionLift (r : Vlm) : Py (List (List ℝ)) :=
  getC r.input.panels.length r.areas r.out.lift r.inlet.vAppInfs r.input.ns r.input.nc r.input.rho

/-- `cd` of `get_data_for_coeff_plot`, `solver/coefs.py:302`. -/
noncomputable def Vlm.sectionDrag (r : Vlm) : Py (List (List ℝ)) :=
  getC r.input.panels.length r.areas r.out.drag r.inlet.vAppInfs r.input.ns r.input.nc r.input.rho

/-- The three lists returned by `get_data_for_coeff_plot`, `solver/coefs.py:330`. -/
structure CoeffPlotData where
  meanCpZ : List (List ℝ)
  lift : List (List ℝ)
  drag : List (List ℝ)

open Classical in
/-- `CLs[i]` and the normalised `cl[i] / CLs[i]`, `solver/coefs.py:325-328`. -/
noncomputable def normalisedC (sectionAreas c : List ℝ) : Py (List ℝ) :=
  if sectionAreas.sum = 0 then .error .nonFinite
  else
    let C := (List.zipWith (· * ·) sectionAreas c).sum / sectionAreas.sum
    if C = 0 then .error .nonFinite else .ok (c.map (· / C))

/-- The body of the loop over sails of `get_data_for_coeff_plot`, `solver/coefs.py:316-328`. -/
noncomputable def coeffPlotSail (nc ns : ℕ) (areas : List ℝ) (cps : List V3) (cl cd : List ℝ) :
    Py (List ℝ × List ℝ × List ℝ) := do
  let sectionAreas ← (List.range ns).mapM fun j => do
    let as ← stripColumn nc ns areas j
    .ok as.sum
  let z ← (List.range ns).mapM fun j => do
    let zs ← stripColumn nc ns (cps.map V3.z) j
    .ok (zs.sum / nc)
  let l ← normalisedC sectionAreas cl
  let d ← normalisedC sectionAreas cd
  .ok (z, l, d)

/-- `get_data_for_coeff_plot(myvlm, solver)`, `solver/coefs.py:293-330`, with `nc`, `ns` the sizes
in `solver`. -/
noncomputable def coeffPlotData (r : Vlm) (nc ns : ℕ) : Py CoeffPlotData := do
  let cl ← r.sectionLift
  let cd ← r.sectionDrag
  if ns * nc * 2 = 0 then .error .zeroDivision
  else
    let k := r.input.panels.length / (ns * nc * 2)
    let sailAreas ← npSplit r.areas (2 * k)
    let sailCps ← npSplit (r.vars.map PanelVars.cp) (2 * k)
    let rows ← (List.range k).mapM fun i => do
      let a ← idx sailAreas i
      let p ← idx sailCps i
      let l ← idx cl i
      let d ← idx cd i
      coeffPlotSail nc ns a p l d
    .ok ⟨rows.map (·.1), rows.map (·.2.1), rows.map (·.2.2)⟩

/-! ## Section plots -/

/-- A scatter plot: file name, label of the horizontal axis, and for every series label, marker,
colour and the two coordinate lists. -/
structure Figure where
  file : String
  xlabel : String
  series : List (String × String × String × List ℝ × List ℝ)

/-- `plot_section_coeff(x_data, y_data, file_name, coeff_name, colors)`,
`solver/panels_plotter.py:372-409`; `lbs` and `markers` have two entries.  `scatter` raises
`ValueError` for coordinate lists of different lengths.  Drawing itself is not modelled. -/
def plotSectionCoeff (x y : List (List ℝ)) (name : String) (colors : List String) : Py Figure :=
  if ¬ (name = "lift" ∨ name = "drag") then .error (.sysExit 1)
  else do
    let series ← (List.range y.length).mapM fun i => do
      let xs ← idx x i
      let ys ← idx y i
      let lb ← idx ["jib", "main"] i
      let mk ← idx ["o", "^"] i
      let co ← idx colors i
      if xs.length ≠ ys.length then .error .valueError else .ok (lb, mk, co, xs, ys)
    .ok ⟨if name = "drag" then "section_cd" else "section_cl",
      if name = "drag" then "Section $c_d$" else "Section $c_l$", series⟩

/-- The last three lines of the command line program, `runner/cli.py:91-93`. -/
def cliSectionPlots (d : CoeffPlotData) : Py (Figure × Figure) := do
  let f1 ← plotSectionCoeff d.drag d.meanCpZ "lift" ["blue", "green"]
  let f2 ← plotSectionCoeff d.lift d.meanCpZ "drag" ["teal", "purple"]
  .ok (f1, f2)

/-! ## Free wing -/

open Classical in
/-- `get_CL_CD_free_wing(AR, AoA_deg)`, `solver/coefs.py:246-256`, with `e_w = 0.8`. -/
noncomputable def getCLCDFreeWing (AR aoaDeg : ℝ) : Py (ℝ × ℝ) :=
  let a0 := 2 * Real.pi
  let ew : ℝ := 0.8
  let q := Real.pi * AR * ew
  if q = 0 then .error .zeroDivision
  else if 1 + a0 / q = 0 then .error .zeroDivision
  else
    let CL := a0 / (1 + a0 / q) * deg2rad aoaDeg
    .ok (CL, CL * CL / q)

open Classical in
/-- `get_vlm_Cxyz(F, V, rho, S)`, `solver/coefs.py:238-244`. -/
noncomputable def getVlmCxyz (F : List V3) (V : V3) (rho S : ℝ) : Py V3 :=
  let q := 0.5 * rho * V.norm ^ 2 * S
  if q = 0 then .error .nonFinite else .ok ((1 / q) • F.sum)

open Classical in
/-- `get_vlm_CL_CD_free_wing(F, V, rho, S)`, `solver/coefs.py:229-236`. -/
noncomputable def getVlmCLCD (F : List V3) (V : V3) (rho S : ℝ) : Py (ℝ × ℝ) :=
  let q := 0.5 * rho * V.norm ^ 2 * S
  if q = 0 then .error .nonFinite else .ok (F.sum.z / q, F.sum.x / q)

end PySailing
