import Verif.Model.Coefs
import Verif.Model.Results
import Verif.Model.Hull

/-!
# `solver/panels_plotter.py`

What is drawn, as data: polygons with the number that determines their colour, arrows with both ends,
colour and opacity, axis limits.  Not modelled: matplotlib's and holoviews' rendering of these data,
figure sizes, titles of axes, colour maps.
-/

namespace PySailing

/-- An `Arrow3D(vx, vy, vz, color=..., alpha=...)`, `solver/panels_plotter.py:30-33`. -/
structure Arrow where
  tail : V3
  tip : V3
  color : String
  alpha : ℝ

/-! ## Panels and water -/

/-- The numbers that colour the panels, `solver/panels_plotter.py:87-93`. -/
def colourData (r : Vlm) (mode : String) : List ℝ :=
  if mode = "gamma_magnitude" then r.out.pressure
  else if mode = "p_coeffs" then r.out.pCoeffs
  else r.out.pressure

/-- `min` of a list, `solver/panels_plotter.py:94`; `ValueError` for an empty one. -/
noncomputable def pyMin : List ℝ → Py ℝ
  | [] => .error .valueError
  | x :: xs => .ok (xs.foldl min x)

/-- `int(1.1*math.ceil(max(max(abs(leading_mid_points[:, 2])), max(abs(trailing_mid_points[:, 2])))))`,
`solver/panels_plotter.py:107`, `166`. -/
noncomputable def waterSize (leMid teMid : List V3) : Py ℤ := do
  let a ← pyMax (leMid.map fun p => |p.z|)
  let b ← pyMax (teMid.map fun p => |p.z|)
  .ok ⌊(1.1 : ℝ) * (⌈max a b⌉ : ℤ)⌋

/-- What `display_panels_xyz` draws and returns: coloured panels, ends of the colour scale, size of the
water surface, and the limits of the three axes, `solver/panels_plotter.py:49-113`. -/
structure PanelPlot where
  polygons : List (Panel × ℝ)
  vmin : ℝ
  vmax : ℝ
  water : ℤ
  xlim : ℝ × ℝ
  ylim : ℝ × ℝ
  zlim : ℝ × ℝ

/-- The limits set by `set_ax_eq`, `solver/panels_plotter.py:76-83`, for the water surface
`range(-water_size, water_size)` squared at height 0 (lines 108-112).  An empty range has no maximum,
`ValueError`. -/
noncomputable def axisLimits (water : ℤ) : Py ((ℝ × ℝ) × (ℝ × ℝ) × (ℝ × ℝ)) :=
  if water ≤ 0 then .error .valueError
  else
    let lo : ℝ := -(water : ℝ)
    let hi : ℝ := (water : ℝ) - 1
    let range := max (max (hi - lo) (hi - lo)) (0 - 0) / 2
    let mid := (hi + lo) * 0.5
    let midz := (0 + 0 : ℝ) * 0.5
    .ok ((mid - range, mid + range), (mid - range, mid + range), (midz - range, midz + range))

/-- `display_panels_xyz(vlm, color_panels_by)`, `solver/panels_plotter.py:49-113`. -/
noncomputable def displayPanels (r : Vlm) (mode : String) : Py PanelPlot := do
  let data := colourData r mode
  let lo ← pyMin data
  let hi ← pyMax data
  let w ← waterSize (r.vars.map PanelVars.leMid) (r.vars.map PanelVars.teMid)
  let l ← axisLimits w
  .ok ⟨r.input.panels.zip data, lo, hi, w, l.1, l.2.1, l.2.2⟩

/-! ## Winds -/

/-- `xs[0::n]`, `solver/panels_plotter.py:217`. -/
def sliceStep {α : Type} (xs : List α) (n : ℕ) : List α :=
  (List.range xs.length).filterMap fun i => if i % n = 0 then xs[i]? else none

/-- The block `np.split(arr, n_chordwise*l)[0::n_chordwise].reshape(sh0 * sh1, 3)`,
`solver/panels_plotter.py:215-219`, `221-225`, `227-231`, `237-241`. -/
def firstRows {α : Type} (arr : List α) (nc l : ℕ) : Py (List α) := do
  let chunks ← npSplit arr (nc * l)
  .ok (sliceStep chunks nc).flatten

/-- The local variables of the drawing loop, `solver/panels_plotter.py:253-264`. -/
structure WindLoop where
  shiftX : ℝ
  shiftY : ℝ
  counter : ℕ

/-- `assert arr.shape[0] == n_spanwise * l` for all winds, `solver/panels_plotter.py:245-246`. -/
def assertShapes (winds : List (List V3 × String)) (n : ℕ) : Py Unit :=
  if winds.all fun w => w.1.length = n then .ok () else .error .assertionError

/-- `draw_color`, `color_counter` and the shifts at the beginning of the loop body,
`solver/panels_plotter.py:257-264`. -/
noncomputable def windStart (colors : List String) (cps : List V3) (ns : ℕ) (color : String) (st : WindLoop)
    (i : ℕ) : Py (WindLoop × String) :=
  if color = "red" then do
    let c := if i % ns = 0 ∧ i ≠ 0 then st.counter + 1 else st.counter
    let draw ← idx colors c
    let p ← idx cps i
    .ok (⟨p.x, p.y, c⟩, draw)
  else .ok (st, color)

open Classical in
/-- One pass of the inner loop, `solver/panels_plotter.py:256-274`. -/
noncomputable def windStep (colors : List String) (cps : List V3) (ns : ℕ) (wind : List V3)
    (color : String) (st : WindLoop) (i : ℕ) : Py (WindLoop × Arrow) := do
  let s ← windStart colors cps ns color st i
  let v ← idx wind i
  let p ← idx cps i
  .ok (s.1, ⟨⟨s.1.shiftX, s.1.shiftY, p.z⟩, ⟨s.1.shiftX + v.x, s.1.shiftY + v.y, p.z⟩, s.2,
    if p.z > 0 then 0.75 else 0.05⟩)

/-- The inner loop over the indices `is`, `solver/panels_plotter.py:255-274`: the arrows added, in
order. -/
noncomputable def windLoop (colors : List String) (cps : List V3) (ns : ℕ) (wind : List V3)
    (color : String) : WindLoop → List ℕ → Py (WindLoop × List Arrow)
  | st, [] => .ok (st, [])
  | st, i :: is => do
    let a ← windStep colors cps ns wind color st i
    let rest ← windLoop colors cps ns wind color a.1 is
    .ok (rest.1, a.2 :: rest.2)

/-- The outer loop over the winds, `solver/panels_plotter.py:254-274`. -/
noncomputable def windLoops (colors : List String) (cps : List V3) (ns n : ℕ) :
    WindLoop → List (List V3 × String) → Py (List Arrow)
  | _, [] => .ok []
  | st, w :: ws => do
    let a ← windLoop colors cps ns w.1 w.2 st (List.range n)
    let rest ← windLoops colors cps ns n a.1 ws
    .ok (a.2 ++ rest)

/-- `app_induced_colors`, `solver/panels_plotter.py:248-250`. -/
def inducedColors (l : ℕ) : List String :=
  if l = 2 then ["peru", "red"] else ["peru", "red", "peru", "red"]

/-- The winds to draw and their colours, `solver/panels_plotter.py:234-243`; the induced velocity only on
request. -/
noncomputable def windsToDraw (tws app ind : List V3) (nc l : ℕ) (showInduced : Bool) :
    Py (List (List V3 × String)) := do
  let t ← firstRows tws nc l
  let a ← firstRows app nc l
  if showInduced then
    (firstRows ind nc l).map fun i => [(t, "green"), (a, "blue"), (i, "red")]
  else .ok [(t, "green"), (a, "blue")]

/-- The loops with the shifts and the colours as first computed, `solver/panels_plotter.py:200-202`,
`245-274`. -/
noncomputable def drawWinds (winds : List (List V3 × String)) (cps : List V3) (ns l : ℕ)
    (shiftX shiftY : ℝ) : Py (List Arrow) := do
  assertShapes winds (ns * l)
  if (inducedColors l).length = l ∧ (inducedColors l).length % 2 = 0 then
    windLoops (inducedColors l) cps ns (ns * l) ⟨shiftX, shiftY, 0⟩ winds
  else .error .assertionError

/-- `display_winds(ax, cp_points, water_size, inlet_condition, inviscid_flow_results, n_spanwise,
n_chordwise, show_induced_wind)`, `solver/panels_plotter.py:188-274`; `n` is `cp_points.shape[0]` (no
other use is made of that argument) and `ind` is `inviscid_flow_results.V_induced_at_cp`.
Simplification: the three array splits are done in the order of the model's arguments (winds, then
points); all arrays of a run have the same length, so they fail together.  `np.mean` of an empty array is
`nan` with a warning; no arrow would be drawn. -/
noncomputable def displayWinds (n : ℕ) (water : ℤ) (inlet : Inlet) (ind : List V3) (ns nc : ℕ)
    (showInduced : Bool) : Py (List Arrow) := do
  let mean := inlet.awaInfsDeg.sum / inlet.awaInfsDeg.length
  let shiftX := -0.925 * water * Real.cos (deg2rad mean)
  let shiftY := -0.925 * water * Real.sin (deg2rad mean)
  if ns * nc = 0 then .error .zeroDivision
  else
    let l := n / (ns * nc)
    let winds ← windsToDraw inlet.twsAtCp inlet.vAppInfs ind nc l showInduced
    let cps ← firstRows inlet.cpPoints nc l
    drawWinds winds cps ns l shiftX shiftY

/-! ## Force and hull -/

open Classical in
/-- `normalize(x)`, `solver/additional_functions.py:19-22`. -/
noncomputable def normalize (x : V3) : Py V3 :=
  if x.norm = 0 then .error .nonFinite else .ok ((1 / x.norm) • x)

/-- `plot_vector(origin, length)`, `solver/panels_plotter.py:290-296`: the arrow (and a dot at its
tail). -/
noncomputable def plotVector (origin length : V3) : Arrow :=
  ⟨origin, origin + length, "black", 0.75⟩

/-- What `display_CE_CLR` draws and returns, `solver/panels_plotter.py:277-306`. -/
structure ForcePlot where
  scale : ℝ
  clr : V3
  ce : V3
  F : V3
  arrows : List Arrow

/-- `np.mean(xs)`, `solver/panels_plotter.py:298`; `nan` for an empty array. -/
noncomputable def npMean (xs : List ℝ) : Py ℝ :=
  if xs = [] then .error .nonFinite else .ok (xs.sum / xs.length)

/-- `display_CE_CLR(ax, inviscid_flow_results, hull)`, `solver/panels_plotter.py:277-306`. -/
noncomputable def displayCeClr (res : FlowResults) (hull : Hull) : Py ForcePlot := do
  let mean ← npMean res.vFsLength
  let scale := 0.8 * mean
  let ce ← res.centreOfEffort
  let u ← normalize res.forceTotal
  let F := scale • u
  .ok ⟨scale, hull.clr, ce, F, [plotVector ce F, plotVector hull.clr (-F)]⟩

/-- Everything in the three-dimensional picture, `solver/panels_plotter.py:308-353`. -/
structure Scene where
  title : String
  panels : PanelPlot
  hullLines : List (List V3 × ℝ)
  winds : List Arrow
  force : ForcePlot

/-- `display_hull(ax, hull)`, `solver/panels_plotter.py:174-185`: five lines and their opacity. -/
noncomputable def displayHull (hull : Hull) : List (List V3 × ℝ) :=
  [(hull.deckCenterline, 1), (hull.deckPort, 1), (hull.deckStarboard, 1), (hull.deckPortUnder, 0.25),
    (hull.deckStarboardUnder, 0.25)]

/-- `display_panels_xyz_and_winds(vlm, inviscid_flow_results, inlet_condition, hull, show_plot,
show_induced_wind, is_sailopt_mode)`, `solver/panels_plotter.py:308-353`; only the first line of the
title is modelled. -/
noncomputable def displayScene (r : Vlm) (res : FlowResults) (hull : Hull) (showInduced sailopt : Bool) :
    Py Scene := do
  let mode := if sailopt then "gamma_magnitude" else "p_coeffs"
  let title := if sailopt then "SailOpt mode: Panels colored by optimal circulation"
    else "VLM mode: Panels colored by coefficient of pressure"
  let p ← displayPanels r mode
  let w ← displayWinds r.vars.length p.water r.inlet res.vInd r.input.ns r.input.nc showInduced
  let f ← displayCeClr res hull
  .ok ⟨title, p, displayHull hull, w, f⟩

/-! ## Map of the pressure coefficient -/

/-- `np.vstack([panel[:,[0,2]], panel[:,[0,2]][0]])`, `solver/panels_plotter.py:358`: the four corners
seen from the side and the first one again. -/
def sideView (q : Panel) : List (ℝ × ℝ) :=
  [(q.p1.x, q.p1.z), (q.p2.x, q.p2.z), (q.p3.x, q.p3.z), (q.p4.x, q.p4.z), (q.p1.x, q.p1.z)]

/-- `plot_cp(mesh, p_coeffs, path_to_save)`, `solver/panels_plotter.py:356-370`: outline and value of
every polygon.  The two columns of the frame must have the same length (`ValueError`). -/
def plotCp (mesh : List Panel) (pCoeffs : List ℝ) : Py (List (List (ℝ × ℝ) × ℝ)) :=
  if mesh.length = pCoeffs.length then .ok ((mesh.map sideView).zip pCoeffs) else .error .valueError

end PySailing
