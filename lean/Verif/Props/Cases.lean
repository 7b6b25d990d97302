import Verif.Props.NearRun
import Verif.Props.Figures
import Verif.Props.Reported
import Verif.Props.Similarity
import Verif.Props.Potential
import Verif.Props.Bound
import Verif.Props.Components
import Verif.Props.Excel
import Verif.Props.Plotter
import Verif.Props.AnySolver
import Verif.Props.Rounded
import Verif.Props.PictureRun
import Verif.Props.Workbook
import Verif.Props.Waterline

/-!
# A case for the theorems about runs and solved lattices

The theorems about a run, a solved lattice and a designed sail, applied to the settings file `rectangle_variables.py` that is
shipped with the program: one main sail with 8 rows of 16 panels and its mirror image, in a wind at eleven degrees to the sail.
`rectangle_case` collects what their hypotheses ask for; each `example` meets the hypotheses of the theorem named in it.
-/

namespace PySailing.Props

open PySailing PySailing.Spec

/-- The run of `rectangle_variables.py`: the calculation succeeds, the lattice is solved, the workbook is written. -/
theorem rectangle_case : ∃ (p : Prepared) (t : SavedResults) (s : SailInput) (θ : ℕ → ℝ) (g : SailGeom),
    (prepare fitpackSpline rectangleConfig = .ok p ∧ (run fitpackSpline rectangleConfig).2 = .ok () ∧
      .workbook (some t) ∈ (run fitpackSpline rectangleConfig).1) ∧
    (vlm p.vlm.input = .ok p.vlm ∧ p.vlm.input.panels = p.set.panels ∧ p.vlm.input.nc = 8 ∧ p.vlm.input.ns = 16 ∧
      p.vlm.input.g = -1 ∧ p.vlm.input.rho = 1.225 ∧ p.vlm.input.panels.length = 2 * 1 * (8 * 16) ∧
      p.vlm.input.le = leadingFlags 8 16 2) ∧
    (SailOk s θ ∧ List.Forall₂ (BuiltFrom 8 16) [(s, θ)] [g] ∧ sailSet [g] = .ok p.set ∧ p.set.sails = [g]) ∧
    (OffSwitches p.vlm.input p.vlm.vars ∧ ∀ v ∈ p.vlm.vars, v.cp.z ≠ 0) ∧
    ∃ res, inviscidFlow p.set.sails p.csys p.vlm.flowArrays = .ok res := by
  obtain ⟨u, M, h1, h2⟩ := rectangle_wind
  obtain ⟨p, t, hp, hoff, -, hz, ht⟩ := flat_limit rectangle_flat (by norm_num [rectangleConfig]) (by norm_num [rectangleConfig])
    (by norm_num [rectangleConfig]) (h1 _ _) h2 (fun h _ _ => by
      rintro ⟨c, ref, wl, e⟩
      simp [windGetProfile, rectangleConfig] at e)
  have hrun : (run fitpackSpline rectangleConfig).2 = .ok () :=
    (C110_run rectangleConfig rectangle_flat (by norm_num [rectangleConfig]) (by norm_num [rectangleConfig]) (h1 _ _) h2).1
  obtain ⟨⟨s, θ⟩, g, set, F, e1, e2, -, -, -, hs, hset, hso⟩ := rectangle_flat.sail
  obtain ⟨-, hset', -, hv, res, hres, -⟩ := prepare_data rectangle_flat.wellFormed hp
  rw [hso] at hset'
  obtain rfl : set = p.set := Except.ok.inj hset'
  have hin : p.vlm.input = rectangleConfig.vlmInput p.set (windGetProfile rectangleConfig.wind) := (vlm_lengths hv).1
  have e1' : s.nc = 8 := e1
  have e2' : s.ns = 16 := e2
  have hf : List.Forall₂ (BuiltFrom 8 16) [(s, θ)] [g] := List.Forall₂.cons ⟨F.ok, e1', e2', hs⟩ List.Forall₂.nil
  obtain ⟨hpn, -, hle⟩ := sailSet_blocks hf hset
  have hsails : p.set.sails = [g] := by
    unfold sailSet at hset
    rw [if_neg (by simp)] at hset
    rw [← Except.ok.inj hset]
  refine ⟨p, t, s, θ, g, ⟨hp, hrun, ht⟩, ⟨by rw [hin]; exact hv, by rw [hin]; rfl, by rw [hin]; rfl, by rw [hin]; rfl,
    by rw [hin]; rfl, by rw [hin]; rfl, ?_, ?_⟩, ⟨F.ok, hf, hset, hsails⟩, ⟨hoff, hz⟩, res, hres⟩
  · obtain ⟨-, -, hl, -⟩ := prepared_shape hp
    rw [hin]
    show p.set.panels.length = _
    rw [hl, hsails]
    simp [rectangleConfig]
  · rw [hin]
    exact hle

/-! ## Solved lattices -/

/-- C34, C35: the third panel of the second row. -/
example : ∃ (a : VlmInput) (r : Vlm) (k : Fin r.vars.length) (k' : Fin r.vars.length), vlm a = .ok r ∧ k.val = panelNo a.nc a.ns 0 1 2 ∧
    k'.val = panelNo a.nc a.ns 0 0 2 ∧
    r.sol.force k = a.rho • V3.cross (r.sol.vFsCp k) ((r.sol.gamma k - r.sol.gamma k') • (r.vars[k]).span) := by
  obtain ⟨p, -, -, -, -, -, ⟨hv, -, hnc, hns, -, -, hl, hle⟩, -⟩ := rectangle_case
  have hvl := (vlm_lengths hv).2.1
  have hk : panelNo p.vlm.input.nc p.vlm.input.ns 0 1 2 < p.vlm.vars.length := by
    rw [hvl, hl, hnc, hns]
    decide
  obtain ⟨-, h⟩ := C34_vlm _ _ hv 2 (by omega) (by omega) (by norm_num) (by rw [hl, hnc, hns]) (by rw [hle, hnc, hns]) 0 1 2 (by norm_num)
    (by omega) (by omega) ⟨_, hk⟩ rfl
  obtain ⟨k', h1, h2⟩ := h one_pos
  exact ⟨_, _, ⟨_, hk⟩, k', hv, rfl, h1, h2⟩

/-- C36 – C38: other orientation, wind speed, density. -/
example : ∃ (a : VlmInput) (r r1 r2 r3 : Vlm), vlm a = .ok r ∧ vlm { a with g := 1 } = .ok r1 ∧
    vlm { a with wind := { a.wind with twsRef := 2 * a.wind.twsRef, vYacht := 2 * a.wind.vYacht } } = .ok r2 ∧
    vlm { a with rho := 1000 } = .ok r3 ∧ r1.out.force = r.out.force ∧ r2.out.force = r.out.force.map ((2 ^ 2 : ℝ) • ·) ∧
    r3.out.force = r.out.force.map ((1000 / 1.225 : ℝ) • ·) := by
  obtain ⟨p, -, -, -, -, -, ⟨hv, -, -, -, hg, hrho, -⟩, -⟩ := rectangle_case
  have hg0 : p.vlm.input.g ≠ 0 := by rw [hg]; norm_num
  obtain ⟨r1, h1, -, -, o1⟩ := C36_orientation _ 1 hg0 one_ne_zero _ hv
  obtain ⟨r2, h2, -, o2, -⟩ := C37_wind_speed _ 2 two_pos hg0 _ hv
  obtain ⟨-, r3, h3, -, o3, -⟩ := C38_density _ 1000 (by norm_num) hg0 _ hv
  refine ⟨_, _, r1, r2, r3, hv, h1, h2, h3, by rw [o1], by rw [o2]; rfl, ?_⟩
  rw [o3, hrho]
  rfl

/-- C42: pressure and pressure coefficient of the first panel. -/
example : ∃ (a : VlmInput) (r : Vlm) (i : Fin r.vars.length), vlm a = .ok r ∧ 0 < r.areas.getD i 0 ∧
    r.sol.pCoeffs i * (1 / 2 * a.rho * (windAt r i).norm ^ 2) = r.sol.pressure i := by
  obtain ⟨p, -, -, -, -, -, ⟨hv, -, -, -, -, -, hl, -⟩, -⟩ := rectangle_case
  have h := C42_pressure _ _ hv ⟨0, by rw [(vlm_lengths hv).2.1, hl]; norm_num⟩
  exact ⟨_, _, _, hv, h.2.1, h.2.2.2.2.2⟩

/-- C43: the section coefficients of the sail. -/
example : ∃ (a : VlmInput) (r : Vlm), vlm a = .ok r ∧ r.sectionLift = .ok [(List.range 16).map fun j => vlmSection r r.out.lift 0 j] ∧
    ((∃ D, coeffPlotData r 8 16 = .ok D) ↔ sailMean r 0 (vlmSection r r.out.lift 0) ≠ 0 ∧ sailMean r 0 (vlmSection r r.out.drag 0) ≠ 0) := by
  obtain ⟨p, -, -, -, -, -, ⟨hv, -, hnc, hns, -, -, hl, -⟩, -⟩ := rectangle_case
  have h1 := (C43_vlm _ _ hv 1 one_pos (by rw [hl, hnc, hns]) (by omega) (by omega)).1
  have h2 := C43_plot_data_iff _ _ hv 1 one_pos (by rw [hl, hnc, hns]) (by omega) (by omega)
  rw [hnc, hns] at h2
  refine ⟨_, _, hv, ?_, h2.trans ⟨fun h => h 0 one_pos, fun h b hb => ?_⟩⟩
  · rw [h1, hns]
    rfl
  · obtain rfl : b = 0 := by omega
    exact h

/-- C69: the map of the pressure coefficients of the lattice. -/
example : ∃ (set : SailSet) (r : Vlm) (m : List (List (ℝ × ℝ) × ℝ)), vlm r.input = .ok r ∧ plotCp set.zeroMesh r.out.pCoeffs = .ok m ∧
    m.length = 256 := by
  obtain ⟨p, -, s, θ, g, -, ⟨hv, hpn, -, -, -, -, hl, -⟩, ⟨-, hf, hset, -⟩, -⟩ := rectangle_case
  obtain ⟨m, h1, h2, -⟩ := C69_cp_map hf hset hpn hv
  exact ⟨_, _, m, hv, h1, by rw [h2, hl]⟩

/-- C118, C125: the solver is exact, so are its routines; the lattice has a constant of stability. -/
example : ∃ (a : VlmInput) (r : Vlm) (C : ℝ), vlm a = .ok r ∧ 0 ≤ C ∧ StableOn r C := by
  obtain ⟨p, -, -, -, -, -, ⟨hv, -⟩, -⟩ := rectangle_case
  obtain ⟨C, h0, h⟩ := C125_stable hv
  exact ⟨_, _, C, hv, h0, h⟩

/-- C54: the angles in the table of the run. -/
example : ∃ (res : FlowResults) (a : FlowArrays), 0 < a.vFsCp.length ∧
    (res.toDfFull.cell "AWA_fs_COG_deg" 0 = some (.num (rad2deg (arctan2 (row a.vFsCp 0).y (row a.vFsCp 0).x))) ↔
      0 < (row a.vFsCp 0).x ∨ ((row a.vFsCp 0).x = 0 ∧ (row a.vFsCp 0).y ≠ 0)) := by
  obtain ⟨p, -, -, -, -, -, ⟨hv, -, -, -, -, -, hl, -⟩, -, -, res, hres⟩ := rectangle_case
  have hlen : 0 < p.vlm.flowArrays.vFsCp.length := by
    show 0 < (List.ofFn p.vlm.sol.vFsCp).length
    rw [List.length_ofFn, (vlm_lengths hv).2.1, hl]
    norm_num
  exact ⟨res, _, hlen, (C54_direction_partial _ _ _ _ hres 0 hlen _ rfl).2.1⟩

/-! ## Outputs of the run -/

/-- C83, C84: the workbook of the run. -/
example : ∃ (t : SavedResults) (rows : List (String × ℝ)), .workbook (some t) ∈ (run fitpackSpline rectangleConfig).1 ∧
    IsDictTable t.integrals rows ∧ ∀ i q, rows[i]? = some q → ∃ f, ColourOf q.1 f ∧ f ≠ .general ∧
      (workbook t rows).integrals.shown (i + 1) 0 = f := by
  obtain ⟨p, t, -, -, -, ⟨-, -, ht⟩, -⟩ := rectangle_case
  obtain ⟨rows, hr, -⟩ := C83_table _ _ t ht
  refine ⟨t, rows, ht, hr, fun i q hi => ?_⟩
  obtain ⟨f, h1, h2, h3, -⟩ := C83_integrals _ _ t ht rows hr hi
  exact ⟨f, h1, h2, h3⟩

/-- C69: the pressure map of the run. -/
example : ∃ m, .cpMap m ∈ (run fitpackSpline rectangleConfig).1 ∧ m.length = 256 := by
  obtain ⟨p, t, -, -, -, ⟨hp, hrun, -⟩, -⟩ := rectangle_case
  have hk := (C71_order fitpackSpline rectangleConfig)
  obtain ⟨n, hn, h1, h2⟩ := hk
  obtain rfl := h2.1 hrun
  have hm : "pressure map" ∈ (run fitpackSpline rectangleConfig).1.map outputKind := by
    rw [h1]
    simp [outputOrder]
  obtain ⟨e, he, hk⟩ := List.mem_map.1 hm
  cases e with
  | cpMap m =>
    refine ⟨m, he, ?_⟩
    obtain ⟨p', ss, -, hl, -, hmain, -⟩ := C69_run rectangleConfig rectangle_flat.wellFormed m he
    obtain ⟨sm, rfl, -⟩ := hmain rfl
    rw [hl]
    simp [rectangleConfig]
  | sectionPlot name F =>
    exfalso
    simp only [outputKind] at hk
    subst hk
    unfold run at he
    rw [hp] at he
    have hs := mem_emit he
    simp only [outputSteps, List.mem_cons, List.not_mem_nil, or_false, sectionPlotStep] at hs
    rcases hs with hs | hs | hs | hs | hs | hs
    · rcases hx : nanAsNone (saveResults p.vlm p.csys p.flow p.set.sails p.csys) with (e | a) <;>
        simp [hx, Except.map] at hs
    · simp at hs
    · rcases hx : nanAsNone (displayScene p.vlm p.flow.res p.hull false false) with (e | a) <;>
        simp [hx, Except.map] at hs
    · rcases hx : plotCp p.set.zeroMesh p.vlm.out.pCoeffs with (e | a) <;> simp [hx, Except.map] at hs
    all_goals
      rcases hx : nanAsNone (coeffPlotData p.vlm rectangleConfig.solver.nc rectangleConfig.solver.ns) with (e | a)
      · simp [hx, Bind.bind, Except.bind] at hs
      · rcases a with _ | d
        · simp [hx, Bind.bind, Except.bind] at hs
        · simp only [hx, Bind.bind, Except.bind] at hs
          generalize plotSectionCoeff _ _ _ _ = x at hs
          rcases x with (e | f) <;> simp [Except.map] at hs
  | _ => simp [outputKind] at hk

end PySailing.Props
