import Verif.Lemmas.Scaling
import Verif.Props.Similarity
import Verif.Demo.SmallPanel

/-!
# C86: geometrically similar rigs
-/

namespace PySailing.Props

open PySailing PySailing.Spec

/-- **C86, what holds.**  Enlarging the lattice and the heights of the wind profile `s` times multiplies the
areas by `s²`, the circulations by `s` and the forces (with lift and drag) by `s²`, and leaves winds,
velocities, pressures, pressure coefficients and section coefficients unchanged, provided the absolute
sizes in the code (core radius of a vortex line, smallest panel area) do not distinguish the two. -/
theorem C86_size_partial (a : VlmInput) (s : ℝ) (hs : 0 < s) (r : Vlm) (h : vlm a = .ok r)
    (hi : SizesIrrelevant s (fun i : Fin r.vars.length => r.vars[i]) (fun i => r.areas.getD i 0)) :
    ∃ r', vlm { a with panels := a.panels.map (scalePanel s), wind := scaleHeights s a.wind } = .ok r' ∧
      r'.areas = r.areas.map (s ^ 2 * ·) ∧
      r'.inlet.vAppInfs = r.inlet.vAppInfs ∧ r'.inlet.twsAtCp = r.inlet.twsAtCp ∧
      r'.out = mapAll r.out (s * ·) id ((s ^ 2) • ·) id id ∧
      r'.sectionLift = r.sectionLift ∧ r'.sectionDrag = r.sectionDrag := by
  obtain ⟨hin, har, hv, hil, hso⟩ := (vlm_ok_iff a r).1 h
  rw [har] at hi
  obtain ⟨sol', hs', he⟩ := vlmSolve_scaled hs a r.inlet.vAppInfs (scaleHeights s a.wind) rfl
    (calculateVlmVariables_ok hv).1 hi hso
  obtain ⟨i', hi', hV, ht, -⟩ := inletConditions_scaled hs a.wind a.rho _ hil
  have hA : getPanelsArea (a.panels.map (scalePanel s)) = r.areas.map (s ^ 2 * ·) := by
    rw [har]
    unfold getPanelsArea
    simp only [List.map_map]
    exact List.map_congr_left fun q _ => panelArea_scaled hs q
  refine ⟨⟨_, getPanelsArea (a.panels.map (scalePanel s)), r.vars.map (PanelVars.scaled s), i', sol'⟩,
    (vlm_ok_iff _ _).2 ⟨rfl, rfl, ?_, ?_, ?_⟩, hA, hV, ht, he, ?_, ?_⟩
  · simp only
    rw [calculateVlmVariables_scaled hs, hv]
    rfl
  · simp only [List.map_map]
    rw [List.map_map] at hi'
    exact hi'
  · simp only
    rw [hV]
    exact hs'
  · simp only [Vlm.sectionLift, Vlm.out, he, List.length_map, hA, hV, hin, mapAll]
    exact getC_size (by positivity) _ _ _ _ _ _ _
  · simp only [Vlm.sectionDrag, Vlm.out, he, List.length_map, hA, hV, hin, mapAll]
    exact getC_size (by positivity) _ _ _ _ _ _ _

/-- The hypotheses of `C86_size_partial` hold for one panel of 1 m² enlarged twice. -/
example : ∃ r, vlm Demo.input = .ok r ∧
    SizesIrrelevant 2 (fun i : Fin r.vars.length => r.vars[i]) (fun i => r.areas.getD i 0) := by
  obtain ⟨r, hr, -, hv⟩ := Demo.vlm_ok
  have ha : r.areas = [1] := by
    rw [((vlm_ok_iff _ _).1 hr).2.1]; exact Demo.area
  refine ⟨r, hr, ?_⟩
  obtain ⟨rin, rar, rv, ri, rs⟩ := r
  simp only at hv ha
  subst hv ha
  refine ⟨fun i => ?_, fun i j p hp => ?_⟩
  · have : i.val = 0 := by have := i.isLt; change i.val < 1 at this; omega
    rw [this]; norm_num
  · have hi : [Demo.vars (-1)][i] = Demo.vars (-1) := by simp
    have hj : [Demo.vars (-1)][j] = Demo.vars (-1) := by simp
    simp only [hi] at hp
    simp only [hj]
    exact Demo.sizesIrrelevant.core 0 0 p hp

/-- **C86 does not hold in general.**  `Vlm` returns for one square panel of 1 m side, and for the same panel
of 1 cm side, but the circulation of the latter is ten times what similarity asks for: the core radius is
absolute, and at this size it removes all bound vortex legs of the panel. -/
theorem C86_refuted : ∃ (a : VlmInput) (s : ℝ) (r r' : Vlm), 0 < s ∧ vlm a = .ok r ∧
    vlm { a with panels := a.panels.map (scalePanel s), wind := scaleHeights s a.wind } = .ok r' ∧
    (∃ x ∈ r.out.gamma, x ≠ 0) ∧ r'.out.gamma = r.out.gamma.map (fun x => 10 * (s * x)) := by
  have hh := Demo.h_pos
  have hpi := Real.pi_pos
  have p1 : 0 < Demo.unitY 1 := by rw [Demo.unitY_one]; positivity
  have p2 : 0 < Demo.unitY (1 / 100) := by rw [Demo.unitY_cm]; positivity
  obtain ⟨r, hr, hg⟩ := Demo.vlm_sized one_pos (by norm_num) p1.ne'
  obtain ⟨r', hr', hg'⟩ := Demo.vlm_sized (s := 1 / 100) (by norm_num) (by norm_num) p2.ne'
  rw [Demo.sized_one] at hr
  have hq : 2 / Demo.h = 4 * Demo.h := by
    have := Demo.h_sq
    field_simp
    nlinarith
  have e : 10 * Demo.unitY (1 / 100) = 100 * Demo.unitY 1 := by
    rw [Demo.unitY_one, Demo.unitY_cm, hq]
    ring
  refine ⟨Demo.input, 1 / 100, r, r', by norm_num, hr, hr', ?_, ?_⟩
  · rw [hg]
    exact ⟨_, List.mem_singleton.2 rfl, (one_div_pos.2 p1).ne'⟩
  · rw [hg, hg']
    simp only [List.map_cons, List.map_nil, List.cons.injEq, and_true]
    field_simp
    linarith

end PySailing.Props
