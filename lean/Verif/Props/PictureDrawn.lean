import Verif.Props.Workbook
import Verif.Props.Plotter
import Verif.Lemmas.Outputs

/-!
# C136: when the arrows of the picture are defined
-/

namespace PySailing.Props

open PySailing PySailing.Spec

theorem displayPanels_not_nan (r : Vlm) (mode : String) : displayPanels r mode ≠ .error .nonFinite := by
  have hmin : ∀ l, pyMin l ≠ .error .nonFinite := fun l => by cases l <;> simp [pyMin]
  have hmax : ∀ l, pyMax l ≠ .error .nonFinite := fun l => by cases l <;> simp [pyMax]
  unfold displayPanels waterSize axisLimits
  simp only [bind, Except.bind]
  intro h
  split at h
  · rename_i e he; injection h with h; subst h; exact hmin _ he
  split at h
  · rename_i e he; injection h with h; subst h; exact hmax _ he
  split at h
  · rename_i e he
    injection h with h; subst h
    split at he
    · rename_i e' he'; injection he with he; subst he; exact hmax _ he'
    split at he
    · rename_i e' he'; injection he with he; subst he; exact hmax _ he'
    cases he
  split at h
  · rename_i e he
    split_ifs at he
    · injection he with he; injection h with h; rw [← he] at h; cases h
  cases h

/-- The outcome of the picture of a prepared run. -/
theorem scene_not_nan {spline : SplineFn} {c : Config} {p : Prepared} (hp : prepare spline c = .ok p) :
    (p.flow.res.forceTotal ≠ 0 → displayScene p.vlm p.flow.res p.hull false false ≠ .error .nonFinite) ∧
    (∀ s, displayScene p.vlm p.flow.res p.hull false false = .ok s → p.flow.res.forceTotal ≠ 0) := by
  obtain ⟨hn, -, hlen, -⟩ := prepared_shape hp
  obtain ⟨main, jib, base, -, -, -, -, -, hset, -, -, hv, res, hres, hflow⟩ := prepare_ok hp
  have hne : p.set.sails ≠ [] := by
    intro e; rw [e] at hn; simp at hn
  have hsh := vlm_shaped hv hne (m := c.solver.nc * c.solver.ns) hlen
  have hfres : p.flow.res = res := by rw [hflow]; rfl
  obtain ⟨-, -, hvi, -, -, hvl, -⟩ := inviscidFlow_fields hres
  obtain ⟨res', hr', -, -, -, -, -, -, hc, -⟩ := inviscidFlow_ok hsh.nonempty p.csys _ hsh.force hsh.cp
  rw [hres] at hr'
  injection hr' with e
  subst e
  rw [hfres]
  obtain ⟨-, -, hvne⟩ := vlm_inlet hv
  have hlenpos : 0 < p.vlm.vars.length := List.length_pos_of_ne_nil hvne
  have hmean : res.vFsLength ≠ [] := by
    rw [hvl]
    intro e
    have := congrArg List.length e
    simp [Vlm.flowArrays, Vlm.out, VlmSolution.arrays] at this
    exact hvne (List.length_eq_zero_iff.1 (by simpa using this))
  have hnorm : ∀ v : V3, v.norm = 0 ↔ v = 0 := fun v => V3.norm_eq_zero
  constructor
  · intro hF
    have hFF : res.forceTotal.dot res.forceTotal ≠ 0 := by
      intro h0
      apply hF
      rw [← hnorm]
      unfold V3.norm
      rw [h0, Real.sqrt_zero]
    have hlen' : (c.vlmInput p.set (windGetProfile c.wind)).panels.length =
        2 * p.set.sails.length * ((c.vlmInput p.set (windGetProfile c.wind)).nc *
          (c.vlmInput p.set (windGetProfile c.wind)).ns) := by
      show p.set.panels.length = 2 * p.set.sails.length * (c.solver.nc * c.solver.ns)
      rw [hlen]; ring
    unfold displayScene
    simp only [bind, Except.bind]
    intro h
    split at h
    · rename_i e he
      injection h with h; subst h
      exact displayPanels_not_nan _ _ he
    rename_i pl hpl
    obtain ⟨ar, har, -⟩ := (C56_vlm hv (n := p.set.sails.length) (by omega) hlen' pl.water false).1 hn
    have har' : displayWinds p.vlm.vars.length pl.water p.vlm.inlet res.vInd p.vlm.input.ns p.vlm.input.nc false = .ok ar := by
      rw [hvi, (vlm_lengths hv).1]
      exact har
    rw [har'] at h
    unfold displayCeClr npMean normalize at h
    rw [if_neg hmean, hc] at h
    unfold determineVector at h
    rw [if_neg hFF, if_neg (fun h0 => hF ((hnorm _).1 h0))] at h
    cases h
  · intro s hs h0
    unfold displayScene displayCeClr normalize at hs
    rw [if_pos ((hnorm _).2 h0)] at hs
    simp only [bind, Except.bind] at hs
    split at hs
    · cases hs
    split at hs
    · cases hs
    split at hs
    · cases hs
    rename_i f hf
    split at hf
    · cases hf
    split at hf
    · cases hf
    cases hf

/-- The total force in the sheet `Integrals`. -/
theorem prepared_force {spline : SplineFn} {c : Config} {p : Prepared} (hp : prepare spline c = .ok p) :
    rowVec p.flow.toDfIntegral "F_sails_total_COG" = some p.flow.res.forceTotal ∧
    p.flow.res.forceTotal = ∑ k ∈ Finset.range (p.set.sails.length * (c.solver.nc * c.solver.ns)), row (List.ofFn p.vlm.sol.force) k := by
  obtain ⟨hn, -, hlen, -⟩ := prepared_shape hp
  obtain ⟨main, jib, base, -, -, -, -, -, hset, -, -, hv, res, hres, hflow⟩ := prepare_ok hp
  obtain ⟨hnames, -⟩ := sailSetOf_shape hset
  have hne : p.set.sails ≠ [] := by
    intro e; rw [e] at hn; simp at hn
  have hsh := vlm_shaped hv hne (m := c.solver.nc * c.solver.ns) hlen
  have hnd : "sails" ∉ p.set.sails.map SailGeom.name ∧ "keel" ∉ p.set.sails.map SailGeom.name := by
    rcases hnames with ⟨-, e⟩ | ⟨-, e⟩ | ⟨-, e⟩ <;> rw [e] <;> decide
  obtain ⟨res2, hr2, h2⟩ := C51_last_estimate _ _ p.csys _ hsh hnd.1 hnd.2
  rw [hres] at hr2
  injection hr2 with hr2
  subst hr2
  obtain ⟨res3, hr3, -, -, h3, -⟩ := inviscidFlow_ok hsh.nonempty p.csys _ hsh.force hsh.cp
  rw [hres] at hr3
  injection hr3 with hr3
  subst hr3
  obtain ⟨k1, -⟩ := h2 [p.hull.clr]
  have hfo : [p.hull.clr].foldl FlowObject.estimateKeel (FlowObject.new res) = p.flow := by rw [hflow]; rfl
  have e : p.flow.res = res := by rw [hflow]; rfl
  rw [hfo] at k1
  rw [e, h3]
  exact ⟨k1, rfl⟩

/-- **C136.** Whenever a run gets as far as the picture, the picture shows the force of the sails with defined arrows
exactly if the total force on the sails is not zero; in terms of the workbook of the run: exactly if the row
`F_sails_total_COG` is not the zero vector.  (Otherwise centre of effort and direction of the force are `nan`.) -/
theorem C136_drawn (spline : SplineFn) (c : Config) (o : Option Scene) (h : .picture o ∈ (run spline c).1) :
    (∃ p, prepare spline c = .ok p ∧ ((∃ s, o = some s) ↔ p.flow.res.forceTotal ≠ 0)) ∧
    ∀ t F, .workbook (some t) ∈ (run spline c).1 → rowVec t.integrals "F_sails_total_COG" = some F → ((∃ s, o = some s) ↔ F ≠ 0) := by
  obtain ⟨p, hp, hm⟩ := mem_run h
  have hiff : (∃ s, o = some s) ↔ p.flow.res.forceTotal ≠ 0 := by
    obtain ⟨s1, s2⟩ := scene_not_nan hp
    have ho : nanAsNone (displayScene p.vlm p.flow.res p.hull false false) = .ok o := by
      unfold outputSteps at hm
      simp only [List.mem_cons, List.not_mem_nil, or_false] at hm
      rcases hm with h1 | h1 | h1 | h1 | h1 | h1
      · cases hx : nanAsNone (saveResults p.vlm p.csys p.flow p.set.sails p.csys) <;> rw [hx] at h1 <;> cases h1
      · cases h1
      · cases hx : nanAsNone (displayScene p.vlm p.flow.res p.hull false false) with
        | error e => rw [hx] at h1; cases h1
        | ok o => rw [hx] at h1; cases h1; rfl
      · cases hx : plotCp p.set.zeroMesh p.vlm.out.pCoeffs <;> rw [hx] at h1 <;> cases h1
      · obtain ⟨f, e, -⟩ := sectionPlotStep_kind h1.symm; cases e
      · obtain ⟨f, e, -⟩ := sectionPlotStep_kind h1.symm; cases e
    constructor
    · rintro ⟨s, rfl⟩
      exact s2 s (nanAsNone_some ho)
    · intro hF
      have := s1 hF
      cases hd : displayScene p.vlm p.flow.res p.hull false false with
      | ok s => rw [hd] at ho; exact ⟨s, (Except.ok.inj ho).symm⟩
      | error e =>
        rw [hd] at ho this
        cases e <;> first | exact absurd rfl this | cases ho
  refine ⟨⟨p, hp, hiff⟩, fun t F ht hF => ?_⟩
  obtain ⟨p', hp', hs⟩ := run_workbook ht
  rw [hp] at hp'
  cases hp'
  obtain ⟨hi, -⟩ := saveResults_integrals hs
  rw [hi, (prepared_force hp).1] at hF
  rw [hiff, Option.some.inj hF]

end PySailing.Props
