import Verif.Lemmas.TackPicture
import Verif.Props.Tack
import Verif.Props.Heading

/-!
# C143: figures and picture on the other tack
-/

namespace PySailing.Props

open Spec

/-- **C143, figures.**  For sails without camber the run on the other tack is completed too; its map of pressure
coefficients has the same outlines with the opposite values, and the plots of the section coefficients are the same. -/
theorem C143_figures (spline : SplineFn) (c : Config) (hk : c.solver.interpolation = "linear" ∨ spline = fitpackSpline)
    (hm : c.rig.sailsDef ≠ "jib" → NoCamber spline c.solver c.main)
    (hj : c.rig.sailsDef ≠ "main" → NoCamber spline c.solver c.jib) (p : Prepared) (hp : prepare spline c = .ok p)
    (hz : ∃ q ∈ p.vlm.vars, q.leMid.z ≠ 0 ∨ q.teMid.z ≠ 0) (hw : ReferenceAboveWater c.wind) :
    (run spline c).2 = .ok () ∧ (run spline (otherTack c)).2 = .ok () ∧
    (∀ m, .cpMap m ∈ (run spline c).1 ↔ .cpMap (m.map fun q => (q.1, -q.2)) ∈ (run spline (otherTack c)).1) ∧
    (∀ name f, .sectionPlot name f ∈ (run spline c).1 ↔ .sectionPlot name f ∈ (run spline (otherTack c)).1) := by
  obtain ⟨p', res, hp', hc, hc', hset, hclr, hinl, hcp', ho, hf, hrc, hf'⟩ := prepare_other hk hm hj hp
  obtain ⟨ha, hpan, ens, enc, erho, hle, hte⟩ := prepare_other_vlm hp hp' hset
  have hn : p'.vlm.input.panels.length = p.vlm.input.panels.length := by rw [hpan, List.length_map]
  obtain ⟨h1, h2⟩ := sections_across hn ens enc erho ha (by rw [hinl]; rfl) ho
  have hco := coeffPlotData_across h1 h2 hn ha hcp' c.solver.nc c.solver.ns
  have hcp : plotCp p'.set.zeroMesh p'.vlm.out.pCoeffs =
      (plotCp p.set.zeroMesh p.vlm.out.pCoeffs).map (List.map fun q => (q.1, -q.2)) := by
    rw [hset, ho, ← plotCp_neg]
    rfl
  have hz' : ∃ q ∈ p'.vlm.vars, q.leMid.z ≠ 0 ∨ q.teMid.z ≠ 0 := by
    obtain ⟨v, hmem, h⟩ := hz
    have e1 : (p'.vlm.vars.map PanelVars.leMid).map V3.z = (p.vlm.vars.map PanelVars.leMid).map V3.z := by
      rw [hle, List.map_map]; rfl
    have e2 : (p'.vlm.vars.map PanelVars.teMid).map V3.z = (p.vlm.vars.map PanelVars.teMid).map V3.z := by
      rw [hte, List.map_map]; rfl
    rcases h with h | h
    · have : v.leMid.z ∈ (p'.vlm.vars.map PanelVars.leMid).map V3.z := by
        rw [e1]; exact List.mem_map_of_mem (List.mem_map_of_mem hmem)
      obtain ⟨x, hx, hxz⟩ := List.mem_map.1 this
      obtain ⟨q, hq, rfl⟩ := List.mem_map.1 hx
      exact ⟨q, hq, Or.inl (by rw [hxz]; exact h)⟩
    · have : v.teMid.z ∈ (p'.vlm.vars.map PanelVars.teMid).map V3.z := by
        rw [e2]; exact List.mem_map_of_mem (List.mem_map_of_mem hmem)
      obtain ⟨x, hx, hxz⟩ := List.mem_map.1 this
      obtain ⟨q, hq, rfl⟩ := List.mem_map.1 hx
      exact ⟨q, hq, Or.inr (by rw [hxz]; exact h)⟩
  have hr := (C72_completes_partial spline c p hp hz hw).1
  have hr' := (C72_completes_partial spline (otherTack c) p' hp' hz' hw).1
  have mem : ∀ {d : Config} {q : Prepared} (_ : prepare spline d = .ok q) (_ : (run spline d).2 = .ok ()) (e : Effect),
      e ∈ (run spline d).1 ↔ .ok e ∈ outputSteps d q := by
    intro d q hq hd e
    constructor
    · intro he
      obtain ⟨q', hq', h⟩ := mem_run he
      rwa [Except.ok.inj (hq.symm.trans hq')]
    · intro he
      unfold run at hd ⊢
      rw [hq] at hd ⊢
      exact mem_emit_of_ok hd he
  have other : ∀ {α : Type} {x : Py α} {g : α → Effect} {e : Effect}, (∀ a, g a ≠ e) → ¬ Except.ok e = x.map g := by
    intro α x g e hne he
    cases x with
    | error e => cases he
    | ok a => exact hne a (Except.ok.inj he).symm
  have same : ∀ {x : Py (List (List (ℝ × ℝ) × ℝ))} {m},
      (.ok (Effect.cpMap (m.map fun q => (q.1, -q.2))) = (x.map (List.map fun q => (q.1, -q.2))).map Effect.cpMap) ↔
        (.ok (Effect.cpMap m) = x.map Effect.cpMap) := by
    intro x m
    have inj : Function.Injective (List.map fun q : List (ℝ × ℝ) × ℝ => (q.1, -q.2)) := by
      apply List.map_injective_iff.2
      rintro ⟨a, b⟩ ⟨a', b'⟩ h
      simpa using h
    cases x with
    | error e => simp [Except.map]
    | ok a =>
      simp only [Except.map, Except.ok.injEq, Effect.cpMap.injEq]
      exact inj.eq_iff
  have sec : ∀ {x : Py CoeffPlotData} {y : CoeffPlotData → List (List ℝ)} {n : String} {cs : List String} {m},
      ¬ Except.ok (Effect.cpMap m) = sectionPlotStep x y n cs := by
    intro x y n cs m h
    obtain ⟨f, hf, -⟩ := sectionPlotStep_kind h.symm
    simp at hf
  have wb : ∀ {x : Py (Option SavedResults)} {m}, ¬ Except.ok (Effect.cpMap m) = x.map Effect.workbook := other fun a => by simp
  have pic : ∀ {x : Py (Option Scene)} {m}, ¬ Except.ok (Effect.cpMap m) = x.map Effect.picture := other fun a => by simp
  refine ⟨hr, hr', fun m => ?_, fun name f => ?_⟩
  · rw [mem hp hr, mem hp' hr']
    unfold outputSteps
    have hs : (otherTack c).solver = c.solver := rfl
    rw [hcp, hs, hco]
    simp only [List.mem_cons, List.not_mem_nil, wb, pic, same, sec]
    simp
  · rw [mem hp hr, mem hp' hr']
    unfold outputSteps
    have hs : (otherTack c).solver = c.solver := rfl
    rw [hcp, hs, hco]
    simp only [List.mem_cons, other (g := Effect.workbook) (e := .sectionPlot name f) fun a => by simp,
      other (g := Effect.picture) (e := .sectionPlot name f) fun a => by simp,
      other (g := Effect.cpMap) (e := .sectionPlot name f) fun a => by simp]

/-- **C143, picture.**  For sails without camber the picture of the run on the other tack is the mirror image: corners of
the panels drawn, centre line of the deck, centre of effort, centre of lateral resistance and the two arrows of the force
are mirrored in the centre plane; every panel has the opposite value, and the ends of the colour scale are exchanged with
opposite sign; axes and the size of the water do not change; the wind arrows point in the mirrored direction, at the same
heights and in the same order, and if no apparent wind comes from exactly astern they are altogether mirrored. -/
theorem C143_picture (spline : SplineFn) (c : Config) (hk : c.solver.interpolation = "linear" ∨ spline = fitpackSpline)
    (hm : c.rig.sailsDef ≠ "jib" → NoCamber spline c.solver c.main)
    (hj : c.rig.sailsDef ≠ "main" → NoCamber spline c.solver c.jib) (t : SavedResults) (s : Scene)
    (ht : .workbook (some t) ∈ (run spline c).1) (hs : .picture (some s) ∈ (run spline c).1)
    (p : Prepared) (hp : prepare spline c = .ok p) :
    ∃ s', .picture (some s') ∈ (run spline (otherTack c)).1 ∧ s'.title = s.title ∧
      s'.panels.polygons = s.panels.polygons.map (fun q =>
        (⟨acrossCentre q.1.p1, acrossCentre q.1.p2, acrossCentre q.1.p3, acrossCentre q.1.p4⟩, -q.2)) ∧
      s'.panels.vmin = -s.panels.vmax ∧ s'.panels.vmax = -s.panels.vmin ∧ s'.panels.water = s.panels.water ∧
      s'.panels.xlim = s.panels.xlim ∧ s'.panels.ylim = s.panels.ylim ∧ s'.panels.zlim = s.panels.zlim ∧
      s'.hullLines.head? = s.hullLines.head?.map (fun l => (l.1.map acrossCentre, l.2)) ∧
      s'.force.ce = acrossCentre s.force.ce ∧ s'.force.clr = acrossCentre s.force.clr ∧
      s'.force.arrows = s.force.arrows.map (fun a => ⟨acrossCentre a.tail, acrossCentre a.tip, a.color, a.alpha⟩) ∧
      s'.winds.map (fun a => (a.tip - a.tail, a.tail.z, a.color, a.alpha)) =
        s.winds.map (fun a => (acrossCentre (a.tip - a.tail), a.tail.z, a.color, a.alpha)) ∧
      ((∀ a ∈ p.vlm.inlet.awaInfsDeg, a ≠ 180) →
        s'.winds = s.winds.map (fun a => ⟨acrossCentre a.tail, acrossCentre a.tip, a.color, a.alpha⟩)) := by
  obtain ⟨q, hq, hd⟩ := run_picture hs
  rw [hp] at hq
  injection hq with hq
  subst hq
  obtain ⟨p', s', hp', hd', h1, h2, h3, h4, h5, h6⟩ := scene_other hk hm hj hp hd
  have ht' := workbook_other hk hm hj ht
  obtain ⟨q, hq, hqt⟩ := run_workbook ht'
  rw [hp'] at hq
  injection hq with hq
  subst hq
  have hpan : ∀ q : Panel, panelAcross q =
      ⟨acrossCentre q.p1, acrossCentre q.p2, acrossCentre q.p3, acrossCentre q.p4⟩ := by
    intro q
    simp [movePanel, move]
  refine ⟨s', (picture_iff hp' _).2 ⟨⟨_, by rw [hqt]; rfl⟩, by rw [hd']; rfl⟩, h1, ?_, ?_, ?_, ?_, ?_, ?_, ?_, h4, ?_,
    ?_, ?_, h5, h6⟩
  · rw [h2]
    simp only [PanelPlot.across, hpan]
  all_goals first | rw [h2]; rfl | rw [h3]; rfl

theorem rest_noCamber (spline : SplineFn) : NoCamber spline demoAtRest.solver demoAtRest.main := by
  refine noCamber_of_flat (Or.inl rfl) ?_
  intro camber h
  cases h
  simp

/-- Non-vacuity of `C143_figures`. -/
example (spline : SplineFn) : demoAtRest.solver.interpolation = "linear" ∧
    (demoAtRest.rig.sailsDef ≠ "jib" → NoCamber spline demoAtRest.solver demoAtRest.main) ∧
    (demoAtRest.rig.sailsDef ≠ "main" → NoCamber spline demoAtRest.solver demoAtRest.jib) ∧
    ∃ p, prepare spline demoAtRest = .ok p ∧ (∃ q ∈ p.vlm.vars, q.leMid.z ≠ 0 ∨ q.teMid.z ≠ 0) ∧
      ReferenceAboveWater demoAtRest.wind := by
  obtain ⟨p, hp, -, hv, -⟩ := rest_prepared spline
  exact ⟨rfl, fun _ => rest_noCamber spline, fun h => absurd rfl h, p, hp, by rw [hv]; exact demo_offWater,
    fun h => by simp [demoAtRest] at h⟩

/-- Non-vacuity of `C143_picture`. -/
example (spline : SplineFn) : demoAtRest.solver.interpolation = "linear" ∧
    (demoAtRest.rig.sailsDef ≠ "jib" → NoCamber spline demoAtRest.solver demoAtRest.main) ∧
    (demoAtRest.rig.sailsDef ≠ "main" → NoCamber spline demoAtRest.solver demoAtRest.jib) ∧
    (∃ t, .workbook (some t) ∈ (run spline demoAtRest).1) ∧ (∃ s, .picture (some s) ∈ (run spline demoAtRest).1) ∧
    ∃ p, prepare spline demoAtRest = .ok p := by
  obtain ⟨p, hp, -⟩ := rest_prepared spline
  exact ⟨rfl, fun _ => rest_noCamber spline, fun h => absurd rfl h, (rest_picture spline).1, (rest_picture spline).2, p,
    hp⟩

end PySailing.Props
