import Verif.Spec.Drawing
import Verif.Lemmas.ListLemmas
import Verif.Props.Plotter

/-!
# Plots of meshes and rings (C101, C102)
-/

namespace PySailing.Props

open PySailing PySailing.Spec

/-! ## C101 -/

theorem named_x (p : V3) : named "X" p = some p.x := rfl
theorem named_y (p : V3) : named "Y" p = some p.y := rfl
theorem named_z (p : V3) : named "Z" p = some p.z := rfl

theorem axisLabel_ok {d : ℤ} {l : String} (h : axisLabel d = .ok l) :
    (d = 0 ∨ d = 1 ∨ d = 2) ∧ ∀ p, ∃ x, component d p = .ok x ∧ named l p = some x := by
  unfold axisLabel at h
  split_ifs at h with h0 h1 h2
  · injection h with h
    subst h0; subst h
    exact ⟨Or.inl rfl, fun p => ⟨p.x, rfl, rfl⟩⟩
  · injection h with h
    subst h1; subst h
    exact ⟨Or.inr (Or.inl rfl), fun p => ⟨p.y, rfl, rfl⟩⟩
  · injection h with h
    subst h2; subst h
    exact ⟨Or.inr (Or.inr rfl), fun p => ⟨p.z, rfl, rfl⟩⟩

theorem meshPoint_truly {dims : List ℤ} {labels : List String} (hd : dims.length = 2 ∨ dims = [0, 1, 2])
    (h : meshLabels dims = .ok labels) (p : V3) : ∃ q, meshPoint dims p = .ok q ∧ ShownTruly labels q p := by
  rcases hd with hd | rfl
  · match dims, hd with
    | [d0, d1], _ =>
    unfold meshLabels at h
    rw [if_pos (Or.inl (by rfl))] at h
    simp only [List.mapM_cons, List.mapM_nil, bind, Except.bind] at h
    cases h0 : axisLabel d0 with
    | error e => rw [h0] at h; cases h
    | ok l0 =>
    cases h1 : axisLabel d1 with
    | error e => rw [h0, h1] at h; cases h
    | ok l1 =>
    rw [h0, h1] at h
    injection h with h
    obtain ⟨x, hx, hx'⟩ := (axisLabel_ok h0).2 p
    obtain ⟨y, hy, hy'⟩ := (axisLabel_ok h1).2 p
    refine ⟨[x, y], by simp only [meshPoint, hx, hy, bind, Except.bind], ?_⟩
    rw [← h]
    simp [ShownTruly, hx', hy']
  · have : labels = ["X", "Y", "Z"] := by
      have e : meshLabels [0, 1, 2] = .ok ["X", "Y", "Z"] := rfl
      rw [e] at h
      injection h with h
      exact h.symm
    subst this
    exact ⟨_, rfl, by simp [ShownTruly, named]⟩

theorem meshLine_shows {dims : List ℤ} {labels : List String} (hd : dims.length = 2 ∨ dims = [0, 1, 2])
    (h : meshLabels dims = .ok labels) (mesh : NdMesh) (color : String) {i : ℕ} (hi : i < mesh.n0) :
    ∃ line, meshLine dims mesh (some color) i = .ok line ∧ ShowsRow labels line mesh i color := by
  choose q hq hs using fun p => meshPoint_truly hd h p
  refine ⟨⟨(List.range mesh.n1).map fun j => q (mesh.at' i j), color⟩, ?_, rfl, by simp, fun j hj => ?_⟩
  · unfold meshLine
    rw [if_neg (not_le.2 hi), mapM_ok (g := fun j => q (mesh.at' i j)) fun j _ => hq _]
    rfl
  · exact ⟨_, by simp [hj], hs _⟩

/-- **C101** (partial: two dimensions, or all three in the order x, y, z).  With known dimensions, a colour for each
mesh, and at least as many rows in the second mesh as in the first, `plot_mesh` draws one line for every row of the
first mesh, each followed by the line for the same row of the second one, and every point is drawn with the
coordinates that the axes are labelled with.  Missing: three dimensions in another order, see `C101_refuted`, and
the default colour of the second mesh, see `C101_refuted_default`. -/
theorem C101_mesh_partial (m1 : NdMesh) (m2 : Option NdMesh) (dims : List ℤ) (c1 c2 : String)
    (hd : dims.length = 2 ∨ dims = [0, 1, 2]) (hv : ∀ d ∈ dims, d = 0 ∨ d = 1 ∨ d = 2)
    (h2 : ∀ m, m2 = some m → m1.n0 ≤ m.n0) :
    ∃ plot, plotMesh m1 m2 dims (some c1) (some c2) = .ok plot ∧ plot.labels.length = dims.length ∧
      (m2 = none → plot.lines.length = m1.n0 ∧ ∀ i, i < m1.n0 → ∃ line, plot.lines[i]? = some line ∧
        ShowsRow plot.labels line m1 i c1) ∧
      (∀ m, m2 = some m → plot.lines.length = m1.n0 * 2 ∧ ∀ i, i < m1.n0 → ∃ a b,
        plot.lines[i * 2 + 0]? = some a ∧ plot.lines[i * 2 + 1]? = some b ∧
        ShowsRow plot.labels a m1 i c1 ∧ ShowsRow plot.labels b m i c2) := by
  have hl : ∃ labels, meshLabels dims = .ok labels ∧ labels.length = dims.length := by
    have hax : ∀ d ∈ dims, ∃ l, axisLabel d = .ok l := by
      intro d hd'
      rcases hv d hd' with rfl | rfl | rfl <;> exact ⟨_, rfl⟩
    unfold meshLabels
    rw [if_pos (by rcases hd with hd | rfl; exacts [Or.inl hd, Or.inr rfl])]
    classical
    let f : ℤ → String := fun d => if h : d ∈ dims then (hax d h).choose else ""
    refine ⟨dims.map f, mapM_ok fun d hd' => ?_, by simp⟩
    simp only [f, hd', dite_true]
    exact (hax d hd').choose_spec
  obtain ⟨labels, hl, hll⟩ := hl
  have hrow1 : ∀ i, ∃ line, i < m1.n0 → (meshLine dims m1 (some c1) i = .ok line ∧ ShowsRow labels line m1 i c1) := by
    intro i
    by_cases hi : i < m1.n0
    · obtain ⟨l, hl1, hl2⟩ := meshLine_shows hd hl m1 c1 hi
      exact ⟨l, fun _ => ⟨hl1, hl2⟩⟩
    · exact ⟨⟨[], ""⟩, fun h => absurd h hi⟩
  choose f hf using hrow1
  cases m2 with
  | none =>
    refine ⟨⟨labels, ((List.range m1.n0).map fun i => [f i]).flatten⟩, ?_, hll, fun _ => ?_, by simp⟩
    · unfold plotMesh
      simp only [hl, bind, Except.bind]
      rw [mapM_ok (g := fun i => [f i]) fun i hi => by
        rw [(hf i (List.mem_range.1 hi)).1]]
    · have e : ((List.range m1.n0).map fun i => [f i]).flatten = (List.range m1.n0).map f := by
        generalize List.range m1.n0 = l
        induction l with
        | nil => rfl
        | cons a l ih => simp [ih]
      rw [e]
      refine ⟨by simp, fun i hi => ⟨f i, by simp [hi], (hf i hi).2⟩⟩
  | some m =>
    have hm := h2 m rfl
    have hrow2 : ∀ i, ∃ line, i < m1.n0 → (meshLine dims m (some c2) i = .ok line ∧ ShowsRow labels line m i c2) := by
      intro i
      by_cases hi : i < m1.n0
      · obtain ⟨l, hl1, hl2⟩ := meshLine_shows hd hl m c2 (lt_of_lt_of_le hi hm)
        exact ⟨l, fun _ => ⟨hl1, hl2⟩⟩
      · exact ⟨⟨[], ""⟩, fun h => absurd h hi⟩
    choose g hg using hrow2
    refine ⟨⟨labels, ((List.range m1.n0).map fun i => [f i, g i]).flatten⟩, ?_, hll, by simp, fun m' hm' => ?_⟩
    · unfold plotMesh
      simp only [hl, bind, Except.bind]
      rw [mapM_ok (g := fun i => [f i, g i]) fun i hi => by
        simp only [(hf i (List.mem_range.1 hi)).1, (hg i (List.mem_range.1 hi)).1]]
    · cases hm'
      have e : ((List.range m1.n0).map fun i => [f i, g i]).flatten = (List.range m1.n0).flatMap fun i =>
          (List.range 2).map fun j => if j = 0 then f i else g i := by
        rw [List.flatMap_def]; rfl
      rw [e]
      refine ⟨grid_length _ _ _, fun i hi => ⟨f i, g i, ?_, ?_, (hf i hi).2, (hg i hi).2⟩⟩
      · have := grid_getElem? m1.n0 2 (fun i j => if j = 0 then f i else g i) hi (show 0 < 2 by norm_num)
        simpa using this
      · have := grid_getElem? m1.n0 2 (fun i j => if j = 0 then f i else g i) hi (show 1 < 2 by norm_num)
        simpa using this

/-- Non-vacuity: side view of a mesh of two rows. -/
example : (([0, 2] : List ℤ).length = 2 ∨ ([0, 2] : List ℤ) = [0, 1, 2]) ∧
    (∀ d ∈ ([0, 2] : List ℤ), d = 0 ∨ d = 1 ∨ d = 2) := by simp

/-- **C101 refuted**, for every other order of three dimensions: the labels follow the requested order, the
data do not, so there is a mesh with a point that is drawn under wrong labels. -/
theorem C101_refuted (dims : List ℤ) (h3 : dims.length = 3) (hv : ∀ d ∈ dims, d = 0 ∨ d = 1 ∨ d = 2)
    (hne : dims ≠ [0, 1, 2]) (c : String) :
    ∃ plot line numbers, plotMesh ⟨1, 1, fun _ _ => ⟨1, 2, 3⟩⟩ none dims (some c) none = .ok plot ∧
      plot.lines = [line] ∧ line.points = [numbers] ∧ ¬ ShownTruly plot.labels numbers ⟨1, 2, 3⟩ := by
  match dims, h3 with
  | [a, b, d], _ =>
    have ha := hv a (by simp)
    have hb := hv b (by simp)
    have hd := hv d (by simp)
    rcases ha with rfl | rfl | rfl <;> rcases hb with rfl | rfl | rfl <;> rcases hd with rfl | rfl | rfl <;>
      first
        | exact absurd rfl hne
        | exact ⟨_, _, _, rfl, rfl, rfl, by norm_num [ShownTruly, named_x, named_y, named_z]⟩

/-- **C101 refuted**: with the default colours a second mesh cannot be drawn at all. -/
theorem C101_refuted_default (m1 m2 : NdMesh) (dims : List ℤ) (labels : List String)
    (hd : dims.length = 2 ∨ dims = [0, 1, 2]) (hl : meshLabels dims = .ok labels) (h1 : 0 < m1.n0) (h2 : 0 < m2.n0) :
    plotMesh m1 (some m2) dims (some "green") none = .error .valueError := by
  unfold plotMesh
  simp only [hl, bind, Except.bind]
  obtain ⟨line, hline, -⟩ := meshLine_shows hd hl m1 "green" h1
  have hb : meshLine dims m2 none 0 = .error .valueError := by
    choose q hq _ using fun p => meshPoint_truly hd hl p
    unfold meshLine
    rw [if_neg (not_le.2 h2), mapM_ok (g := fun j => q (m2.at' 0 j)) fun j _ => hq _]
    rfl
  rw [mapM_error (e := .valueError)]
  refine ⟨0, by simpa using h1, ?_, fun j hj => absurd hj (Nat.not_lt_zero _)⟩
  simp only [List.getElem_range, hline, hb]

/-- A second mesh with fewer rows than the first one is an `IndexError`. -/
theorem C101_shorter (m1 m2 : NdMesh) (dims : List ℤ) (c1 c2 : String) (hd : dims.length = 2 ∨ dims = [0, 1, 2])
    (hv : ∀ d ∈ dims, d = 0 ∨ d = 1 ∨ d = 2) (h : m2.n0 < m1.n0) :
    plotMesh m1 (some m2) dims (some c1) (some c2) = .error .indexError := by
  obtain ⟨plot0, h0, -⟩ := C101_mesh_partial m1 none dims c1 c2 hd hv (fun m hm => by cases hm)
  obtain ⟨labels, hl⟩ : ∃ labels, meshLabels dims = .ok labels := by
    unfold plotMesh at h0
    cases hm : meshLabels dims with
    | error e => rw [hm] at h0; cases h0
    | ok l => exact ⟨l, rfl⟩
  unfold plotMesh
  simp only [hl, bind, Except.bind]
  rw [mapM_error (e := .indexError)]
  refine ⟨m2.n0, by simpa using h, ?_, fun j hj => ?_⟩
  · obtain ⟨line, hline, -⟩ := meshLine_shows hd hl m1 c1 h
    have hb : meshLine dims m2 (some c2) m2.n0 = .error .indexError := by
      unfold meshLine
      rw [if_pos le_rfl]
    simp only [List.getElem_range, hline, hb]
  · obtain ⟨a, ha, -⟩ := meshLine_shows hd hl m1 c1 (hj.trans h)
    obtain ⟨b, hb, -⟩ := meshLine_shows hd hl m2 c2 hj
    exact ⟨[a, b], by simp only [List.getElem_range, ha, hb]⟩

/-- Non-vacuity: two rows and one row. -/
example : plotMesh ⟨2, 1, fun _ _ => ⟨1, 2, 3⟩⟩ (some ⟨1, 1, fun _ _ => ⟨1, 2, 3⟩⟩) [0, 2] (some "green") (some "red") = .error .indexError :=
  C101_shorter _ _ _ _ _ (Or.inl rfl) (by simp) (by norm_num)

/-- An unknown dimension is a `KeyError`, before anything is drawn. -/
theorem C101_unknown_dimension (m1 : NdMesh) (m2 : Option NdMesh) (dims : List ℤ) (c1 c2 : Option String)
    (hd : dims.length = 2 ∨ dims.length = 3) (h : ∃ d ∈ dims, ¬ (d = 0 ∨ d = 1 ∨ d = 2)) :
    plotMesh m1 m2 dims c1 c2 = .error .keyError := by
  have key : dims.mapM axisLabel = .error .keyError := by
    clear hd
    induction dims with
    | nil => simp at h
    | cons a l ih =>
      rw [List.mapM_cons]
      by_cases ha : a = 0 ∨ a = 1 ∨ a = 2
      · have hl : ∃ d ∈ l, ¬ (d = 0 ∨ d = 1 ∨ d = 2) := by
          obtain ⟨d, hd, hd'⟩ := h
          rcases List.mem_cons.1 hd with rfl | hd
          · exact absurd ha hd'
          · exact ⟨d, hd, hd'⟩
        rw [ih hl]
        rcases ha with rfl | rfl | rfl <;> rfl
      · push Not at ha
        have : axisLabel a = .error .keyError := by
          unfold axisLabel
          rw [if_neg ha.1, if_neg ha.2.1, if_neg ha.2.2]
        rw [this]
        rfl
  unfold plotMesh meshLabels
  rw [if_pos hd, key]
  rfl

/-- Non-vacuity: the last axis as `-1`. -/
example : ∃ d ∈ ([0, -1] : List ℤ), ¬ (d = 0 ∨ d = 1 ∨ d = 2) := ⟨-1, by simp, by decide⟩

/-! ## C102 -/

/-- **C102.**  `display_panels_or_rings` succeeds exactly if `display_panels_xyz` can set up the axes for the same
mid points; it draws the given panels or rings in order, all of them if and only if there are at least as many
pressures; water surface and axes are those of the picture of the run. -/
theorem C102_rings (r : Vlm) (mode : String) (p : PanelPlot) (hp : displayPanels r mode = .ok p)
    (things : List Panel) (pressure : List ℝ) :
    ∃ q, displayPanelsOrRings things pressure (r.vars.map PanelVars.leMid) (r.vars.map PanelVars.teMid) = .ok q ∧
      q.polygons = things.take pressure.length ∧ (q.polygons = things ↔ things.length ≤ pressure.length) ∧
      q.water = p.water ∧ q.xlim = p.xlim ∧ q.ylim = p.ylim ∧ q.zlim = p.zlim := by
  unfold displayPanels at hp
  simp only [bind, Except.bind] at hp
  split at hp
  · cases hp
  split at hp
  · cases hp
  split at hp
  · cases hp
  rename_i w hw
  split at hp
  · cases hp
  rename_i l hl
  injection hp with hp
  have ht : (things.zip pressure).map Prod.fst = things.take pressure.length := by
    clear hp hw hl
    induction things generalizing pressure with
    | nil => simp
    | cons a t ih =>
      cases pressure with
      | nil => simp
      | cons x xs => simp [ih]
  refine ⟨⟨(things.zip pressure).map Prod.fst, w, l.1, l.2.1, l.2.2⟩, ?_, ht, ?_, ?_⟩
  · unfold displayPanelsOrRings
    simp only [hw, hl, bind, Except.bind]
  · simp only [ht]
    exact List.take_eq_self_iff _
  · rw [← hp]
    exact ⟨rfl, rfl, rfl, rfl⟩

/-- Non-vacuity: a solved run with a picture. -/
example : ∃ (r : Vlm) (p : PanelPlot), displayPanels r "p_coeffs" = .ok p :=
  let ⟨_, r, p, _, h, _⟩ := C70_refuted
  ⟨r, p, h⟩

theorem pyMax_zero {l : List V3} (h : l ≠ []) (hz : ∀ p ∈ l, p.z = 0) : pyMax (l.map fun p => |p.z|) = .ok 0 := by
  have key : ∀ l : List V3, (∀ p ∈ l, p.z = 0) → (l.map fun p => |p.z|).foldl max 0 = 0 := by
    intro l hl
    induction l with
    | nil => rfl
    | cons a l ih =>
      rw [List.map_cons, List.foldl_cons, hl a (by simp), abs_zero, max_self]
      exact ih fun p hp => hl p (by simp [hp])
  cases l with
  | nil => exact absurd rfl h
  | cons a l =>
    rw [List.map_cons, pyMax, hz a (by simp), abs_zero, key l fun p hp => hz p (by simp [hp])]

/-- Nothing to draw, or everything in the water plane: no picture. -/
theorem C102_no_points (things : List Panel) (pressure : List ℝ) (le te : List V3)
    (h : le = [] ∨ te = [] ∨ ((∀ p ∈ le, p.z = 0) ∧ ∀ p ∈ te, p.z = 0)) :
    displayPanelsOrRings things pressure le te = .error .valueError := by
  unfold displayPanelsOrRings waterSize
  by_cases h1 : le = []
  · subst h1; rfl
  by_cases h2 : te = []
  · subst h2
    cases le with
    | nil => exact absurd rfl h1
    | cons a l => rfl
  obtain ⟨h3, h4⟩ := (h.resolve_left h1).resolve_left h2
  simp only [pyMax_zero h1 h3, pyMax_zero h2 h4, bind, Except.bind, max_self, Int.ceil_zero, Int.cast_zero, mul_zero,
    Int.floor_zero]
  unfold axisLimits
  rw [if_pos le_rfl]

/-- Non-vacuity: one panel lying in the water plane. -/
example : ∀ p ∈ ([⟨1, 0, 0⟩] : List V3), p.z = 0 := by simp

end PySailing.Props
