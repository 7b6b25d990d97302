import Verif.Props.Solver
import Verif.Lemmas.Coefs
import Mathlib.Analysis.SpecificLimits.Basic

/-!
# C43, C44, C55: force coefficients
-/

namespace PySailing.Props

open PySailing PySailing.Spec

/-! ## C43 -/

/-- **C43.** For any number `k ≥ 1` of sails, any grid size and any arrays over the `k` sails and their
`k` mirror images, `get_C` returns, for strip `j` of sail `b`, the sum over the panels of the strip of
force over dynamic pressure, divided by the area of the strip. -/
theorem C43_section_coefficients (nc ns k : ℕ) (hnc : 0 < nc) (hns : 0 < ns) (hk : 0 < k) (rho : ℝ)
    (hrho : rho ≠ 0) (F V : ℕ → ℕ → ℕ → V3) (A : ℕ → ℕ → ℕ → ℝ)
    (hA : ∀ b i j, b < k → i < nc → j < ns → 0 < A b i j)
    (hV : ∀ b i j, b < k → i < nc → j < ns → V b i j ≠ 0) :
    getC (2 * k * (nc * ns)) (blockArray nc ns (2 * k) A) (blockArray nc ns (2 * k) F)
        (blockArray nc ns (2 * k) V) ns nc rho =
      .ok ((List.range k).map fun b => (List.range ns).map fun j =>
        sectionCoefficient nc rho (fun i => F b i j) (fun i => V b i j) (fun i => A b i j)) :=
  getC_blocks hnc hns hk hrho hA hV

/-- Entry of an array of panel data for panel `(i, j)` of block `b`. -/
def entry {α : Type} (l : List α) (d : α) (nc ns b i j : ℕ) : α := l.getD (panelNo nc ns b i j) d

/-- Section coefficient of strip `j` of sail `b` of a `Vlm` object for the forces `F`. -/
noncomputable def vlmSection (r : Vlm) (F : List V3) (b j : ℕ) : ℝ :=
  sectionCoefficient r.input.nc r.input.rho (fun i => entry F 0 r.input.nc r.input.ns b i j)
    (fun i => entry r.inlet.vAppInfs 0 r.input.nc r.input.ns b i j)
    (fun i => entry r.areas 0 r.input.nc r.input.ns b i j)

/-- Area of strip `j` of sail `b`. -/
noncomputable def stripArea (r : Vlm) (b j : ℕ) : ℝ :=
  ∑ i ∈ Finset.range r.input.nc, entry r.areas 0 r.input.nc r.input.ns b i j

/-- Area-weighted mean over the strips of sail `b`. -/
noncomputable def sailMean (r : Vlm) (b : ℕ) (c : ℕ → ℝ) : ℝ :=
  (∑ j ∈ Finset.range r.input.ns, stripArea r b j * c j) /
    ∑ j ∈ Finset.range r.input.ns, stripArea r b j

theorem vlm_lengths {a : VlmInput} {r : Vlm} (h : vlm a = .ok r) :
    r.input = a ∧ r.vars.length = a.panels.length ∧ r.areas.length = a.panels.length ∧
    r.inlet.vAppInfs.length = a.panels.length ∧ a.rho ≠ 0 ∧
    (∀ k, k < a.panels.length → 0 < r.areas.getD k 0 ∧ r.inlet.vAppInfs.getD k 0 ≠ 0) := by
  obtain ⟨hin, har, hv, hinl, hs⟩ := (vlm_ok_iff a r).1 h
  obtain ⟨hw, -, -⟩ := (vlmCore_ok_iff _ _ _ _ _ _ _ _ _).1 hs
  have hl := (calculateVlmVariables_ok hv).1
  obtain ⟨h1, h2, h3⟩ := (inletConditions_ok_iff _ _ _ _).1 hinl
  have hlen : r.inlet.vAppInfs.length = a.panels.length := by
    rw [h3]
    simp only [List.length_map]
    rw [(mapM_ok_inv h2).1, List.length_map, hl]
  refine ⟨hin, hl, by rw [har]; simp [getPanelsArea], hlen, hw.rho ?_, fun k hk => ⟨?_, ?_⟩⟩
  · rw [List.length_pos_iff]; rintro h0; rw [h0] at h1; exact h1 rfl
  · rw [har]; exact lt_of_lt_of_le (by norm_num) (hw.areas ⟨k, by omega⟩)
  · exact hw.wind ⟨k, by omega⟩

/-- **C43**, for the sections of a `Vlm` object. -/
theorem C43_vlm (a : VlmInput) (r : Vlm) (h : vlm a = .ok r) (k : ℕ) (hk : 0 < k)
    (hlen : a.panels.length = 2 * k * (a.nc * a.ns)) (hnc : 0 < a.nc) (hns : 0 < a.ns) :
    r.sectionLift = .ok ((List.range k).map fun b => (List.range a.ns).map fun j =>
        vlmSection r r.out.lift b j) ∧
    r.sectionDrag = .ok ((List.range k).map fun b => (List.range a.ns).map fun j =>
        vlmSection r r.out.drag b j) := by
  obtain ⟨hin, hl, hal, hVl, hrho, hpos⟩ := vlm_lengths h
  have key (F : List V3) (hF : F.length = a.panels.length) :
      getC r.input.panels.length r.areas F r.inlet.vAppInfs r.input.ns r.input.nc r.input.rho =
      .ok ((List.range k).map fun b => (List.range a.ns).map fun j => vlmSection r F b j) := by
    have := C43_section_coefficients a.nc a.ns k hnc hns hk a.rho hrho
      (fun b i j => F.getD (panelNo a.nc a.ns b i j) 0)
      (fun b i j => r.inlet.vAppInfs.getD (panelNo a.nc a.ns b i j) 0)
      (fun b i j => r.areas.getD (panelNo a.nc a.ns b i j) 0)
      (fun b i j hb hi hj => (hpos _ (by
        rw [hlen]; exact panelNo_lt (by omega) hi hj)).1)
      (fun b i j hb hi hj => (hpos _ (by
        rw [hlen]; exact panelNo_lt (by omega) hi hj)).2)
    rw [← eq_blockArray F 0 (by rw [hF, hlen]), ← eq_blockArray r.areas 0 (by rw [hal, hlen]),
      ← eq_blockArray r.inlet.vAppInfs 0 (by rw [hVl, hlen])] at this
    rw [hin, hlen, this]
    unfold vlmSection entry
    rw [hin]
  exact ⟨key _ (by simp [Vlm.out, VlmSolution.arrays, hl]),
    key _ (by simp [Vlm.out, VlmSolution.arrays, hl])⟩

theorem normalisedC_ok {ns : ℕ} (S c : ℕ → ℝ)
    (hS : ∑ j ∈ Finset.range ns, S j ≠ 0)
    (hC : (∑ j ∈ Finset.range ns, S j * c j) / (∑ j ∈ Finset.range ns, S j) ≠ 0) :
    normalisedC ((List.range ns).map S) ((List.range ns).map c) =
      .ok ((List.range ns).map fun j =>
        c j / ((∑ j ∈ Finset.range ns, S j * c j) / (∑ j ∈ Finset.range ns, S j))) := by
  unfold normalisedC
  simp only [range_map_sum, zipWith_range]
  rw [if_neg hS, if_neg hC, List.map_map]
  rfl

theorem stripArea_pos {a : VlmInput} {r : Vlm} (h : vlm a = .ok r) {k : ℕ}
    (hlen : a.panels.length = 2 * k * (a.nc * a.ns)) (hnc : 0 < a.nc) {b j : ℕ} (hb : b < k)
    (hj : j < a.ns) : 0 < stripArea r b j := by
  obtain ⟨hin, -, -, -, -, hpos⟩ := vlm_lengths h
  unfold stripArea entry
  rw [hin]
  refine Finset.sum_pos (fun i hi => ?_) ⟨0, by simpa using hnc⟩
  exact (hpos _ (by
    rw [hlen]; exact panelNo_lt (by omega) (Finset.mem_range.1 hi) hj)).1

/-- **C43**, the plotted data: if no sail has zero mean lift or drag coefficient,
`get_data_for_coeff_plot` returns, for every sail and strip, the mean height of the strip's pressure
points and the section coefficients divided by their area-weighted mean over the sail; the
area-weighted mean of the plotted distribution is one. -/
theorem C43_plot_data (a : VlmInput) (r : Vlm) (h : vlm a = .ok r) (k : ℕ) (hk : 0 < k)
    (hlen : a.panels.length = 2 * k * (a.nc * a.ns)) (hnc : 0 < a.nc) (hns : 0 < a.ns)
    (hL : ∀ b, b < k → sailMean r b (vlmSection r r.out.lift b) ≠ 0)
    (hD : ∀ b, b < k → sailMean r b (vlmSection r r.out.drag b) ≠ 0) :
    coeffPlotData r a.nc a.ns = .ok
      { meanCpZ := (List.range k).map fun b => (List.range a.ns).map fun j =>
          (∑ i ∈ Finset.range a.nc, (entry (r.vars.map PanelVars.cp) 0 a.nc a.ns b i j).z) / a.nc
        lift := (List.range k).map fun b => (List.range a.ns).map fun j =>
          vlmSection r r.out.lift b j / sailMean r b (vlmSection r r.out.lift b)
        drag := (List.range k).map fun b => (List.range a.ns).map fun j =>
          vlmSection r r.out.drag b j / sailMean r b (vlmSection r r.out.drag b) } ∧
    ∀ b, b < k →
      sailMean r b (fun j => vlmSection r r.out.lift b j /
        sailMean r b (vlmSection r r.out.lift b)) = 1 ∧
      sailMean r b (fun j => vlmSection r r.out.drag b j /
        sailMean r b (vlmSection r r.out.drag b)) = 1 := by
  obtain ⟨hin, hl, hal, hVl, hrho, hpos⟩ := vlm_lengths h
  obtain ⟨hcl, hcd⟩ := C43_vlm a r h k hk hlen hnc hns
  have hSpos (b : ℕ) (hb : b < k) : 0 < ∑ j ∈ Finset.range a.ns, stripArea r b j :=
    Finset.sum_pos (fun j hj => stripArea_pos h hlen hnc hb (Finset.mem_range.1 hj))
      ⟨0, by simpa using hns⟩
  have hmean (b : ℕ) (c : ℕ → ℝ) (hc : sailMean r b c ≠ 0) :
      sailMean r b (fun j => c j / sailMean r b c) = 1 := by
    obtain ⟨m, hm⟩ : ∃ m, m = sailMean r b c := ⟨_, rfl⟩
    rw [← hm] at hc ⊢
    have e : sailMean r b (fun j => c j / m) = sailMean r b c / m := by
      unfold sailMean
      have e2 : ∑ j ∈ Finset.range r.input.ns, stripArea r b j * (c j / m) =
          (∑ j ∈ Finset.range r.input.ns, stripArea r b j * c j) / m := by
        rw [Finset.sum_div]
        exact Finset.sum_congr rfl fun j _ => by rw [mul_div_assoc]
      rw [e2, div_right_comm]
    rw [e, ← hm, div_self hc]
  refine ⟨?_, fun b hb => ⟨hmean b _ (hL b hb), hmean b _ (hD b hb)⟩⟩
  unfold coeffPlotData
  rw [hcl, hcd]
  have hn := Nat.mul_pos hns hnc
  simp only [bind, Except.bind]
  rw [if_neg (by omega)]
  have e : r.input.panels.length / (a.ns * a.nc * 2) = k := by
    rw [hin, hlen, show 2 * k * (a.nc * a.ns) = k * (a.ns * a.nc * 2) by ring]
    exact Nat.mul_div_cancel _ (by omega)
  rw [e]
  have hA := npSplit_blockArray (nc := a.nc) (ns := a.ns) (n := 2 * k)
    (fun b i j => r.areas.getD (panelNo a.nc a.ns b i j) 0) (by omega)
  rw [← eq_blockArray r.areas 0 (by rw [hal, hlen])] at hA
  have hP := npSplit_blockArray (nc := a.nc) (ns := a.ns) (n := 2 * k)
    (fun b i j => (r.vars.map PanelVars.cp).getD (panelNo a.nc a.ns b i j) 0) (by omega)
  rw [← eq_blockArray (r.vars.map PanelVars.cp) 0 (by rw [List.length_map, hl, hlen])] at hP
  rw [hA, hP]
  simp only
  rw [mapM_ok (g := fun b =>
    ((List.range a.ns).map fun j =>
        (∑ i ∈ Finset.range a.nc, (entry (r.vars.map PanelVars.cp) 0 a.nc a.ns b i j).z) / (a.nc : ℝ),
      (List.range a.ns).map fun j =>
        vlmSection r r.out.lift b j / sailMean r b (vlmSection r r.out.lift b),
      (List.range a.ns).map fun j =>
        vlmSection r r.out.drag b j / sailMean r b (vlmSection r r.out.drag b)))]
  · simp only [List.map_map]
    rfl
  intro b hb
  have hb := List.mem_range.1 hb
  have hget {α : Type} (n : ℕ) (f : ℕ → α) (hbn : b < n) :
      idx ((List.range n).map f) b = .ok (f b) :=
    idx_of_getElem? (by rw [List.getElem?_map, List.getElem?_range hbn]; rfl)
  rw [hget (2 * k) _ (by omega), hget (2 * k) _ (by omega), hget k _ hb, hget k _ hb]
  simp only
  unfold coeffPlotSail
  rw [mapM_ok (g := fun j => stripArea r b j) (by
    intro j hj
    rw [stripColumn_grid _ (List.mem_range.1 hj)]
    simp only [bind, Except.bind, range_map_sum]
    unfold stripArea entry
    rw [hin])]
  rw [mapM_ok (g := fun j =>
    (∑ i ∈ Finset.range a.nc, (entry (r.vars.map PanelVars.cp) 0 a.nc a.ns b i j).z) / (a.nc : ℝ)) (by
    intro j hj
    rw [gridArray_map, stripColumn_grid _ (List.mem_range.1 hj)]
    simp only [bind, Except.bind, range_map_sum]
    rfl)]
  simp only [bind, Except.bind]
  have hSm (c : ℕ → ℝ) : sailMean r b c = (∑ j ∈ Finset.range a.ns, stripArea r b j * c j) /
      ∑ j ∈ Finset.range a.ns, stripArea r b j := by unfold sailMean; rw [hin]
  have hLb := hL b hb
  have hDb := hD b hb
  rw [hSm] at hLb hDb
  rw [normalisedC_ok _ _ (hSpos b hb).ne' hLb, normalisedC_ok _ _ (hSpos b hb).ne' hDb]
  simp only [hSm]

/-- Non-vacuity of `C43_section_coefficients`: one sail of two by one panels, forces 2 and 4, dynamic
pressure 1/2, areas 1 and 2: the coefficient is (4 + 8)/3. -/
example : getC 4 [1, 2, 1, 2] [⟨2, 0, 0⟩, ⟨0, 4, 0⟩, ⟨2, 0, 0⟩, ⟨0, 4, 0⟩]
    [⟨1, 0, 0⟩, ⟨1, 0, 0⟩, ⟨1, 0, 0⟩, ⟨1, 0, 0⟩] 1 2 1 = .ok [[4]] := by
  have h1 : (⟨1, 0, 0⟩ : V3).norm = 1 := by simp [V3.norm, V3.dot]
  have h := C43_section_coefficients 2 1 1 (by norm_num) (by norm_num) (by norm_num) 1 one_ne_zero
    (fun _ i _ => if i = 0 then ⟨2, 0, 0⟩ else ⟨0, 4, 0⟩) (fun _ _ _ => ⟨1, 0, 0⟩)
    (fun _ i _ => (i : ℝ) + 1) (fun _ _ _ _ _ _ => by positivity)
    (fun _ _ _ _ _ _ h => by simpa using congrArg V3.x h)
  have e1 : blockArray 2 1 (2 * 1) (fun _ i _ => (i : ℝ) + 1) = [1, 2, 1, 2] := by
    simp [blockArray, gridArray, List.range_succ]; norm_num
  have e2 : blockArray 2 1 (2 * 1) (fun _ i _ => if i = 0 then (⟨2, 0, 0⟩ : V3) else ⟨0, 4, 0⟩) =
      [⟨2, 0, 0⟩, ⟨0, 4, 0⟩, ⟨2, 0, 0⟩, ⟨0, 4, 0⟩] := by
    simp [blockArray, gridArray, List.range_succ]
  have e3 : blockArray 2 1 (2 * 1) (fun _ _ _ => (⟨1, 0, 0⟩ : V3)) =
      [⟨1, 0, 0⟩, ⟨1, 0, 0⟩, ⟨1, 0, 0⟩, ⟨1, 0, 0⟩] := by
    simp [blockArray, gridArray, List.range_succ]
  rw [e1, e2, e3] at h
  rw [show 4 = 2 * 1 * (2 * 1) by norm_num, h]
  have h2 : (⟨2, 0, 0⟩ : V3).norm = 2 := by
    rw [show (⟨2, 0, 0⟩ : V3) = (2 : ℝ) • ⟨1, 0, 0⟩ by ext <;> simp, V3.norm_smul, h1]; norm_num
  have h4 : (⟨0, 4, 0⟩ : V3).norm = 4 := by
    rw [show (⟨0, 4, 0⟩ : V3) = (4 : ℝ) • ⟨0, 1, 0⟩ by ext <;> simp, V3.norm_smul,
      show (⟨0, 1, 0⟩ : V3).norm = 1 by simp [V3.norm, V3.dot]]; norm_num
  simp [sectionCoefficient, Finset.sum_range_succ, h1, h2, h4, List.range_succ]
  norm_num

/-! ## C44 -/

/-- The horizontal coordinates shown in a figure, series by series. -/
def _root_.PySailing.Figure.xData (f : Figure) : List (List ℝ) := f.series.map fun s => s.2.2.2.1

/-- The vertical coordinates. -/
def _root_.PySailing.Figure.yData (f : Figure) : List (List ℝ) := f.series.map fun s => s.2.2.2.2

theorem plotSectionCoeff_ok {x y : List (List ℝ)} {name : String} {colors : List String}
    {f : Figure} (h : plotSectionCoeff x y name colors = .ok f) (hl : x.length = y.length) :
    f.xData = x ∧ f.yData = y ∧ (name = "lift" → f.file = "section_cl" ∧ f.xlabel = "Section $c_l$") ∧
    (name = "drag" → f.file = "section_cd" ∧ f.xlabel = "Section $c_d$") ∧
    f.series.map (fun s => (s.1, s.2.1, s.2.2.1)) = (["jib", "main"].zip (["o", "^"].zip colors)).take y.length := by
  unfold plotSectionCoeff at h
  by_cases hname : name = "lift" ∨ name = "drag"
  swap
  · rw [if_pos hname] at h; cases h
  rw [if_neg (not_not.2 hname)] at h
  simp only [bind, Except.bind] at h
  split at h
  · cases h
  rename_i series hs
  injection h with h
  subst h
  obtain ⟨hlen, hget⟩ := mapM_ok_inv hs
  rw [List.length_range] at hlen
  have key : ∀ i, i < y.length → ∃ s, series[i]? = some s ∧ x[i]? = some s.2.2.2.1 ∧
      y[i]? = some s.2.2.2.2 ∧ ["jib", "main"][i]? = some s.1 ∧ ["o", "^"][i]? = some s.2.1 ∧ colors[i]? = some s.2.2.1 := by
    intro i hi
    obtain ⟨b, hb, hf⟩ := hget i (by simpa using hi)
    refine ⟨b, hb, ?_⟩
    rw [List.getElem_range] at hf
    have hidx {α : Type} {l : List α} {i : ℕ} {v : α} : idx l i = .ok v ↔ l[i]? = some v := by
      unfold idx
      cases l[i]? <;> simp
    split at hf
    · cases hf
    rename_i xs hxs
    split at hf
    · cases hf
    rename_i ys hys
    split at hf
    · cases hf
    rename_i lb hlb
    split at hf
    · cases hf
    rename_i mk hmk
    split at hf
    · cases hf
    rename_i co hco
    split at hf
    · cases hf
    injection hf with hf
    subst hf
    exact ⟨hidx.1 hxs, hidx.1 hys, hidx.1 hlb, hidx.1 hmk, hidx.1 hco⟩
  refine ⟨?_, ?_, ?_, ?_, ?_⟩
  · apply List.ext_getElem?
    intro i
    simp only [Figure.xData, List.getElem?_map]
    by_cases hi : i < y.length
    · obtain ⟨s, h1, h2, -⟩ := key i hi
      rw [h1, h2]; rfl
    · rw [List.getElem?_eq_none (by omega), List.getElem?_eq_none (by omega)]; rfl
  · apply List.ext_getElem?
    intro i
    simp only [Figure.yData, List.getElem?_map]
    by_cases hi : i < y.length
    · obtain ⟨s, h1, -, h2, -⟩ := key i hi
      rw [h1, h2]; rfl
    · rw [List.getElem?_eq_none (by omega), List.getElem?_eq_none (by omega)]; rfl
  · rintro rfl; simp
  · rintro rfl; simp
  · apply List.ext_getElem?
    intro i
    simp only [List.getElem?_map, List.getElem?_take]
    by_cases hi : i < y.length
    · obtain ⟨s, h1, -, -, h2, h3, h4⟩ := key i hi
      have hz : (["jib", "main"].zip (["o", "^"].zip colors))[i]? = some (s.1, s.2.1, s.2.2.1) :=
        List.getElem?_zip_eq_some.2 ⟨h2, List.getElem?_zip_eq_some.2 ⟨h3, h4⟩⟩
      rw [h1, if_pos hi, hz]; rfl
    · rw [List.getElem?_eq_none (by omega), if_neg hi]; rfl

/-- **C44**, what the program does, in every run that reaches the plots: there is one figure labelled
and named as lift and one as drag, each with the mean heights of the strips on the vertical axis and
one series per sail, with its own name, marker and colour; but the figure labelled lift shows the
*drag* distribution and vice versa.  The first series is always called `jib`, also if the only sail is a
main sail. -/
theorem C44_labels_partial (d : CoeffPlotData) (hl : d.lift.length = d.meanCpZ.length)
    (hd : d.drag.length = d.meanCpZ.length) (figs : Figure × Figure)
    (h : cliSectionPlots d = .ok figs) :
    figs.1.file = "section_cl" ∧ figs.1.xlabel = "Section $c_l$" ∧
    figs.2.file = "section_cd" ∧ figs.2.xlabel = "Section $c_d$" ∧
    figs.1.yData = d.meanCpZ ∧ figs.2.yData = d.meanCpZ ∧
    figs.1.xData = d.drag ∧ figs.2.xData = d.lift ∧
    figs.1.series.map (fun s => (s.1, s.2.1, s.2.2.1)) = [("jib", "o", "blue"), ("main", "^", "green")].take d.meanCpZ.length ∧
    figs.2.series.map (fun s => (s.1, s.2.1, s.2.2.1)) = [("jib", "o", "teal"), ("main", "^", "purple")].take d.meanCpZ.length := by
  unfold cliSectionPlots at h
  simp only [bind, Except.bind] at h
  split at h
  · cases h
  rename_i f1 h1
  split at h
  · cases h
  rename_i f2 h2
  injection h with h
  subst h
  obtain ⟨a1, a2, a3, -, a5⟩ := plotSectionCoeff_ok h1 hd
  obtain ⟨b1, b2, -, b4, b5⟩ := plotSectionCoeff_ok h2 hl
  exact ⟨(a3 rfl).1, (a3 rfl).2, (b4 rfl).1, (b4 rfl).2, a2, b2, a1, b1, a5, b5⟩

/-- **C44** is false of the code: with different lift and drag data the figure labelled lift does not
show the lift data. -/
theorem C44_refuted : ¬ ∀ (d : CoeffPlotData) (figs : Figure × Figure),
    cliSectionPlots d = .ok figs → figs.1.file = "section_cl" → figs.1.xData = d.lift := by
  intro h
  have hex : ∃ figs, cliSectionPlots ⟨[[1]], [[2]], [[3]]⟩ = .ok figs := ⟨_, rfl⟩
  obtain ⟨figs, hf⟩ := hex
  have h1 := C44_labels_partial ⟨[[1]], [[2]], [[3]]⟩ rfl rfl figs hf
  have h2 := h _ figs hf h1.1
  rw [h1.2.2.2.2.2.2.1] at h2
  simp at h2

/-- **C44**, exactly: the figure labelled lift shows the lift data, and the one labelled drag the drag data, only if the
two data are the same. -/
theorem C44_exact (d : CoeffPlotData) (hl : d.lift.length = d.meanCpZ.length) (hd : d.drag.length = d.meanCpZ.length)
    (figs : Figure × Figure) (h : cliSectionPlots d = .ok figs) :
    (figs.1.xData = d.lift ↔ d.lift = d.drag) ∧ (figs.2.xData = d.drag ↔ d.lift = d.drag) := by
  obtain ⟨-, -, -, -, -, -, h1, h2, -⟩ := C44_labels_partial d hl hd figs h
  rw [h1, h2]
  exact ⟨eq_comm, Iff.rfl⟩

/-- The hypotheses are met by different data. -/
example : ∃ figs, cliSectionPlots ⟨[[1]], [[2]], [[3]]⟩ = .ok figs ∧ figs.1.xData ≠ [[2]] := by
  refine ⟨_, rfl, ?_⟩
  rw [Ne, (C44_exact ⟨[[1]], [[2]], [[3]]⟩ rfl rfl _ rfl).1]
  simp

/-! ## C55 -/

/-- **C55.** For every positive aspect ratio `get_CL_CD_free_wing` returns, with span efficiency
`e = 0.8`: the lifting line formula for `CL` (angle in radians) and `CD = CL²/(π AR e)`. -/
theorem C55_formula (AR aoa : ℝ) (hAR : 0 < AR) :
    ∃ CL CD, getCLCDFreeWing AR aoa = .ok (CL, CD) ∧
      CL = 2 * Real.pi * AR * 0.8 * (aoa * Real.pi / 180) / (AR * 0.8 + 2) ∧
      CD = CL ^ 2 / (Real.pi * AR * 0.8) := by
  have hpi := Real.pi_pos
  have hq : 0 < Real.pi * AR * 0.8 := by positivity
  refine ⟨2 * Real.pi * AR * 0.8 * (aoa * Real.pi / 180) / (AR * 0.8 + 2), _, ?_, rfl, rfl⟩
  unfold getCLCDFreeWing
  simp only
  rw [if_neg hq.ne', if_neg (by positivity)]
  have e : 2 * Real.pi / (1 + 2 * Real.pi / (Real.pi * AR * 0.8)) * deg2rad aoa =
      2 * Real.pi * AR * 0.8 * (aoa * Real.pi / 180) / (AR * 0.8 + 2) := by
    unfold deg2rad
    have : AR * 0.8 + 2 ≠ 0 := by positivity
    field_simp
  rw [e, sq]

/-- **C55**, dependence on the angle: `CL` is odd and strictly increasing, `CD` is even. -/
theorem C55_angle (AR a b CLa CDa CLb CDb : ℝ) (hAR : 0 < AR)
    (ha : getCLCDFreeWing AR a = .ok (CLa, CDa)) (hb : getCLCDFreeWing AR b = .ok (CLb, CDb)) :
    getCLCDFreeWing AR (-a) = .ok (-CLa, CDa) ∧ (a < b → CLa < CLb) := by
  have hpi := Real.pi_pos
  obtain ⟨CL, CD, h1, rfl, rfl⟩ := C55_formula AR a hAR
  rw [ha] at h1
  obtain ⟨rfl, rfl⟩ := Prod.mk.inj (Except.ok.inj h1)
  obtain ⟨CL, CD, h2, rfl, rfl⟩ := C55_formula AR b hAR
  rw [hb] at h2
  obtain ⟨rfl, rfl⟩ := Prod.mk.inj (Except.ok.inj h2)
  constructor
  · obtain ⟨CL, CD, h3, rfl, rfl⟩ := C55_formula AR (-a) hAR
    rw [h3]
    congr 2
    · ring
    · ring
  · intro hab
    apply div_lt_div_of_pos_right _ (by positivity)
    apply mul_lt_mul_of_pos_left _ (by positivity)
    apply div_lt_div_of_pos_right _ (by norm_num)
    exact mul_lt_mul_of_pos_right hab hpi

/-- **C55**, slender wings: as the aspect ratio grows, `CL` tends to the two-dimensional value
`2 π α` and `CD` to zero. -/
theorem C55_limit (aoa : ℝ) (CL CD : ℝ → ℝ)
    (h : ∀ AR, 0 < AR → getCLCDFreeWing AR aoa = .ok (CL AR, CD AR)) :
    Filter.Tendsto CL Filter.atTop (nhds (2 * Real.pi * (aoa * Real.pi / 180))) ∧
    Filter.Tendsto CD Filter.atTop (nhds 0) := by
  have hpi := Real.pi_pos
  have hev : ∀ᶠ AR in Filter.atTop, CL AR =
      2 * Real.pi * (aoa * Real.pi / 180) * (1 - 2 / (AR * 0.8 + 2)) ∧
      CD AR = CL AR ^ 2 * (1 / (Real.pi * 0.8)) * (1 / AR) := by
    filter_upwards [Filter.eventually_gt_atTop 0] with AR hAR
    obtain ⟨c, d, h1, h2, h3⟩ := C55_formula AR aoa hAR
    rw [h AR hAR] at h1
    obtain ⟨e1, e2⟩ := Prod.mk.inj (Except.ok.inj h1)
    rw [← e1] at h2 h3
    rw [← e2] at h3
    refine ⟨?_, ?_⟩
    · rw [h2]
      have : AR * 0.8 + 2 ≠ 0 := by positivity
      field_simp
      ring
    · rw [h3]
      field_simp
  have h0 : Filter.Tendsto (fun AR : ℝ => 2 / (AR * 0.8 + 2)) Filter.atTop (nhds 0) :=
    Filter.Tendsto.div_atTop tendsto_const_nhds
      (Filter.tendsto_atTop_add_const_right _ _
        (Filter.tendsto_id.atTop_mul_const (by norm_num)))
  have hCL : Filter.Tendsto CL Filter.atTop (nhds (2 * Real.pi * (aoa * Real.pi / 180))) := by
    have : Filter.Tendsto (fun AR : ℝ => 2 * Real.pi * (aoa * Real.pi / 180) *
        (1 - 2 / (AR * 0.8 + 2))) Filter.atTop
        (nhds (2 * Real.pi * (aoa * Real.pi / 180) * (1 - 0))) :=
      tendsto_const_nhds.mul (tendsto_const_nhds.sub h0)
    rw [sub_zero, mul_one] at this
    exact this.congr' (hev.mono fun AR h => h.1.symm)
  refine ⟨hCL, ?_⟩
  have h1 : Filter.Tendsto (fun AR : ℝ => 1 / AR) Filter.atTop (nhds 0) :=
    Filter.Tendsto.div_atTop tendsto_const_nhds Filter.tendsto_id
  have := ((hCL.pow 2).mul_const (1 / (Real.pi * 0.8))).mul h1
  rw [mul_zero] at this
  exact this.congr' (hev.mono fun AR h => h.2.symm)

/-- Non-vacuity: a function as in `C55_limit` exists, and aspect ratio zero is an error. -/
example (aoa : ℝ) : (∃ CL CD : ℝ → ℝ, ∀ AR, 0 < AR →
      getCLCDFreeWing AR aoa = .ok (CL AR, CD AR)) ∧
    getCLCDFreeWing 0 aoa = .error .zeroDivision := by
  constructor
  · have h (AR : ℝ) : ∃ p : ℝ × ℝ, 0 < AR → getCLCDFreeWing AR aoa = .ok p := by
      by_cases hAR : 0 < AR
      · obtain ⟨c, d, h1, -⟩ := C55_formula AR aoa hAR
        exact ⟨(c, d), fun _ => h1⟩
      · exact ⟨0, fun h => absurd h hAR⟩
    choose p hp using h
    exact ⟨fun AR => (p AR).1, fun AR => (p AR).2, hp⟩
  · unfold getCLCDFreeWing
    simp

end PySailing.Props
