import Verif.Lemmas.Aircraft
import Verif.Lemmas.Tack

/-!
# Free wings: when `Aircraft` returns, and wings moved by an isometry
-/

namespace PySailing.Props

open PySailing PySailing.Spec

/-- `Aircraft` returns as soon as the solver does. -/
theorem aircraft_of {a : AircraftInput} (hc : a.chord ≠ 0) (hnc : 0 < a.nc) (hns : 0 < a.ns)
    (hq : 0.5 * a.rho * a.V.norm ^ 2 * a.S ≠ 0) {th : ℝ × ℝ}
    (hth : getCLCDFreeWing (2 * a.half / a.chord) a.aoaDeg = .ok th) {vars : List PanelVars}
    (hv : calculateVlmVariables (blockPanels a.nc a.ns
      [wingPoint a.chord a.half a.aoaDeg a.nc a.ns]) (trailingFlags a.nc a.ns 1) a.g a.nc a.ns =
      .ok vars) {sol : VlmSolution vars.length}
    (hs : vlmCore (fun i : Fin vars.length => vars[i])
      (fun i => (getPanelsArea (blockPanels a.nc a.ns
        [wingPoint a.chord a.half a.aoaDeg a.nc a.ns])).getD i 0)
      (fun i => (trailingFlags a.nc a.ns 1).getD i false)
      (fun i => (leadingFlags a.nc a.ns 1).getD i false) a.ns a.rho a.g (fun _ => a.V) = .ok sol) :
    ∃ w, aircraft a = .ok w ∧ List.ofFn w.gamma = List.ofFn sol.gamma ∧
      List.ofFn w.force = List.ofFn sol.force ∧ List.ofFn w.pressure = List.ofFn sol.pressure := by
  classical
  obtain ⟨ps, hps, hpan, hte, hle⟩ := a.panelSet_eq hnc hns
  rw [← hpan, ← hte] at hv
  rw [← hpan, ← hte, ← hle] at hs
  have hvv : calculateAircraftVariables ps.panels a.g =
      calculateVlmVariables ps.panels ps.te a.g a.nc a.ns := by
    rw [hpan, hte]
    exact aircraftVariables_eq a.g hnc hns _ (wingPoint_even _ _ _ _ _)
  have hne : ps.panels ≠ [] := by
    intro h0
    have := congrArg List.length hpan
    rw [h0, blockPanels_length] at this
    simp at this
    omega
  unfold vlmCore at hs
  simp only [bind, Except.bind] at hs
  cases h1 : solveLattice (fun i : Fin vars.length => vars[i])
      (fun i => (getPanelsArea ps.panels).getD i 0) (fun i => ps.te.getD i false) a.g
      (fun _ => a.V) with
  | error e => rw [h1] at hs; cases hs
  | ok s =>
  rw [h1] at hs
  simp only at hs
  cases h2 : calcForceWrapper (fun i : Fin vars.length => vars[i])
      (fun i => ps.te.getD i false) (fun i => ps.le.getD i false) a.ns a.rho a.g (fun _ => a.V) s.1
      "force_xyz" with
  | error e => rw [h2] at hs; cases hs
  | ok f =>
  rw [h2] at hs
  simp only at hs
  cases h3 : calcPressure f.1 (fun i : Fin vars.length => (vars[i]).normal)
      (fun i => (getPanelsArea ps.panels).getD i 0) with
  | error e => rw [h3] at hs; cases hs
  | ok p =>
  rw [h3] at hs
  simp only at hs
  cases h4 : calcPressureCoeff p a.rho (fun _ : Fin vars.length => a.V) with
  | error e => rw [h4] at hs; cases hs
  | ok pc =>
  rw [h4] at hs
  simp only at hs
  cases h5 : calcForceWrapper (fun i : Fin vars.length => vars[i])
      (fun i => ps.te.getD i false) (fun i => ps.le.getD i false) a.ns a.rho a.g (fun _ => a.V) s.1
      "lift" with
  | error e => rw [h5] at hs; cases hs
  | ok l =>
  rw [h5] at hs
  simp only at hs
  cases h6 : calcForceWrapper (fun i : Fin vars.length => vars[i])
      (fun i => ps.te.getD i false) (fun i => ps.le.getD i false) a.ns a.rho a.g (fun _ => a.V) s.1
      "drag" with
  | error e => rw [h6] at hs; cases hs
  | ok d =>
  rw [h6] at hs
  injection hs with hs
  subst hs
  refine ⟨⟨a, 2 * a.half / a.chord, th.1, th.2, ps, vars, s.1, f.1, p,
    (List.ofFn f.1).sum.z / (0.5 * a.rho * a.V.norm ^ 2 * a.S),
    (List.ofFn f.1).sum.x / (0.5 * a.rho * a.V.norm ^ 2 * a.S),
    (List.ofFn p).sum / (0.5 * a.rho * a.V.norm ^ 2 * a.S)⟩, ?_, rfl, rfl, rfl⟩
  unfold aircraft
  rw [if_neg hc]
  simp only [bind, Except.bind, hth, hps]
  rw [if_neg hne, hvv, hv]
  simp only [nanTrap, h1, h2, h3, getVlmCLCD]
  rw [if_neg hq]

/-- Whether the theoretical coefficients exist does not depend on the angle of attack. -/
theorem getCLCDFreeWing_aoa {AR aoa : ℝ} {th : ℝ × ℝ} (h : getCLCDFreeWing AR aoa = .ok th)
    (aoa' : ℝ) : ∃ th', getCLCDFreeWing AR aoa' = .ok th' := by
  classical
  unfold getCLCDFreeWing at h ⊢
  simp only at h ⊢
  split_ifs at h ⊢ with h1 h2
  exact ⟨_, rfl⟩

/-- A wing moved by a linear isometry. -/
theorem aircraft_moved {a a' : AircraftInput} {w : Aircraft} (h : aircraft a = .ok w)
    {R : V3 → V3} {ε μ c : ℝ} (hR : IsIsometry R ε) (hμ : 0 < μ) (hc : c ≠ 0) (hg : a.g ≠ 0)
    (hg' : a'.g ≠ 0) (h1 : a'.chord = a.chord) (h2 : a'.half = a.half) (h3 : a'.nc = a.nc)
    (h4 : a'.ns = a.ns) (h5 : a'.rho = c * a.rho) (h6 : a'.V = μ • R a.V)
    (hp : ∀ r k, wingPoint a'.chord a'.half a'.aoaDeg a'.nc a'.ns r k =
      R (wingPoint a.chord a.half a.aoaDeg a.nc a.ns r k)) :
    ∃ w', aircraft a' = .ok w' ∧
      List.ofFn w'.gamma = (List.ofFn w.gamma).map (fun x => (ε * μ * (a.g / a'.g)) * x) ∧
      List.ofFn w'.force = (List.ofFn w.force).map (fun v => (c * μ ^ 2) • R v) ∧
      List.ofFn w'.pressure = (List.ofFn w.pressure).map (fun x => ε * (c * μ ^ 2) * x) := by
  obtain ⟨-, hc0, hnc, hns, hq, har, hth, hpan, hte, hle, hv, ⟨sol, hs, e1, e2, e3⟩, -⟩ :=
    aircraft_inv h
  rw [hpan, hte] at hv
  rw [hpan, hte, hle] at hs
  rw [har] at hth
  obtain ⟨th', hth'⟩ := getCLCDFreeWing_aoa hth a'.aoaDeg
  have hblocks : blockPanels a'.nc a'.ns [wingPoint a'.chord a'.half a'.aoaDeg a'.nc a'.ns] =
      (blockPanels a.nc a.ns [wingPoint a.chord a.half a.aoaDeg a.nc a.ns]).map (movePanel R 0) := by
    rw [h3, h4] at hp ⊢
    simp only [blockPanels, panelGrid, List.map_cons, List.map_nil, List.flatten_cons,
      List.flatten_nil, List.append_nil, List.map_flatMap, List.map_map]
    apply grid_congr
    intro i j _ _
    simp only [Function.comp, panelOf, movePanel, move, add_zero, hp]
  have hv' := calculateVlmVariables_move (g' := a'.g) hR 0 hg (blockPanels a.nc a.ns
    [wingPoint a.chord a.half a.aoaDeg a.nc a.ns]) (trailingFlags a.nc a.ns 1) a.nc a.ns
  rw [hv, ← hblocks] at hv'
  have hlen : (w.vars.map (PanelVars.moved R ε 0 (a'.g / a.g))).length = w.vars.length :=
    List.length_map _
  have T := transfer_moved hlen hR 0 (L := fun i => w.vars[i])
    (te := fun i => (trailingFlags a.nc a.ns 1).getD i false)
    (le := fun i => (leadingFlags a.nc a.ns 1).getD i false) (ns := a.ns) (g := a.g)
    (V := fun _ => a.V)
    (areas := fun i => (getPanelsArea (blockPanels a.nc a.ns
      [wingPoint a.chord a.half a.aoaDeg a.nc a.ns])).getD i 0)
    (L' := fun i => (w.vars.map (PanelVars.moved R ε 0 (a'.g / a.g)))[i])
    (te' := fun i => (trailingFlags a.nc a.ns 1).getD i false)
    (le' := fun i => (leadingFlags a.nc a.ns 1).getD i false) (g' := a'.g) (V' := fun _ => a'.V)
    (areas' := fun i => (getPanelsArea (blockPanels a'.nc a'.ns
      [wingPoint a'.chord a'.half a'.aoaDeg a'.nc a'.ns])).getD i 0) hμ hg hg'
    (fun i => by simp) (fun i => rfl) (fun i => rfl) (fun i => h6) (fun i => by
      have : getPanelsArea (blockPanels a'.nc a'.ns
          [wingPoint a'.chord a'.half a'.aoaDeg a'.nc a'.ns]) =
          getPanelsArea (blockPanels a.nc a.ns
            [wingPoint a.chord a.half a.aoaDeg a.nc a.ns]) := by
        rw [hblocks]
        unfold getPanelsArea
        rw [List.map_map]
        exact List.map_congr_left fun q _ => panelArea_move hR 0 q
      rw [this]; rfl)
  have hs' := T.vlmCore_eq c a.rho hc hs
  have hq' : 0.5 * a'.rho * a'.V.norm ^ 2 * a'.S ≠ 0 := by
    have e : 0.5 * a'.rho * a'.V.norm ^ 2 * a'.S =
        (c * μ ^ 2) * (0.5 * a.rho * a.V.norm ^ 2 * a.S) := by
      rw [h5, h6, V3.norm_smul, hR.norm, abs_of_pos hμ]
      unfold AircraftInput.S
      rw [h1, h2]; ring
    rw [e]
    exact mul_ne_zero (mul_ne_zero hc (pow_ne_zero _ hμ.ne')) hq
  obtain ⟨w', hw', g1, g2, g3⟩ := aircraft_of (a := a') (by rw [h1]; exact hc0) (by rw [h3]; exact hnc)
    (by rw [h4]; exact hns) hq' (by rw [h1, h2]; exact hth')
    (vars := w.vars.map (PanelVars.moved R ε 0 (a'.g / a.g)))
    (sol := sol.transform R (finCongr hlen) ε μ (a'.g / a.g) c)
    (by rw [h3, h4] at hv' ⊢; exact hv') (by rw [h3, h4, h5] at *; exact hs')
  have harr := transform_arrays hlen sol R ε μ (a'.g / a.g) c
  refine ⟨w', hw', ?_, ?_, ?_⟩
  · rw [g1, ← e1]
    have := congrArg VlmArrays.gamma harr
    simp only [VlmSolution.arrays, mapAll] at this
    rw [this]
    congr 1
    funext x
    field_simp
  · rw [g2, ← e2]
    exact congrArg VlmArrays.force harr
  · rw [g3, ← e3]
    exact congrArg VlmArrays.pressure harr

end PySailing.Props
