import Verif.Demo.OnePanel
import Verif.Lemmas.Sail

/-!
# C30 - C38, C40, C42, C58: the solver
-/

namespace PySailing.Props

open PySailing PySailing.Spec

/-- Wind at the pressure point of panel `i` of a `Vlm` object. -/
def windAt (r : Vlm) (i : Fin r.vars.length) : V3 := r.inlet.vAppInfs.getD i 0

/-- Velocity induced at the point `p` by all vortices of a `Vlm` object, with circulations `γ`. -/
noncomputable def inducedBy (r : Vlm) (γ : Fin r.vars.length → ℝ) (p : V3) : V3 :=
  latticeVelocity (fun i => r.vars[i]) (fun i => r.input.te.getD i false) (windAt r) r.input.g γ p

/-! ## C30 -/

/-- **C30.** Whenever `Vlm` returns: the reported velocity at every control point is the apparent
wind plus the velocity induced by all vortices with the reported circulations; it has no component normal
to the panel; and no other circulations have this property. -/
theorem C30_no_flow (a : VlmInput) (r : Vlm) (h : vlm a = .ok r) :
    (∀ i, r.sol.vIndCtrl i = inducedBy r r.sol.gamma (r.vars[i]).ctrP ∧
      r.sol.vFsCtrl i = windAt r i + inducedBy r r.sol.gamma (r.vars[i]).ctrP ∧
      (r.sol.vFsCtrl i).dot (r.vars[i]).normal = 0) ∧
    ∀ γ : Fin r.vars.length → ℝ,
      (∀ i, (windAt r i + inducedBy r γ (r.vars[i]).ctrP).dot (r.vars[i]).normal = 0) →
      γ = r.sol.gamma := by
  obtain ⟨rfl, -, -, -, hs⟩ := (vlm_ok_iff a r).1 h
  obtain ⟨hw, -, hsol⟩ := (vlmCore_ok_iff _ _ _ _ _ _ _ _ _).1 hs
  rw [hsol]
  refine ⟨fun i => ⟨rfl, rfl, coreGamma_flux hw.regular i⟩, fun γ hγ => ?_⟩
  apply coreGamma_unique hw.regular
  funext i
  have := hγ i
  rw [V3.dot_add_left] at this
  rw [← latticeVelocity_dot]
  exact (neg_eq_of_add_eq_zero_right this).symm

/-- Errors of the assembly of panel variables. -/
theorem calculateVlmVariables_err {panels : List Panel} {te : List Bool} {g : ℝ} {nc ns : ℕ}
    {e : PyErr} (h : calculateVlmVariables panels te g nc ns = .error e) :
    e = .zeroDivision ∨ e = .valueError ∨ e = .indexError ∨ e = .nonFinite := by
  have hsplit {α : Type} {xs : List α} {n : ℕ} {e : PyErr} (h : arraySplit xs n = .error e) :
      e = .valueError := by
    unfold arraySplit at h
    split_ifs at h
    injection h with h; exact h.symm
  unfold calculateVlmVariables at h
  by_cases h0 : nc * ns = 0
  · rw [if_pos h0] at h; injection h with h; simp [← h]
  rw [if_neg h0] at h
  rcases bind_error h with h | ⟨c, -, h⟩
  · simp [hsplit h]
  rcases bind_error h with h | ⟨t, -, h⟩
  · simp [hsplit h]
  rcases bind_error h with h | ⟨v, -, h⟩
  · obtain ⟨x, -, hx⟩ := mapM_error_inv h
    obtain ⟨k, -, hk⟩ := mapM_error_inv hx
    have hidx {α : Type} {xs : List α} {n : ℕ} {e : PyErr} (h : idx xs n = .error e) :
        e = .indexError := by
      unfold idx at h
      cases hx : xs[n]? with
      | none => rw [hx] at h; injection h with h; exact h.symm
      | some a => rw [hx] at h; cases h
    unfold vlmVarsAt at hk
    rcases bind_error hk with hk | ⟨q, -, hk⟩
    · simp [hidx hk]
    by_cases hn : nc * ns ≤ k
    · rw [if_pos hn] at hk; injection hk with hk; simp [← hk]
    rw [if_neg hn] at hk
    rcases bind_error hk with hk | ⟨t, -, hk⟩
    · simp [hidx hk]
    by_cases ht : t = true
    · rw [if_pos ht] at hk; cases hk
    rw [if_neg ht] at hk
    rcases bind_error hk with hk | ⟨q, -, hk⟩
    · simp [hidx hk]
    cases hk
  by_cases hl : panels.length / (nc * ns) * (nc * ns) ≠ panels.length
  · rw [if_pos hl] at h; injection h with h; simp [← h]
  rw [if_neg hl] at h
  by_cases he : ∃ q ∈ panels, normalRaw q = 0
  · rw [if_pos he] at h; injection h with h; simp [← h]
  rw [if_neg he] at h
  cases h

/-- Errors of the inlet conditions. -/
theorem inletConditions_err {w : WindObj} {rho : ℝ} {cps : List V3} {e : PyErr}
    (h : inletConditions w rho cps = .error e) :
    e = .valueError ∨ e = .typeError ∨ e = .nonFinite ∨ e = .zeroDivision := by
  unfold inletConditions at h
  rcases bind_error h with h | ⟨c, -, h⟩
  · obtain ⟨x, -, hx⟩ := mapM_error_inv h
    unfold WindObj.trueWindAt at hx
    split at hx
    · cases hx
    · rcases bind_error hx with hx | ⟨c, -, hx⟩
      · unfold WindObj.logFactor at hx
        split_ifs at hx <;> first | (injection hx with hx; simp [← hx]) | cases hx
      · cases hx
    · injection hx with hx; simp [← hx]
    · rcases bind_error hx with hx | ⟨c, -, hx⟩
      · unfold WindObj.expFactor at hx
        simp only at hx
        split_ifs at hx <;> first | (injection hx with hx; simp [← hx]) | cases hx
      · cases hx
    · injection hx with hx; simp [← hx]
  · split_ifs at h
    injection h with h; simp [← h]

theorem nanTrap_err {α : Type} {x : Py α} {e : PyErr} (h : nanTrap x = .error e) :
    x = .error e ∨ e = .valueError := by
  unfold nanTrap at h
  split at h
  · injection h with h; right; exact h.symm
  · left; exact h

/-- Errors of the solver proper. -/
theorem vlmCore_err {K : ℕ} {L : Fin K → PanelVars} {areas : Fin K → ℝ} {te le : Fin K → Bool}
    {ns : ℕ} {rho g : ℝ} {V : Fin K → V3} {e : PyErr}
    (h : vlmCore L areas te le ns rho g V = .error e) :
    e = .valueError ∨ e = .linAlgError ∨ e = .indexError ∨ e = .nonFinite := by
  have hf (γ : Fin K → ℝ) (name : String)
      (hname : name = "lift" ∨ name = "drag" ∨ name = "force_xyz") {e : PyErr}
      (h : calcForceWrapper L te le ns rho g V γ name = .error e) :
      e = .indexError ∨ e = .nonFinite := by
    rw [calcForceWrapper_eq _ _ _ _ _ _ _ _ _ hname] at h
    split_ifs at h <;> (injection h with h; simp [← h])
  unfold vlmCore at h
  rcases bind_error h with h | ⟨s, -, h⟩
  · rw [solveLattice_eq] at h
    split_ifs at h <;> (injection h with h; simp [← h])
  rcases bind_error h with h | ⟨f, -, h⟩
  · rcases hf _ _ (by simp) h with h | h <;> simp [h]
  rcases bind_error h with h | ⟨p, -, h⟩
  · unfold calcPressure at h
    split_ifs at h
    injection h with h; simp [← h]
  rcases bind_error h with h | ⟨c, -, h⟩
  · unfold calcPressureCoeff at h
    split_ifs at h
    injection h with h; simp [← h]
  rcases bind_error h with h | ⟨f, -, h⟩
  · rcases hf _ _ (by simp) h with h | h <;> simp [h]
  rcases bind_error h with h | ⟨f, -, h⟩
  · rcases hf _ _ (by simp) h with h | h <;> simp [h]
  cases h

/-- **C30**, the internal assertion: in exact arithmetic `assert is_no_flux_BC_satisfied(...)`
never fails, for no input at all. -/
theorem C30_assertion_never_fires (a : VlmInput) : vlm a ≠ .error .assertionError := by
  intro h
  unfold vlm at h
  rcases bind_error h with h | ⟨v, -, h⟩
  · rcases nanTrap_err h with h | h
    · rcases calculateVlmVariables_err h with h | h | h | h <;> cases h
    · cases h
  rcases bind_error h with h | ⟨i, -, h⟩
  · rcases nanTrap_err h with h | h
    · rcases inletConditions_err h with h | h | h | h <;> cases h
    · cases h
  rcases bind_error h with h | ⟨s, -, h⟩
  · rcases vlmCore_err h with h | h | h | h <;> cases h
  cases h

/-- **C30**, when the solver returns: exactly if panel variables and winds can be computed, the
lattice is well-posed (no control or pressure point on a wake, regular influence matrix, areas at least
`1e-14`, non-zero density and wind) and the index `i - n_spanwise` is in range for every panel that
uses it.  In particular the no-flux check adds no failure of its own besides the area test. -/
theorem C30_returns_iff (a : VlmInput) : (∃ r, vlm a = .ok r) ↔
    ∃ vars inlet, calculateVlmVariables a.panels a.te a.g a.nc a.ns = .ok vars ∧
      inletConditions a.wind a.rho (vars.map PanelVars.cp) = .ok inlet ∧
      WellPosed (K := vars.length) (fun i => vars[i]) (fun i => (getPanelsArea a.panels).getD i 0)
        (fun i => a.te.getD i false) a.rho a.g (fun i => inlet.vAppInfs.getD i 0) ∧
      ((∃ i, i < vars.length ∧ a.le.getD i false = true) →
        ∀ i, i < vars.length → a.le.getD i false = false → a.ns ≤ i + vars.length) := by
  have hidx (vars : List PanelVars) : IndexOk (K := vars.length) (fun i => a.le.getD i false) a.ns ↔
      ((∃ i, i < vars.length ∧ a.le.getD i false = true) →
        ∀ i, i < vars.length → a.le.getD i false = false → a.ns ≤ i + vars.length) := by
    have hc : case1x1 (K := vars.length) (fun i => a.le.getD i false) = false ↔
        ∃ i, i < vars.length ∧ a.le.getD i false = true := by
      unfold case1x1
      rw [Bool.not_eq_false', List.any_eq_true]
      constructor
      · rintro ⟨i, -, hi⟩; exact ⟨i, i.isLt, hi⟩
      · rintro ⟨i, hl, hi⟩; exact ⟨⟨i, hl⟩, List.mem_finRange _, hi⟩
    unfold IndexOk
    rw [← hc]
    constructor
    · intro h h1 i hi hl
      exact h ⟨i, hi⟩ (by rw [h1]; simpa using hl)
    · intro h i hi
      rw [Bool.or_eq_false_iff] at hi
      exact h hi.2 i i.isLt hi.1
  constructor
  · rintro ⟨r, h⟩
    obtain ⟨-, -, h1, h2, hs⟩ := (vlm_ok_iff a r).1 h
    obtain ⟨hw, hi, -⟩ := (vlmCore_ok_iff _ _ _ _ _ _ _ _ _).1 hs
    exact ⟨r.vars, r.inlet, h1, h2, hw, (hidx _).1 hi⟩
  · rintro ⟨vars, inlet, h1, h2, hw, hi⟩
    have hs := (vlmCore_ok_iff _ _ _ _ _ _ _ _ _).2 ⟨hw, (hidx _).2 hi, rfl⟩
    exact ⟨⟨a, _, vars, inlet, _⟩, (vlm_ok_iff a _).2 ⟨rfl, rfl, h1, h2, hs⟩⟩

/-- Non-vacuity: `Vlm` returns for a single square panel in a wind at 45 degrees, and the
circulation is not zero there. -/
example : ∃ r, vlm Demo.input = .ok r ∧ r.vars.length = 1 ∧ ∀ i, r.sol.gamma i ≠ 0 := by
  obtain ⟨r, h, hV, hv⟩ := Demo.vlm_ok
  refine ⟨r, h, by rw [hv]; rfl, fun i hi => ?_⟩
  have h1 := ((C30_no_flow _ r h).1 i).2.2
  have h2 := ((C30_no_flow _ r h).1 i).2.1
  have hlen : r.vars.length = 1 := by rw [hv]; rfl
  have hi0 : i.val = 0 := by have := i.isLt; omega
  have hall : r.sol.gamma = fun _ => 0 := by
    funext j
    have : j = i := Fin.ext (by have := j.isLt; omega)
    rw [this, hi]
  have hv0 : r.vars[i] = Demo.vars (-1) := by
    have : r.vars[0]? = some (Demo.vars (-1)) := by rw [hv]; rfl
    have h0 := (List.getElem?_eq_some_iff.1 this).2
    simp only [Fin.getElem_fin, hi0, h0]
  have hind : inducedBy r r.sol.gamma (r.vars[i]).ctrP = 0 := by
    unfold inducedBy latticeVelocity
    rw [hall]; simp
  rw [h2, hind, add_zero, hv0] at h1
  have hwind : windAt r i = Demo.V := by
    unfold windAt; rw [hV, hi0]; rfl
  rw [hwind] at h1
  simp [Demo.V, Demo.vars, V3.dot] at h1

/-! ## C31 -/

/-- **C31.** The no-flux check returns `True` exactly if every area is at least `1e-14` and every
normal velocity at most `1e-12` in absolute value; otherwise it raises `ValueError`. -/
theorem C31_no_flux_check {K : ℕ} (V : Fin K → V3) (areas : Fin K → ℝ) (normals : Fin K → V3) :
    (isNoFluxBCSatisfied V areas normals = .ok true ↔
      (∀ i, 1e-14 ≤ areas i) ∧ ∀ i, |(V i).dot (normals i)| ≤ 1e-12) ∧
    (¬ ((∀ i, 1e-14 ≤ areas i) ∧ ∀ i, |(V i).dot (normals i)| ≤ 1e-12) →
      isNoFluxBCSatisfied V areas normals = .error .valueError) := by
  obtain ⟨h1, h2⟩ := isNoFlux_iff V areas normals
  refine ⟨h1, fun h => ?_⟩
  rcases h2 with h2 | h2
  · exact absurd (h1.1 h2) h
  · exact h2

/-- Both outcomes occur. -/
example : isNoFluxBCSatisfied (K := 1) (fun _ => ⟨1, 0, 0⟩) (fun _ => 1) (fun _ => ⟨0, 1, 0⟩)
      = .ok true ∧
    isNoFluxBCSatisfied (K := 1) (fun _ => ⟨1, 0, 0⟩) (fun _ => 1) (fun _ => ⟨1, 0, 0⟩)
      = .error .valueError := by
  refine ⟨(C31_no_flux_check _ _ _).1.2 ⟨?_, ?_⟩, (C31_no_flux_check _ _ _).2 ?_⟩
  · intro i; norm_num
  · intro i; simp [V3.dot]; norm_num
  · rintro ⟨-, h⟩
    have := h 0
    simp [V3.dot] at this
    norm_num at this

/-! ## C32 -/

/-- **C32.** For every panel array for which `calculate_vlm_variables` returns, and every panel:
the normal has length one, is orthogonal to both diagonals and points in the direction of their cross
product; control point and pressure point lie at 3/4 and 1/4 of the line from the middle of the front
edge to the middle of the rear edge; the bound vortex runs along the quarter-chord line, and the span
vector is the bound vortex times the orientation. -/
theorem C32_panel_points (panels : List Panel) (te : List Bool) (g : ℝ) (nc ns : ℕ)
    (vars : List PanelVars) (h : calculateVlmVariables panels te g nc ns = .ok vars) :
    vars.length = panels.length ∧
    ∀ k (hk : k < panels.length) (q : Panel), q = panels[k] → ∃ v, vars[k]? = some v ∧
      v.normal.norm = 1 ∧ v.normal.dot (q.p3 - q.p1) = 0 ∧ v.normal.dot (q.p4 - q.p2) = 0 ∧
      (∃ c : ℝ, 0 < c ∧ V3.cross (q.p3 - q.p1) (q.p4 - q.p2) = c • v.normal) ∧
      v.leMid = lerp q.p2 q.p3 (1 / 2) ∧ v.teMid = lerp q.p1 q.p4 (1 / 2) ∧
      v.ctrP = lerp v.leMid v.teMid (3 / 4) ∧ v.cp = lerp v.leMid v.teMid (1 / 4) ∧
      v.ring.B = lerp q.p2 q.p1 (1 / 4) ∧ v.ring.C = lerp q.p3 q.p4 (1 / 4) ∧
      v.cp = lerp v.ring.B v.ring.C (1 / 2) ∧
      v.span = g • (v.ring.C - v.ring.B) := by
  obtain ⟨hl, hn, hv⟩ := calculateVlmVariables_ok h
  refine ⟨hl, fun k hk q hq => ?_⟩
  obtain ⟨A, D, hAD⟩ := hv k hk
  rw [← hq] at hAD
  have hne : normalRaw q ≠ 0 := hn q (by rw [hq]; exact List.getElem_mem hk)
  have hnp := V3.norm_pos hne
  refine ⟨_, hAD, ?_, ?_, ?_, ⟨(normalRaw q).norm, hnp, ?_⟩, ?_, ?_, ?_, ?_, rfl, rfl, ?_, rfl⟩
  · simp only [panelVars]
    rw [V3.norm_smul, abs_of_pos (by positivity)]
    field_simp
  · simp only [panelVars, V3.dot_smul_left, normalRaw]
    rw [show (V3.cross (q.p3 - q.p1) (q.p4 - q.p2)).dot (q.p3 - q.p1) = 0 by
      simp [V3.dot]; ring, mul_zero]
  · simp only [panelVars, V3.dot_smul_left, normalRaw]
    rw [show (V3.cross (q.p3 - q.p1) (q.p4 - q.p2)).dot (q.p4 - q.p2) = 0 by
      simp [V3.dot]; ring, mul_zero]
  · simp only [panelVars, smul_smul]
    rw [mul_one_div_cancel hnp.ne', one_smul]
    rfl
  · ext <;> simp [panelVars, lerp] <;> ring
  · ext <;> simp [panelVars, lerp] <;> ring
  · ext <;> simp only [panelVars, lerp, V3.add_x, V3.add_y, V3.add_z, V3.smul_x, V3.smul_y,
      V3.smul_z, V3.sub_x, V3.sub_y, V3.sub_z] <;> ring
  · ext <;> simp only [panelVars, lerp, V3.add_x, V3.add_y, V3.add_z, V3.smul_x, V3.smul_y,
      V3.smul_z, V3.sub_x, V3.sub_y, V3.sub_z] <;> ring
  · ext <;> simp [panelVars, lerp, quarterB, quarterC] <;> ring

/-- Non-vacuity. -/
example : calculateVlmVariables [Demo.panel] [true] (-1) 1 1 = .ok [Demo.vars (-1)] :=
  Demo.calc_vars (-1)

end PySailing.Props
