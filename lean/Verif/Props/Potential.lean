import Verif.Lemmas.Potential
import Verif.Lemmas.Decay
import Verif.Demo.OnePanel

/-!
# C78, C79, C80: the flow is free of sources and of vorticity, and undisturbed far upstream
-/

namespace PySailing.Props

open PySailing Spec

/-- The velocity field induced by the vortices of a solved lattice. -/
noncomputable abbrev inducedField (a : VlmInput) (r : Vlm) : V3 → V3 :=
  latticeVelocity (fun i => r.vars[i]) (fun i => a.te.getD i false) (fun i => r.inlet.vAppInfs.getD i 0) a.g r.sol.gamma

/-- The point `p` satisfies `F` for every finite filament and `W` for every trailing vortex of a solved
lattice. -/
abbrev clearOf (a : VlmInput) (r : Vlm) (F W : V3 → V3 → Prop) : Prop :=
  eachFilament (fun i : Fin r.vars.length => r.vars[i]) (fun i => a.te.getD i false)
    (fun i => r.inlet.vAppInfs.getD i 0) F W

/-- The velocities reported by the solver are those of the wind plus the induced field. -/
theorem inducedField_reported (a : VlmInput) (r : Vlm) (h : vlm a = .ok r) (k : Fin r.vars.length) :
    r.sol.vFsCtrl k = r.inlet.vAppInfs.getD k 0 + inducedField a r r.vars[k].ctrP ∧
    r.sol.vFsCp k = r.inlet.vAppInfs.getD k 0 + inducedField a r r.vars[k].cp := by
  obtain ⟨-, -, -, -, hs⟩ := (vlm_ok_iff a r).1 h
  obtain ⟨-, -, hs⟩ := (vlmCore_ok_iff _ _ _ _ _ _ _ _ _).1 hs
  unfold inducedField
  rw [hs]
  exact ⟨rfl, rfl⟩

/-- **C78.** Whenever `Vlm` returns, the velocities it reports at the control points and at the points
of pressure are the wind there plus the values of one velocity field which has no sources: at every
point of space that is neither on a trailing vortex nor on the surface of the core of a filament the
field is differentiable and its divergence is zero.  (Also inside the cores, where the program sets the
velocity of the filament to zero.) -/
theorem C78_divergence_free (a : VlmInput) (r : Vlm) (h : vlm a = .ok r) :
    (∀ k : Fin r.vars.length,
      r.sol.vFsCtrl k = r.inlet.vAppInfs.getD k 0 + inducedField a r r.vars[k].ctrP ∧
      r.sol.vFsCp k = r.inlet.vAppInfs.getD k 0 + inducedField a r r.vars[k].cp) ∧
    ∀ p, clearOf a r (offCoreSurface p) (offRay p) →
      ∃ J, HasJacobian (inducedField a r) p J ∧ divergence J = 0 := by
  refine ⟨fun k => inducedField_reported a r h k, fun p hp => ?_⟩
  obtain ⟨w, J, hJ, hd, -⟩ := lattice_flow _ _ _ a.g r.sol.gamma p hp
  exact ⟨J, hJ, hd⟩

/-- **C79.** The field of `C78_divergence_free` is irrotational at every point outside of the cores of
the filaments and not on a trailing vortex: the whole vorticity is in the lattice and its wake. -/
theorem C79_irrotational (a : VlmInput) (r : Vlm) (h : vlm a = .ok r) :
    (∀ k : Fin r.vars.length,
      r.sol.vFsCtrl k = r.inlet.vAppInfs.getD k 0 + inducedField a r r.vars[k].ctrP ∧
      r.sol.vFsCp k = r.inlet.vAppInfs.getD k 0 + inducedField a r r.vars[k].cp) ∧
    ∀ p, clearOf a r (outsideCore p) (offRay p) →
      ∃ J, HasJacobian (inducedField a r) p J ∧ curl J = 0 := by
  refine ⟨fun k => inducedField_reported a r h k, fun p hp => ?_⟩
  obtain ⟨J, hJ, -, hd⟩ := lattice_flow_out _ _ _ a.g r.sol.gamma p hp
  exact ⟨J, hJ, hd⟩

/-- Every closed ring and every horseshoe of the program, and any superposition of them, is a potential
flow on its own, whatever the circulations and directions of the wakes. -/
theorem C79_any_lattice {K : ℕ} (L : Fin K → PanelVars) (te : Fin K → Bool) (V : Fin K → V3) (g : ℝ)
    (γ : Fin K → ℝ) (p : V3) (hp : eachFilament L te V (outsideCore p) (offRay p)) :
    ∃ J, HasJacobian (latticeVelocity L te V g γ) p J ∧ divergence J = 0 ∧ curl J = 0 := by
  obtain ⟨J, hJ, h1, h2⟩ := lattice_flow_out L te V g γ p hp
  exact ⟨J, hJ, h1, h2⟩

/-- The hypotheses are met at the control point of the one-panel lattice. -/
example : ∃ r, vlm Demo.input = .ok r ∧ 0 < r.vars.length ∧
    clearOf Demo.input r (outsideCore ⟨3 / 4, 0, 3 / 2⟩) (offRay ⟨3 / 4, 0, 3 / 2⟩) ∧
    clearOf Demo.input r (offCoreSurface ⟨3 / 4, 0, 3 / 2⟩) (offRay ⟨3 / 4, 0, 3 / 2⟩) := by
  obtain ⟨r, hr, hV, hv⟩ := Demo.vlm_ok
  have key : clearOf Demo.input r (outsideCore ⟨3 / 4, 0, 3 / 2⟩) (offRay ⟨3 / 4, 0, 3 / 2⟩) := by
    intro j
    have hvj : r.vars[j] = Demo.vars (-1) := List.eq_of_mem_singleton (by rw [← hv]; exact List.getElem_mem _)
    have hlen : r.vars.length = 1 := by rw [hv]; rfl
    have hj : j.val = 0 := by omega
    simp only [hvj, hj, hV]
    have big (x : V3) (h : x.dot x = 1 / 2) : 1e-8 < x.norm := by
      unfold V3.norm
      rw [h]
      exact Real.lt_sqrt_of_sq_lt (by norm_num)
    have c (x : V3) (h : x.dot x = 1 / 4) : 1e-8 < x.norm ^ 2 := by
      rw [V3.norm_sq, h]; norm_num
    refine ⟨(outsideCore_iff _ _ _).2 ⟨big _ ?_, big _ ?_, c _ ?_⟩, (outsideCore_iff _ _ _).2 ⟨big _ ?_, big _ ?_, c _ ?_⟩,
      (outsideCore_iff _ _ _).2 ⟨big _ ?_, big _ ?_, c _ ?_⟩, ?_⟩
    all_goals first
      | (simp [V3.dot, Demo.vars]; norm_num; done)
      | skip
    have ht : Demo.input.te.getD 0 false = true := rfl
    simp only [ht, if_true, List.getD_cons_zero]
    refine ⟨⟨?_, fun s _ h => ?_⟩, ⟨?_, fun s _ h => ?_⟩⟩
    · simp [Demo.V, V3.ext_iff]
    · have := congrArg V3.z h; simp [Demo.vars, Demo.V] at this; norm_num at this
    · simp [Demo.V, V3.ext_iff]
    · have := congrArg V3.z h; simp [Demo.vars, Demo.V] at this; norm_num at this
  refine ⟨r, hr, by rw [hv]; simp, key, fun j => ?_⟩
  obtain ⟨h1, h2, h3, h4⟩ := key j
  refine ⟨outsideCore.off h1, outsideCore.off h2, outsideCore.off h3, ?_⟩
  split_ifs at h4 ⊢
  · exact h4
  · exact outsideCore.off h4

/-- `p` is upstream of the starting points of all trailing vortices, as seen along the wind of each. -/
abbrev upstream (a : VlmInput) (r : Vlm) (p : V3) : Prop :=
  clearOf a r (fun _ _ => True) fun q w => (p - q).dot w ≤ 0

/-- **C80.** Whenever `Vlm` returns, the sails do not disturb the wind far upstream: the induced
velocity decays at least like the inverse of the distance from the origin (to the front, sideways and up,
down: everywhere but in the half-spaces behind the trailing edges). -/
theorem C80_decay (a : VlmInput) (r : Vlm) (_h : vlm a = .ok r) :
    ∃ C R : ℝ, 0 < R ∧ ∀ p, upstream a r p → R ≤ p.norm → (inducedField a r p).norm ≤ C / p.norm := by
  obtain ⟨C, R, hR, hp⟩ := lattice_far_bound (fun i : Fin r.vars.length => r.vars[i]) (fun i => a.te.getD i false)
    (fun i => r.inlet.vAppInfs.getD i 0) a.g r.sol.gamma
  refine ⟨C, R, hR, fun p hu hn => ?_⟩
  rw [le_div_iff₀ (lt_of_lt_of_le hR hn)]
  exact hp p hu hn

/-- There are points arbitrarily far upstream of the one-panel lattice. -/
example : ∃ r, vlm Demo.input = .ok r ∧ ∀ R : ℝ, ∃ p, upstream Demo.input r p ∧ R ≤ p.norm := by
  obtain ⟨r, hr, hV, hv⟩ := Demo.vlm_ok
  refine ⟨r, hr, fun R => ⟨⟨-|R|, 0, 0⟩, fun j => ?_, ?_⟩⟩
  · have hvj : r.vars[j] = Demo.vars (-1) := List.eq_of_mem_singleton (by rw [← hv]; exact List.getElem_mem _)
    have hlen : r.vars.length = 1 := by rw [hv]; rfl
    have hj : j.val = 0 := by omega
    simp only [hvj, hj, hV]
    have ht : Demo.input.te.getD 0 false = true := rfl
    have := abs_nonneg R
    simp only [ht, if_true, List.getD_cons_zero]
    refine ⟨trivial, trivial, trivial, ?_, ?_⟩ <;> simp [V3.dot, Demo.vars, Demo.V] <;> linarith
  · have : (⟨-|R|, 0, 0⟩ : V3).norm = |R| := by simp [V3.norm, V3.dot, Real.sqrt_mul_self_eq_abs]
    rw [this]; exact le_abs_self R

end PySailing.Props
