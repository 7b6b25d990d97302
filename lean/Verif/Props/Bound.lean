import Verif.Lemmas.Bound
import Verif.Props.Potential

/-!
# C97: the induced velocity is bounded by circulation over distance
-/

namespace PySailing.Props

open PySailing Spec

/-- All points of the segment from `a` to `b` are at distance `δ` or more from `p`. -/
def AwayFromSegment (δ : ℝ) (p a b : V3) : Prop := ∀ t : ℝ, 0 ≤ t → t ≤ 1 → δ ≤ (p - lerp a b t).norm

/-- All points of the ray from `a` in the direction `V` are at distance `δ` or more from `p`. -/
def AwayFromRay (δ : ℝ) (p a V : V3) : Prop := ∀ t : ℝ, 0 ≤ t → δ ≤ (p - (a + t • V)).norm

/-- **C97.** A straight vortex filament of circulation `γ` induces at most `|γ| / (2 π δ)` at distance `δ`, the
velocity of an infinite vortex, on whichever side or end of the filament. -/
theorem C97_filament (p a b : V3) (γ : ℝ) {δ : ℝ} (hδ : 0 < δ) (h : AwayFromSegment δ p a b) :
    (vortexLine p a b γ).norm ≤ |γ| / (2 * Real.pi * δ) := vortexLine_near_bound p a b γ hδ h

/-- **C97.** The same for a trailing vortex. -/
theorem C97_trailing (p a V : V3) (γ : ℝ) {δ : ℝ} (hδ : 0 < δ) (h : AwayFromRay δ p a V) :
    vortexInfiniteLineCall p a V γ = .error .nonFinite ∧ V = 0 ∨
      ∃ v, vortexInfiniteLineCall p a V γ = .ok v ∧ v.norm ≤ |γ| / (2 * Real.pi * δ) := by
  unfold vortexInfiniteLineCall
  split_ifs with hw
  · exact .inr ⟨_, rfl, vortexInfiniteLine_near_bound p a V γ hδ h⟩
  · refine .inl ⟨rfl, ?_⟩
    by_contra hV
    refine hw ((wakeDefined_iff _ _ _).2 ⟨hV, fun s hs he => ?_⟩)
    have := h s hs
    rw [he, sub_self, V3.norm_zero] at this
    linarith

/-- **C97.** Wherever it is evaluated, however close to the filament, a filament of length `l` induces at most
`|γ| l / (2 π 10⁻⁴)`: the vortex core of the program cuts the singularity off. -/
theorem C97_core (p a b : V3) (γ : ℝ) :
    (vortexLine p a b γ).norm ≤ |γ| * (b - a).norm / (2 * Real.pi * 1e-4) := vortexLine_bounded p a b γ

theorem norm_sum_le {ι : Type} (s : Finset ι) (f : ι → V3) (B : ι → ℝ) (h : ∀ i ∈ s, (f i).norm ≤ B i) :
    (∑ i ∈ s, f i).norm ≤ ∑ i ∈ s, B i := by
  classical
  induction s using Finset.induction_on with
  | empty => simp
  | insert i s hi ih =>
    rw [Finset.sum_insert hi, Finset.sum_insert hi]
    exact (V3.norm_add_le _ _).trans (add_le_add (h i (Finset.mem_insert_self _ _))
      (ih fun j hj => h j (Finset.mem_insert_of_mem hj)))

/-- **C97.** Whenever `Vlm` returns, at every point at distance `δ` or more from all filaments and trailing vortices
the induced velocity is at most the sum of the circulations, five filaments for each panel, over `2 π δ`; the solver
being called with unit circulation of either sign. -/
theorem C97_lattice (a : VlmInput) (r : Vlm) (_h : vlm a = .ok r) (hg : |a.g| = 1) (p : V3) {δ : ℝ} (hδ : 0 < δ)
    (hp : clearOf a r (AwayFromSegment δ p) (AwayFromRay δ p)) :
    (inducedField a r p).norm ≤ 5 * (∑ k, |r.sol.gamma k|) / (2 * Real.pi * δ) := by
  have hpi := Real.pi_pos
  have hK : 0 < 2 * Real.pi * δ := by positivity
  have e : 5 * (∑ k, |r.sol.gamma k|) / (2 * Real.pi * δ) = ∑ k, |r.sol.gamma k| * (5 * (1 / (2 * Real.pi * δ))) := by
    rw [← Finset.sum_mul]; ring
  rw [e]
  refine norm_sum_le _ _ _ fun j _ => ?_
  rw [V3.norm_smul]
  refine mul_le_mul_of_nonneg_left ?_ (abs_nonneg _)
  obtain ⟨h1, h2, h3, h4⟩ := hp j
  have hL : ∀ {x y}, AwayFromSegment δ p x y → (vortexLine p x y a.g).norm ≤ 1 / (2 * Real.pi * δ) := fun hx => by
    have := C97_filament p _ _ a.g hδ hx
    rwa [hg] at this
  have hW : ∀ {x V : V3} (γ : ℝ), |γ| = 1 → AwayFromRay δ p x V →
      (vortexInfiniteLine p x V γ).norm ≤ 1 / (2 * Real.pi * δ) := fun γ hγ hx => by
    have := vortexInfiniteLine_near_bound p _ _ γ hδ hx
    rwa [hγ] at this
  have hpos : 0 ≤ 1 / (2 * Real.pi * δ) := by positivity
  split_ifs with ht
  · rw [if_pos ht] at h4
    unfold vortexHorseshoeV2
    have b1 := V3.norm_add_le (vortexLine p r.vars[j].ring.A r.vars[j].ring.B a.g) (vortexLine p r.vars[j].ring.B r.vars[j].ring.C a.g)
    have b2 := V3.norm_add_le (vortexLine p r.vars[j].ring.A r.vars[j].ring.B a.g + vortexLine p r.vars[j].ring.B r.vars[j].ring.C a.g)
      (vortexLine p r.vars[j].ring.C r.vars[j].ring.D a.g)
    refine (V3.norm_add_le _ _).trans ?_
    have b3 := V3.norm_add_le (vortexLine p r.vars[j].ring.A r.vars[j].ring.B a.g + vortexLine p r.vars[j].ring.B r.vars[j].ring.C a.g
      + vortexLine p r.vars[j].ring.C r.vars[j].ring.D a.g) (vortexInfiniteLine p r.vars[j].ring.D (r.inlet.vAppInfs.getD j 0) a.g)
    have c1 := hL h1
    have c2 := hL h2
    have c3 := hL h3
    have c4 := hW _ hg h4.2
    have c5 := hW (-1 * a.g) (by rw [abs_mul, hg]; norm_num) h4.1
    linarith
  · rw [if_neg ht] at h4
    unfold vortexRing
    have b1 := V3.norm_add_le (vortexLine p r.vars[j].ring.A r.vars[j].ring.B a.g) (vortexLine p r.vars[j].ring.B r.vars[j].ring.C a.g)
    have b2 := V3.norm_add_le (vortexLine p r.vars[j].ring.A r.vars[j].ring.B a.g + vortexLine p r.vars[j].ring.B r.vars[j].ring.C a.g)
      (vortexLine p r.vars[j].ring.C r.vars[j].ring.D a.g)
    refine (V3.norm_add_le _ _).trans ?_
    have c1 := hL h1
    have c2 := hL h2
    have c3 := hL h3
    have c4 := hL h4
    linarith

theorem le_norm_y (v : V3) {δ : ℝ} (h : δ ≤ |v.y|) : δ ≤ v.norm := by
  refine h.trans (Real.abs_le_sqrt ?_)
  simp only [V3.dot]
  nlinarith [mul_self_nonneg v.x, mul_self_nonneg v.z]

/-- A point to windward of the one-panel lattice. -/
example : ∃ r, vlm Demo.input = .ok r ∧ |Demo.input.g| = 1 ∧ 0 < r.vars.length ∧
    clearOf Demo.input r (AwayFromSegment 1 ⟨0, -1, 3 / 2⟩) (AwayFromRay 1 ⟨0, -1, 3 / 2⟩) := by
  obtain ⟨r, hr, hV, hv⟩ := Demo.vlm_ok
  refine ⟨r, hr, by simp [Demo.input], by rw [hv]; simp, fun j => ?_⟩
  have hvj : r.vars[j] = Demo.vars (-1) := List.eq_of_mem_singleton (by rw [← hv]; exact List.getElem_mem _)
  have hlen : r.vars.length = 1 := by rw [hv]; rfl
  have hj : j.val = 0 := by omega
  simp only [hvj, hj, hV]
  have ht : Demo.input.te.getD 0 false = true := rfl
  simp only [ht, if_true, List.getD_cons_zero]
  refine ⟨fun t _ _ => le_norm_y _ ?_, fun t _ _ => le_norm_y _ ?_, fun t _ _ => le_norm_y _ ?_,
    fun t h => le_norm_y _ ?_, fun t h => le_norm_y _ ?_⟩
  · simp [Demo.vars, lerp]
  · simp [Demo.vars, lerp]
  · simp [Demo.vars, lerp]
  · simp only [Demo.vars, Demo.V, V3.sub_y, V3.add_y, V3.smul_y]
    rw [le_abs]; right; linarith
  · simp only [Demo.vars, Demo.V, V3.sub_y, V3.add_y, V3.smul_y]
    rw [le_abs]; right; linarith

end PySailing.Props
