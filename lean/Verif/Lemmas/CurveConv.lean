import Verif.Lemmas.Spline
import Verif.Lemmas.Interpolator
import Verif.Lemmas.Continuity
import Verif.Spec.Runner
import Mathlib.LinearAlgebra.Matrix.NonsingularInverse

/-!
# Curves through points that move
-/

namespace PySailing

open Spec Filter Topology

variable {T : Type} {l : Filter T}

/-! ## Polygons -/

/-- The part of the interval from `a` to `b` that lies before `x`. -/
noncomputable def ramp (a b x : ℝ) : ℝ := max 0 (min 1 ((x - a) / (b - a)))

theorem ramp_zero {a b x : ℝ} (hab : a < b) (h : x ≤ a) : ramp a b x = 0 := by
  unfold ramp
  refine max_eq_left ((min_le_right _ _).trans ?_)
  exact div_nonpos_of_nonpos_of_nonneg (by linarith) (by linarith)

theorem ramp_one {a b x : ℝ} (hab : a < b) (h : b ≤ x) : ramp a b x = 1 := by
  unfold ramp
  rw [min_eq_left]
  · exact max_eq_right zero_le_one
  · rw [le_div_iff₀ (by linarith)]; linarith

theorem ramp_between {a b x : ℝ} (hab : a < b) (h : a ≤ x) (h' : x ≤ b) : ramp a b x = (x - a) / (b - a) := by
  unfold ramp
  rw [min_eq_right, max_eq_right]
  · exact div_nonneg (by linarith) (by linarith)
  · rw [div_le_one (by linarith)]; linarith

theorem ramp_tendsto {a b : T → ℝ} {a0 b0 : ℝ} (ha : Tendsto a l (𝓝 a0)) (hb : Tendsto b l (𝓝 b0)) (h : a0 < b0) (x : ℝ) :
    Tendsto (fun t => ramp (a t) (b t) x) l (𝓝 (ramp a0 b0 x)) := by
  unfold ramp
  refine tendsto_const_nhds.max (tendsto_const_nhds.min ?_)
  exact (tendsto_const_nhds.sub ha).div (hb.sub ha) (by linarith)

theorem telescope (ys : ℕ → ℝ) (n : ℕ) : ys 0 + ∑ i ∈ Finset.range n, (ys (i + 1) - ys i) = ys n := by
  rw [Finset.sum_range_sub]; ring

/-- A polygon as a sum of ramps. -/
theorem polygon_ramps {m : ℕ} {xs ys : ℕ → ℝ} (hx : ∀ i < m, xs i < xs (i + 1)) {x v : ℝ} (h : PolygonValue m xs ys x v) :
    v = ys 0 + ∑ i ∈ Finset.range m, ramp (xs i) (xs (i + 1)) x * (ys (i + 1) - ys i) := by
  have le : ∀ i j, i ≤ j → j ≤ m → xs i ≤ xs j := fun i j h h' => by
    rcases h.eq_or_lt with rfl | h
    · exact le_rfl
    · exact (strict_lt hx h h').le
  by_cases h0 : x ≤ xs 0
  · rw [h.left h0, Finset.sum_eq_zero, add_zero]
    intro i hi
    rw [ramp_zero (hx i (Finset.mem_range.1 hi)) (h0.trans (le 0 i (by omega) (Finset.mem_range.1 hi).le)), zero_mul]
  by_cases h1 : xs m ≤ x
  · rw [h.right h1, ← telescope ys m]
    congr 1
    refine Finset.sum_congr rfl fun i hi => ?_
    rw [ramp_one (hx i (Finset.mem_range.1 hi)) ((le (i + 1) m (Finset.mem_range.1 hi) le_rfl).trans h1), one_mul]
  obtain ⟨k, hk, k1, k2⟩ := exists_interval (not_le.1 h0).le (not_le.1 h1)
  rw [h.between k hk k1 k2]
  obtain ⟨d, rfl⟩ : ∃ d, m = k + 1 + d := ⟨m - (k + 1), by omega⟩
  rw [Finset.sum_range_add, Finset.sum_range_succ, Finset.sum_eq_zero (s := Finset.range d), ramp_between (hx k (by omega)) k1 k2,
    Finset.sum_congr rfl (g := fun i => ys (i + 1) - ys i), ← telescope ys k]
  · ring
  · intro i hi
    have hi := Finset.mem_range.1 hi
    rw [ramp_one (hx i (by omega)) ((le (i + 1) k (by omega) (by omega)).trans k1), one_mul]
  · intro i hi
    have hi := Finset.mem_range.1 hi
    rw [ramp_zero (hx _ (by omega)) (k2.trans (le _ _ (by omega) (by omega))), zero_mul]

theorem polygon_conv {m : ℕ} {xs ys : T → ℕ → ℝ} {xs0 ys0 : ℕ → ℝ} (hxs : ∀ i ≤ m, Tendsto (fun t => xs t i) l (𝓝 (xs0 i)))
    (hys : ∀ i ≤ m, Tendsto (fun t => ys t i) l (𝓝 (ys0 i))) (hx : ∀ᶠ t in l, ∀ i < m, xs t i < xs t (i + 1))
    (hx0 : ∀ i < m, xs0 i < xs0 (i + 1)) {x : ℝ} {v : T → ℝ} {v0 : ℝ} (h : ∀ᶠ t in l, PolygonValue m (xs t) (ys t) x (v t))
    (h0 : PolygonValue m xs0 ys0 x v0) : Tendsto v l (𝓝 v0) := by
  rw [polygon_ramps hx0 h0]
  have e : ∀ᶠ t in l, ys t 0 + ∑ i ∈ Finset.range m, ramp (xs t i) (xs t (i + 1)) x * (ys t (i + 1) - ys t i) = v t := by
    filter_upwards [hx, h] with t t1 t2
    exact (polygon_ramps t1 t2).symm
  refine Tendsto.congr' e ?_
  refine (hys 0 (by omega)).add (tendsto_finsetSum _ fun i hi => ?_)
  have hi := Finset.mem_range.1 hi
  exact (ramp_tendsto (hxs i (by omega)) (hxs (i + 1) (by omega)) (hx0 i hi) x).mul ((hys (i + 1) (by omega)).sub (hys i (by omega)))

/-! ## Splines -/

/-- The values at `x` of the cubic powers and truncated cubes that span the splines. -/
noncomputable def splineBasis (m : ℕ) (xs : ℕ → ℝ) (x : ℝ) : Fin 4 ⊕ Fin (m - 3) → ℝ :=
  Sum.elim (fun k => x ^ (k : ℕ)) fun i => (max 0 (x - xs (i + 2))) ^ 3

theorem powerSpline_basis (m : ℕ) (xs : ℕ → ℝ) (c : Fin 4 ⊕ Fin (m - 3) → ℝ) (x : ℝ) :
    powerSpline m xs (c ∘ Sum.inl, c ∘ Sum.inr) x = ∑ j, splineBasis m xs x j * c j := by
  unfold powerSpline splineBasis cubic
  rw [Fintype.sum_sum_type]
  simp only [Sum.elim_inl, Sum.elim_inr, Fin.sum_univ_four, Function.comp]
  congr 1
  · simp; ring
  · exact Finset.sum_congr rfl fun i _ => mul_comm _ _

/-- The number of basis functions is the number of points. -/
noncomputable def splineIndex {m : ℕ} (hm : 3 ≤ m) : Fin (m + 1) ≃ Fin 4 ⊕ Fin (m - 3) :=
  (finCongr (show m + 1 = 4 + (m - 3) by omega)).trans finSumFinEquiv.symm

/-- The collocation matrix of the interpolating spline. -/
noncomputable def splineMatrix {m : ℕ} (hm : 3 ≤ m) (xs : ℕ → ℝ) : Matrix (Fin (m + 1)) (Fin (m + 1)) ℝ :=
  fun i j => splineBasis m xs (xs i) (splineIndex hm j)

theorem splineMatrix_mulVec {m : ℕ} (hm : 3 ≤ m) (xs : ℕ → ℝ) (c : Fin (m + 1) → ℝ) (i : Fin (m + 1)) :
    (splineMatrix hm xs).mulVec c i =
      powerSpline m xs (c ∘ (splineIndex hm).symm ∘ Sum.inl, c ∘ (splineIndex hm).symm ∘ Sum.inr) (xs i) := by
  have := powerSpline_basis m xs (c ∘ (splineIndex hm).symm) (xs i)
  simp only [Function.comp_assoc] at this
  rw [this]
  simp only [Matrix.mulVec, dotProduct, splineMatrix]
  rw [← (splineIndex hm).sum_comp]
  simp

theorem splineMatrix_det {m : ℕ} (hm : 3 ≤ m) {xs : ℕ → ℝ} (hx : ∀ i < m, xs i < xs (i + 1)) : (splineMatrix hm xs).det ≠ 0 := by
  have hinj : Function.Injective (splineMatrix hm xs).mulVec := by
    intro c c' hcc
    have h1 : sampleMap m xs (c ∘ (splineIndex hm).symm ∘ Sum.inl, c ∘ (splineIndex hm).symm ∘ Sum.inr) =
        sampleMap m xs (c' ∘ (splineIndex hm).symm ∘ Sum.inl, c' ∘ (splineIndex hm).symm ∘ Sum.inr) := by
      funext i
      change powerSpline m xs _ (xs i) = powerSpline m xs _ (xs i)
      rw [← splineMatrix_mulVec, ← splineMatrix_mulVec, hcc]
    have h2 := sampleMap_injective hm hx h1
    obtain ⟨e1, e2⟩ := Prod.ext_iff.1 h2
    funext j
    obtain ⟨k, rfl⟩ := (splineIndex hm).symm.surjective j
    rcases k with k | k
    · exact congrFun e1 k
    · exact congrFun e2 k
  have := (Matrix.mulVec_injective_iff_isUnit).1 hinj
  exact ((Matrix.isUnit_iff_isUnit_det _).1 this).ne_zero

/-- The value of the interpolating spline in terms of the inverse of the collocation matrix. -/
theorem spline_value {m : ℕ} (hm : 3 ≤ m) {xs ys : ℕ → ℝ} (hx : ∀ i < m, xs i < xs (i + 1)) {S : ℝ → ℝ} (hS : IsSpline m xs ys S)
    (x : ℝ) : S x = ∑ j, splineBasis m xs x (splineIndex hm j) * ((splineMatrix hm xs)⁻¹.mulVec fun i => ys i) j := by
  obtain ⟨c, hc⟩ : ∃ c, c = (splineMatrix hm xs)⁻¹.mulVec fun i : Fin (m + 1) => ys i := ⟨_, rfl⟩
  have hM : (splineMatrix hm xs).mulVec c = fun i : Fin (m + 1) => ys i := by
    rw [hc, Matrix.mulVec_mulVec, Matrix.mul_nonsing_inv _ (isUnit_iff_ne_zero.2 (splineMatrix_det hm hx)), Matrix.one_mulVec]
  have hs := powerSpline_isSpline hm hx (c ∘ (splineIndex hm).symm ∘ Sum.inl, c ∘ (splineIndex hm).symm ∘ Sum.inr)
  have hs' : IsSpline m xs ys (powerSpline m xs (c ∘ (splineIndex hm).symm ∘ Sum.inl, c ∘ (splineIndex hm).symm ∘ Sum.inr)) :=
    ⟨fun i hi => (splineMatrix_mulVec hm xs c ⟨i, by omega⟩).symm.trans (congrFun hM ⟨i, by omega⟩),
      hs.smooth, hs.first, hs.between, hs.last⟩
  rw [hS.unique hm hx hs', ← hc]
  have := powerSpline_basis m xs (c ∘ (splineIndex hm).symm) x
  simp only [Function.comp_assoc] at this
  rw [this, ← (splineIndex hm).sum_comp]
  simp

theorem splineBasis_tendsto {m : ℕ} {xs : T → ℕ → ℝ} {xs0 : ℕ → ℝ} (hxs : ∀ i ≤ m, Tendsto (fun t => xs t i) l (𝓝 (xs0 i)))
    {x : T → ℝ} {x0 : ℝ} (hx : Tendsto x l (𝓝 x0)) (j : Fin 4 ⊕ Fin (m - 3)) :
    Tendsto (fun t => splineBasis m (xs t) (x t) j) l (𝓝 (splineBasis m xs0 x0 j)) := by
  unfold splineBasis
  rcases j with k | i
  · exact hx.pow _
  · exact (tendsto_const_nhds.max (hx.sub (hxs _ (by omega)))).pow 3

/-- The value of a spline, with knots, data and argument that converge. -/
theorem spline_conv_at {m : ℕ} (hm : 3 ≤ m) {xs ys : T → ℕ → ℝ} {xs0 ys0 : ℕ → ℝ}
    (hxs : ∀ i ≤ m, Tendsto (fun t => xs t i) l (𝓝 (xs0 i))) (hys : ∀ i ≤ m, Tendsto (fun t => ys t i) l (𝓝 (ys0 i)))
    (hx : ∀ᶠ t in l, ∀ i < m, xs t i < xs t (i + 1)) (hx0 : ∀ i < m, xs0 i < xs0 (i + 1)) {x : T → ℝ} {x0 : ℝ}
    (hxt : Tendsto x l (𝓝 x0)) {v : T → ℝ} {v0 : ℝ}
    (h : ∀ᶠ t in l, ∃ S, IsSpline m (xs t) (ys t) S ∧ v t = S (x t)) (h0 : ∃ S, IsSpline m xs0 ys0 S ∧ v0 = S x0) :
    Tendsto v l (𝓝 v0) := by
  obtain ⟨S0, hS0, rfl⟩ := h0
  rw [spline_value hm hx0 hS0]
  have e : ∀ᶠ t in l, (∑ j, splineBasis m (xs t) (x t) (splineIndex hm j) * ((splineMatrix hm (xs t))⁻¹.mulVec fun i => ys t i) j) = v t := by
    filter_upwards [hx, h] with t t1 ⟨S, hS, e⟩
    rw [e, spline_value hm t1 hS]
  refine Tendsto.congr' e ?_
  have hM : Tendsto (fun t => splineMatrix hm (xs t)) l (𝓝 (splineMatrix hm xs0)) :=
    tendsto_pi_nhds.2 fun i => tendsto_pi_nhds.2 fun j => splineBasis_tendsto hxs (hxs i (by omega)) _
  have hdet : Tendsto (fun t => (splineMatrix hm (xs t)).det) l (𝓝 (splineMatrix hm xs0).det) :=
    ((Continuous.matrix_det continuous_id).tendsto _).comp hM
  have hadj : Tendsto (fun t => (splineMatrix hm (xs t)).adjugate) l (𝓝 (splineMatrix hm xs0).adjugate) :=
    ((Continuous.matrix_adjugate continuous_id).tendsto _).comp hM
  refine tendsto_finsetSum _ fun j _ => (splineBasis_tendsto hxs hxt _).mul ?_
  simp only [Matrix.inv_def, Ring.inverse_eq_inv', Matrix.mulVec, dotProduct, Matrix.smul_apply, smul_eq_mul]
  refine tendsto_finsetSum _ fun i _ => ?_
  refine ((hdet.inv₀ (splineMatrix_det hm hx0)).mul ?_).mul (hys i (by omega))
  exact tendsto_pi_nhds.1 (tendsto_pi_nhds.1 hadj j) i

theorem spline_conv {m : ℕ} (hm : 3 ≤ m) {xs ys : T → ℕ → ℝ} {xs0 ys0 : ℕ → ℝ}
    (hxs : ∀ i ≤ m, Tendsto (fun t => xs t i) l (𝓝 (xs0 i))) (hys : ∀ i ≤ m, Tendsto (fun t => ys t i) l (𝓝 (ys0 i)))
    (hx : ∀ᶠ t in l, ∀ i < m, xs t i < xs t (i + 1)) (hx0 : ∀ i < m, xs0 i < xs0 (i + 1)) {x : ℝ} {v : T → ℝ} {v0 : ℝ}
    (h : ∀ᶠ t in l, ∃ S, IsSpline m (xs t) (ys t) S ∧ v t = S x) (h0 : ∃ S, IsSpline m xs0 ys0 S ∧ v0 = S x) :
    Tendsto v l (𝓝 v0) := 
  spline_conv_at hm hxs hys hx hx0 tendsto_const_nhds h h0

/-! ## Curves of the configuration -/

theorem curve_conv {kind : String} {m : ℕ} {xs ys : T → ℕ → ℝ} {xs0 ys0 : ℕ → ℝ} (hk : kind = "linear" ∨ (kind = "spline" ∧ 3 ≤ m))
    (hxs : ∀ i ≤ m, Tendsto (fun t => xs t i) l (𝓝 (xs0 i))) (hys : ∀ i ≤ m, Tendsto (fun t => ys t i) l (𝓝 (ys0 i)))
    (hx : ∀ᶠ t in l, ∀ i < m, xs t i < xs t (i + 1)) (hx0 : ∀ i < m, xs0 i < xs0 (i + 1)) {x : ℝ} {v : T → ℝ} {v0 : ℝ}
    (h : ∀ᶠ t in l, CurveValue kind m (xs t) (ys t) x (v t)) (h0 : CurveValue kind m xs0 ys0 x v0) : Tendsto v l (𝓝 v0) := by
  rcases hk with rfl | ⟨rfl, hm⟩
  · refine polygon_conv (x := x) hxs hys hx hx0 (h.mono fun t ht => ?_) ?_
    · rcases ht with ⟨-, ht⟩ | ⟨ht, -⟩
      · exact ht
      · exact absurd ht (by decide)
    · rcases h0 with ⟨-, ht⟩ | ⟨ht, -⟩
      · exact ht
      · exact absurd ht (by decide)
  · refine spline_conv (x := x) hm hxs hys hx hx0 (h.mono fun t ht => ?_) ?_
    · rcases ht with ⟨ht, -⟩ | ⟨-, ht⟩
      · exact absurd ht (by decide)
      · exact ht
    · rcases h0 with ⟨ht, -⟩ | ⟨-, ht⟩
      · exact absurd ht (by decide)
      · exact ht

end PySailing
