import Verif.Lemmas.PlanarRow
import Mathlib.Analysis.Asymptotics.SpecificAsymptotics

/-!
# Many equal strips side by side: the circulation tends to that of the flat plate
-/

namespace PySailing

open Filter Topology

namespace StripInfluence

variable {R : Type} [Fintype R] [DecidableEq R] {f : R → R → ℕ → ℝ} {N : ℕ} {b : ℝ} {x x' : ℕ → R → ℝ}

theorem unique (I : StripInfluence f N) (hx : StripEquations f N b x) (hx' : StripEquations f N b x') {i : ℕ} (hi : i < N) (k : R) :
    x i k = x' i k := by
  have key : ∀ y y' : ℕ → R → ℝ, StripEquations f N b y → StripEquations f N b y' → y i k ≤ y' i k := by
    intro y y' hy hy'
    have := I.nonneg (b := 0) (x := fun j k => y' j k - y j k) le_rfl (fun i k hi => by
      simp only [mul_sub, Finset.sum_sub_distrib]
      rw [hy i k hi, hy' i k hi, sub_self]) hi k
    linarith
  exact le_antisymm (key x x' hx hx') (key x' x hx' hx)

/-- The strips are loaded symmetrically. -/
theorem symm (I : StripInfluence f N) (hx : StripEquations f N b x) {i : ℕ} (hi : i < N) (k : R) : x (N - 1 - i) k = x i k :=
  I.unique (reversed hx) hx hi k

/-- Half of the strips carries half of the load. -/
theorem half {n : ℕ} (I : StripInfluence f (2 * n)) (hx : StripEquations f (2 * n) b x) (k : R) :
    2 * ∑ q ∈ Finset.range n, x (n + q) k = ∑ j ∈ Finset.range (2 * n), x j k := by
  rw [two_mul n, Finset.sum_range_add, two_mul]
  congr 1
  rw [← Finset.sum_range_reflect]
  refine Finset.sum_congr rfl fun j hj => ?_
  rw [Finset.mem_range] at hj
  rw [← I.symm hx (by omega) k]
  congr 1
  omega

/-- If the mean load is nearly the greatest possible one, so is the load of every strip of the lower half of the upper
half of the strips. -/
theorem near {n : ℕ} (I : StripInfluence f (2 * n)) (hb : 0 ≤ b) (hx : StripEquations f (2 * n) b x) {k : R} {X ε : ℝ}
    (hX : ∀ j, j < 2 * n → x j k ≤ X) (hmean : |(∑ j ∈ Finset.range (2 * n), x j k) - (2 * n : ℕ) * X| ≤ (2 * n : ℕ) * ε) {j : ℕ}
    (hj : 2 * j ≤ n) (hjn : j < n) : |x (n + j) k - X| ≤ 2 * ε := by
  have hh := I.half hx k
  have low := (abs_le.1 hmean).1
  rw [← hh] at low
  push_cast at low
  obtain ⟨r, rfl⟩ : ∃ r, n = j + r := ⟨n - j, by omega⟩
  have hr : 0 < r := by omega
  have fall : ∀ q, q < r → x (j + r + (j + q)) k ≤ x (j + r + j) k := by
    intro q
    induction q with
    | zero => intro _; simp
    | succ q ih => intro hq; exact (I.falls hb hx (i := j + r + (j + q)) (by omega) (by omega) k).trans (ih (by omega))
  have h1 : ∑ q ∈ Finset.range j, x (j + r + q) k ≤ j * X := by
    refine (Finset.sum_le_sum fun q hq => hX _ (by rw [Finset.mem_range] at hq; omega)).trans (le_of_eq ?_)
    rw [Finset.sum_const, Finset.card_range, nsmul_eq_mul]
  have h2 : ∑ q ∈ Finset.range r, x (j + r + (j + q)) k ≤ r * x (j + r + j) k := by
    refine (Finset.sum_le_sum fun q hq => fall q (Finset.mem_range.1 hq)).trans (le_of_eq ?_)
    rw [Finset.sum_const, Finset.card_range, nsmul_eq_mul]
  rw [Finset.sum_range_add] at low
  have hrR : (0 : ℝ) < r := by exact_mod_cast hr
  have hjr : (j : ℝ) ≤ r := by exact_mod_cast (by omega : j ≤ r)
  have hε : 0 ≤ ε := by
    have h0 := (abs_nonneg _).trans hmean
    push_cast at h0
    have : (0 : ℝ) < 2 * (j + r) := by positivity
    exact nonneg_of_mul_nonneg_right h0 this
  have hup := hX (j + r + j) (by omega)
  push_cast at low
  rw [abs_le]
  constructor
  · have h3 : r * X - (j + r) * ε ≤ r * x (j + r + j) k := by linarith
    have h4 : ((j : ℝ) + r) * ε ≤ r * (2 * ε) := by nlinarith
    have h5 : r * (X - 2 * ε) ≤ r * x (j + r + j) k := by linarith
    have := le_of_mul_le_mul_left h5 hrR
    linarith
  · linarith

end StripInfluence

namespace PlanarLattice

theorem rho2_div_tendsto (x : ℝ) : Tendsto (fun y : ℝ => rho2 x y / y) atTop (𝓝 1) := by
  have h1 : Tendsto (fun y : ℝ => Real.sqrt (x ^ 2 * (y⁻¹ ^ 2) + 1)) atTop (𝓝 (Real.sqrt (x ^ 2 * (0 ^ 2) + 1))) :=
    ((((tendsto_inv_atTop_zero).pow 2).const_mul (x ^ 2)).add_const 1).sqrt
  rw [show Real.sqrt (x ^ 2 * (0 ^ 2) + 1) = 1 by simp] at h1
  refine h1.congr' ?_
  filter_upwards [eventually_gt_atTop 0] with y hy
  unfold rho2
  rw [eq_div_iff hy.ne', ← Real.sqrt_sq hy.le, ← Real.sqrt_mul (by positivity), Real.sqrt_sq hy.le]
  congr 1
  field_simp

theorem corner_tendsto (x : ℝ) : Tendsto (fun y : ℝ => corner x y) atTop (𝓝 (1 / x)) := by
  have := (rho2_div_tendsto x).div_const x
  refine this.congr fun y => ?_
  unfold corner
  rw [div_div, mul_comm]

theorem wakeKernel_tendsto (C : ℝ) {d : ℝ} (hd : d ≠ 0) : Tendsto (fun y : ℝ => wakeKernel C d y) atTop (𝓝 (-(1 / d))) := by
  have h1 : Tendsto (fun y : ℝ => d * (rho2 d y / y + C * d * y⁻¹)) atTop (𝓝 (d * (1 + C * d * 0))) :=
    ((rho2_div_tendsto d).add (tendsto_inv_atTop_zero.const_mul (C * d))).const_mul d
  have h2 := (h1.inv₀ (by simpa using hd)).neg
  rw [show -(d * (1 + C * d * 0))⁻¹ = -(1 / d) by simp] at h2
  refine h2.congr' ?_
  filter_upwards [eventually_gt_atTop 0] with y hy
  unfold wakeKernel
  rw [show d * (rho2 d y / y + C * d * y⁻¹) = d * (rho2 d y + C * d) / y by field_simp, inv_div]

/-- Influence of half an infinite row. -/
noncomputable def farKernel (δ : ℝ) (nc k k' : ℕ) : ℝ :=
  (1 / gap δ k (k' + 1) - 1 / gap δ k k') + (if k' + 1 = nc then -(1 / gap δ k nc) else 0)

theorem edgeKernel_tendsto (C : ℝ) {δ : ℝ} (hδ : 0 < δ) {nc k : ℕ} (hk : k < nc) (k' : ℕ) :
    Tendsto (edgeKernel C δ nc k k') atTop (𝓝 (farKernel δ nc k k')) := by
  unfold edgeKernel farKernel side
  refine ((corner_tendsto _).sub (corner_tendsto _)).add ?_
  split_ifs with h
  · exact wakeKernel_tendsto C (gap_pos hδ hk).ne'
  · exact tendsto_const_nhds

theorem farKernel_off {δ : ℝ} (hδ : 0 < δ) {nc k k' : ℕ} (hk : k < nc) (hkk : k ≠ k') : farKernel δ nc k k' ≤ 0 := by
  refine le_of_tendsto (edgeKernel_tendsto 0 hδ hk k') ?_
  filter_upwards [eventually_gt_atTop 0] with y hy
  exact edgeKernel_line le_rfl hδ hk hkk hy

/-- The flat plate solves the equations of an infinite row. -/
theorem farKernel_plate {δ : ℝ} (hδ : 0 < δ) {nc k : ℕ} (hk : k < nc) :
    ∑ k' ∈ Finset.range nc, 2 * farKernel δ nc k k' * plate δ nc k' = 1 := by
  have htail : ∀ q, q < nc → ∑ k' ∈ Finset.Ico q nc, 2 * farKernel δ nc k k' = 2 * -(1 / gap δ k q) := by
    intro q hq
    rw [← Finset.mul_sum]
    congr 1
    unfold farKernel
    rw [Finset.sum_add_distrib]
    have h1 : ∑ k' ∈ Finset.Ico q nc, (1 / gap δ k (k' + 1) - 1 / gap δ k k') = 1 / gap δ k nc - 1 / gap δ k q :=
      Finset.sum_Ico_sub (fun k' => 1 / gap δ k k') hq.le
    have h2 : ∑ k' ∈ Finset.Ico q nc, (if k' + 1 = nc then -(1 / gap δ k nc) else 0) = -(1 / gap δ k nc) := by
      rw [Finset.sum_eq_single (nc - 1)]
      · rw [if_pos (by omega)]
      · intro b _ hb
        rw [if_neg (by omega)]
      · intro h
        exact absurd (Finset.mem_Ico.2 (by omega)) h
    rw [h1, h2]
    ring
  unfold plate
  rw [parts]
  refine Eq.trans ?_ (plate_tangential hk)
  refine Finset.sum_congr rfl fun q hq => ?_
  rw [htail q (Finset.mem_range.1 hq)]
  have h1 : ((k : ℕ) : ℝ) + 1 / 2 - q ≠ 0 := sub_ne_zero.2 (plate_half_ne _ _)
  have h3 : gap δ k q = -((k : ℝ) + 1 / 2 - q) * δ := by unfold gap; ring
  rw [h3]
  field_simp

theorem plate_positive {δ : ℝ} (hδ : 0 < δ) {n k : ℕ} (hk : k < n) : 0 < plate δ n k := by
  unfold plate
  refine Finset.sum_pos (fun q hq => ?_) ⟨0, by simp⟩
  rw [Finset.mem_range] at hq
  have := plate_pos (n := n) (q := q) (by omega)
  positivity

/-- Influence of an infinite row. -/
noncomputable def farMatrix (δ : ℝ) (nc : ℕ) : Matrix (Fin nc) (Fin nc) ℝ := fun k k' => 2 * farKernel δ nc k k'

theorem farMatrix_det {δ : ℝ} (hδ : 0 < δ) (nc : ℕ) : (farMatrix δ nc).det ≠ 0 := by
  have h : (farMatrix δ nc * Matrix.diagonal fun k' : Fin nc => plate δ nc k').det ≠ 0 := by
    apply det_ne_zero_of_rowSum
    · intro k k' hkk
      rw [Matrix.mul_diagonal]
      have h1 := farKernel_off hδ k.isLt (fun e => hkk (Fin.ext e) : (k : ℕ) ≠ k')
      have h2 := plate_positive hδ k'.isLt
      unfold farMatrix
      exact mul_nonpos_of_nonpos_of_nonneg (by linarith) h2.le
    · intro k
      simp only [Matrix.mul_diagonal]
      unfold farMatrix
      rw [Fin.sum_univ_eq_sum_range (fun k' => 2 * farKernel δ nc k k' * plate δ nc k'), farKernel_plate hδ k.isLt]
      exact one_pos
  rw [Matrix.det_mul] at h
  exact left_ne_zero_of_mul h

theorem stripEntry_row {C δ w : ℝ} {nc : ℕ} (k k' : Fin nc) {N i : ℕ} (hi : i < N) :
    ∑ j ∈ Finset.range N, stripEntry C δ w nc k k' (steps i j) =
      edgeKernel C δ nc k k' ((i + 1 / 2) * w) + edgeKernel C δ nc k k' (((N - 1 - i : ℕ) + 1 / 2) * w) := by
  set G : ℕ → ℝ := fun n => edgeKernel C δ nc k k' ((n + 1 / 2) * w) with hG
  obtain ⟨r, rfl⟩ : ∃ r, N = i + (1 + r) := ⟨N - 1 - i, by omega⟩
  have hs : ∀ n : ℕ, stripEntry C δ w nc k k' (n + 1) = G (n + 1) - G n := by
    intro n
    unfold stripEntry
    simp only [hG]
    congr 2
    push_cast
    ring
  have h0 : stripEntry C δ w nc k k' 0 = 2 * G 0 := by
    unfold stripEntry
    simp only [hG]
    rw [show (((0 : ℕ) : ℝ) - 1 / 2) * w = -((((0 : ℕ) : ℝ) + 1 / 2) * w) by push_cast; ring, edgeKernel_neg]
    ring
  rw [Finset.sum_range_add, Finset.sum_range_add, Finset.sum_range_one]
  have e1 : ∑ j ∈ Finset.range i, stripEntry C δ w nc k k' (steps i j) = G i - G 0 := by
    rw [← Finset.sum_range_sub G i, ← Finset.sum_range_reflect]
    refine Finset.sum_congr rfl fun j hj => ?_
    rw [Finset.mem_range] at hj
    rw [← hs]
    congr 1
    unfold steps
    omega
  have e2 : ∑ j ∈ Finset.range r, stripEntry C δ w nc k k' (steps i (i + (1 + j))) = G r - G 0 := by
    rw [← Finset.sum_range_sub G r]
    refine Finset.sum_congr rfl fun j _ => ?_
    rw [← hs]
    congr 1
    unfold steps
    omega
  have e3 : steps i (i + 0) = 0 := by unfold steps; omega
  have e4 : i + (1 + r) - 1 - i = r := by omega
  rw [e1, e2, e3, h0, e4]
  simp only [hG]
  ring

theorem steps_comm (i j : ℕ) : steps i j = steps j i := by unfold steps; omega

/-- Influence of a finite row at distance `n` from its end, compared with an infinite one. -/
noncomputable def shortfall (C δ w : ℝ) (nc n : ℕ) : ℝ :=
  ∑ k : Fin nc, ∑ k' : Fin nc, |farKernel δ nc k k' - edgeKernel C δ nc k k' ((n + 1 / 2) * w)|

theorem shortfall_tendsto (C : ℝ) {δ w : ℝ} (hδ : 0 < δ) (hw : 0 < w) (nc : ℕ) :
    Tendsto (shortfall C δ w nc) atTop (𝓝 0) := by
  unfold shortfall
  rw [show (0 : ℝ) = ∑ k : Fin nc, ∑ k' : Fin nc, |farKernel δ nc k k' - farKernel δ nc k k'| by simp]
  refine tendsto_finsetSum _ fun k _ => tendsto_finsetSum _ fun k' _ => ?_
  refine (tendsto_const_nhds.sub ((edgeKernel_tendsto C hδ k.isLt k').comp ?_)).abs
  exact (tendsto_atTop_add_const_right _ _ tendsto_natCast_atTop_atTop).atTop_mul_const hw

/-- The mean circulations of many equal strips in a uniform wind are those of the flat plate. -/
theorem tall_mean {C δ w : ℝ} (hδ : 0 < δ) (hw : 0 < w) (nc : ℕ) (b B : ℝ) {ε : ℝ} (hε : 0 < ε) :
    ∃ N₀ : ℕ, ∀ N, N₀ ≤ N → ∀ x : ℕ → Fin nc → ℝ, StripEquations (stripEntry C δ w nc) N b x →
      (∀ j k, j < N → |x j k| ≤ B) → ∀ k, |(∑ j ∈ Finset.range N, x j k) - N * (b * plate δ nc k)| ≤ N * ε := by
  set Q := (farMatrix δ nc)⁻¹ with hQ
  set q : ℝ := ∑ k, ∑ k' : Fin nc, |Q k k'| with hq
  have hq0 : 0 ≤ q := Finset.sum_nonneg fun k _ => Finset.sum_nonneg fun k' _ => abs_nonneg _
  have hlim : Tendsto (fun N : ℕ => q * (2 * |B|) * ((N : ℝ)⁻¹ * ∑ j ∈ Finset.range N, shortfall C δ w nc j)) atTop (𝓝 0) := by
    have := ((shortfall_tendsto C hδ hw nc).cesaro).const_mul (q * (2 * |B|))
    rwa [mul_zero] at this
  obtain ⟨N₁, hN₁⟩ := eventually_atTop.1 (hlim.eventually (gt_mem_nhds hε))
  refine ⟨max N₁ 1, fun N hN x hx hB k => ?_⟩
  have hNpos : (0 : ℝ) < N := by exact_mod_cast (le_max_right N₁ 1).trans hN
  have hsmall := hN₁ N ((le_max_left _ _).trans hN)
  -- the equations for the sums
  set m : Fin nc → ℝ := fun k => ∑ j ∈ Finset.range N, x j k with hm
  set G : Fin nc → Fin nc → ℕ → ℝ := fun k k' n => edgeKernel C δ nc k k' ((n + 1 / 2) * w) with hG
  have hsum : ∀ k, ∑ j ∈ Finset.range N, ∑ k' : Fin nc, (G k k' j + G k k' (N - 1 - j)) * x j k' = N * b := by
    intro k
    have h1 : ∑ i ∈ Finset.range N, ∑ j ∈ Finset.range N, ∑ k' : Fin nc, stripEntry C δ w nc k k' (steps i j) * x j k' = N * b := by
      rw [Finset.sum_congr rfl fun i hi => hx i k (Finset.mem_range.1 hi), Finset.sum_const, Finset.card_range, nsmul_eq_mul]
    rw [← h1]
    refine Eq.trans ?_ (Finset.sum_comm (s := Finset.range N) (t := Finset.range N)
      (f := fun j i => ∑ k' : Fin nc, stripEntry C δ w nc k k' (steps i j) * x j k'))
    refine Finset.sum_congr rfl fun j hj => ?_
    rw [Finset.sum_comm]
    refine Finset.sum_congr rfl fun k' _ => ?_
    rw [← Finset.sum_mul, ← stripEntry_row k k' (Finset.mem_range.1 hj)]
    congr 1
    exact Finset.sum_congr rfl fun i _ => by rw [steps_comm]
  set err : Fin nc → ℝ := fun k => ∑ j ∈ Finset.range N, ∑ k' : Fin nc,
    ((farKernel δ nc k k' - G k k' j) + (farKernel δ nc k k' - G k k' (N - 1 - j))) * x j k' with herr
  have hfar : (farMatrix δ nc).mulVec m = fun k => N * b + err k := by
    funext k
    rw [← hsum k]
    simp only [Matrix.mulVec, dotProduct, farMatrix, hm, herr]
    rw [← Finset.sum_add_distrib]
    simp only [Finset.mul_sum]
    rw [Finset.sum_comm]
    refine Finset.sum_congr rfl fun j _ => ?_
    rw [← Finset.sum_add_distrib]
    exact Finset.sum_congr rfl fun k' _ => by ring
  have hplate : (farMatrix δ nc).mulVec (fun k => N * (b * plate δ nc k)) = fun _ => N * b := by
    funext k
    simp only [Matrix.mulVec, dotProduct, farMatrix]
    have := farKernel_plate hδ k.isLt
    rw [← Fin.sum_univ_eq_sum_range (fun k' => 2 * farKernel δ nc k k' * plate δ nc k')] at this
    calc _ = N * b * ∑ k' : Fin nc, 2 * farKernel δ nc k k' * plate δ nc k' := by
          rw [Finset.mul_sum]; exact Finset.sum_congr rfl fun k' _ => by ring
      _ = _ := by rw [this, mul_one]
  have hunit : IsUnit (farMatrix δ nc).det := isUnit_iff_ne_zero.2 (farMatrix_det hδ nc)
  have hdiff : (fun k => m k - N * (b * plate δ nc k)) = Q.mulVec err := by
    have h1 : (farMatrix δ nc).mulVec (fun k => m k - N * (b * plate δ nc k)) = err := by
      have : (fun k => m k - N * (b * plate δ nc k)) = m - fun k : Fin nc => N * (b * plate δ nc k) := rfl
      rw [this, Matrix.mulVec_sub, hfar, hplate]
      funext k
      simp
    rw [← h1, Matrix.mulVec_mulVec, hQ, Matrix.nonsing_inv_mul _ hunit, Matrix.one_mulVec]
  -- the error
  have hB0 : ∀ j k, j < N → |x j k| ≤ |B| := fun j k h => (hB j k h).trans (le_abs_self B)
  set A : ℝ := ∑ j ∈ Finset.range N, shortfall C δ w nc j with hA
  have hone : ∀ (k k' : Fin nc) (n : ℕ), |farKernel δ nc k k' - G k k' n| ≤ |farKernel δ nc k k' - G k k' n| := fun _ _ _ => le_rfl
  have hrow : ∀ (k : Fin nc) n, ∑ k' : Fin nc, |farKernel δ nc k k' - G k k' n| ≤ shortfall C δ w nc n := by
    intro k n
    unfold shortfall
    exact Finset.single_le_sum (f := fun k : Fin nc => ∑ k' : Fin nc, |farKernel δ nc k k' - edgeKernel C δ nc k k' ((n + 1 / 2) * w)|)
      (fun i _ => Finset.sum_nonneg fun _ _ => abs_nonneg _) (Finset.mem_univ k)
  have herr_le : ∀ k, |err k| ≤ 2 * |B| * A := by
    intro k
    calc |err k| ≤ ∑ j ∈ Finset.range N, |∑ k' : Fin nc, ((farKernel δ nc k k' - G k k' j) + (farKernel δ nc k k' - G k k' (N - 1 - j))) * x j k'| :=
          Finset.abs_sum_le_sum_abs _ _
      _ ≤ ∑ j ∈ Finset.range N, (shortfall C δ w nc j + shortfall C δ w nc (N - 1 - j)) * |B| := by
          refine Finset.sum_le_sum fun j hj => ?_
          rw [Finset.mem_range] at hj
          refine (Finset.abs_sum_le_sum_abs _ _).trans ?_
          calc _ ≤ ∑ k' : Fin nc, (|farKernel δ nc k k' - G k k' j| + |farKernel δ nc k k' - G k k' (N - 1 - j)|) * |B| := by
                refine Finset.sum_le_sum fun k' _ => ?_
                rw [abs_mul]
                exact mul_le_mul (abs_add_le _ _) (hB0 j k' hj) (abs_nonneg _) (by positivity)
            _ = (∑ k' : Fin nc, |farKernel δ nc k k' - G k k' j| + ∑ k' : Fin nc, |farKernel δ nc k k' - G k k' (N - 1 - j)|) * |B| := by
                rw [← Finset.sum_mul, Finset.sum_add_distrib]
            _ ≤ _ := mul_le_mul_of_nonneg_right (add_le_add (hrow k j) (hrow k _)) (abs_nonneg _)
      _ = 2 * |B| * A := by
          rw [← Finset.sum_mul, Finset.sum_add_distrib, Finset.sum_range_reflect (fun j => shortfall C δ w nc j) N]
          ring
  have hk := congrFun hdiff k
  have hA0 : 0 ≤ 2 * |B| * A := (abs_nonneg _).trans (herr_le k)
  calc |(∑ j ∈ Finset.range N, x j k) - N * (b * plate δ nc k)| = |Q.mulVec err k| := by rw [← hk]
    _ ≤ ∑ k' : Fin nc, |Q k k'| * |err k'| := by
        simp only [Matrix.mulVec, dotProduct]
        refine (Finset.abs_sum_le_sum_abs _ _).trans (le_of_eq ?_)
        exact Finset.sum_congr rfl fun k' _ => abs_mul _ _
    _ ≤ ∑ k' : Fin nc, |Q k k'| * (2 * |B| * A) := Finset.sum_le_sum fun k' _ => mul_le_mul_of_nonneg_left (herr_le k') (abs_nonneg _)
    _ ≤ q * (2 * |B| * A) := by
        rw [← Finset.sum_mul]
        refine mul_le_mul_of_nonneg_right ?_ hA0
        exact Finset.single_le_sum (f := fun k : Fin nc => ∑ k' : Fin nc, |Q k k'|)
          (fun i _ => Finset.sum_nonneg fun _ _ => abs_nonneg _) (Finset.mem_univ k)
    _ = N * (q * (2 * |B|) * ((N : ℝ)⁻¹ * A)) := by field_simp
    _ ≤ N * ε := mul_le_mul_of_nonneg_left hsmall.le hNpos.le

end PlanarLattice

end PySailing
