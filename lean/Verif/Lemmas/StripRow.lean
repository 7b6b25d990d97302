import Verif.Lemmas.MMatrix

/-!
# Equal strips side by side: the solution grows towards the middle and with the number of strips
-/

namespace PySailing

section

variable {R : Type} [Fintype R] [DecidableEq R]

/-- Number of steps from one strip to another. -/
def steps (i j : ℕ) : ℕ := (i - j) + (j - i)

/-- Minimum principle for unknowns numbered by strip and row. -/
theorem rows_nonneg {N : ℕ} {A : ℕ → R → ℕ → R → ℝ} (hoff : ∀ i k j k', i < N → j < N → (i ≠ j ∨ k ≠ k') → A i k j k' ≤ 0)
    (hsum : ∀ i k, i < N → 0 < ∑ j ∈ Finset.range N, ∑ k', A i k j k') {x : ℕ → R → ℝ}
    (hx : ∀ i k, i < N → 0 ≤ ∑ j ∈ Finset.range N, ∑ k', A i k j k' * x j k') {i : ℕ} (hi : i < N) (k : R) : 0 ≤ x i k := by
  have conv : ∀ F : ℕ → R → ℝ, ∑ q : Fin N × R, F q.1 q.2 = ∑ j ∈ Finset.range N, ∑ k', F j k' := by
    intro F
    rw [Fintype.sum_prod_type, ← Fin.sum_univ_eq_sum_range (fun j => ∑ k', F j k')]
  refine solution_nonneg (K := Fin N × R) (A := fun p q => A p.1 p.2 q.1 q.2) (fun p q h => ?_) (fun p => ?_) (x := fun p => x p.1 p.2)
    (fun p => ?_) (⟨i, hi⟩, k)
  · refine hoff _ _ _ _ p.1.isLt q.1.isLt ?_
    by_contra hn
    push Not at hn
    exact h (Prod.ext (Fin.ext hn.1) hn.2)
  · rw [conv (fun j k' => A p.1 p.2 j k')]
    exact hsum _ _ p.1.isLt
  · rw [conv (fun j k' => A p.1 p.2 j k' * x j k')]
    exact hx _ _ p.1.isLt

/-- Influence of strips at the given number of steps: never positive (except for a panel on itself), weaker with growing
distance, and positive in total. -/
structure StripInfluence (f : R → R → ℕ → ℝ) (N : ℕ) : Prop where
  off : ∀ k k' m, (m ≠ 0 ∨ k ≠ k') → f k k' m ≤ 0
  weaker : ∀ k k' m, (m ≠ 0 ∨ k ≠ k') → f k k' m ≤ f k k' (m + 1)
  total : ∀ i k, i < N → 0 < ∑ j ∈ Finset.range N, ∑ k', f k k' (steps i j)

/-- The equations of `N` equal strips in a uniform wind. -/
def StripEquations (f : R → R → ℕ → ℝ) (N : ℕ) (b : ℝ) (x : ℕ → R → ℝ) : Prop :=
  ∀ i k, i < N → ∑ j ∈ Finset.range N, ∑ k', f k k' (steps i j) * x j k' = b

variable {f : R → R → ℕ → ℝ} {N N' : ℕ} {b : ℝ} {x x' : ℕ → R → ℝ}

namespace StripInfluence

omit [DecidableEq R] in
theorem far (I : StripInfluence f N) {k k' : R} {m m' : ℕ} (h : m ≠ 0 ∨ k ≠ k') (hm : m ≤ m') : f k k' m ≤ f k k' m' := by
  induction m', hm using Nat.le_induction with
  | base => exact le_rfl
  | succ n hn ih => exact ih.trans (I.weaker k k' n (h.imp (fun h0 => by omega) id))

omit [DecidableEq R] in
/-- Strips `t, …, t + h - 1` alone. -/
theorem part (I : StripInfluence f N) {h t : ℕ} (hh : t + h ≤ N) {i : ℕ} (hi : i < h) (k : R) :
    0 < ∑ j ∈ Finset.range h, ∑ k', f k k' (steps i j) := by
  have h1 := I.total (i + t) k (by omega)
  have e : ∑ j ∈ Finset.range h, ∑ k', f k k' (steps i j) = ∑ j ∈ (Finset.range h).map (addRightEmbedding t), ∑ k', f k k' (steps (i + t) j) := by
    rw [Finset.sum_map]
    refine Finset.sum_congr rfl fun j _ => ?_
    have : steps (i + t) (addRightEmbedding t j) = steps i j := by unfold steps; simp only [addRightEmbedding_apply]; omega
    rw [this]
  rw [e]
  refine h1.trans_le ?_
  have hsub : (Finset.range h).map (addRightEmbedding t) ⊆ Finset.range N := by
    intro j hj
    obtain ⟨q, hq, rfl⟩ := Finset.mem_map.1 hj
    rw [Finset.mem_range] at hq ⊢
    simp only [addRightEmbedding_apply]
    omega
  rw [← Finset.sum_sdiff hsub]
  have : ∑ j ∈ Finset.range N \ (Finset.range h).map (addRightEmbedding t), ∑ k', f k k' (steps (i + t) j) ≤ 0 := by
    refine Finset.sum_nonpos fun j hj => Finset.sum_nonpos fun k' _ => I.off _ _ _ (Or.inl ?_)
    intro h0
    refine (Finset.mem_sdiff.1 hj).2 (Finset.mem_map.2 ⟨i, Finset.mem_range.2 hi, ?_⟩)
    simp only [addRightEmbedding_apply]
    unfold steps at h0
    omega
  linarith

theorem nonneg (I : StripInfluence f N) (hb : 0 ≤ b) (hx : StripEquations f N b x) {i : ℕ} (hi : i < N) (k : R) : 0 ≤ x i k :=
  rows_nonneg (A := fun i k j k' => f k k' (steps i j))
    (fun i k j k' _ _ h => I.off _ _ _ (h.imp (fun h0 => by unfold steps; omega) id)) (fun i k hi => I.total i k hi)
    (fun i k hi => by rw [hx i k hi]; exact hb) hi k

/-- Towards the middle the solution does not decrease. -/
theorem rises (I : StripInfluence f N) (hb : 0 ≤ b) (hx : StripEquations f N b x) {i : ℕ} (hi : 2 * (i + 1) ≤ N) (k : R) :
    x i k ≤ x (i + 1) k := by
  set h := i + 1 with hh
  obtain ⟨r, hr⟩ : ∃ r, N = h + h + r := ⟨N - 2 * h, by omega⟩
  have split : ∀ F : ℕ → ℝ, ∑ j ∈ Finset.range N, F j =
      ∑ j ∈ Finset.range h, (F j + F (2 * h - 1 - j)) + ∑ j ∈ Finset.range r, F (h + h + j) := by
    intro F
    rw [hr, Finset.sum_range_add, Finset.sum_range_add, Finset.sum_add_distrib, ← Finset.sum_range_reflect (fun j => F (h + j))]
    congr 2
    refine Finset.sum_congr rfl fun j hj => ?_
    rw [Finset.mem_range] at hj
    congr 1
    omega
  have key := rows_nonneg (N := h) (A := fun i k j k' => f k k' (steps i j) - f k k' (steps i (2 * h - 1 - j)))
    (fun i k j k' hi hj hne => ?_) (fun i k hi => ?_) (x := fun j k => x (2 * h - 1 - j) k - x j k) (fun i k hi => ?_) (i := i)
    (by omega) k
  · have : 2 * h - 1 - i = i + 1 := by omega
    rw [this] at key
    linarith
  · have := I.far (k := k) (k' := k') (m := steps i j) (m' := steps i (2 * h - 1 - j)) (hne.imp (fun h0 => by unfold steps; omega) id)
      (by unfold steps; omega)
    linarith
  · simp only [Finset.sum_sub_distrib]
    have h1 := I.part (h := h) (t := 0) (by omega) hi k
    have h2 : ∑ j ∈ Finset.range h, ∑ k', f k k' (steps i (2 * h - 1 - j)) ≤ 0 := by
      refine Finset.sum_nonpos fun j hj => Finset.sum_nonpos fun k' _ => I.off _ _ _ (Or.inl ?_)
      rw [Finset.mem_range] at hj
      unfold steps
      omega
    linarith
  · have e1 := hx i k (by omega)
    have e2 := hx (2 * h - 1 - i) k (by omega)
    rw [split] at e1 e2
    have e3 : ∑ j ∈ Finset.range h, ∑ k', (f k k' (steps i j) - f k k' (steps i (2 * h - 1 - j))) * (x (2 * h - 1 - j) k' - x j k') =
        ∑ j ∈ Finset.range h, ((∑ k', f k k' (steps (2 * h - 1 - i) j) * x j k') +
          ∑ k', f k k' (steps (2 * h - 1 - i) (2 * h - 1 - j)) * x (2 * h - 1 - j) k') -
        ∑ j ∈ Finset.range h, ((∑ k', f k k' (steps i j) * x j k') + ∑ k', f k k' (steps i (2 * h - 1 - j)) * x (2 * h - 1 - j) k') := by
      rw [← Finset.sum_sub_distrib]
      refine Finset.sum_congr rfl fun j hj => ?_
      rw [Finset.mem_range] at hj
      have s1 : steps (2 * h - 1 - i) (2 * h - 1 - j) = steps i j := by unfold steps; omega
      have s2 : steps (2 * h - 1 - i) j = steps i (2 * h - 1 - j) := by unfold steps; omega
      rw [s1, s2, ← Finset.sum_add_distrib, ← Finset.sum_add_distrib, ← Finset.sum_sub_distrib]
      exact Finset.sum_congr rfl fun k' _ => by ring
    rw [e3]
    have e4 : ∑ j ∈ Finset.range r, ∑ k', f k k' (steps (2 * h - 1 - i) (h + h + j)) * x (h + h + j) k' ≤
        ∑ j ∈ Finset.range r, ∑ k', f k k' (steps i (h + h + j)) * x (h + h + j) k' := by
      refine Finset.sum_le_sum fun j hj => Finset.sum_le_sum fun k' _ => ?_
      rw [Finset.mem_range] at hj
      refine mul_le_mul_of_nonneg_right (I.far (Or.inl ?_) ?_) (I.nonneg hb hx (by omega) k')
      · unfold steps; omega
      · unfold steps; omega
    linarith

omit [DecidableEq R] in
/-- The solution for the strips in reverse order. -/
theorem reversed (hx : StripEquations f N b x) : StripEquations f N b (fun j k => x (N - 1 - j) k) := by
  intro i k hi
  rw [← hx (N - 1 - i) k (by omega), ← Finset.sum_range_reflect]
  refine Finset.sum_congr rfl fun j hj => Finset.sum_congr rfl fun k' _ => ?_
  rw [Finset.mem_range] at hj
  have s1 : N - 1 - (N - 1 - j) = j := by omega
  have s2 : steps i (N - 1 - j) = steps (N - 1 - i) j := by unfold steps; omega
  simp only [s1, s2]

theorem falls (I : StripInfluence f N) (hb : 0 ≤ b) (hx : StripEquations f N b x) {i : ℕ} (hi : N ≤ 2 * (i + 1)) (hi' : i + 1 < N) (k : R) :
    x (i + 1) k ≤ x i k := by
  have := I.rises hb (reversed hx) (i := N - 1 - (i + 1)) (by omega) k
  have e1 : N - 1 - (N - 1 - (i + 1)) = i + 1 := by omega
  have e2 : N - 1 - (N - 1 - (i + 1) + 1) = i := by omega
  simpa only [e1, e2] using this

/-- More strips: the solution does not decrease. -/
theorem grows (I : StripInfluence f N') (hb : 0 ≤ b) (hx : StripEquations f N b x) (hx' : StripEquations f N' b x') {t : ℕ}
    (ht : t + N ≤ N') {i : ℕ} (hi : i < N) (k : R) : x i k ≤ x' (i + t) k := by
  have key := rows_nonneg (N := N) (A := fun i k j k' => f k k' (steps i j))
    (fun i k j k' _ _ h => I.off _ _ _ (h.imp (fun h0 => by unfold steps; omega) id)) (fun i k hi => I.part ht hi k)
    (x := fun j k => x' (j + t) k - x j k) (fun i k hi => ?_) hi k
  · linarith
  · simp only [mul_sub, Finset.sum_sub_distrib]
    rw [hx i k hi, ← hx' (i + t) k (by omega)]
    have e : ∑ j ∈ Finset.range N, ∑ k', f k k' (steps i j) * x' (j + t) k' =
        ∑ j ∈ (Finset.range N).map (addRightEmbedding t), ∑ k', f k k' (steps (i + t) j) * x' j k' := by
      rw [Finset.sum_map]
      refine Finset.sum_congr rfl fun j _ => ?_
      have : steps (i + t) (addRightEmbedding t j) = steps i j := by unfold steps; simp only [addRightEmbedding_apply]; omega
      rw [this]
      rfl
    have hsub : (Finset.range N).map (addRightEmbedding t) ⊆ Finset.range N' := by
      intro j hj
      obtain ⟨q, hq, rfl⟩ := Finset.mem_map.1 hj
      rw [Finset.mem_range] at hq ⊢
      simp only [addRightEmbedding_apply]
      omega
    rw [e, ← Finset.sum_sdiff hsub]
    have : ∑ j ∈ Finset.range N' \ (Finset.range N).map (addRightEmbedding t), ∑ k', f k k' (steps (i + t) j) * x' j k' ≤ 0 := by
      refine Finset.sum_nonpos fun j hj => Finset.sum_nonpos fun k' _ => mul_nonpos_of_nonpos_of_nonneg (I.off _ _ _ (Or.inl ?_)) ?_
      · intro h0
        refine (Finset.mem_sdiff.1 hj).2 (Finset.mem_map.2 ⟨i, Finset.mem_range.2 hi, ?_⟩)
        simp only [addRightEmbedding_apply]
        unfold steps at h0
        omega
      · exact I.nonneg hb hx' (Finset.mem_range.1 (Finset.mem_sdiff.1 hj).1) k'
    linarith

/-- Upper half of `2 n` strips: the mean does not decrease with `n`. -/
theorem mean {n n' : ℕ} (I : StripInfluence f (2 * n)) (I' : StripInfluence f (2 * n')) (hb : 0 ≤ b) (hx : StripEquations f (2 * n) b x)
    (hx' : StripEquations f (2 * n') b x') (hn : 0 < n) (hnn : n ≤ n') (k : R) :
    (n' : ℝ) * ∑ q ∈ Finset.range n, x (n + q) k ≤ n * ∑ q ∈ Finset.range n', x' (n' + q) k := by
  obtain ⟨d, rfl⟩ := Nat.exists_eq_add_of_le' hnn
  have top : ∀ q, q < n → x (n + q) k ≤ x n k := by
    intro q
    induction q with
    | zero => intro _; simp
    | succ q ih => intro hq; exact (I.falls hb hx (i := n + q) (by omega) (by omega) k).trans (ih (by omega))
  have low : ∑ q ∈ Finset.range n, x (n + q) k ≤ n * x n k := by
    refine (Finset.sum_le_sum fun q hq => top q (Finset.mem_range.1 hq)).trans (le_of_eq ?_)
    rw [Finset.sum_const, Finset.card_range, nsmul_eq_mul]
  have h1 : (d : ℝ) * x n k ≤ ∑ q ∈ Finset.range d, x' (d + n + q) k := by
    calc (d : ℝ) * x n k = ∑ _q ∈ Finset.range d, x n k := by rw [Finset.sum_const, Finset.card_range, nsmul_eq_mul]
      _ ≤ _ := by
        refine Finset.sum_le_sum fun q hq => ?_
        rw [Finset.mem_range] at hq
        have := I'.grows hb hx hx' (t := d + q) (by omega) (i := n) (by omega) k
        rwa [show n + (d + q) = d + n + q by omega] at this
  have h2 : ∑ q ∈ Finset.range n, x (n + q) k ≤ ∑ q ∈ Finset.range n, x' (d + n + (d + q)) k := by
    refine Finset.sum_le_sum fun q hq => ?_
    rw [Finset.mem_range] at hq
    have := I'.grows hb hx hx' (t := 2 * d) (by omega) (i := n + q) (by omega) k
    rwa [show n + q + 2 * d = d + n + (d + q) by omega] at this
  rw [Finset.sum_range_add]
  have hnR : (0 : ℝ) ≤ n := Nat.cast_nonneg _
  have hdR : (0 : ℝ) ≤ d := Nat.cast_nonneg _
  push_cast
  have a1 := mul_le_mul_of_nonneg_left h1 hnR
  have a2 := mul_le_mul_of_nonneg_left h2 hnR
  have a3 := mul_le_mul_of_nonneg_left low hdR
  linarith

end StripInfluence

end

end PySailing
