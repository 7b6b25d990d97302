import Verif.Spec.ArithSail
import Verif.Lemmas.RoundingFull

/-!
# Rounding every result is an accurate arithmetic for sails and winds
-/

namespace PySailing

open Spec

abbrev Mat4 := Matrix (Fin 4) (Fin 4) ℝ

theorem row_le (M : Mat4) (i : Fin 4) : ∑ j, |M i j| ≤ ∑ i, ∑ j, |M i j| :=
  Finset.single_le_sum (f := fun i => ∑ j, |M i j|) (fun _ _ => Finset.sum_nonneg fun _ _ => abs_nonneg _) (Finset.mem_univ i)

theorem sizes_nonneg (M : Mat4) : 0 ≤ ∑ i, ∑ j, |M i j| :=
  Finset.sum_nonneg fun _ _ => Finset.sum_nonneg fun _ _ => abs_nonneg _

theorem chainSize_cons (M : Mat4) (Ms : List Mat4) (v : Fin 4 → ℝ) :
    chainSize (M :: Ms) v = (1 + ∑ i, ∑ j, |M i j|) * chainSize Ms v := by
  unfold chainSize
  rw [List.map_cons, List.prod_cons, mul_assoc]

theorem one_le_chainSize (Ms : List Mat4) (v : Fin 4 → ℝ) : 1 ≤ chainSize Ms v := by
  induction Ms with
  | nil =>
    have : 0 ≤ ∑ i, |v i| := Finset.sum_nonneg fun _ _ => abs_nonneg _
    simp only [chainSize, List.map_nil, List.prod_nil, one_mul]
    linarith
  | cons M Ms ih =>
    rw [chainSize_cons]
    nlinarith [sizes_nonneg M]

theorem chain_le (Ms : List Mat4) (v : Fin 4 → ℝ) : ∀ i, |Ms.prod.mulVec v i| ≤ chainSize Ms v := by
  induction Ms with
  | nil =>
    intro i
    have h1 : |v i| ≤ ∑ i, |v i| := Finset.single_le_sum (f := fun i => |v i|) (fun _ _ => abs_nonneg _) (Finset.mem_univ i)
    simp only [chainSize, List.map_nil, List.prod_nil, one_mul, Matrix.one_mulVec]
    linarith
  | cons M Ms ih =>
    intro i
    rw [chainSize_cons, List.prod_cons, ← Matrix.mulVec_mulVec]
    have hW := one_le_chainSize Ms v
    calc |M.mulVec (Ms.prod.mulVec v) i| = |∑ j, M i j * Ms.prod.mulVec v j| := rfl
      _ ≤ ∑ j, |M i j * Ms.prod.mulVec v j| := Finset.abs_sum_le_sum_abs _ _
      _ ≤ ∑ j, |M i j| * chainSize Ms v := Finset.sum_le_sum fun j _ => by
          rw [abs_mul]
          exact mul_le_mul_of_nonneg_left (ih j) (abs_nonneg _)
      _ = (∑ j, |M i j|) * chainSize Ms v := by rw [Finset.sum_mul]
      _ ≤ (1 + ∑ i, ∑ j, |M i j|) * chainSize Ms v :=
          mul_le_mul_of_nonneg_right (by linarith [row_le M i]) (by linarith)

namespace Spec.MachineRounding

variable {u : ℝ} {rnd : ℝ → ℝ}

/-- One rounded product of a row and a column. -/
theorem row_near (R : MachineRounding u rnd) {m w w0 : Fin 4 → ℝ} {N W E : ℝ} (hW : 1 ≤ W) (hN : ∑ j, |m j| ≤ N - 1)
    (hw0 : ∀ j, |w0 j| ≤ W) (hw : ∀ j, |w j - w0 j| ≤ E) (hE : E ≤ 1 / 5) (hu : 150 * u * (N * W) ≤ 1) :
    |(List.ofFn fun j => rnd (m j * w j)).foldl (fun s x => rnd (s + x)) 0 - ∑ j, m j * w0 j| ≤ 20 * u * (N * W) + N * E := by
  have hpos := R.pos
  have hsm := R.small
  have h0 : 0 ≤ ∑ j, |m j| := Finset.sum_nonneg fun _ _ => abs_nonneg _
  have hN1 : 1 ≤ N := by linarith
  have hE0 : 0 ≤ E := (abs_nonneg _).trans (hw 0)
  have hNW : 1 ≤ N * W := by nlinarith
  have hw' : ∀ j, |w j| ≤ 6 / 5 * W := fun j => by
    have e : w j = w0 j + (w j - w0 j) := by ring
    rw [e]
    exact (abs_add_le _ _).trans (by linarith [hw0 j, hw j])
  have hm : ∀ j, |m j| ≤ N - 1 := fun j =>
    (Finset.single_le_sum (f := fun j => |m j|) (fun _ _ => abs_nonneg _) (Finset.mem_univ j)).trans hN
  have hx : ∀ j, |m j * w j| ≤ |m j| * (6 / 5 * W) := fun j => by
    rw [abs_mul]
    exact mul_le_mul_of_nonneg_left (hw' j) (abs_nonneg _)
  have hy : ∀ j, |rnd (m j * w j) - m j * w j| ≤ u * (|m j| * (6 / 5 * W)) + u ^ 2 := fun j => by
    have h1 : |m j| * (6 / 5 * W) ≤ 6 / 5 * (N * W) := by nlinarith [hm j]
    have h2 : 6 / 5 * (N * W) ≤ 1 / u ^ 2 := by
      rw [le_div_iff₀ (by positivity)]
      nlinarith
    exact (R.near _ ((hx j).trans (h1.trans h2))).trans (by
      have := mul_le_mul_of_nonneg_left (hx j) hpos.le
      linarith)
  have hsumx : ∑ j, |m j| * (6 / 5 * W) ≤ 6 / 5 * ((N - 1) * W) := by
    rw [← Finset.sum_mul]
    nlinarith
  have hu2 : u ^ 2 ≤ u / 100 := by nlinarith
  have hd : ∑ j, |rnd (m j * w j) - m j * w j| ≤ u * (6 / 5 * ((N - 1) * W)) + 4 * u ^ 2 := by
    refine (Finset.sum_le_sum fun j _ => hy j).trans ?_
    rw [Finset.sum_add_distrib, ← Finset.mul_sum]
    have := mul_le_mul_of_nonneg_left hsumx hpos.le
    simp only [Finset.sum_const, Finset.card_univ, Fintype.card_fin, nsmul_eq_mul]
    push_cast
    linarith
  have hd' : ∑ j, |rnd (m j * w j) - m j * w j| ≤ 13 / 10 * u * (N * W) := by
    refine hd.trans ?_
    have : 0 < u * W := by positivity
    nlinarith [mul_pos hpos (by linarith : (0 : ℝ) < W), mul_le_mul_of_nonneg_left hW hpos.le]
  have hS : ((List.ofFn fun j => rnd (m j * w j)).map abs).sum ≤ 13 / 10 * (N * W) := by
    rw [List.map_ofFn, List.sum_ofFn]
    have h1 : ∀ j, |rnd (m j * w j)| ≤ |rnd (m j * w j) - m j * w j| + |m j| * (6 / 5 * W) := fun j => by
      have e : rnd (m j * w j) = (rnd (m j * w j) - m j * w j) + m j * w j := by ring
      calc |rnd (m j * w j)| = |(rnd (m j * w j) - m j * w j) + m j * w j| := by rw [← e]
        _ ≤ _ := (abs_add_le _ _).trans (by linarith [hx j])
    calc ∑ j, (abs ∘ fun j => rnd (m j * w j)) j ≤ ∑ j, (|rnd (m j * w j) - m j * w j| + |m j| * (6 / 5 * W)) :=
          Finset.sum_le_sum fun j _ => h1 j
      _ = ∑ j, |rnd (m j * w j) - m j * w j| + ∑ j, |m j| * (6 / 5 * W) := Finset.sum_add_distrib
      _ ≤ 13 / 10 * u * (N * W) + 6 / 5 * ((N - 1) * W) := add_le_add hd' hsumx
      _ ≤ 13 / 10 * (N * W) := by nlinarith
  have hf := R.foldl_near (S := 13 / 10 * (N * W)) (n := 4) (by push_cast; nlinarith) (List.ofFn fun j => rnd (m j * w j)) 0 0 0
    (by simp) (by simpa using hS) (by simp)
  rw [List.length_ofFn, List.sum_ofFn, zero_add] at hf
  push_cast at hf
  have e : (List.ofFn fun j => rnd (m j * w j)).foldl (fun s x => rnd (s + x)) 0 - ∑ j, m j * w0 j =
      ((List.ofFn fun j => rnd (m j * w j)).foldl (fun s x => rnd (s + x)) 0 - ∑ j, rnd (m j * w j)) +
        ∑ j, (rnd (m j * w j) - m j * w j) + ∑ j, m j * (w j - w0 j) := by
    simp only [mul_sub, Finset.sum_sub_distrib]
    ring
  have hlast : |∑ j, m j * (w j - w0 j)| ≤ N * E := by
    refine (Finset.abs_sum_le_sum_abs _ _).trans ?_
    calc ∑ j, |m j * (w j - w0 j)| ≤ ∑ j, |m j| * E := Finset.sum_le_sum fun j _ => by
          rw [abs_mul]
          exact mul_le_mul_of_nonneg_left (hw j) (abs_nonneg _)
      _ = (∑ j, |m j|) * E := by rw [Finset.sum_mul]
      _ ≤ N * E := mul_le_mul_of_nonneg_right (by linarith) hE0
  rw [e]
  refine (abs_add_le _ _).trans ((add_le_add (abs_add_le _ _) le_rfl).trans ?_)
  have h5 := (Finset.abs_sum_le_sum_abs (fun j => rnd (m j * w j) - m j * w j) Finset.univ).trans hd'
  nlinarith [mul_le_mul_of_nonneg_left hNW hpos.le]

/-- A column multiplied by matrices one after the other. -/
theorem chain_near (R : MachineRounding u rnd) (v : Fin 4 → ℝ) : ∀ Ms : List Mat4,
    150 * u * (((Ms.length : ℝ) + 1) * chainSize Ms v) ≤ 1 →
    ∀ i, |Ms.foldr (fun M w i => (List.ofFn fun j => rnd (M i j * w j)).foldl (fun s x => rnd (s + x)) 0) v i - Ms.prod.mulVec v i| ≤
      30 * (Ms.length : ℝ) * u * chainSize Ms v := by
  have hpos := R.pos
  intro Ms
  induction Ms with
  | nil => intro _ i; simp
  | cons M Ms ih =>
    intro h i
    have hW := one_le_chainSize Ms v
    have hS := sizes_nonneg M
    have hn : (0 : ℝ) ≤ Ms.length := Nat.cast_nonneg _
    rw [chainSize_cons, List.length_cons] at h
    push_cast at h
    rw [chainSize_cons, List.length_cons, List.prod_cons, ← Matrix.mulVec_mulVec, List.foldr_cons]
    push_cast
    set N := 1 + ∑ i, ∑ j, |M i j| with hNd
    set W := chainSize Ms v with hWd
    have hN1 : 1 ≤ N := by linarith
    have hNW : W ≤ N * W := by nlinarith
    have h1 : 150 * u * (((Ms.length : ℝ) + 1) * W) ≤ 150 * u * (((Ms.length : ℝ) + 1 + 1) * (N * W)) := by
      apply mul_le_mul_of_nonneg_left _ (by linarith)
      exact mul_le_mul (by linarith) hNW (by linarith) (by linarith)
    have h2 : 150 * u * (N * W) ≤ 150 * u * (((Ms.length : ℝ) + 1 + 1) * (N * W)) := by
      apply mul_le_mul_of_nonneg_left _ (by linarith)
      nlinarith
    have hE : 30 * (Ms.length : ℝ) * u * W ≤ 1 / 5 := by
      have := h1.trans h
      nlinarith [mul_pos hpos (by linarith : (0 : ℝ) < W)]
    have := R.row_near (m := M i) (N := N) (W := W) hW (by rw [hNd]; linarith [row_le M i]) (chain_le Ms v) (ih (h1.trans h)) hE
      (h2.trans h)
    refine this.trans ?_
    nlinarith [mul_pos hpos (by linarith : (0 : ℝ) < N * W)]

theorem accurateSail (R : MachineRounding u rnd) (h0 : rnd 0 = 0) {growth : ℕ → ℝ} (hg : ∀ n : ℕ, 15 * ((n : ℝ) + 1) ≤ growth n)
    {solve : LinearSolver} (hs : BackwardStable growth solve (10 * u)) : AccurateSail growth (roundedSail rnd solve) (10 * u) where
  toAccurateFull := R.accurateFull (fun n => by
    have : (0 : ℝ) ≤ n := Nat.cast_nonneg n
    linarith [hg n]) hs
  log x _ := R.rounds _
  pow x y _ := R.rounds _
  multiDot Ms v h i := by
    have hu := R.pos
    have hC := one_le_chainSize Ms v
    have hn : (0 : ℝ) ≤ Ms.length := Nat.cast_nonneg _
    have h1 : 150 * u * (((Ms.length : ℝ) + 1) * chainSize Ms v) ≤ 10 * u * (growth Ms.length * chainSize Ms v) := by
      have : 15 * ((Ms.length : ℝ) + 1) * chainSize Ms v ≤ growth Ms.length * chainSize Ms v :=
        mul_le_mul_of_nonneg_right (hg _) (by linarith)
      nlinarith
    refine (R.chain_near v Ms (h1.trans h) i).trans (le_trans ?_ h1)
    have : 0 < u * chainSize Ms v := mul_pos hu (by linarith)
    nlinarith [mul_nonneg hn this.le]
  lit_nonneg x hx := R.nonneg x hx
  mul_nonneg x y hx hy := R.nonneg _ (mul_nonneg hx hy)
  div_nonneg x y hx hy := R.nonneg _ (div_nonneg hx hy)
  zero_div x := by
    show rnd (0 / x) = 0
    rw [_root_.zero_div, h0]

end Spec.MachineRounding

end PySailing
