import Verif.Spec.Rounding
import Verif.Lemmas.Rounded

/-!
# Rounding every result is an accurate arithmetic
-/

namespace PySailing

open Spec

namespace Spec.MachineRounding

variable {u : ℝ} {rnd : ℝ → ℝ}

theorem rounds (R : MachineRounding u rnd) (x : ℝ) : Rounds (10 * u) (rnd x) x := by
  intro h
  have hu := R.pos
  have hs := R.small
  have h1 : |x| ≤ 1 / u ^ 2 := h.trans (one_div_le_one_div_of_le (by positivity) (by nlinarith))
  have h2 := R.near x h1
  have h3 : 0 ≤ u * |x| := by positivity
  nlinarith

/-- The rounded sum of two approximations. -/
theorem sum2 (R : MachineRounding u rnd) {a b p q α β : ℝ} (hp : |p - a| ≤ α) (hq : |q - b| ≤ β) (h : |a| + |b| + α + β ≤ 1 / u ^ 2) :
    |rnd (p + q) - (a + b)| ≤ u * (|a| + |b| + α + β) + u ^ 2 + (α + β) := by
  have h1 : |p + q| ≤ |a| + |b| + α + β := by
    have e : p + q = (p - a) + (q - b) + (a + b) := by ring
    rw [e]
    have := abs_add_three (p - a) (q - b) (a + b)
    have := abs_add_le a b
    linarith
  have h2 := R.near (p + q) (h1.trans h)
  have h3 : rnd (p + q) - (a + b) = (rnd (p + q) - (p + q)) + (p - a) + (q - b) := by ring
  rw [h3]
  have h4 := abs_add_three (rnd (p + q) - (p + q)) (p - a) (q - b)
  have h5 := mul_le_mul_of_nonneg_left h1 R.pos.le
  linarith

/-- Three rounded numbers added from left to right with rounding. -/
theorem sum3 (R : MachineRounding u rnd) {a b c S : ℝ} (hS : |a| + |b| + |c| ≤ S) (h : S ≤ 1 / (10 * u) ^ 2) :
    |rnd (rnd (rnd a + rnd b) + rnd c) - (a + b + c)| ≤ 4 * u * S + 8 * u ^ 2 := by
  have hu := R.pos
  have hs := R.small
  have na := abs_nonneg a
  have nb := abs_nonneg b
  have nc := abs_nonneg c
  have hS0 : 0 ≤ S := by linarith
  have big : ∀ x : ℝ, x ≤ 2 * S + 1 → x ≤ 1 / u ^ 2 := fun x hx => by
    rw [le_div_iff₀ (by positivity)] at h ⊢
    have h1 := mul_le_mul_of_nonneg_right hx (sq_nonneg u)
    have h2 : u ^ 2 ≤ 1 / 100 * (1 / 100) := by rw [sq]; exact mul_le_mul hs hs hu.le (by norm_num)
    nlinarith
  have ea := R.near a (big _ (by linarith))
  have eb := R.near b (big _ (by linarith))
  have ec := R.near c (big _ (by linarith))
  have u2 : u ^ 2 ≤ u / 100 := by rw [sq]; nlinarith
  have lo : ∀ x : ℝ, 0 ≤ x → u * x ≤ x / 100 := fun x hx => by nlinarith
  have lu : ∀ x : ℝ, 0 ≤ x → 0 ≤ u * x := fun x hx => mul_nonneg hu.le hx
  have X1 : |a| + |b| ≤ S := by linarith
  have hab := abs_add_le a b
  have e1 := R.sum2 ea eb (big _ (by have := lo _ na; have := lo _ nb; linarith))
  set E := u * (|a| + |b|) + u ^ 2 * 2 with hE
  have hE0 : 0 ≤ E := by have := lu _ (add_nonneg na nb); positivity
  have e1' : |rnd (rnd a + rnd b) - (a + b)| ≤ u * (|a| + |b|) + E / 100 + u ^ 2 + E := by
    refine e1.trans ?_
    have := lo E hE0
    nlinarith
  have hm := lo _ (add_nonneg na nb)
  have hmc := lo _ nc
  have e2 := R.sum2 e1' ec (big _ (by linarith))
  refine e2.trans ?_
  set F := u * (|a| + |b|) + E / 100 + u ^ 2 + E + (u * |c| + u ^ 2) with hF
  have hF0 : 0 ≤ F := by have := lu _ (add_nonneg na nb); have := lu _ nc; positivity
  have f1 := lo F hF0
  have f2 := mul_le_mul_of_nonneg_left hS hu.le
  have f3 : u * (|a + b| + |c|) ≤ u * S := mul_le_mul_of_nonneg_left (by linarith) hu.le
  have f4 := lu _ nc
  have f5 := lu _ (add_nonneg na nb)
  have f6 : u * |c| + u * (|a| + |b|) ≤ u * S := by linarith
  have f7 := lu _ hS0
  have e3 : u * (|a + b| + |c| + (u * (|a| + |b|) + E / 100 + u ^ 2 + E) + (u * |c| + u ^ 2)) = u * (|a + b| + |c|) + u * F := by
    rw [hF]; ring
  rw [e3]
  have hu2 : 0 ≤ u ^ 2 := sq_nonneg u
  linarith

theorem dot (R : MachineRounding u rnd) (solve : LinearSolver) (v w : V3) (h : v.norm * w.norm ≤ 1 / (10 * u)) :
    |(roundedArith rnd solve).dot v w - v.dot w| ≤ 10 * u * (1 + v.norm * w.norm) := by
  have hu := R.pos
  have hs := R.small
  have h1 : |v.x * w.x| + |v.y * w.y| + |v.z * w.z| ≤ v.norm * w.norm := by
    have := V3.abs_dot_le ⟨|v.x|, |v.y|, |v.z|⟩ ⟨|w.x|, |w.y|, |w.z|⟩
    have e : ∀ v : V3, (⟨|v.x|, |v.y|, |v.z|⟩ : V3).norm = v.norm := fun v => by simp [V3.norm, V3.dot]
    rw [e, e] at this
    refine le_trans ?_ this
    refine le_trans (le_of_eq ?_) (le_abs_self _)
    simp [V3.dot, abs_mul]
  have h2 := R.sum3 h1 (h.trans (one_div_le_one_div_of_le (by positivity) (by nlinarith)))
  have h3 : 0 ≤ v.norm * w.norm := mul_nonneg (V3.norm_nonneg _) (V3.norm_nonneg _)
  refine h2.trans ?_
  nlinarith [mul_nonneg hu.le h3]

theorem norm (R : MachineRounding u rnd) (solve : LinearSolver) (v : V3) :
    Rounds (10 * u) ((roundedArith rnd solve).norm v) v.norm := by
  intro h
  have hu := R.pos
  have hs := R.small
  have hn0 := V3.norm_nonneg v
  rw [abs_of_nonneg hn0] at h ⊢
  have hsq : v.x * v.x + v.y * v.y + v.z * v.z = v.norm ^ 2 := by rw [V3.norm_sq]; rfl
  have h1 : |v.x * v.x| + |v.y * v.y| + |v.z * v.z| ≤ v.norm ^ 2 := by
    rw [abs_mul_self, abs_mul_self, abs_mul_self, hsq]
  have h2 := R.sum3 h1 (by
    rw [le_div_iff₀ (by positivity)] at h ⊢
    have : (v.norm * (10 * u)) ^ 2 ≤ 1 ^ 2 := pow_le_pow_left₀ (by positivity) h 2
    nlinarith)
  rw [hsq] at h2
  set e := rnd (rnd (rnd (v.x * v.x) + rnd (v.y * v.y)) + rnd (v.z * v.z)) with he
  have he0 : 0 ≤ e := R.nonneg _ (add_nonneg (R.nonneg _ (add_nonneg (R.nonneg _ (mul_self_nonneg _)) (R.nonneg _ (mul_self_nonneg _))))
    (R.nonneg _ (mul_self_nonneg _)))
  set n := v.norm with hn
  have h3 : |Real.sqrt e - n| ≤ 4 * u * n + 4 * u := by
    rw [abs_le] at h2
    have hr := Real.sqrt_nonneg e
    have hr2 := Real.sq_sqrt he0
    set r := Real.sqrt e
    rw [abs_le]
    constructor
    · by_contra hc
      push Not at hc
      nlinarith [mul_nonneg hu.le hn0]
    · by_contra hc
      push Not at hc
      nlinarith [mul_nonneg hu.le hn0, mul_nonneg (mul_nonneg hu.le hn0) hn0]
  have h4 : Real.sqrt e ≤ 2 * n + 1 := by
    have := (abs_le.1 h3).2
    nlinarith [mul_nonneg hu.le hn0]
  have hr := Real.sqrt_nonneg e
  have h5 := R.near (Real.sqrt e) (by
    rw [abs_of_nonneg hr, le_div_iff₀ (by positivity)]
    rw [le_div_iff₀ (by positivity)] at h
    nlinarith [mul_le_mul_of_nonneg_right h4 (sq_nonneg u)])
  rw [abs_of_nonneg hr] at h5
  have h6 : (roundedArith rnd solve).norm v = rnd (Real.sqrt e) := rfl
  rw [h6]
  have := abs_sub_le (rnd (Real.sqrt e)) (Real.sqrt e) n
  have h7 : u * Real.sqrt e ≤ u * (2 * n + 1) := mul_le_mul_of_nonneg_left h4 hu.le
  nlinarith

theorem accurate (R : MachineRounding u rnd) {growth : ℕ → ℝ} {solve : LinearSolver} (hs : BackwardStable growth solve (10 * u)) :
    AccurateArith growth (roundedArith rnd solve) (10 * u) where
  pos := by have := R.pos; positivity
  lit x := R.rounds x
  add x y := R.rounds _
  sub x y := R.rounds _
  mul x y := R.rounds _
  div x y _ := R.rounds _
  norm v := R.norm solve v
  dot v w h := R.dot solve v w h
  solve := hs

end Spec.MachineRounding

/-- Rounding to `p` binary digits has the relative error `2 ^ (-p)`. -/
theorem binaryRound_near (p : ℕ) (x : ℝ) : |binaryRound p x - x| ≤ (1 / 2) ^ p * |x| := by
  rcases eq_or_ne x 0 with h | h
  · simp [h, binaryRound]
  have hx : 0 < |x| := abs_pos.2 h
  have h1 : (2 : ℝ) ^ Int.log 2 |x| ≤ |x| := by
    have := Int.zpow_log_le_self (b := 2) (by norm_num) hx
    exact_mod_cast this
  set q : ℝ := (2 : ℝ) ^ (Int.log 2 |x| + 1 - p) with hq
  have hq0 : 0 < q := by positivity
  have e : binaryRound p x - x = -((x / q - round (x / q)) * q) := by
    unfold binaryRound
    rw [← hq, sub_mul, div_mul_cancel₀ _ hq0.ne']
    ring
  rw [e, abs_neg, abs_mul, abs_of_pos hq0]
  have h2 := abs_sub_round (x / q)
  have h3 : q = 2 * ((1 / 2) ^ p * 2 ^ Int.log 2 |x|) := by
    rw [hq, sub_eq_add_neg, zpow_add₀ (by norm_num), zpow_add₀ (by norm_num), zpow_one, zpow_neg, zpow_natCast, one_div, inv_pow]
    ring
  have h4 : (0 : ℝ) < (1 / 2) ^ p := by positivity
  calc |x / q - round (x / q)| * q ≤ 1 / 2 * q := mul_le_mul_of_nonneg_right h2 hq0.le
    _ = (1 / 2) ^ p * 2 ^ Int.log 2 |x| := by rw [h3]; ring
    _ ≤ (1 / 2) ^ p * |x| := mul_le_mul_of_nonneg_left h1 h4.le

theorem binaryRound_machine {p : ℕ} (hp : 7 ≤ p) : MachineRounding ((1 / 2) ^ p) (binaryRound p) where
  pos := by positivity
  small := (pow_le_pow_of_le_one (by norm_num) (by norm_num) hp).trans (by norm_num)
  nonneg x hx := by
    unfold binaryRound
    refine mul_nonneg ?_ (by positivity)
    have h1 : (0 : ℝ) ≤ x / (2 : ℝ) ^ (Int.log 2 |x| + 1 - p) := by positivity
    have : 0 ≤ round (x / (2 : ℝ) ^ (Int.log 2 |x| + 1 - p)) := by
      rw [round_eq]
      exact Int.floor_nonneg.2 (by linarith)
    exact_mod_cast this
  near x _ := (binaryRound_near p x).trans (le_add_of_nonneg_right (by positivity))

/-- The rounded exact solution has a backward error of the size of the rounding. -/
theorem roundedSolve_stable {u : ℝ} {rnd : ℝ → ℝ} (R : MachineRounding u rnd) :
    BackwardStable (fun _ => 1) (roundedSolve rnd) (10 * u) := by
  intro K M b hdet hc hb
  have hu := R.pos
  have hs := R.small
  refine ⟨fun i => rnd (M⁻¹.mulVec b i), ?_, ?_⟩
  · simp [roundedSolve, solveEq, if_neg hdet, Except.map]
  set γ := M⁻¹.mulVec b with hγ
  have hM : M.mulVec γ = b := by
    rw [hγ, Matrix.mulVec_mulVec, Matrix.mul_nonsing_inv _ (isUnit_iff_ne_zero.2 hdet), Matrix.one_mulVec]
  set S := ∑ i, ∑ j, |M i j| with hS
  set I := ∑ i, ∑ j, |M⁻¹ i j| with hI
  have hS0 : 0 ≤ S := Finset.sum_nonneg fun _ _ => Finset.sum_nonneg fun _ _ => abs_nonneg _
  have hI0 : 0 ≤ I := Finset.sum_nonneg fun _ _ => Finset.sum_nonneg fun _ _ => abs_nonneg _
  set B := ∑ i, |b i| with hB
  have hB0 : 0 ≤ B := Finset.sum_nonneg fun _ _ => abs_nonneg _
  have hγi : ∀ i, |γ i| ≤ I * B := fun i => by
    calc |γ i| = |∑ j, M⁻¹ i j * b j| := rfl
      _ ≤ ∑ j, |M⁻¹ i j * b j| := Finset.abs_sum_le_sum_abs _ _
      _ ≤ ∑ j, |M⁻¹ i j| * B := Finset.sum_le_sum fun j _ => by
          rw [abs_mul]
          exact mul_le_mul_of_nonneg_left (Finset.single_le_sum (f := fun i => |b i|) (fun _ _ => abs_nonneg _) (Finset.mem_univ j))
            (abs_nonneg _)
      _ = (∑ j, |M⁻¹ i j|) * B := by rw [Finset.sum_mul]
      _ ≤ I * B := mul_le_mul_of_nonneg_right (Finset.single_le_sum (f := fun i => ∑ j, |M⁻¹ i j|)
          (fun _ _ => Finset.sum_nonneg fun _ _ => abs_nonneg _) (Finset.mem_univ i)) hB0
  have hIB : I * B ≤ 1 / u ^ 2 := by
    rw [le_div_iff₀ (by positivity)]
    have h1 : 10 * u * I ≤ 1 := by
      refine le_trans ?_ hc
      have : I ≤ 1 * (1 + S) * (1 + I) := by nlinarith [mul_nonneg hS0 hI0]
      exact mul_le_mul_of_nonneg_left this (by positivity)
    have h2 : (10 * u * I) * (10 * u * B) ≤ 1 * 1 := mul_le_mul h1 hb (by positivity) (by norm_num)
    nlinarith [mul_nonneg (mul_nonneg hI0 hB0) (sq_nonneg u)]
  have hδ : ∀ j, |rnd (γ j) - γ j| ≤ 2 * u * (1 + |rnd (γ j)|) := fun j => by
    have h1 := R.near (γ j) ((hγi j).trans hIB)
    have h2 : |γ j| ≤ |rnd (γ j) - γ j| + |rnd (γ j)| := by
      rw [abs_sub_comm]
      have := abs_add_le (γ j - rnd (γ j)) (rnd (γ j))
      rwa [sub_add_cancel] at this
    nlinarith [abs_nonneg (rnd (γ j)), abs_nonneg (rnd (γ j) - γ j), mul_le_mul_of_nonneg_left h2 hu.le]
  intro i
  have e : M.mulVec (fun j => rnd (γ j)) i - b i = ∑ j, M i j * (rnd (γ j) - γ j) := by
    rw [← hM]
    simp only [Matrix.mulVec, dotProduct, ← Finset.sum_sub_distrib, mul_sub]
  rw [e]
  set G := ∑ j, |rnd (γ j)| with hG
  have hG0 : 0 ≤ G := Finset.sum_nonneg fun _ _ => abs_nonneg _
  calc |∑ j, M i j * (rnd (γ j) - γ j)| ≤ ∑ j, |M i j * (rnd (γ j) - γ j)| := Finset.abs_sum_le_sum_abs _ _
    _ ≤ ∑ j, |M i j| * (2 * u * (1 + G)) := Finset.sum_le_sum fun j _ => by
        rw [abs_mul]
        refine mul_le_mul_of_nonneg_left ((hδ j).trans ?_) (abs_nonneg _)
        have : |rnd (γ j)| ≤ G := Finset.single_le_sum (f := fun i => |rnd (γ i)|) (fun _ _ => abs_nonneg _) (Finset.mem_univ j)
        nlinarith
    _ = (∑ j, |M i j|) * (2 * u * (1 + G)) := by rw [Finset.sum_mul]
    _ ≤ S * (2 * u * (1 + G)) := mul_le_mul_of_nonneg_right (Finset.single_le_sum (f := fun i => ∑ j, |M i j|)
          (fun _ _ => Finset.sum_nonneg fun _ _ => abs_nonneg _) (Finset.mem_univ i)) (by positivity)
    _ ≤ 10 * u * (1 * (1 + S) * (1 + G)) := by nlinarith [mul_nonneg hu.le (mul_nonneg hS0 hG0), mul_nonneg hu.le hS0, mul_nonneg hu.le hG0]

end PySailing
