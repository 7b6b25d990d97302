import Verif.Lemmas.PlanarBlocks

/-!
# Induced drag of a planar lattice with one row of panels
-/

namespace PySailing

open Spec

/-- Downwash across the wind of a trailing vortex that starts at the chordwise distance `d` behind the bound vortex. -/
noncomputable def dragKernel (C d y : ℝ) : ℝ := C * d / (rho2 d y * y) + y / (rho2 d y * (rho2 d y + C * d))

theorem dragKernel_neg (C d y : ℝ) : dragKernel C d (-y) = -dragKernel C d y := by
  unfold dragKernel
  rw [rho2_neg_right, mul_neg, div_neg, neg_div]
  ring

theorem dragKernel_pos {C d y : ℝ} (hC : 0 ≤ C) (hd : 0 < d) (hy : 0 < y) : 0 < dragKernel C d y := by
  have := rho2_pos_left y hd.ne'
  unfold dragKernel
  have h1 : 0 ≤ C * d / (rho2 d y * y) := by positivity
  have h2 : 0 < y / (rho2 d y * (rho2 d y + C * d)) := by positivity
  linarith

theorem dragKernel_eq {C d y : ℝ} (hC : 0 ≤ C) (hd : 0 < d) (hy : 0 < y) :
    dragKernel C d y = (1 - (1 - C ^ 2) * d ^ 2 / (rho2 d y * (rho2 d y + C * d))) / y := by
  have h := rho2_pos_left y hd.ne'
  have h2 := rho2_sq d y
  have h3 : 0 < rho2 d y + C * d := by positivity
  unfold dragKernel
  field_simp
  linear_combination (-1 : ℝ) * h2

theorem drag_bound {C d x y A B : ℝ} (hC : 1 / 2 ≤ C) (hC1 : C ≤ 1) (hd : 0 < d) (hx : 0 < x) (hxy : x ≤ y) (hA : 0 < A)
    (kA : 2 * (d * x) ≤ A) (kB : 2 * (d * y) ≤ B) (hG : (B - A) * 2 ≤ (2 + C) * (y ^ 2 - x ^ 2)) :
    (1 - C ^ 2) * d ^ 2 * x * (B - A) ≤ C * (A * B) * (y - x) := by
  have hy := hx.trans_le hxy
  have hS : 0 ≤ 1 - C ^ 2 := by nlinarith
  have u1 : (1 - C ^ 2) * (2 + C) ≤ 4 * C := by nlinarith [mul_nonneg (sub_nonneg.2 hC) (sub_nonneg.2 hC), mul_nonneg (mul_nonneg (sub_nonneg.2 hC) (sub_nonneg.2 hC)) (sub_nonneg.2 hC)]
  have u2 : x * (y + x) ≤ 2 * (x * y) := by
    have := mul_le_mul_of_nonneg_left hxy hx.le
    linarith
  have u3 : 4 * (d ^ 2 * (x * y)) ≤ A * B := by
    have := mul_le_mul kA kB (by positivity) hA.le
    linarith
  have v1 : (1 - C ^ 2) * d ^ 2 * x * ((B - A) * 2) ≤ (1 - C ^ 2) * d ^ 2 * x * ((2 + C) * (y ^ 2 - x ^ 2)) :=
    mul_le_mul_of_nonneg_left hG (by positivity)
  have v2 : (1 - C ^ 2) * d ^ 2 * x * ((2 + C) * (y ^ 2 - x ^ 2)) = ((1 - C ^ 2) * (2 + C)) * (d ^ 2 * (x * (y + x))) * (y - x) := by ring
  have v3 : ((1 - C ^ 2) * (2 + C)) * (d ^ 2 * (x * (y + x))) ≤ (4 * C) * (d ^ 2 * (2 * (x * y))) :=
    mul_le_mul u1 (mul_le_mul_of_nonneg_left u2 (by positivity)) (by positivity) (by linarith)
  have v4 : (4 * C) * (d ^ 2 * (2 * (x * y))) ≤ 2 * C * (A * B) := by
    have := mul_le_mul_of_nonneg_left u3 (by linarith : 0 ≤ 2 * C)
    linarith
  have v5 := mul_le_mul_of_nonneg_right (v3.trans v4) (sub_nonneg.2 hxy)
  linarith

theorem dragKernel_antitone {C d x y : ℝ} (hC : 1 / 2 ≤ C) (hC1 : C ≤ 1) (hd : 0 < d) (hx : 0 < x) (hxy : x ≤ y) :
    dragKernel C d y ≤ dragKernel C d x := by
  have hy := hx.trans_le hxy
  have hC0 : 0 ≤ C := by linarith
  rw [dragKernel_eq hC0 hd hx, dragKernel_eq hC0 hd hy]
  have ra := rho2_pos_left x hd.ne'
  have rb := rho2_pos_left y hd.ne'
  have sa := rho2_sq d x
  have sb := rho2_sq d y
  set a := rho2 d x
  set b := rho2 d y
  have hda : d ≤ a := by nlinarith
  have hdb : d ≤ b := by nlinarith
  have hab : a ≤ b := by nlinarith
  have hA : 0 < a * (a + C * d) := by positivity
  have hB : 0 < b * (b + C * d) := by positivity
  -- the crude bounds
  have kA : 2 * (d * x) ≤ a * (a + C * d) := by nlinarith [sq_nonneg (d - x), mul_nonneg (mul_nonneg hC0 hd.le) ra.le]
  have kB : 2 * (d * y) ≤ b * (b + C * d) := by nlinarith [sq_nonneg (d - y), mul_nonneg (mul_nonneg hC0 hd.le) rb.le]
  have kA1 : (1 + C) * d ^ 2 ≤ a * (a + C * d) := by nlinarith [mul_nonneg (mul_nonneg hC0 hd.le) (sub_nonneg.2 hda)]
  have hG : (b * (b + C * d) - a * (a + C * d)) * 2 ≤ (2 + C) * (y ^ 2 - x ^ 2) := by
    have h1 : (b - a) * (b + a) = y ^ 2 - x ^ 2 := by linear_combination sb - sa
    have h2 : (b - a) * (2 * d) ≤ y ^ 2 - x ^ 2 := by
      rw [← h1]; exact mul_le_mul_of_nonneg_left (by linarith) (by linarith)
    nlinarith
  rw [div_le_div_iff₀ hy hx]
  have hS : 0 ≤ 1 - C ^ 2 := by nlinarith
  have key : (1 - C ^ 2) * d ^ 2 * y / (a * (a + C * d)) - (1 - C ^ 2) * d ^ 2 * x / (b * (b + C * d)) ≤ y - x := by
    rw [div_sub_div _ _ hA.ne' hB.ne', div_le_iff₀ (by positivity)]
    set A := a * (a + C * d)
    set B := b * (b + C * d)
    have e : (1 - C ^ 2) * d ^ 2 * y * B - A * ((1 - C ^ 2) * d ^ 2 * x) =
        (1 - C ^ 2) * d ^ 2 * B * (y - x) + (1 - C ^ 2) * d ^ 2 * x * (B - A) := by ring
    rw [e]
    have t1 : (1 - C ^ 2) * d ^ 2 * B * (y - x) ≤ (1 - C) * (A * B) * (y - x) := by
      have : (1 - C ^ 2) * d ^ 2 ≤ (1 - C) * A := by nlinarith
      apply mul_le_mul_of_nonneg_right _ (by linarith)
      nlinarith
    have t2 := drag_bound hC hC1 hd hx hxy hA kA kB hG
    linarith
  have e1 : (1 - (1 - C ^ 2) * d ^ 2 / (b * (b + C * d))) * x = x - (1 - C ^ 2) * d ^ 2 * x / (b * (b + C * d)) := by ring
  have e2 : (1 - (1 - C ^ 2) * d ^ 2 / (a * (a + C * d))) * y = y - (1 - C ^ 2) * d ^ 2 * y / (a * (a + C * d)) := by ring
  rw [e1, e2]
  linarith

/-- A symmetric matrix with non-positive off-diagonal entries and non-negative row sums. -/
theorem form_nonneg {K : Type} [Fintype K] {A : K → K → ℝ} (hsym : ∀ i j, A i j = A j i) (hoff : ∀ i j, i ≠ j → A i j ≤ 0)
    (hsum : ∀ i, 0 ≤ ∑ j, A i j) (x : K → ℝ) : 0 ≤ ∑ i, ∑ j, A i j * (x i * x j) := by
  have h1 : ∑ i, ∑ j, A i j * (x i * x j) = ∑ i, (∑ j, A i j) * x i ^ 2 + ∑ i, ∑ j, (-A i j) * ((x i - x j) ^ 2 / 2) := by
    have e1 : ∑ i, ∑ j, A i j * (x j ^ 2 / 2) = ∑ i, ∑ j, A i j * (x i ^ 2 / 2) := by
      rw [Finset.sum_comm]
      exact Finset.sum_congr rfl fun i _ => Finset.sum_congr rfl fun j _ => by rw [hsym]
    have e2 : ∑ i, ∑ j, (-A i j) * ((x i - x j) ^ 2 / 2) =
        ∑ i, ∑ j, A i j * (x i * x j) - ∑ i, ∑ j, A i j * (x i ^ 2 / 2) - ∑ i, ∑ j, A i j * (x j ^ 2 / 2) := by
      simp only [← Finset.sum_sub_distrib]
      exact Finset.sum_congr rfl fun i _ => Finset.sum_congr rfl fun j _ => by ring
    have e3 : ∑ i, (∑ j, A i j) * x i ^ 2 = ∑ i, ∑ j, A i j * (x i ^ 2 / 2) + ∑ i, ∑ j, A i j * (x i ^ 2 / 2) := by
      simp only [← Finset.sum_add_distrib, Finset.sum_mul]
      exact Finset.sum_congr rfl fun i _ => Finset.sum_congr rfl fun j _ => by ring
    rw [e2, e3, e1]
    ring
  rw [h1]
  refine add_nonneg (Finset.sum_nonneg fun i _ => mul_nonneg (hsum i) (sq_nonneg _)) (Finset.sum_nonneg fun i _ => Finset.sum_nonneg fun j _ => ?_)
  by_cases h : i = j
  · subst h; simp
  · exact mul_nonneg (neg_nonneg.2 (hoff i j h)) (by positivity)

namespace PlaneFrame

variable {e s : V3}

/-- Vortices in the plane induce no velocity along it. -/
theorem line_along {p p1 p2 : V3} {x1 y1 x2 y2 γ : ℝ} (h1 : p1 = p + (x1 • e + y1 • s)) (h2 : p2 = p + (x2 • e + y2 • s)) :
    (vortexLine p p1 p2 γ).dot e = 0 := by
  by_cases hc : coreTest p p1 p2
  · rw [vortexLine_core γ hc, V3.dot_zero_left]
  · have e1 : p - p1 = (-x1) • e + (-y1) • s := by rw [h1]; ext <;> simp <;> ring
    have e2 : p - p2 = (-x2) • e + (-y2) • s := by rw [h2]; ext <;> simp <;> ring
    have ec : (V3.cross (p - p1) (p - p2)).dot e = 0 := by
      rw [e1, e2, cross, V3.dot_smul_left, V3.dot_cross_right, mul_zero]
    rw [vortexLine_out γ hc]
    simp only [V3.dot_smul_left, ec, mul_zero]

/-- The direction across wind and span. -/
theorem cross_wind (F : PlaneFrame e s) (C S : ℝ) : V3.cross s (C • e + S • V3.cross s e) = C • V3.cross s e - S • e := by
  have h := PlanarBlocks.cross_span F C S
  have e1 : V3.cross s (C • e + S • V3.cross s e) = (-1 : ℝ) • V3.cross (C • e + S • V3.cross s e) s := by
    ext <;> simp <;> ring
  rw [e1, h]
  ext <;> simp

/-- A collinear vortex. -/
theorem bound_collinear {p p1 p2 : V3} {y1 y2 γ : ℝ} (h1 : p1 = p + ((0 : ℝ) • e + y1 • s)) (h2 : p2 = p + ((0 : ℝ) • e + y2 • s)) :
    vortexLine p p1 p2 γ = 0 := by
  apply vortexLine_core
  have e1 : p - p1 = (-0 : ℝ) • e + (-y1) • s := by rw [h1]; ext <;> simp
  have e2 : p - p2 = (-0 : ℝ) • e + (-y2) • s := by rw [h2]; ext <;> simp
  unfold coreTest
  right; right
  rw [e1, e2, cross]
  simp
  norm_num

/-- A trailing vortex, across wind and span. -/
theorem wake_across (F : PlaneFrame e s) {p q : V3} {x y γ l C S : ℝ} (hq : q = p + (x • e + y • s)) (hl : 0 < l) (hu : C ^ 2 + S ^ 2 = 1) :
    (vortexInfiniteLine p q (l • (C • e + S • V3.cross s e)) γ).dot (V3.cross s (C • e + S • V3.cross s e)) =
      γ / (4 * Real.pi) * (y / (rho2 x y * (rho2 x y + C * x))) := by
  rw [vortexInfiniteLine_smul_wind _ _ _ _ hl]
  have e1 : p - q = (-x) • e + (-y) • s := by rw [hq]; ext <;> simp <;> ring
  have huu : (C • e + S • V3.cross s e).dot (C • e + S • V3.cross s e) = 1 := by
    simp only [V3.dot_add_left, V3.dot_add_right, V3.dot_smul_left, V3.dot_smul_right, F.ee, F.nn, en,
      V3.dot_cross_right]
    linear_combination hu
  have hun : (C • e + S • V3.cross s e).norm = 1 := by unfold V3.norm; rw [huu, Real.sqrt_one]
  have hus : (C • e + S • V3.cross s e).dot s = 0 := by
    simp only [V3.dot_add_left, V3.dot_smul_left, F.es, V3.dot_cross_left]
    ring
  have ed : (C • e + S • V3.cross s e).dot (p - q) = -(C * x) := by
    rw [e1]
    simp only [V3.dot_add_left, V3.dot_add_right, V3.dot_smul_left, V3.dot_smul_right, F.ee, F.es,
      V3.dot_cross_right, V3.dot_cross_left]
    ring
  have hrs : (p - q).dot s = -y := by
    rw [e1]
    simp only [V3.dot_add_left, V3.dot_smul_left, F.es, F.ss]
    ring
  have m1 : (p - q).norm = rho2 x y := by rw [e1, F.norm, rho2_neg_left, rho2_neg_right]
  have hcx : (V3.cross (C • e + S • V3.cross s e) (p - q)).dot (V3.cross s (C • e + S • V3.cross s e)) = y := by
    generalize C • e + S • V3.cross s e = u at huu hus ed
    generalize p - q = r at ed hrs
    have : (V3.cross u r).dot (V3.cross s u) = u.dot s * r.dot u - u.dot u * r.dot s := by
      simp only [V3.dot, V3.cross_x, V3.cross_y, V3.cross_z]
      ring
    rw [this, huu, hus, hrs]
    ring
  unfold vortexInfiniteLine
  simp only [V3.dot_smul_left, V3.cross_smul_left, hun, ed, hcx, m1]
  rw [div_one, one_mul, one_mul]
  ring

/-- A horseshoe seen from its bound vortex line. -/
theorem horseshoe_across (F : PlaneFrame e s) {p A B D E : V3} {d y1 y2 γ l C S : ℝ} (hA : A = p + (d • e + y1 • s))
    (hB : B = p + ((0 : ℝ) • e + y1 • s)) (hD : D = p + ((0 : ℝ) • e + y2 • s)) (hE : E = p + (d • e + y2 • s))
    (n1 : 1e-8 ≤ |y1|) (n2 : 1e-8 ≤ |y2|) (c1 : 1e-4 ≤ |y1| * d) (c2 : 1e-4 ≤ |y2| * d) (hd : 0 < d)
    (hl : 0 < l) (hu : C ^ 2 + S ^ 2 = 1) :
    (vortexHorseshoeV2 p A B D E (l • (C • e + S • V3.cross s e)) γ).dot (V3.cross s (C • e + S • V3.cross s e)) =
      γ / (4 * Real.pi) * (dragKernel C d y2 - dragKernel C d y1) := by
  have h0 : ∀ y, rho2 0 y = |y| := by
    intro y; unfold rho2; rw [zero_pow two_ne_zero, zero_add, Real.sqrt_sq_eq_abs]
  have hr : ∀ y, 1e-8 ≤ |y| → 1e-8 ≤ rho2 d y := by
    intro y hy
    refine hy.trans (Real.abs_le_sqrt ?_)
    nlinarith [sq_nonneg d]
  have hside : ∀ {p1 p2 : V3} {x1 x2 y : ℝ}, p1 = p + (x1 • e + y • s) → p2 = p + (x2 • e + y • s) → 1e-8 ≤ rho2 x1 y →
      1e-8 ≤ rho2 x2 y → 1e-4 ≤ |y| * |x2 - x1| →
      (vortexLine p p1 p2 γ).dot (V3.cross s (C • e + S • V3.cross s e)) = C * (γ / (4 * Real.pi) * ((x2 / rho2 x2 y - x1 / rho2 x1 y) / y)) := by
    intro p1 p2 x1 x2 y h1 h2 k1 k2 k3
    rw [F.cross_wind, V3.dot_sub_right, V3.dot_smul_right, V3.dot_smul_right, line_along h1 h2, F.sideLine h1 h2 k1 k2 k3]
    ring
  unfold vortexHorseshoeV2
  rw [bound_collinear hB hD]
  simp only [V3.dot_add_left, V3.dot_zero_left]
  rw [hside hA hB (hr _ n1) (by rw [h0]; exact n1) (by rw [zero_sub, abs_neg, abs_of_pos hd]; exact c1),
    hside hD hE (by rw [h0]; exact n2) (hr _ n2) (by rw [sub_zero, abs_of_pos hd]; exact c2),
    F.wake_across hE hl hu, F.wake_across hA hl hu]
  unfold dragKernel
  have := rho2_pos_left y1 hd.ne'
  have := rho2_pos_left y2 hd.ne'
  rw [show C * d / (rho2 d y2 * y2) = C * (d / rho2 d y2 / y2) by rw [div_div, mul_div_assoc],
    show C * d / (rho2 d y1 * y1) = C * (d / rho2 d y1 / y1) by rw [div_div, mul_div_assoc]]
  simp only [zero_div, zero_sub, sub_zero, neg_div]
  ring

end PlaneFrame

namespace PlanarLattice

variable {K : ℕ} {κ : Type} [Fintype κ] [DecidableEq κ] {O e s : V3} {δ : ℝ} {lo hi : κ → ℝ} {φ : Fin K ≃ κ × Fin 1}
  {L : Fin K → PanelVars} {te : Fin K → Bool} {V : Fin K → V3} {g C S : ℝ} {l : Fin K → ℝ}

theorem across (P : PlanarLattice O e s δ lo hi φ L te) (hwide : ∀ c, 2e-8 ≤ hi c - lo c) (hl : ∀ i, 0 < l i)
    (hV : ∀ i, V i = l i • (C • e + S • V3.cross s e)) (hu : C ^ 2 + S ^ 2 = 1) (i j : Fin K) :
    (velCoef L te V g (L i).cp j).dot (V3.cross s (C • e + S • V3.cross s e)) =
      g / (4 * Real.pi) * (dragKernel C δ (hi (φ j).1 - mid lo hi (φ i).1) - dragKernel C δ (lo (φ j).1 - mid lo hi (φ i).1)) := by
  have F := P.frame
  have hδ := P.pos
  have hb := P.big (φ i).1
  have hi0 : ((φ i).2 : ℕ) = 0 := by omega
  have hj0 : ((φ j).2 : ℕ) = 0 := by omega
  obtain ⟨m1, m2⟩ := P.half_le (φ i).1 (φ j).1
  have hw := sub_pos.2 (P.lt (φ i).1)
  have hsmall : ∀ y, (hi (φ i).1 - lo (φ i).1) / 2 ≤ |y| → 1e-4 ≤ |y| * δ := fun y hy => by nlinarith
  rw [velCoef_eq, P.te, if_pos (by simp [hj0]), hV]
  have hsm : 1e-8 ≤ (hi (φ i).1 - lo (φ i).1) / 2 := by linarith [hwide (φ i).1]
  have ring' := P.ring j
  have cp' := P.cp i
  rw [hj0] at ring'
  rw [hi0] at cp'
  refine F.horseshoe_across ?_ ?_ ?_ ?_ (hsm.trans m1) (hsm.trans m2) (hsmall _ m1) (hsmall _ m2) hδ (hl j) hu
  all_goals
    rw [cp', ring']
    simp only [planePt, mid, Nat.cast_zero]
    ext
    · simp only [V3.add_x, V3.smul_x]; ring
    · simp only [V3.add_y, V3.smul_y]; ring
    · simp only [V3.add_z, V3.smul_z]; ring

/-- The downwash matrix. -/
noncomputable def downwash (C δ : ℝ) (lo hi : κ → ℝ) (c c' : κ) : ℝ :=
  dragKernel C δ (hi c' - mid lo hi c) - dragKernel C δ (lo c' - mid lo hi c)

theorem downwash_symm {w : ℝ} (hw : ∀ c, hi c - lo c = w) (c c' : κ) : downwash C δ lo hi c c' = downwash C δ lo hi c' c := by
  unfold downwash mid
  have h1 := hw c
  have h2 := hw c'
  rw [show hi c' - (lo c + hi c) / 2 = -(lo c - (lo c' + hi c') / 2) by linarith,
    show lo c' - (lo c + hi c) / 2 = -(hi c - (lo c' + hi c') / 2) by linarith, dragKernel_neg, dragKernel_neg]
  ring

theorem downwash_off (P : PlanarLattice O e s δ lo hi φ L te) (hC : 1 / 2 ≤ C) (hC1 : C ≤ 1) (c c' : κ) (h : c ≠ c') :
    downwash C δ lo hi c c' ≤ 0 := by
  have hδ := P.pos
  have := P.lt c
  have := P.lt c'
  unfold downwash mid
  rcases P.disj c c' h with h | h
  · have := dragKernel_antitone (x := lo c' - (lo c + hi c) / 2) (y := hi c' - (lo c + hi c) / 2) hC hC1 hδ (by linarith) (by linarith)
    linarith
  · have := dragKernel_antitone (x := (lo c + hi c) / 2 - hi c') (y := (lo c + hi c) / 2 - lo c') hC hC1 hδ (by linarith) (by linarith)
    rw [← neg_sub ((lo c + hi c) / 2) (hi c'), dragKernel_neg, ← neg_sub ((lo c + hi c) / 2) (lo c'), dragKernel_neg]
    linarith

theorem downwash_sum (P : PlanarLattice O e s δ lo hi φ L te) (hC : 1 / 2 ≤ C) (hC1 : C ≤ 1) (c : κ) :
    0 ≤ ∑ c', downwash C δ lo hi c c' := by
  have hδ := P.pos
  have := P.lt c
  have h := sum_intervals_ge (H := dragKernel C δ) (w := (hi c - lo c) / 2) (m := 0) (i := c) (by linarith)
    (fun x y hx h => dragKernel_antitone hC hC1 hδ hx h) (dragKernel_neg C δ) (fun x hx => (dragKernel_pos (by linarith) hδ hx).le)
    (a := fun c' => lo c' - mid lo hi c) (b := fun c' => hi c' - mid lo hi c) (fun c => by linarith [P.lt c]) (fun c c' h => by
      rcases P.disj c c' h with h | h
      · left; linarith
      · right; linarith) (by unfold mid; ring) (by unfold mid; ring)
  rw [mul_zero] at h
  exact h

/-- Strips of the same width: the induced drag is not negative, whatever the circulations. -/
theorem drag_form (P : PlanarLattice O e s δ lo hi φ L te) (hwide : ∀ c, 2e-8 ≤ hi c - lo c) (hl : ∀ i, 0 < l i)
    (hV : ∀ i, V i = l i • (C • e + S • V3.cross s e)) (hu : C ^ 2 + S ^ 2 = 1) (hC : 1 / 2 ≤ C) {w : ℝ} (hw : ∀ c, hi c - lo c = w)
    (γ : Fin K → ℝ) :
    0 ≤ ∑ i, γ i * (g * (latticeVelocity L te V g γ (L i).cp).dot (V3.cross s (C • e + S • V3.cross s e))) := by
  have hC1 : C ≤ 1 := le_one hu
  have h := form_nonneg (A := fun i j : Fin K => downwash C δ lo hi (φ i).1 (φ j).1) (fun i j => downwash_symm hw _ _) (fun i j h => by
      refine P.downwash_off hC hC1 _ _ fun h0 => h (φ.injective (Prod.ext h0 (Subsingleton.elim _ _)))) (fun i => by
      have h1 := P.downwash_sum hC hC1 (φ i).1
      rw [φ.sum_comp (fun q => downwash C δ lo hi (φ i).1 q.1), Fintype.sum_prod_type]
      simpa using h1) γ
  have e : ∑ i, γ i * (g * (latticeVelocity L te V g γ (L i).cp).dot (V3.cross s (C • e + S • V3.cross s e))) =
      g ^ 2 / (4 * Real.pi) * ∑ i, ∑ j, downwash C δ lo hi (φ i).1 (φ j).1 * (γ i * γ j) := by
    rw [Finset.mul_sum]
    refine Finset.sum_congr rfl fun i _ => ?_
    rw [latticeVelocity_eq, V3.sum_dot, Finset.mul_sum, Finset.mul_sum, Finset.mul_sum]
    refine Finset.sum_congr rfl fun j _ => ?_
    rw [V3.dot_smul_left, P.across hwide hl hV hu]
    unfold downwash
    ring
  rw [e]
  have := Real.pi_pos
  exact mul_nonneg (by positivity) h

end PlanarLattice

namespace PlanarBlocks

variable {O e s : V3} {δ : ℝ} {ns : ℕ} {ζ : ℕ → ℕ → ℝ} {blocks : List (ℕ → ℕ → V3)}

/-- One row of panels, strips of the same width: the resultant has no component against the wind. -/
theorem drag_nonneg (P : PlanarBlocks O e s δ 1 ns ζ blocks) {w : ℝ} (hwide : 2e-8 ≤ w)
    (hw : ∀ b r, b < blocks.length → r < ns → ζ b (r + 1) - ζ b r = w) {g rho C S : ℝ} (hr : 0 ≤ rho)
    {V : Fin (vars g 1 ns blocks).length → V3} {l : Fin (vars g 1 ns blocks).length → ℝ} (hl : ∀ i, 0 < l i)
    (hV : ∀ i, V i = l i • (C • e + S • V3.cross s e)) (hu : C ^ 2 + S ^ 2 = 1) (hC : 1 / 2 ≤ C) :
    0 ≤ ∑ i, ((solutionOf g rho 1 ns blocks V).drag i).dot (C • e + S • V3.cross s e) ∧
      ∀ i, ((solutionOf g rho 1 ns blocks V).force i).dot (C • e + S • V3.cross s e) =
        ((solutionOf g rho 1 ns blocks V).drag i).dot (C • e + S • V3.cross s e) := by
  have hspan : ∀ i, ((latOf g 1 ns blocks) i).span = (g * w) • s := by
    intro k
    obtain ⟨b, i, j, hb, hi, hj, h⟩ := panelNo_surj (k.isLt.trans_eq (vars_length g 1 ns blocks))
    have ek : k = panelIx g 1 ns blocks hb hi hj := Fin.ext h
    rw [ek, latOf_panelIx, P.meshVars_span g hb hi hj, hw b j hb hj]
  have hγ : ∀ i, gammaForForce (leOf 1 ns blocks (vars g 1 ns blocks).length) (gammaOf g 1 ns blocks V) ns i = gammaOf g 1 ns blocks V i := by
    intro k
    obtain ⟨b, i, j, hb, hi, hj, h⟩ := panelNo_surj (k.isLt.trans_eq (vars_length g 1 ns blocks))
    obtain rfl : i = 0 := by omega
    exact gammaForForce_first (vars_length g 1 ns blocks) _ hb one_pos hj k h
  have htriple : ∀ v : V3, ∀ c : ℝ, (V3.cross v (c • s)).dot (C • e + S • V3.cross s e) = c * v.dot (V3.cross s (C • e + S • V3.cross s e)) := by
    intro v c
    generalize C • e + S • V3.cross s e = u
    simp only [V3.dot, V3.cross_x, V3.cross_y, V3.cross_z, V3.smul_x, V3.smul_y, V3.smul_z]
    ring
  have hVd : ∀ i, (V i).dot (V3.cross s (C • e + S • V3.cross s e)) = 0 := by
    intro i
    rw [hV]
    generalize C • e + S • V3.cross s e = u
    simp only [V3.dot, V3.cross_x, V3.cross_y, V3.cross_z, V3.smul_x, V3.smul_y, V3.smul_z]
    ring
  constructor
  · have h := (P.lattice g).drag_form (g := g) (fun c => by rw [hw _ _ c.1.isLt c.2.isLt]; exact hwide) hl hV hu hC
      (fun c => hw _ _ c.1.isLt c.2.isLt) (gammaOf g 1 ns blocks V)
    have e : ∀ i, ((solutionOf g rho 1 ns blocks V).drag i).dot (C • e + S • V3.cross s e) =
        rho * w * (gammaOf g 1 ns blocks V i * (g * (latticeVelocity (latOf g 1 ns blocks) (teOf 1 ns blocks _) V g (gammaOf g 1 ns blocks V)
          ((latOf g 1 ns blocks) i).cp).dot (V3.cross s (C • e + S • V3.cross s e)))) := by
      intro i
      change (panelForce _ _ _ _ _ _ i).dot _ = _
      unfold panelForce
      rw [hγ, hspan, smul_smul, V3.dot_smul_left, htriple]
      ring
    simp only [e]
    rw [← Finset.mul_sum]
    exact mul_nonneg (mul_nonneg hr (by linarith)) h
  · intro i
    change (panelForce _ _ _ _ _ (fun i => V i + _) i).dot _ = (panelForce _ _ _ _ _ _ i).dot _
    unfold panelForce
    rw [hγ, hspan, smul_smul, V3.dot_smul_left, htriple, V3.dot_smul_left, htriple, V3.dot_add_left, hVd, zero_add]

theorem drag_nonneg_of {nc : ℕ} (hnc : nc = 1) (P : PlanarBlocks O e s δ nc ns ζ blocks) {w : ℝ} (hwide : 2e-8 ≤ w)
    (hw : ∀ b r, b < blocks.length → r < ns → ζ b (r + 1) - ζ b r = w) {g rho C S : ℝ} (hr : 0 ≤ rho)
    {V : Fin (vars g nc ns blocks).length → V3} {l : Fin (vars g nc ns blocks).length → ℝ} (hl : ∀ i, 0 < l i)
    (hV : ∀ i, V i = l i • (C • e + S • V3.cross s e)) (hu : C ^ 2 + S ^ 2 = 1) (hC : 1 / 2 ≤ C) :
    0 ≤ ∑ i, ((solutionOf g rho nc ns blocks V).drag i).dot (C • e + S • V3.cross s e) ∧
      ∀ i, ((solutionOf g rho nc ns blocks V).force i).dot (C • e + S • V3.cross s e) =
        ((solutionOf g rho nc ns blocks V).drag i).dot (C • e + S • V3.cross s e) := by
  subst hnc
  exact P.drag_nonneg hwide hw hr hl hV hu hC

end PlanarBlocks

end PySailing
