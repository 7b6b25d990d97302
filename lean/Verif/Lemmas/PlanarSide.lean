import Verif.Lemmas.PlanarDrag

/-!
# Force across the wind of a planar lattice with one row of panels
-/

namespace PySailing

open Spec

/-- Velocity along the wind, per sine of the angle between wind and chord, of the side of a panel of chord `d` at its front. -/
noncomputable def frontKernel (d y : ℝ) : ℝ := d / (rho2 d y * y)

theorem frontKernel_neg (d y : ℝ) : frontKernel d (-y) = -frontKernel d y := by
  unfold frontKernel
  rw [rho2_neg_right, mul_neg, div_neg]

theorem frontKernel_pos {d y : ℝ} (hd : 0 < d) (hy : 0 < y) : 0 < frontKernel d y := by
  have := rho2_pos_left y hd.ne'
  unfold frontKernel
  positivity

theorem frontKernel_antitone {d x y : ℝ} (hd : 0 < d) (hx : 0 < x) (hxy : x ≤ y) : frontKernel d y ≤ frontKernel d x := by
  have hy := hx.trans_le hxy
  have ra := rho2_pos_left x hd.ne'
  have rb := rho2_pos_left y hd.ne'
  have sa := rho2_sq d x
  have sb := rho2_sq d y
  have hab : rho2 d x ≤ rho2 d y := by nlinarith
  unfold frontKernel
  exact div_le_div_of_nonneg_left hd.le (by positivity) (mul_le_mul hab hxy hx.le rb.le)

/-- The circulation equations minus the velocity along the wind at the bound vortices. -/
noncomputable def leeKernel (C δ y : ℝ) : ℝ := stripKernel C (δ / 2) (δ / 2) y - (1 - C ^ 2) * frontKernel δ y

theorem leeKernel_neg (C δ y : ℝ) : leeKernel C δ (-y) = -leeKernel C δ y := by
  unfold leeKernel
  rw [stripKernel_neg, frontKernel_neg]
  ring

theorem lee_bound {d x y a b : ℝ} (hd : 0 < d) (hx : 0 < x) (hxy : x ≤ y) (ha : 0 < a) (hb : 0 < b) (sa : a ^ 2 = d ^ 2 + x ^ 2)
    (sb : b ^ 2 = d ^ 2 + y ^ 2) : d * (y * b - x * a) ≤ Real.sqrt 2 * (a * b * (y - x)) := by
  have hy := hx.trans_le hxy
  have hq : Real.sqrt 2 ^ 2 = 2 := Real.sq_sqrt (by norm_num)
  have hq0 : 0 ≤ Real.sqrt 2 := Real.sqrt_nonneg 2
  have hab : d ^ 2 + x * y ≤ a * b := by
    apply le_of_sq_le_sq _ (by positivity)
    have e : (a * b) ^ 2 = (d ^ 2 + x ^ 2) * (d ^ 2 + y ^ 2) := by rw [mul_pow, sa, sb]
    rw [e]
    nlinarith [mul_nonneg (sq_nonneg d) (sq_nonneg (x - y))]
  have hT : (d ^ 2 + x ^ 2 + y ^ 2) * (x + y) ^ 2 ≤ 2 * (y * b + x * a) ^ 2 := by
    have e : (y * b + x * a) ^ 2 = y ^ 2 * (d ^ 2 + y ^ 2) + x ^ 2 * (d ^ 2 + x ^ 2) + 2 * (x * y) * (a * b) := by
      rw [← sa, ← sb]; ring
    rw [e]
    have := mul_le_mul_of_nonneg_left hab (by positivity : 0 ≤ 2 * (x * y))
    nlinarith [sq_nonneg (x - y), mul_nonneg (sq_nonneg d) (sq_nonneg (x + y)), mul_nonneg (add_nonneg (sq_nonneg x) (sq_nonneg y)) (sq_nonneg (x - y))]
  have hT2 : d ^ 2 * (d ^ 2 + x ^ 2 + y ^ 2) ≤ (a * b) ^ 2 := by
    have e : (a * b) ^ 2 = (d ^ 2 + x ^ 2) * (d ^ 2 + y ^ 2) := by rw [mul_pow, sa, sb]
    rw [e]
    nlinarith [mul_nonneg (sq_nonneg x) (sq_nonneg y)]
  have hmain : d * ((d ^ 2 + x ^ 2 + y ^ 2) * (x + y)) ≤ Real.sqrt 2 * (a * b * (y * b + x * a)) := by
    apply le_of_sq_le_sq _ (by positivity)
    calc (d * ((d ^ 2 + x ^ 2 + y ^ 2) * (x + y))) ^ 2 = (d ^ 2 * (d ^ 2 + x ^ 2 + y ^ 2)) * ((d ^ 2 + x ^ 2 + y ^ 2) * (x + y) ^ 2) := by ring
      _ ≤ (a * b) ^ 2 * (2 * (y * b + x * a) ^ 2) := mul_le_mul hT2 hT (by positivity) (by positivity)
      _ = (a * b) ^ 2 * (Real.sqrt 2 ^ 2 * (y * b + x * a) ^ 2) := by rw [hq]
      _ = _ := by ring
  have hpos : 0 < y * b + x * a := by positivity
  have hdiff : (y * b - x * a) * (y * b + x * a) = (y - x) * ((d ^ 2 + x ^ 2 + y ^ 2) * (x + y)) := by
    linear_combination y ^ 2 * sb - x ^ 2 * sa
  refine le_of_mul_le_mul_right ?_ hpos
  have := mul_le_mul_of_nonneg_left hmain (sub_nonneg.2 hxy)
  calc d * (y * b - x * a) * (y * b + x * a) = (y - x) * (d * ((d ^ 2 + x ^ 2 + y ^ 2) * (x + y))) := by
        rw [mul_assoc, hdiff]; ring
    _ ≤ (y - x) * (Real.sqrt 2 * (a * b * (y * b + x * a))) := this
    _ = _ := by ring

theorem leeKernel_eq {C δ y : ℝ} (hC : 0 ≤ C) (hδ : 0 < δ) (hy : 0 < y) :
    leeKernel C δ y * y = rho2 (δ / 2) y / (δ / 2) + (δ / 2 + C * rho2 (δ / 2) y) / (rho2 (δ / 2) y + C * (δ / 2)) -
      (1 - C ^ 2) * (δ / rho2 δ y) := by
  have p := rho2_pos_left y (by positivity : δ / 2 ≠ 0)
  have p' := rho2_pos_left y hδ.ne'
  have h3 : 0 < rho2 (δ / 2) y + C * (δ / 2) := by positivity
  unfold leeKernel frontKernel
  rw [stripKernel_eq hC (by positivity) hy]
  field_simp

theorem leeKernel_wake {C h a : ℝ} (hC1 : C ^ 2 ≤ 1) (hC : 0 ≤ C) (hh : 0 < h) (ha : 0 < a) : C ≤ (h + C * a) / (a + C * h) := by
  rw [le_div_iff₀ (by positivity)]
  nlinarith

theorem leeKernel_antitone {C δ x y : ℝ} (hC : 0 ≤ C) (hC2 : 1 / 2 ≤ C ^ 2) (hC1 : C ≤ 1) (hδ : 0 < δ) (hx : 0 < x) (hxy : x ≤ y) :
    leeKernel C δ y ≤ leeKernel C δ x := by
  have hy := hx.trans_le hxy
  have hh : 0 < δ / 2 := by positivity
  have hCC : C ^ 2 ≤ 1 := by nlinarith
  have ra := rho2_pos_left x hh.ne'
  have rb := rho2_pos_left y hh.ne'
  have ra' := rho2_pos_left x hδ.ne'
  have rb' := rho2_pos_left y hδ.ne'
  have sa := rho2_sq (δ / 2) x
  have sb := rho2_sq (δ / 2) y
  have sa' := rho2_sq δ x
  have sb' := rho2_sq δ y
  have ex := leeKernel_eq hC hδ hx
  have ey := leeKernel_eq hC hδ hy
  have wy := leeKernel_wake hCC hC hh rb
  set h := δ / 2
  set a := rho2 h x
  set b := rho2 h y
  set A := rho2 δ x
  set B := rho2 δ y
  have hab : a ≤ b := by nlinarith
  -- the bound vortices
  have k1 : b * x ≤ a * y := by
    apply le_of_sq_le_sq _ (by positivity)
    rw [mul_pow, mul_pow, sa, sb]
    nlinarith [mul_nonneg (sq_nonneg h) (mul_nonneg (sub_nonneg.2 hxy) (add_nonneg hx.le hy.le))]
  have k1' : b / h * x ≤ a / h * y := by
    rw [div_mul_eq_mul_div, div_mul_eq_mul_div]
    exact div_le_div_of_nonneg_right k1 hh.le
  -- the wakes
  have k2 : (h + C * b) / (b + C * h) ≤ (h + C * a) / (a + C * h) := by
    rw [div_le_div_iff₀ (by positivity) (by positivity)]
    nlinarith [mul_nonneg (mul_nonneg hh.le (sub_nonneg.2 hCC)) (sub_nonneg.2 hab)]
  have k2' : (h + C * b) / (b + C * h) * x + C * (y - x) ≤ (h + C * a) / (a + C * h) * y := by
    have := mul_le_mul_of_nonneg_right k2 hy.le
    have := mul_le_mul_of_nonneg_right wy (sub_nonneg.2 hxy)
    linarith
  -- the velocity along the wind
  have k3 : (1 - C ^ 2) * (δ / A) * y - (1 - C ^ 2) * (δ / B) * x ≤ C * (y - x) := by
    have hL := lee_bound hδ hx hxy ra' rb' sa' sb'
    have hq : Real.sqrt 2 ^ 2 = 2 := Real.sq_sqrt (by norm_num)
    have hq0 : 0 ≤ Real.sqrt 2 := Real.sqrt_nonneg 2
    have hCq : Real.sqrt 2 / 2 ≤ C := by
      apply le_of_sq_le_sq _ hC
      rw [div_pow, hq]
      linarith
    have e : (1 - C ^ 2) * (δ / A) * y - (1 - C ^ 2) * (δ / B) * x = (1 - C ^ 2) * (δ * (y * B - x * A)) / (A * B) := by
      field_simp
    rw [e, div_le_iff₀ (by positivity)]
    have s1 : (1 - C ^ 2) * (δ * (y * B - x * A)) ≤ (1 - C ^ 2) * (Real.sqrt 2 * (A * B * (y - x))) :=
      mul_le_mul_of_nonneg_left hL (by linarith)
    have s2 : (1 - C ^ 2) * Real.sqrt 2 ≤ C := by nlinarith
    have s3 := mul_le_mul_of_nonneg_right s2 (mul_nonneg (mul_pos ra' rb').le (sub_nonneg.2 hxy))
    linarith
  have key : leeKernel C δ y * y * x ≤ leeKernel C δ x * x * y := by
    rw [ex, ey]
    linarith
  refine le_of_mul_le_mul_right ?_ (mul_pos hx hy)
  linarith

theorem leeKernel_ge {C δ y : ℝ} (hC : 0 ≤ C) (hC2 : 1 / 2 ≤ C ^ 2) (hC1 : C ≤ 1) (hδ : 0 < δ) (hy : 0 < y) :
    2 / δ ≤ leeKernel C δ y := by
  have hh : 0 < δ / 2 := by positivity
  have hCC : C ^ 2 ≤ 1 := by nlinarith
  have rb := rho2_pos_left y hh.ne'
  have rb' := rho2_pos_left y hδ.ne'
  have sb := rho2_sq (δ / 2) y
  have sb' := rho2_sq δ y
  have ey := leeKernel_eq hC hδ hy
  have wy := leeKernel_wake hCC hC hh rb
  have k1 : y / (δ / 2) ≤ rho2 (δ / 2) y / (δ / 2) := div_le_div_of_nonneg_right (by nlinarith) hh.le
  have k2 : (1 - C ^ 2) * (δ / rho2 δ y) ≤ C := by
    have : δ / rho2 δ y ≤ 1 := by
      rw [div_le_one rb']
      nlinarith
    nlinarith [mul_le_mul_of_nonneg_left this (by linarith : 0 ≤ 1 - C ^ 2)]
  refine le_of_mul_le_mul_right ?_ hy
  rw [ey]
  have : 2 / δ * y = y / (δ / 2) := by field_simp
  linarith

/-- An odd kernel, decreasing and positive on the right: all disjoint intervals together, one of them centred. -/
theorem sum_intervals_pos {ι : Type} [Fintype ι] [DecidableEq ι] {H : ℝ → ℝ} {w : ℝ} (hw : 0 < w)
    (hH : ∀ x y, 0 < x → x ≤ y → H y ≤ H x) (hodd : ∀ x, H (-x) = -H x) (hm : ∀ x, 0 < x → 0 < H x)
    {a b : ι → ℝ} (hab : ∀ j, a j < b j) (hdis : ∀ j k, j ≠ k → b j ≤ a k ∨ b k ≤ a j) {i : ι} (ha : a i = -w) (hb : b i = w) :
    0 < ∑ j, (H (b j) - H (a j)) := by
  obtain ⟨R, hR1, hR2⟩ : ∃ R, w ≤ R ∧ ∀ j, |a j| ≤ R ∧ |b j| ≤ R := by
    refine ⟨w + ∑ j, (|a j| + |b j|), ?_, fun j => ?_⟩
    · have : 0 ≤ ∑ j, (|a j| + |b j|) := Finset.sum_nonneg fun j _ => by positivity
      linarith
    · have := Finset.single_le_sum (f := fun j => |a j| + |b j|) (fun j _ => by positivity) (Finset.mem_univ j)
      have := abs_nonneg (a j)
      have := abs_nonneg (b j)
      constructor <;> linarith
  have hR : 0 < R := hw.trans_le hR1
  -- constant from `R` on
  let G : ℝ → ℝ := fun x => H (max (-R) (min R x))
  have hG : ∀ x, |x| ≤ R → G x = H x := by
    intro x hx
    have := abs_le.1 hx
    change H (max (-R) (min R x)) = H x
    rw [min_eq_right this.2, max_eq_right this.1]
  have hGp : ∀ x, 0 < x → G x = H (min R x) := by
    intro x hx
    change H (max (-R) (min R x)) = _
    rw [max_eq_right]
    have := lt_min hR hx
    linarith
  have h := sum_intervals_ge (H := G) (m := H R) hw (fun x y hx hxy => by
      rw [hGp x hx, hGp y (hx.trans_le hxy)]
      exact hH _ _ (lt_min hR hx) (min_le_min_left R hxy)) (fun x => by
      change H (max (-R) (min R (-x))) = -H (max (-R) (min R x))
      rw [← hodd]
      congr 1
      rcases le_total x R with h1 | h1 <;> rcases le_total (-R) x with h2 | h2
      · rw [min_eq_right h1, max_eq_right h2, min_eq_right (by linarith), max_eq_right (by linarith)]
      · rw [min_eq_right h1, max_eq_left h2, min_eq_left (by linarith), max_eq_right (by linarith)]; ring
      · rw [min_eq_left h1, min_eq_right (by linarith), max_eq_left (by linarith), max_eq_right (by linarith)]
      · linarith) (fun x hx => by
      rw [hGp x hx]
      exact hH _ _ (lt_min hR hx) (min_le_left _ _)) hab hdis ha hb
  have e : ∑ j, (G (b j) - G (a j)) = ∑ j, (H (b j) - H (a j)) :=
    Finset.sum_congr rfl fun j _ => by rw [hG _ (hR2 j).1, hG _ (hR2 j).2]
  rw [e] at h
  linarith [hm R hR]

/-- A symmetric matrix with non-positive off-diagonal entries and positive row sums is positive definite. -/
theorem form_pos {K : Type} [Fintype K] {A : K → K → ℝ} (hsym : ∀ i j, A i j = A j i) (hoff : ∀ i j, i ≠ j → A i j ≤ 0)
    (hsum : ∀ i, 0 < ∑ j, A i j) (x : K → ℝ) (hx : ∃ i, x i ≠ 0) : 0 < ∑ i, ∑ j, A i j * (x i * x j) := by
  classical
  have h := form_nonneg (A := fun i j => A i j - if i = j then ∑ k, A i k else 0) (fun i j => by
      rw [hsym]
      by_cases h : i = j
      · subst h; rfl
      · rw [if_neg h, if_neg (Ne.symm h)]) (fun i j h => by
      rw [if_neg h]
      linarith [hoff i j h]) (fun i => by
      rw [Finset.sum_sub_distrib]
      simp) x
  have e : ∑ i, ∑ j, (A i j - if i = j then ∑ k, A i k else 0) * (x i * x j) =
      ∑ i, ∑ j, A i j * (x i * x j) - ∑ i, (∑ k, A i k) * x i ^ 2 := by
    rw [← Finset.sum_sub_distrib]
    refine Finset.sum_congr rfl fun i _ => ?_
    simp only [sub_mul, Finset.sum_sub_distrib, ite_mul, zero_mul, Finset.sum_ite_eq, Finset.mem_univ, if_true]
    ring
  rw [e] at h
  obtain ⟨i, hi⟩ := hx
  have h2 : 0 < ∑ i, (∑ k, A i k) * x i ^ 2 :=
    Finset.sum_pos' (fun i _ => mul_nonneg (hsum i).le (sq_nonneg _)) ⟨i, Finset.mem_univ i, mul_pos (hsum i) (by positivity)⟩
  linarith

namespace PlaneFrame

variable {e s : V3}

/-- A trailing vortex induces no velocity along the wind. -/
theorem wake_wind (p q v : V3) (γ : ℝ) : (vortexInfiniteLine p q v γ).dot v = 0 := by
  unfold vortexInfiniteLine
  simp only [V3.dot_smul_left, V3.cross_smul_left, V3.dot_cross_left, mul_zero]

/-- A horseshoe seen from its bound vortex line: velocity along the wind. -/
theorem horseshoe_wind (F : PlaneFrame e s) {p A B D E : V3} {d y1 y2 γ l C S : ℝ} (hA : A = p + (d • e + y1 • s))
    (hB : B = p + ((0 : ℝ) • e + y1 • s)) (hD : D = p + ((0 : ℝ) • e + y2 • s)) (hE : E = p + (d • e + y2 • s))
    (n1 : 1e-8 ≤ |y1|) (n2 : 1e-8 ≤ |y2|) (c1 : 1e-4 ≤ |y1| * d) (c2 : 1e-4 ≤ |y2| * d) (hd : 0 < d) (hl : 0 < l) :
    (vortexHorseshoeV2 p A B D E (l • (C • e + S • V3.cross s e)) γ).dot (C • e + S • V3.cross s e) =
      γ / (4 * Real.pi) * (S * (frontKernel d y2 - frontKernel d y1)) := by
  have h0 : ∀ y, rho2 0 y = |y| := by
    intro y; unfold rho2; rw [zero_pow two_ne_zero, zero_add, Real.sqrt_sq_eq_abs]
  have hr : ∀ y, 1e-8 ≤ |y| → 1e-8 ≤ rho2 d y := by
    intro y hy
    refine hy.trans (Real.abs_le_sqrt ?_)
    nlinarith [sq_nonneg d]
  have hside : ∀ {p1 p2 : V3} {x1 x2 y : ℝ}, p1 = p + (x1 • e + y • s) → p2 = p + (x2 • e + y • s) → 1e-8 ≤ rho2 x1 y →
      1e-8 ≤ rho2 x2 y → 1e-4 ≤ |y| * |x2 - x1| →
      (vortexLine p p1 p2 γ).dot (C • e + S • V3.cross s e) = S * (γ / (4 * Real.pi) * ((x2 / rho2 x2 y - x1 / rho2 x1 y) / y)) := by
    intro p1 p2 x1 x2 y h1 h2 k1 k2 k3
    rw [V3.dot_add_right, V3.dot_smul_right, V3.dot_smul_right, line_along h1 h2, F.sideLine h1 h2 k1 k2 k3]
    ring
  unfold vortexHorseshoeV2
  rw [bound_collinear hB hD]
  simp only [V3.dot_add_left, V3.dot_zero_left]
  rw [vortexInfiniteLine_smul_wind _ _ _ _ hl, vortexInfiniteLine_smul_wind _ _ _ _ hl, wake_wind, wake_wind,
    hside hA hB (hr _ n1) (by rw [h0]; exact n1) (by rw [zero_sub, abs_neg, abs_of_pos hd]; exact c1),
    hside hD hE (by rw [h0]; exact n2) (hr _ n2) (by rw [sub_zero, abs_of_pos hd]; exact c2)]
  unfold frontKernel
  rw [← div_div d, ← div_div d]
  simp only [zero_div, zero_sub, sub_zero, neg_div]
  ring

end PlaneFrame

namespace PlanarLattice

variable {K : ℕ} {κ : Type} [Fintype κ] [DecidableEq κ] {O e s : V3} {δ : ℝ} {lo hi : κ → ℝ} {φ : Fin K ≃ κ × Fin 1}
  {L : Fin K → PanelVars} {te : Fin K → Bool} {V : Fin K → V3} {g C S : ℝ} {l : Fin K → ℝ}

/-- What a strip does to the middle of a strip. -/
noncomputable def across' (H : ℝ → ℝ) (lo hi : κ → ℝ) (c c' : κ) : ℝ := H (hi c' - mid lo hi c) - H (lo c' - mid lo hi c)

/-- Strips of the same width: an odd kernel, decreasing and positive on the right, gives a positive definite form. -/
theorem strips_form (P : PlanarLattice O e s δ lo hi φ L te) {H : ℝ → ℝ} (hodd : ∀ x, H (-x) = -H x)
    (hH : ∀ x y, 0 < x → x ≤ y → H y ≤ H x) (hpos : ∀ x, 0 < x → 0 < H x) {w : ℝ} (hw : ∀ c, hi c - lo c = w)
    (x : Fin K → ℝ) (hx : ∃ i, x i ≠ 0) : 0 < ∑ i, ∑ j, across' H lo hi (φ i).1 (φ j).1 * (x i * x j) := by
  refine form_pos (A := fun i j : Fin K => across' H lo hi (φ i).1 (φ j).1) (fun i j => ?_) (fun i j h => ?_) (fun i => ?_) x hx
  · generalize (φ i).1 = c
    generalize (φ j).1 = c'
    unfold across' mid
    have h1 := hw c
    have h2 := hw c'
    rw [show hi c' - (lo c + hi c) / 2 = -(lo c - (lo c' + hi c') / 2) by linarith,
      show lo c' - (lo c + hi c) / 2 = -(hi c - (lo c' + hi c') / 2) by linarith, hodd, hodd]
    ring
  · have hne : (φ i).1 ≠ (φ j).1 := fun h0 => h (φ.injective (Prod.ext h0 (Subsingleton.elim _ _)))
    generalize (φ i).1 = c at hne
    generalize (φ j).1 = c' at hne
    have := P.lt c
    have := P.lt c'
    unfold across' mid
    rcases P.disj c c' hne with h | h
    · have := hH (lo c' - (lo c + hi c) / 2) (hi c' - (lo c + hi c) / 2) (by linarith) (by linarith)
      linarith
    · have := hH ((lo c + hi c) / 2 - hi c') ((lo c + hi c) / 2 - lo c') (by linarith) (by linarith)
      rw [← neg_sub ((lo c + hi c) / 2) (hi c'), hodd, ← neg_sub ((lo c + hi c) / 2) (lo c'), hodd]
      linarith
  · have := P.lt (φ i).1
    have h := sum_intervals_pos (H := H) (w := (hi (φ i).1 - lo (φ i).1) / 2) (i := (φ i).1) (by linarith) hH hodd hpos
      (a := fun c' => lo c' - mid lo hi (φ i).1) (b := fun c' => hi c' - mid lo hi (φ i).1) (fun c => by linarith [P.lt c]) (fun c c' h => by
        rcases P.disj c c' h with h | h
        · left; linarith
        · right; linarith) (by unfold mid; ring) (by unfold mid; ring)
    rw [φ.sum_comp (fun q => across' H lo hi (φ i).1 q.1), Fintype.sum_prod_type]
    simpa [across'] using h

theorem strips_form_nonneg (P : PlanarLattice O e s δ lo hi φ L te) {H : ℝ → ℝ} (hodd : ∀ x, H (-x) = -H x)
    (hH : ∀ x y, 0 < x → x ≤ y → H y ≤ H x) (hpos : ∀ x, 0 < x → 0 < H x) {w : ℝ} (hw : ∀ c, hi c - lo c = w)
    (x : Fin K → ℝ) : 0 ≤ ∑ i, ∑ j, across' H lo hi (φ i).1 (φ j).1 * (x i * x j) := by
  by_cases hx : ∃ i, x i ≠ 0
  · exact (P.strips_form hodd hH hpos hw x hx).le
  · push Not at hx
    simp [hx]

/-- Velocity along the wind at the bound vortices. -/
theorem along_wind (P : PlanarLattice O e s δ lo hi φ L te) (hwide : ∀ c, 2e-8 ≤ hi c - lo c) (hl : ∀ i, 0 < l i)
    (hV : ∀ i, V i = l i • (C • e + S • V3.cross s e)) (i j : Fin K) :
    (velCoef L te V g (L i).cp j).dot (C • e + S • V3.cross s e) =
      g / (4 * Real.pi) * (S * across' (frontKernel δ) lo hi (φ i).1 (φ j).1) := by
  have F := P.frame
  have hδ := P.pos
  have hb := P.big (φ i).1
  have hi0 : ((φ i).2 : ℕ) = 0 := by omega
  have hj0 : ((φ j).2 : ℕ) = 0 := by omega
  obtain ⟨m1, m2⟩ := P.half_le (φ i).1 (φ j).1
  have hw := sub_pos.2 (P.lt (φ i).1)
  have hsmall : ∀ y, (hi (φ i).1 - lo (φ i).1) / 2 ≤ |y| → 1e-4 ≤ |y| * δ := fun y hy => by nlinarith
  rw [velCoef_eq, P.te, if_pos (by simp [hj0]), hV]
  have hsm : 1e-8 ≤ (hi (φ i).1 - lo (φ i).1) / 2 := by linarith [hwide (φ i).1]
  have ring' := P.ring j
  have cp' := P.cp i
  rw [hj0] at ring'
  rw [hi0] at cp'
  refine F.horseshoe_wind ?_ ?_ ?_ ?_ (hsm.trans m1) (hsm.trans m2) (hsmall _ m1) (hsmall _ m2) hδ (hl j)
  all_goals
    rw [cp', ring']
    simp only [planePt, mid, Nat.cast_zero]
    ext
    · simp only [V3.add_x, V3.smul_x]; ring
    · simp only [V3.add_y, V3.smul_y]; ring
    · simp only [V3.add_z, V3.smul_z]; ring

/-- One row of panels: the equations of the circulations. -/
theorem kernel_one (i j : Fin K) : kernel C δ lo hi φ i j = across' (stripKernel C (δ / 2) (δ / 2)) lo hi (φ i).1 (φ j).1 := by
  have hi0 : ((φ i).2 : ℕ) = 0 := by omega
  have hj0 : ((φ j).2 : ℕ) = 0 := by omega
  unfold kernel entry across' stripKernel ringKernel
  rw [hi0, hj0]
  have g0 : gap δ 0 0 = -(δ / 2) := by unfold gap; push_cast; ring
  have g1 : gap δ 0 1 = δ / 2 := by unfold gap; push_cast; ring
  simp only [zero_add, if_true, g0, g1]
  rw [corner_neg_left, corner_neg_left]
  ring

/-- Strips of the same width: what pushes across the wind. -/
theorem side_form (P : PlanarLattice O e s δ lo hi φ L te) (hwide : ∀ c, 2e-8 ≤ hi c - lo c) (hg : g ≠ 0) (hl : ∀ i, 0 < l i) {M : ℝ} (hM : ∀ i, l i ≤ M)
    (hV : ∀ i, V i = l i • (C • e + S • V3.cross s e)) (hu : C ^ 2 + S ^ 2 = 1) (hC : 0 ≤ C) (hC2 : 1 / 2 ≤ C ^ 2)
    (hK : 0 < K) {w : ℝ} (hw : ∀ c, hi c - lo c = w) :
    (S ≠ 0 → 0 < -(S * ∑ i, g * coreGamma L te g V i * (l i + (latticeVelocity L te V g (coreGamma L te g V) (L i).cp).dot (C • e + S • V3.cross s e)))) ∧
      0 ≤ S * ∑ i, g * coreGamma L te g V i * (latticeVelocity L te V g (coreGamma L te g V) (L i).cp).dot (C • e + S • V3.cross s e) := by
  have hC1 : C ≤ 1 := le_one hu
  have hδ := P.pos
  have hpi := Real.pi_pos
  set Γ : Fin K → ℝ := fun i => g * coreGamma L te g V i with hΓ
  have hvel : ∀ i, (latticeVelocity L te V g (coreGamma L te g V) (L i).cp).dot (C • e + S • V3.cross s e) =
      S / (4 * Real.pi) * ∑ j, across' (frontKernel δ) lo hi (φ i).1 (φ j).1 * Γ j := by
    intro i
    rw [latticeVelocity_eq, V3.sum_dot, Finset.mul_sum]
    refine Finset.sum_congr rfl fun j _ => ?_
    rw [V3.dot_smul_left, P.along_wind hwide hl hV]
    simp only [hΓ]
    ring
  have hlam : ∀ i, l i * S = -(1 / (4 * Real.pi)) * ∑ j, across' (stripKernel C (δ / 2) (δ / 2)) lo hi (φ i).1 (φ j).1 * Γ j := by
    intro i
    have h := P.kernel_gamma hg hl hV hu hC i
    simp only [kernel_one] at h
    rw [h]
    field_simp
  constructor
  · intro hS
    have hne : ∃ i, Γ i ≠ 0 := by
      refine ⟨⟨0, hK⟩, fun h0 => ?_⟩
      have := (P.gamma_bounds hg hl hM hV hu hC ⟨0, hK⟩).1 hS
      simp only [hΓ] at h0
      rw [h0] at this
      simp at this
    have hf := P.strips_form (H := leeKernel C δ) (leeKernel_neg C δ) (fun x y hx h => leeKernel_antitone hC hC2 hC1 hδ hx h)
      (fun x hx => lt_of_lt_of_le (by positivity) (leeKernel_ge hC hC2 hC1 hδ hx)) hw Γ hne
    have e : -(S * ∑ i, Γ i * (l i + (latticeVelocity L te V g (coreGamma L te g V) (L i).cp).dot (C • e + S • V3.cross s e))) =
        1 / (4 * Real.pi) * ∑ i, ∑ j, across' (leeKernel C δ) lo hi (φ i).1 (φ j).1 * (Γ i * Γ j) := by
      rw [Finset.mul_sum, Finset.mul_sum, ← Finset.sum_neg_distrib]
      refine Finset.sum_congr rfl fun i _ => ?_
      have e2 : ∑ j, across' (leeKernel C δ) lo hi (φ i).1 (φ j).1 * (Γ i * Γ j) =
          Γ i * (∑ j, across' (stripKernel C (δ / 2) (δ / 2)) lo hi (φ i).1 (φ j).1 * Γ j -
            (1 - C ^ 2) * ∑ j, across' (frontKernel δ) lo hi (φ i).1 (φ j).1 * Γ j) := by
        rw [Finset.mul_sum, ← Finset.sum_sub_distrib, Finset.mul_sum]
        refine Finset.sum_congr rfl fun j _ => ?_
        unfold across' leeKernel
        ring
      rw [e2, hvel]
      linear_combination (-(Γ i)) * hlam i - (Γ i * (1 / (4 * Real.pi)) * ∑ j, across' (frontKernel δ) lo hi (φ i).1 (φ j).1 * Γ j) * hu
    rw [e]
    positivity
  · have hf := P.strips_form_nonneg (H := frontKernel δ) (frontKernel_neg δ) (fun x y hx h => frontKernel_antitone hδ hx h)
      (fun x hx => frontKernel_pos hδ hx) hw Γ
    have e : S * ∑ i, Γ i * (latticeVelocity L te V g (coreGamma L te g V) (L i).cp).dot (C • e + S • V3.cross s e) =
        S ^ 2 / (4 * Real.pi) * ∑ i, ∑ j, across' (frontKernel δ) lo hi (φ i).1 (φ j).1 * (Γ i * Γ j) := by
      rw [Finset.mul_sum, Finset.mul_sum]
      refine Finset.sum_congr rfl fun i _ => ?_
      rw [hvel]
      have e2 : ∑ j, across' (frontKernel δ) lo hi (φ i).1 (φ j).1 * (Γ i * Γ j) = Γ i * ∑ j, across' (frontKernel δ) lo hi (φ i).1 (φ j).1 * Γ j := by
        rw [Finset.mul_sum]
        exact Finset.sum_congr rfl fun j _ => by ring
      rw [e2]
      ring
    rw [e]
    positivity

/-- Strips of the same width: the induced drag is positive, unless there is no circulation. -/
theorem drag_form_pos (P : PlanarLattice O e s δ lo hi φ L te) (hwide : ∀ c, 2e-8 ≤ hi c - lo c) (hg : g ≠ 0) (hl : ∀ i, 0 < l i)
    (hV : ∀ i, V i = l i • (C • e + S • V3.cross s e)) (hu : C ^ 2 + S ^ 2 = 1) (hC : 1 / 2 ≤ C) {w : ℝ} (hw : ∀ c, hi c - lo c = w)
    (γ : Fin K → ℝ) (hγ : ∃ i, γ i ≠ 0) :
    0 < ∑ i, γ i * (g * (latticeVelocity L te V g γ (L i).cp).dot (V3.cross s (C • e + S • V3.cross s e))) := by
  have hC1 : C ≤ 1 := le_one hu
  have hδ := P.pos
  have h := P.strips_form (H := dragKernel C δ) (dragKernel_neg C δ) (fun x y hx h => dragKernel_antitone hC hC1 hδ hx h)
    (fun x hx => dragKernel_pos (by linarith) hδ hx) hw γ hγ
  have e : ∑ i, γ i * (g * (latticeVelocity L te V g γ (L i).cp).dot (V3.cross s (C • e + S • V3.cross s e))) =
      g ^ 2 / (4 * Real.pi) * ∑ i, ∑ j, across' (dragKernel C δ) lo hi (φ i).1 (φ j).1 * (γ i * γ j) := by
    rw [Finset.mul_sum]
    refine Finset.sum_congr rfl fun i _ => ?_
    rw [latticeVelocity_eq, V3.sum_dot, Finset.mul_sum, Finset.mul_sum, Finset.mul_sum]
    refine Finset.sum_congr rfl fun j _ => ?_
    rw [V3.dot_smul_left, P.across hwide hl hV hu]
    unfold across'
    ring
  rw [e]
  have := Real.pi_pos
  positivity

end PlanarLattice

namespace PlanarBlocks

variable {O e s : V3} {δ : ℝ} {ns : ℕ} {ζ : ℕ → ℕ → ℝ} {blocks : List (ℕ → ℕ → V3)}

/-- One row of panels, strips of the same width: the resultant along and across the wind. -/
theorem side_force {nc : ℕ} (hnc : nc = 1) (P : PlanarBlocks O e s δ nc ns ζ blocks) {w : ℝ} (hwide : 2e-8 ≤ w)
    (hw : ∀ b r, b < blocks.length → r < ns → ζ b (r + 1) - ζ b r = w) {g rho C S M : ℝ} (hK : 0 < (vars g nc ns blocks).length) (hr : 0 < rho) (hg : g ≠ 0)
    {V : Fin (vars g nc ns blocks).length → V3} {l : Fin (vars g nc ns blocks).length → ℝ} (hl : ∀ i, 0 < l i) (hM : ∀ i, l i ≤ M)
    (hV : ∀ i, V i = l i • (C • e + S • V3.cross s e)) (hu : C ^ 2 + S ^ 2 = 1) (hC : 0 ≤ C) (hC2 : 1 / 2 ≤ C ^ 2) :
    (S ≠ 0 → 0 < ∑ i, ((solutionOf g rho nc ns blocks V).force i).dot (C • e + S • V3.cross s e)) ∧
    (S ≠ 0 → 0 < -(S * ∑ i, ((solutionOf g rho nc ns blocks V).force i).dot (V3.cross (C • e + S • V3.cross s e) s))) ∧
    -(S * ∑ i, ((solutionOf g rho nc ns blocks V).force i).dot (V3.cross (C • e + S • V3.cross s e) s)) ≤
      -(S * ∑ i, ((solutionOf g rho nc ns blocks V).lift i).dot (V3.cross (C • e + S • V3.cross s e) s)) ∧
    (S = 0 → ∀ i, (solutionOf g rho nc ns blocks V).force i = 0) ∧
    ∀ i, ((solutionOf g rho nc ns blocks V).force i).dot s = 0 := by
  subst hnc
  have hC12 : 1 / 2 ≤ C := by nlinarith
  have hwp : 0 < w := by linarith
  have hspan : ∀ i, ((latOf g 1 ns blocks) i).span = (g * w) • s := by
    intro k
    obtain ⟨b, i, j, hb, hi, hj, h⟩ := panelNo_surj (k.isLt.trans_eq (vars_length g 1 ns blocks))
    have ek : k = panelIx g 1 ns blocks hb hi hj := Fin.ext h
    rw [ek, latOf_panelIx, P.meshVars_span g hb hi hj, hw b j hb hj]
  have hγ : ∀ i, gammaForForce (leOf 1 ns blocks (vars g 1 ns blocks).length) (gammaOf g 1 ns blocks V) ns i = gammaOf g 1 ns blocks V i := by
    intro k
    obtain ⟨b, i, j, hb, hi, hj, h⟩ := panelNo_surj (k.isLt.trans_eq (vars_length g 1 ns blocks))
    obtain rfl : i = 0 := by omega
    exact gammaForForce_first (vars_length g 1 ns blocks) _ hb one_pos hj k h
  set u := C • e + S • V3.cross s e with hudef
  have F := P.frame
  have huu : u.dot u = 1 := by
    rw [hudef]
    simp only [V3.dot_add_left, V3.dot_add_right, V3.dot_smul_left, V3.dot_smul_right, F.ee, F.nn, PlaneFrame.en,
      V3.dot_cross_right]
    linear_combination hu
  have hus : u.dot s = 0 := by
    rw [hudef]
    simp only [V3.dot_add_left, V3.dot_smul_left, F.es, V3.dot_cross_left]
    ring
  have htriple : ∀ v : V3, ∀ c : ℝ, (V3.cross v (c • s)).dot u = c * v.dot (V3.cross s u) := by
    intro v c
    simp only [V3.dot, V3.cross_x, V3.cross_y, V3.cross_z, V3.smul_x, V3.smul_y, V3.smul_z]
    ring
  have hside : ∀ v : V3, ∀ c : ℝ, (V3.cross v (c • s)).dot (V3.cross u s) = c * v.dot u := by
    intro v c
    have h1 : (V3.cross v (c • s)).dot (V3.cross u s) = c * (v.dot u * s.dot s - v.dot s * u.dot s) := by
      simp only [V3.dot, V3.cross_x, V3.cross_y, V3.cross_z, V3.smul_x, V3.smul_y, V3.smul_z]
      ring
    rw [h1, F.ss, hus]
    ring
  have hVu : ∀ i, (V i).dot u = l i := fun i => by rw [hV, V3.dot_smul_left, huu, mul_one]
  have hlat := P.lattice g
  have hwide' : ∀ c : Fin blocks.length × Fin ns, 2e-8 ≤ ζ c.1 (c.2 + 1) - ζ c.1 c.2 := fun c => by
    rw [hw _ _ c.1.isLt c.2.isLt]; exact hwide
  have hw' : ∀ c : Fin blocks.length × Fin ns, ζ c.1 (c.2 + 1) - ζ c.1 c.2 = w := fun c => hw _ _ c.1.isLt c.2.isLt
  set γ := gammaOf g 1 ns blocks V with hγdef
  set vel : Fin (vars g 1 ns blocks).length → V3 := fun i => latticeVelocity (latOf g 1 ns blocks) (teOf 1 ns blocks _) V g γ
    ((latOf g 1 ns blocks) i).cp with hvel
  have hforce : ∀ i, ((solutionOf g rho 1 ns blocks V).force i).dot (V3.cross u s) = rho * w * (g * γ i * (l i + (vel i).dot u)) := by
    intro i
    change (panelForce _ _ _ _ _ (fun i => V i + _) i).dot _ = _
    unfold panelForce
    rw [hγ, hspan, smul_smul, V3.dot_smul_left, hside, V3.dot_add_left, hVu]
    ring
  have hlift : ∀ i, ((solutionOf g rho 1 ns blocks V).lift i).dot (V3.cross u s) = rho * w * (g * γ i * l i) := by
    intro i
    change (panelForce _ _ _ _ _ V i).dot _ = _
    unfold panelForce
    rw [hγ, hspan, smul_smul, V3.dot_smul_left, hside, hVu]
    ring
  obtain ⟨s1, s2⟩ := hlat.side_form hwide' hg hl hM hV hu hC hC2 hK hw'
  have hsum1 : ∑ i, ((solutionOf g rho 1 ns blocks V).force i).dot (V3.cross u s) = rho * w * ∑ i, g * γ i * (l i + (vel i).dot u) := by
    rw [Finset.mul_sum]
    exact Finset.sum_congr rfl fun i _ => hforce i
  have hsum2 : ∑ i, ((solutionOf g rho 1 ns blocks V).lift i).dot (V3.cross u s) =
      rho * w * (∑ i, g * γ i * (l i + (vel i).dot u) - ∑ i, g * γ i * (vel i).dot u) := by
    rw [← Finset.sum_sub_distrib, Finset.mul_sum]
    exact Finset.sum_congr rfl fun i _ => by rw [hlift]; ring
  refine ⟨fun hS => ?_, fun hS => ?_, ?_, fun hS i => ?_, fun i => ?_⟩
  · have hne : ∃ i, γ i ≠ 0 := by
      refine ⟨⟨0, hK⟩, fun h0 => ?_⟩
      have := (hlat.gamma_bounds hg hl hM hV hu hC ⟨0, hK⟩).1 hS
      change 0 < -(S * (g * γ ⟨0, hK⟩)) at this
      rw [h0] at this
      simp at this
    have h := hlat.drag_form_pos hwide' hg hl hV hu hC12 hw' γ hne
    obtain ⟨-, d2⟩ := P.drag_nonneg (g := g) hwide hw hr.le hl hV hu hC12
    have e : ∀ i, ((solutionOf g rho 1 ns blocks V).force i).dot u = rho * w * (γ i * (g * (vel i).dot (V3.cross s u))) := by
      intro i
      rw [hudef, d2 i, ← hudef]
      change (panelForce _ _ _ _ _ _ i).dot _ = _
      unfold panelForce
      rw [hγ, hspan, smul_smul, V3.dot_smul_left, htriple]
      ring
    simp only [e]
    rw [← Finset.mul_sum]
    exact mul_pos (mul_pos hr hwp) h
  · have := mul_pos (mul_pos hr hwp) (s1 hS)
    rw [hsum1]
    change 0 < rho * w * -(S * ∑ i, g * γ i * (l i + (vel i).dot u)) at this
    linarith
  · have := mul_nonneg (mul_pos hr hwp).le s2
    rw [hsum1, hsum2]
    change 0 ≤ rho * w * (S * ∑ i, g * γ i * (vel i).dot u) at this
    linarith
  · have h0 : γ i = 0 := hlat.gamma_zero hg hl hM hV hu hC hS i
    change panelForce _ _ _ _ _ (fun i => V i + _) i = 0
    unfold panelForce
    rw [hγ, h0]
    ext <;> simp
  · change (panelForce _ _ _ _ _ (fun i => V i + _) i).dot s = 0
    unfold panelForce
    rw [hspan]
    simp only [V3.dot, V3.cross_x, V3.cross_y, V3.cross_z, V3.smul_x, V3.smul_y, V3.smul_z]
    ring

/-- One row of panels, strips of the same width: the lift of a panel across the wind. -/
theorem one_row_lift {nc : ℕ} (hnc : nc = 1) (P : PlanarBlocks O e s δ nc ns ζ blocks) {w : ℝ}
    (hw : ∀ b r, b < blocks.length → r < ns → ζ b (r + 1) - ζ b r = w) {g rho C S : ℝ}
    {V : Fin (vars g nc ns blocks).length → V3} {l : Fin (vars g nc ns blocks).length → ℝ}
    (hV : ∀ i, V i = l i • (C • e + S • V3.cross s e)) (hu : C ^ 2 + S ^ 2 = 1) (k : Fin (vars g nc ns blocks).length) :
    ((solutionOf g rho nc ns blocks V).lift k).dot (V3.cross (C • e + S • V3.cross s e) s) =
      rho * w * (g * gammaOf g nc ns blocks V k * l k) := by
  subst hnc
  have F := P.frame
  obtain ⟨b, i, j, hb, hi, hj, h⟩ := panelNo_surj (k.isLt.trans_eq (vars_length g 1 ns blocks))
  obtain rfl : i = 0 := by omega
  have ek : k = panelIx g 1 ns blocks hb hi hj := Fin.ext h
  have hspan : ((latOf g 1 ns blocks) k).span = (g * w) • s := by
    rw [ek, latOf_panelIx, P.meshVars_span g hb hi hj, hw b j hb hj]
  have hγ : gammaForForce (leOf 1 ns blocks (vars g 1 ns blocks).length) (gammaOf g 1 ns blocks V) ns k = gammaOf g 1 ns blocks V k :=
    gammaForForce_first (vars_length g 1 ns blocks) _ hb one_pos hj k h
  set u := C • e + S • V3.cross s e with hudef
  have huu : u.dot u = 1 := by
    rw [hudef]
    simp only [V3.dot_add_left, V3.dot_add_right, V3.dot_smul_left, V3.dot_smul_right, F.ee, F.nn, PlaneFrame.en,
      V3.dot_cross_right]
    linear_combination hu
  have hus : u.dot s = 0 := by
    rw [hudef]
    simp only [V3.dot_add_left, V3.dot_smul_left, F.es, V3.dot_cross_left]
    ring
  have hside : ∀ v : V3, ∀ c : ℝ, (V3.cross v (c • s)).dot (V3.cross u s) = c * v.dot u := by
    intro v c
    have h1 : (V3.cross v (c • s)).dot (V3.cross u s) = c * (v.dot u * s.dot s - v.dot s * u.dot s) := by
      simp only [V3.dot, V3.cross_x, V3.cross_y, V3.cross_z, V3.smul_x, V3.smul_y, V3.smul_z]
      ring
    rw [h1, F.ss, hus]
    ring
  change (panelForce _ _ _ _ _ V k).dot _ = _
  unfold panelForce
  rw [hγ, hspan, smul_smul, V3.dot_smul_left, hside, hV, V3.dot_smul_left, huu]
  ring

end PlanarBlocks

end PySailing
