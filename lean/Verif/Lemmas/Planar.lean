import Verif.Lemmas.MMatrix
import Verif.Lemmas.Solver
import Verif.Lemmas.Section

/-!
# Vortex lattices in one plane with rectangular panels
-/

namespace PySailing

open Spec

/-- Two perpendicular unit vectors: chord (downstream) and span. -/
structure PlaneFrame (e s : V3) : Prop where
  ee : e.dot e = 1
  ss : s.dot s = 1
  es : e.dot s = 0

namespace PlaneFrame

variable {e s : V3}

theorem dot (F : PlaneFrame e s) (x y x' y' : ℝ) : (x • e + y • s).dot (x' • e + y' • s) = x * x' + y * y' := by
  have h : s.dot e = 0 := by rw [V3.dot_comm]; exact F.es
  simp only [V3.dot_add_left, V3.dot_add_right, V3.dot_smul_left, V3.dot_smul_right, F.ee, F.ss, F.es, h]
  ring

theorem norm (F : PlaneFrame e s) (x y : ℝ) : (x • e + y • s).norm = rho2 x y := by
  unfold V3.norm rho2
  rw [F.dot]
  congr 1
  ring

theorem cross (x y x' y' : ℝ) : V3.cross (x • e + y • s) (x' • e + y' • s) = (y * x' - x * y') • V3.cross s e := by
  ext <;> simp <;> ring

theorem nn (F : PlaneFrame e s) : (V3.cross s e).dot (V3.cross s e) = 1 := by
  rw [V3.cross_dot_self, F.ee, F.ss, V3.dot_comm, F.es]
  norm_num

theorem en : e.dot (V3.cross s e) = 0 := by rw [V3.dot_comm]; exact V3.dot_cross_right s e

theorem sn : s.dot (V3.cross s e) = 0 := by rw [V3.dot_comm]; exact V3.dot_cross_left s e

theorem line (F : PlaneFrame e s) {p p1 p2 : V3} {x1 y1 x2 y2 γ : ℝ} (h1 : p1 = p + (x1 • e + y1 • s)) (h2 : p2 = p + (x2 • e + y2 • s))
    (n1 : 1e-8 ≤ rho2 x1 y1) (n2 : 1e-8 ≤ rho2 x2 y2) (hc : 1e-4 ≤ |y1 * x2 - x1 * y2|) :
    (vortexLine p p1 p2 γ).dot (V3.cross s e) =
      γ / (4 * Real.pi) * (((x2 - x1) * (x2 / rho2 x2 y2 - x1 / rho2 x1 y1)
        + (y2 - y1) * (y2 / rho2 x2 y2 - y1 / rho2 x1 y1)) / (y1 * x2 - x1 * y2)) := by
  have e1 : p - p1 = (-x1) • e + (-y1) • s := by rw [h1]; ext <;> simp <;> ring
  have e2 : p - p2 = (-x2) • e + (-y2) • s := by rw [h2]; ext <;> simp <;> ring
  have e0 : p2 - p1 = (x2 - x1) • e + (y2 - y1) • s := by rw [h1, h2]; ext <;> simp <;> ring
  have ec : V3.cross (p - p1) (p - p2) = (y1 * x2 - x1 * y2) • V3.cross s e := by
    rw [e1, e2, cross]; congr 1; ring
  have en2 : (V3.cross (p - p1) (p - p2)).norm ^ 2 = (y1 * x2 - x1 * y2) ^ 2 := by
    rw [ec, V3.norm_sq, V3.dot_smul_left, V3.dot_smul_right, F.nn]; ring
  have m1 : (p - p1).norm = rho2 x1 y1 := by rw [e1, F.norm, rho2_neg_left, rho2_neg_right]
  have m2 : (p - p2).norm = rho2 x2 y2 := by rw [e2, F.norm, rho2_neg_left, rho2_neg_right]
  have hcore : ¬ coreTest p p1 p2 := by
    unfold coreTest
    rw [en2, m1, m2]
    push Not
    refine ⟨n1, n2, ?_⟩
    rw [← sq_abs]
    nlinarith
  have hc0 : y1 * x2 - x1 * y2 ≠ 0 := by
    intro h0; rw [h0, abs_zero] at hc; norm_num at hc
  rw [vortexLine_out γ hcore, en2, ec, m1, m2]
  simp only [V3.dot_smul_left, F.nn]
  have ed : (p2 - p1).dot ((1 / rho2 x1 y1) • (p - p1) - (1 / rho2 x2 y2) • (p - p2)) =
      (x2 - x1) * (x2 / rho2 x2 y2 - x1 / rho2 x1 y1) + (y2 - y1) * (y2 / rho2 x2 y2 - y1 / rho2 x1 y1) := by
    rw [V3.dot_sub_right, V3.dot_smul_right, V3.dot_smul_right, e0, e1, e2, F.dot, F.dot]
    ring
  rw [ed]
  field_simp

/-- A side edge. -/
theorem sideLine (F : PlaneFrame e s) {p p1 p2 : V3} {x1 x2 y γ : ℝ} (h1 : p1 = p + (x1 • e + y • s)) (h2 : p2 = p + (x2 • e + y • s))
    (n1 : 1e-8 ≤ rho2 x1 y) (n2 : 1e-8 ≤ rho2 x2 y) (hc : 1e-4 ≤ |y| * |x2 - x1|) :
    (vortexLine p p1 p2 γ).dot (V3.cross s e) = γ / (4 * Real.pi) * ((x2 / rho2 x2 y - x1 / rho2 x1 y) / y) := by
  have ea : y * x2 - x1 * y = y * (x2 - x1) := by ring
  rw [F.line h1 h2 n1 n2 (by rw [ea, abs_mul]; exact hc), ea, sub_self, zero_mul, add_zero]
  have hne : y * (x2 - x1) ≠ 0 := by
    intro h0; rw [← abs_mul, h0, abs_zero] at hc; norm_num at hc
  have hy := left_ne_zero_of_mul hne
  have hx := right_ne_zero_of_mul hne
  congr 1
  field_simp

/-- A bound edge. -/
theorem boundLine (F : PlaneFrame e s) {p p1 p2 : V3} {x y1 y2 γ : ℝ} (h1 : p1 = p + (x • e + y1 • s)) (h2 : p2 = p + (x • e + y2 • s))
    (n1 : 1e-8 ≤ rho2 x y1) (n2 : 1e-8 ≤ rho2 x y2) (hc : 1e-4 ≤ |x| * |y2 - y1|) :
    (vortexLine p p1 p2 γ).dot (V3.cross s e) = γ / (4 * Real.pi) * (-((y2 / rho2 x y2 - y1 / rho2 x y1) / x)) := by
  have ea : y1 * x - x * y2 = -(x * (y2 - y1)) := by ring
  rw [F.line h1 h2 n1 n2 (by rw [ea, abs_neg, abs_mul]; exact hc), ea, sub_self, zero_mul, zero_add]
  have hne : x * (y2 - y1) ≠ 0 := by
    intro h0; rw [← abs_mul, h0, abs_zero] at hc; norm_num at hc
  have hx := left_ne_zero_of_mul hne
  have hy := right_ne_zero_of_mul hne
  congr 1
  field_simp

/-- A trailing vortex. -/
theorem wakeLine (F : PlaneFrame e s) {p q : V3} {x y γ l C S : ℝ} (hq : q = p + (x • e + y • s)) (hl : 0 < l) (hu : C ^ 2 + S ^ 2 = 1) :
    (vortexInfiniteLine p q (l • (C • e + S • V3.cross s e)) γ).dot (V3.cross s e) =
      γ / (4 * Real.pi) * (C * y / (rho2 x y * (rho2 x y + C * x))) := by
  rw [vortexInfiniteLine_smul_wind _ _ _ _ hl]
  have e1 : p - q = (-x) • e + (-y) • s := by rw [hq]; ext <;> simp <;> ring
  have hun : (C • e + S • V3.cross s e).norm = 1 := by
    unfold V3.norm
    have : (C • e + S • V3.cross s e).dot (C • e + S • V3.cross s e) = 1 := by
      simp only [V3.dot_add_left, V3.dot_add_right, V3.dot_smul_left, V3.dot_smul_right, F.ee, F.nn, en,
        V3.dot_cross_right]
      linear_combination hu
    rw [this, Real.sqrt_one]
  have ed : (C • e + S • V3.cross s e).dot (p - q) = -(C * x) := by
    rw [e1]
    simp only [V3.dot_add_left, V3.dot_add_right, V3.dot_smul_left, V3.dot_smul_right, F.ee, F.es,
      V3.dot_cross_right, V3.dot_cross_left]
    ring
  have hn := F.nn
  have hcx : (V3.cross (C • e + S • V3.cross s e) (p - q)).dot (V3.cross s e) = C * y := by
    rw [e1]
    have : (V3.cross (C • e + S • V3.cross s e) ((-x) • e + (-y) • s)).dot (V3.cross s e) =
        C * y * (V3.cross s e).dot (V3.cross s e) := by
      simp only [V3.dot, V3.cross_x, V3.cross_y, V3.cross_z, V3.add_x, V3.add_y, V3.add_z, V3.smul_x, V3.smul_y, V3.smul_z]
      ring
    rw [this, hn, mul_one]
  have m1 : (p - q).norm = rho2 x y := by rw [e1, F.norm, rho2_neg_left, rho2_neg_right]
  unfold vortexInfiniteLine
  simp only [V3.dot_smul_left, V3.cross_smul_left, hun, ed, hcx, m1]
  rw [div_one, one_mul, one_mul]
  ring

/-- Ring or horseshoe in the plane, seen from a point of the plane. -/
theorem ring (F : PlaneFrame e s) {p A B C D : V3} {xf xr y1 y2 γ : ℝ} (hA : A = p + (xr • e + y1 • s)) (hB : B = p + (xf • e + y1 • s))
    (hC : C = p + (xf • e + y2 • s)) (hD : D = p + (xr • e + y2 • s))
    (nf1 : 1e-8 ≤ rho2 xf y1) (nf2 : 1e-8 ≤ rho2 xf y2) (nr1 : 1e-8 ≤ rho2 xr y1) (nr2 : 1e-8 ≤ rho2 xr y2)
    (c1 : 1e-4 ≤ |y1| * |xr - xf|) (c2 : 1e-4 ≤ |y2| * |xr - xf|) (cf : 1e-4 ≤ |xf| * |y2 - y1|) (cr : 1e-4 ≤ |xr| * |y2 - y1|) :
    (vortexRing p A B C D γ).dot (V3.cross s e) = γ / (4 * Real.pi) * ringKernel xf xr y1 y2 := by
  have pos : ∀ {a b : ℝ}, 1e-4 ≤ |a| * |b| → a ≠ 0 := by
    rintro a b h rfl; norm_num at h
  have hy1 := pos c1
  have hy2 := pos c2
  have hxf := pos cf
  have hxr := pos cr
  unfold vortexRing
  rw [V3.dot_add_left, V3.dot_add_left, V3.dot_add_left, F.sideLine hA hB nr1 nf1 (by rw [abs_sub_comm]; exact c1),
    F.boundLine hB hC nf1 nf2 cf, F.sideLine hC hD nf2 nr2 c2, F.boundLine hD hA nr2 nr1 (by rw [abs_sub_comm]; exact cr)]
  have r1 := (rho2_pos_left y1 hxf).ne'
  have r2 := (rho2_pos_left y2 hxf).ne'
  have r3 := (rho2_pos_left y1 hxr).ne'
  have r4 := (rho2_pos_left y2 hxr).ne'
  have key : ∀ {x y : ℝ}, x ≠ 0 → y ≠ 0 → corner x y = x / rho2 x y / y + y / rho2 x y / x := by
    intro x y hx hy
    have := (rho2_pos_left y hx).ne'
    have h2 := rho2_sq x y
    unfold corner
    field_simp
    linear_combination h2
  unfold ringKernel
  rw [key hxr hy2, key hxr hy1, key hxf hy2, key hxf hy1]
  ring

theorem horseshoe (F : PlaneFrame e s) {p A B C D : V3} {xf xr y1 y2 γ l c S : ℝ} (hA : A = p + (xr • e + y1 • s)) (hB : B = p + (xf • e + y1 • s))
    (hC : C = p + (xf • e + y2 • s)) (hD : D = p + (xr • e + y2 • s))
    (nf1 : 1e-8 ≤ rho2 xf y1) (nf2 : 1e-8 ≤ rho2 xf y2) (nr1 : 1e-8 ≤ rho2 xr y1) (nr2 : 1e-8 ≤ rho2 xr y2)
    (c1 : 1e-4 ≤ |y1| * |xr - xf|) (c2 : 1e-4 ≤ |y2| * |xr - xf|) (cf : 1e-4 ≤ |xf| * |y2 - y1|) (cr : 1e-4 ≤ |xr| * |y2 - y1|)
    (hl : 0 < l) (hu : c ^ 2 + S ^ 2 = 1) (hc : 0 ≤ c) (hx : 0 < xr) :
    (vortexHorseshoeV2 p A B C D (l • (c • e + S • V3.cross s e)) γ).dot (V3.cross s e) =
      γ / (4 * Real.pi) * (ringKernel xf xr y1 y2 + (wakeKernel c xr y2 - wakeKernel c xr y1)) := by
  have h := F.ring (γ := γ) hA hB hC hD nf1 nf2 nr1 nr2 c1 c2 cf cr
  have hDA := F.boundLine (γ := γ) hD hA nr2 nr1 (by rw [abs_sub_comm]; exact cr)
  unfold vortexRing at h
  rw [V3.dot_add_left, hDA] at h
  unfold vortexHorseshoeV2
  rw [V3.dot_add_left, V3.dot_add_left, eq_sub_of_add_eq h, F.wakeLine hD hl hu, F.wakeLine hA hl hu]
  have key : ∀ y, wakeKernel c xr y = c * y / (rho2 xr y * (rho2 xr y + c * xr)) - y / rho2 xr y / xr := by
    intro y
    have h1 := rho2_pos_left y hx.ne'
    have h2 := rho2_sq xr y
    have h3 : 0 < rho2 xr y + c * xr := by positivity
    unfold wakeKernel
    field_simp
    ring
  rw [key, key]
  ring

end PlaneFrame

/-- Point of the plane. -/
def planePt (O e s : V3) (x y : ℝ) : V3 := O + (x • e + y • s)

/-- A lattice of rectangular panels in one plane: `m` strips of `nc` panels of chord `δ`, strip `c` between `lo c` and
`hi c`; all panels larger than twice the vortex core. -/
structure PlanarLattice {K nc : ℕ} {κ : Type} (O e s : V3) (δ : ℝ) (lo hi : κ → ℝ) (φ : Fin K ≃ κ × Fin nc)
    (L : Fin K → PanelVars) (te : Fin K → Bool) : Prop where
  frame : PlaneFrame e s
  pos : 0 < δ
  lt : ∀ c, lo c < hi c
  disj : ∀ c c', c ≠ c' → hi c ≤ lo c' ∨ hi c' ≤ lo c
  big : ∀ c, 2e-4 ≤ δ * (hi c - lo c)
  normal : ∀ i, (L i).normal = V3.cross s e
  ctr : ∀ i, (L i).ctrP = planePt O e s ((((φ i).2 : ℕ) + 3 / 4) * δ) ((lo (φ i).1 + hi (φ i).1) / 2)
  cp : ∀ i, (L i).cp = planePt O e s ((((φ i).2 : ℕ) + 1 / 4) * δ) ((lo (φ i).1 + hi (φ i).1) / 2)
  ring : ∀ i, (L i).ring = ⟨planePt O e s ((((φ i).2 : ℕ) + 5 / 4) * δ) (lo (φ i).1),
    planePt O e s ((((φ i).2 : ℕ) + 1 / 4) * δ) (lo (φ i).1), planePt O e s ((((φ i).2 : ℕ) + 1 / 4) * δ) (hi (φ i).1),
    planePt O e s ((((φ i).2 : ℕ) + 5 / 4) * δ) (hi (φ i).1)⟩
  te : ∀ i, te i = decide (((φ i).2 : ℕ) + 1 = nc)

namespace PlanarLattice

variable {K nc : ℕ} {κ : Type} [Fintype κ] [DecidableEq κ] {O e s : V3} {δ : ℝ} {lo hi : κ → ℝ} {φ : Fin K ≃ κ × Fin nc}
  {L : Fin K → PanelVars} {te : Fin K → Bool}

/-- Chordwise distance from control point of row `k` to the front edge of the ring of row `k'`. -/
noncomputable def gap (δ : ℝ) (k k' : ℕ) : ℝ := ((k' : ℝ) - k - 1 / 2) * δ

theorem gap_succ_sub (δ : ℝ) (k k' : ℕ) : gap δ k (k' + 1) - gap δ k k' = δ := by
  unfold gap; push_cast; ring

theorem gap_abs (hδ : 0 < δ) (k k' : ℕ) : δ / 2 ≤ |gap δ k k'| := by
  unfold gap
  rw [abs_mul, abs_of_pos hδ]
  have : (1 : ℝ) / 2 ≤ |(k' : ℝ) - k - 1 / 2| := by
    rcases Nat.lt_or_ge k k' with h | h
    · have : (k : ℝ) + 1 ≤ k' := by exact_mod_cast h
      exact le_abs.2 (Or.inl (by linarith))
    · have : (k' : ℝ) ≤ k := by exact_mod_cast h
      exact le_abs.2 (Or.inr (by linarith))
  nlinarith

theorem gap_pos (hδ : 0 < δ) {k k' : ℕ} (h : k < k') : 0 < gap δ k k' := by
  have : (k : ℝ) + 1 ≤ k' := by exact_mod_cast h
  exact mul_pos (by linarith) hδ

theorem gap_neg (hδ : 0 < δ) {k k' : ℕ} (h : k' ≤ k) : gap δ k k' < 0 := by
  have : (k' : ℝ) ≤ k := by exact_mod_cast h
  exact mul_neg_of_neg_of_pos (by linarith) hδ

theorem gap_ne (hδ : 0 < δ) (k k' : ℕ) : gap δ k k' ≠ 0 := by
  rcases Nat.lt_or_ge k k' with h | h
  · exact (gap_pos hδ h).ne'
  · exact (gap_neg hδ h).ne

/-- Midpoint of a strip. -/
noncomputable def mid (lo hi : κ → ℝ) (c : κ) : ℝ := (lo c + hi c) / 2

/-- Kernel of panel `(c', k')` at the control point of panel `(c, k)`. -/
noncomputable def entry (C δ : ℝ) (lo hi : κ → ℝ) (nc : ℕ) (c : κ) (k : ℕ) (c' : κ) (k' : ℕ) : ℝ :=
  ringKernel (gap δ k k') (gap δ k (k' + 1)) (lo c' - mid lo hi c) (hi c' - mid lo hi c) +
    (if k' + 1 = nc then wakeKernel C (gap δ k nc) (hi c' - mid lo hi c) - wakeKernel C (gap δ k nc) (lo c' - mid lo hi c) else 0)

theorem half_le (P : PlanarLattice O e s δ lo hi φ L te) (c c' : κ) :
    (hi c - lo c) / 2 ≤ |lo c' - mid lo hi c| ∧ (hi c - lo c) / 2 ≤ |hi c' - mid lo hi c| := by
  unfold mid
  by_cases h : c = c'
  · subst h
    exact ⟨le_abs.2 (Or.inr (by linarith)), le_abs.2 (Or.inl (by linarith))⟩
  · have := P.lt c'
    have := P.lt c
    rcases P.disj c c' h with h | h
    · exact ⟨le_abs.2 (Or.inl (by linarith)), le_abs.2 (Or.inl (by linarith))⟩
    · exact ⟨le_abs.2 (Or.inr (by linarith)), le_abs.2 (Or.inr (by linarith))⟩

theorem rho_ge {δ w x y : ℝ} (hδ : 0 < δ) (hw : 0 < w) (h : 2e-4 ≤ δ * w) (hx : δ / 2 ≤ |x|) (hy : w / 2 ≤ |y|) : 1e-8 ≤ rho2 x y := by
  have h1 : (δ / 2) ^ 2 ≤ x ^ 2 := by rw [← sq_abs x]; exact pow_le_pow_left₀ (by positivity) hx 2
  have h2 : (w / 2) ^ 2 ≤ y ^ 2 := by rw [← sq_abs y]; exact pow_le_pow_left₀ (by positivity) hy 2
  apply Real.le_sqrt_of_sq_le
  nlinarith [sq_nonneg (δ - w)]

/-- The influence matrix of a planar lattice. -/
theorem influence_eq (P : PlanarLattice O e s δ lo hi φ L te) {V : Fin K → V3} {g C S : ℝ} {l : Fin K → ℝ} (hl : ∀ i, 0 < l i)
    (hV : ∀ i, V i = l i • (C • e + S • V3.cross s e)) (hu : C ^ 2 + S ^ 2 = 1) (hC : 0 ≤ C) (i j : Fin K) :
    influence L te V g i j = g / (4 * Real.pi) * entry C δ lo hi nc (φ i).1 (φ i).2 (φ j).1 (φ j).2 := by
  have F := P.frame
  have hδ := P.pos
  have hw := sub_pos.2 (P.lt (φ i).1)
  have hw' := sub_pos.2 (P.lt (φ j).1)
  have hb := P.big (φ i).1
  have hb' := P.big (φ j).1
  obtain ⟨m1, m2⟩ := P.half_le (φ i).1 (φ j).1
  have g1 := gap_abs hδ (φ i).2 (φ j).2
  have g2 := gap_abs hδ (φ i).2 ((φ j).2 + 1)
  have hA : (L j).ring.A = (L i).ctrP + (gap δ (φ i).2 ((φ j).2 + 1) • e + (lo (φ j).1 - mid lo hi (φ i).1) • s) := by
    rw [P.ctr, P.ring]; unfold planePt gap mid; ext <;> simp <;> ring
  have hB : (L j).ring.B = (L i).ctrP + (gap δ (φ i).2 ((φ j).2) • e + (lo (φ j).1 - mid lo hi (φ i).1) • s) := by
    rw [P.ctr, P.ring]; unfold planePt gap mid; ext <;> simp <;> ring
  have hC' : (L j).ring.C = (L i).ctrP + (gap δ (φ i).2 ((φ j).2) • e + (hi (φ j).1 - mid lo hi (φ i).1) • s) := by
    rw [P.ctr, P.ring]; unfold planePt gap mid; ext <;> simp <;> ring
  have hD : (L j).ring.D = (L i).ctrP + (gap δ (φ i).2 ((φ j).2 + 1) • e + (hi (φ j).1 - mid lo hi (φ i).1) • s) := by
    rw [P.ctr, P.ring]; unfold planePt gap mid; ext <;> simp <;> ring
  have ey : hi (φ j).1 - mid lo hi (φ i).1 - (lo (φ j).1 - mid lo hi (φ i).1) = hi (φ j).1 - lo (φ j).1 := by ring
  have c1 : 1e-4 ≤ |lo (φ j).1 - mid lo hi (φ i).1| * |gap δ (φ i).2 ((φ j).2 + 1) - gap δ (φ i).2 (φ j).2| := by
    rw [gap_succ_sub, abs_of_pos hδ]; nlinarith
  have c2 : 1e-4 ≤ |hi (φ j).1 - mid lo hi (φ i).1| * |gap δ (φ i).2 ((φ j).2 + 1) - gap δ (φ i).2 (φ j).2| := by
    rw [gap_succ_sub, abs_of_pos hδ]; nlinarith
  have cf : 1e-4 ≤ |gap δ (φ i).2 (φ j).2| * |hi (φ j).1 - mid lo hi (φ i).1 - (lo (φ j).1 - mid lo hi (φ i).1)| := by
    rw [ey, abs_of_pos hw']; nlinarith
  have cr : 1e-4 ≤ |gap δ (φ i).2 ((φ j).2 + 1)| * |hi (φ j).1 - mid lo hi (φ i).1 - (lo (φ j).1 - mid lo hi (φ i).1)| := by
    rw [ey, abs_of_pos hw']; nlinarith
  rw [PySailing.influence_eq, velCoef_eq, P.normal]
  unfold entry
  rw [P.te]
  by_cases hk : ((φ j).2 : ℕ) + 1 = nc
  · rw [if_pos (by simpa using hk), if_pos hk, hV]
    rw [F.horseshoe hA hB hC' hD (rho_ge hδ hw hb g1 m1) (rho_ge hδ hw hb g1 m2) (rho_ge hδ hw hb g2 m1) (rho_ge hδ hw hb g2 m2)
      c1 c2 cf cr (hl j) hu hC (gap_pos hδ (by omega)), hk]
  · rw [if_neg (by simpa using hk), if_neg hk, add_zero]
    rw [F.ring hA hB hC' hD (rho_ge hδ hw hb g1 m1) (rho_ge hδ hw hb g1 m2) (rho_ge hδ hw hb g2 m1) (rho_ge hδ hw hb g2 m2) c1 c2 cf cr]

theorem entry_nonpos (P : PlanarLattice O e s δ lo hi φ L te) {C : ℝ} (hC : 0 ≤ C) {c c' : κ} {k k' : ℕ} (hk : k < nc)
    (h : (c, k) ≠ (c', k')) : entry C δ lo hi nc c k c' k' ≤ 0 := by
  have hδ := P.pos
  have hx : gap δ k k' ≤ gap δ k (k' + 1) := by linarith [gap_succ_sub δ k k']
  have hy : lo c' - mid lo hi c ≤ hi c' - mid lo hi c := by linarith [P.lt c']
  have hr : ringKernel (gap δ k k') (gap δ k (k' + 1)) (lo c' - mid lo hi c) (hi c' - mid lo hi c) ≤ 0 := by
    by_cases hc : c = c'
    · subst hc
      have hne : k ≠ k' := fun e => h (by rw [e])
      have := P.lt c
      refine ringKernel_inLine hx ?_ ?_ hy ?_
      · unfold mid; intro h0; linarith
      · unfold mid; intro h0; linarith
      · rcases Nat.lt_or_ge k k' with h1 | h1
        · exact Or.inl (gap_pos hδ h1)
        · exact Or.inr (gap_neg hδ (by omega))
    · refine ringKernel_beside hx (gap_ne hδ _ _) (gap_ne hδ _ _) hy ?_
      have := P.lt c
      unfold mid
      rcases P.disj c c' hc with h1 | h1
      · exact Or.inl (by linarith)
      · exact Or.inr (by linarith)
  unfold entry
  split_ifs with hk'
  · have := wakeKernel_antitone hC (gap_pos hδ hk) hy
    linarith
  · linarith

theorem strip_sum (C : ℝ) (hnc : 0 < nc) (c c' : κ) (k : ℕ) :
    ∑ k' : Fin nc, entry C δ lo hi nc c k c' k' =
      stripKernel C (-gap δ k 0) (gap δ k nc) (hi c' - mid lo hi c) - stripKernel C (-gap δ k 0) (gap δ k nc) (lo c' - mid lo hi c) := by
  rw [Fin.sum_univ_eq_sum_range (fun k' => entry C δ lo hi nc c k c' k')]
  unfold entry
  rw [Finset.sum_add_distrib]
  have h1 : ∑ k' ∈ Finset.range nc, ringKernel (gap δ k k') (gap δ k (k' + 1)) (lo c' - mid lo hi c) (hi c' - mid lo hi c) =
      (corner (gap δ k nc) (hi c' - mid lo hi c) - corner (gap δ k nc) (lo c' - mid lo hi c)) -
      (corner (gap δ k 0) (hi c' - mid lo hi c) - corner (gap δ k 0) (lo c' - mid lo hi c)) :=
    Finset.sum_range_sub (fun k' => corner (gap δ k k') (hi c' - mid lo hi c) - corner (gap δ k k') (lo c' - mid lo hi c)) nc
  have h2 : ∀ w : ℝ, ∑ k' ∈ Finset.range nc, (if k' + 1 = nc then w else 0) = w := by
    intro w
    rw [Finset.sum_eq_single (nc - 1)]
    · rw [if_pos (by omega)]
    · intro b _ hb
      rw [if_neg (by omega)]
    · intro h
      exact absurd (Finset.mem_range.2 (by omega)) h
  rw [h1, h2]
  unfold stripKernel
  rw [corner_neg_left, corner_neg_left]
  ring

theorem row_sum (P : PlanarLattice O e s δ lo hi φ L te) {C : ℝ} (hC : 0 ≤ C) (hC1 : C ≤ 1) (i : Fin K) :
    2 / ((((φ i).2 : ℕ) + 1 / 2) * δ) ≤ ∑ j, entry C δ lo hi nc (φ i).1 (φ i).2 (φ j).1 (φ j).2 := by
  have hδ := P.pos
  have hk := (φ i).2.isLt
  rw [φ.sum_comp (fun q => entry C δ lo hi nc (φ i).1 (φ i).2 q.1 q.2), Fintype.sum_prod_type]
  simp only [strip_sum C (by omega : 0 < nc)]
  have ea : -gap δ (φ i).2 0 = (((φ i).2 : ℕ) + 1 / 2) * δ := by unfold gap; push_cast; ring
  have ha : 0 < -gap δ (φ i).2 0 := neg_pos.2 (gap_neg hδ (Nat.zero_le _))
  have hd : 0 < gap δ (φ i).2 nc := gap_pos hδ hk
  rw [← ea, ← mul_one_div]
  have := P.lt (φ i).1
  refine sum_intervals_ge (w := (hi (φ i).1 - lo (φ i).1) / 2) (i := (φ i).1) (by linarith) (fun x y hx h => stripKernel_antitone hC hC1 ha hd hx h)
    (stripKernel_neg C _ _) (fun x hx => stripKernel_ge hC ha hd hx) (a := fun c => lo c - mid lo hi (φ i).1)
    (b := fun c => hi c - mid lo hi (φ i).1) (fun c => by linarith [P.lt c]) (fun c c' h => ?_) ?_ ?_
  · rcases P.disj c c' h with h | h
    · left; linarith
    · right; linarith
  · unfold mid; ring
  · unfold mid; ring

variable {V : Fin K → V3} {g C S : ℝ} {l : Fin K → ℝ}

/-- The influence matrix up to a factor. -/
noncomputable def kernel (C δ : ℝ) (lo hi : κ → ℝ) (φ : Fin K ≃ κ × Fin nc) : Matrix (Fin K) (Fin K) ℝ :=
  fun i j => entry C δ lo hi nc (φ i).1 (φ i).2 (φ j).1 (φ j).2

theorem kernel_off (P : PlanarLattice O e s δ lo hi φ L te) (hC : 0 ≤ C) (i j : Fin K) (h : i ≠ j) :
    kernel C δ lo hi φ i j ≤ 0 := by
  refine P.entry_nonpos hC (φ i).2.isLt fun h0 => h (φ.injective (Prod.ext (Prod.ext_iff.1 h0).1 ?_))
  exact Fin.ext (Prod.ext_iff.1 h0).2

theorem kernel_sum (P : PlanarLattice O e s δ lo hi φ L te) (hC : 0 ≤ C) (hC1 : C ≤ 1) (i : Fin K) :
    2 / (nc * δ) ≤ ∑ j, kernel C δ lo hi φ i j := by
  refine le_trans ?_ (P.row_sum hC hC1 i)
  have hδ := P.pos
  have hk : (((φ i).2 : ℕ) : ℝ) + 1 ≤ nc := by exact_mod_cast (φ i).2.isLt
  have : (0 : ℝ) ≤ ((φ i).2 : ℕ) := Nat.cast_nonneg _
  apply div_le_div_of_nonneg_left (by norm_num) (by positivity)
  apply mul_le_mul_of_nonneg_right _ hδ.le
  linarith

theorem kernel_sum_pos (P : PlanarLattice O e s δ lo hi φ L te) (hC : 0 ≤ C) (hC1 : C ≤ 1) (i : Fin K) :
    0 < ∑ j, kernel C δ lo hi φ i j := by
  refine lt_of_lt_of_le ?_ (P.kernel_sum hC hC1 i)
  have hδ := P.pos
  have hk : (0 : ℝ) < nc := by exact_mod_cast (Nat.zero_le _).trans_lt (φ i).2.isLt
  positivity

theorem influence_kernel (P : PlanarLattice O e s δ lo hi φ L te) (hl : ∀ i, 0 < l i)
    (hV : ∀ i, V i = l i • (C • e + S • V3.cross s e)) (hu : C ^ 2 + S ^ 2 = 1) (hC : 0 ≤ C) :
    influence L te V g = (g / (4 * Real.pi)) • kernel C δ lo hi φ := by
  ext i j
  exact P.influence_eq hl hV hu hC i j

theorem le_one (hu : C ^ 2 + S ^ 2 = 1) : C ≤ 1 := by nlinarith [sq_nonneg S]

theorem regular (P : PlanarLattice O e s δ lo hi φ L te) (hg : g ≠ 0) (hl : ∀ i, 0 < l i)
    (hV : ∀ i, V i = l i • (C • e + S • V3.cross s e)) (hu : C ^ 2 + S ^ 2 = 1) (hC : 0 ≤ C) :
    (influence L te V g).det ≠ 0 := by
  rw [P.influence_kernel hl hV hu hC, Matrix.det_smul]
  refine mul_ne_zero (pow_ne_zero _ ?_) (det_ne_zero_of_rowSum (P.kernel_off hC) (P.kernel_sum_pos hC (le_one hu)))
  have := Real.pi_pos
  positivity

theorem clear (P : PlanarLattice O e s δ lo hi φ L te) (hl : ∀ i, 0 < l i)
    (hV : ∀ i, V i = l i • (C • e + S • V3.cross s e)) (hu : C ^ 2 + S ^ 2 = 1) (hC : 0 ≤ C) {x y : Fin K → ℝ}
    (hx : ∀ i, x i < (nc + 1 / 4) * δ) : clearOfWakes L te V fun i => planePt O e s (x i) (y i) := by
  have F := P.frame
  have hVe : ∀ j, (V j).dot e = l j * C := by
    intro j
    rw [hV, V3.dot_smul_left, V3.dot_add_left, V3.dot_smul_left, V3.dot_smul_left, F.ee, V3.dot_cross_right]
    ring
  have key : ∀ (i j : Fin K) (r t : ℝ), te j = true → 0 ≤ r →
      planePt O e s (x i) (y i) ≠ planePt O e s ((((φ j).2 : ℕ) + 5 / 4) * δ) t + r • V j := by
    intro i j r t hj hr h0
    have h1 := congrArg (fun v => (v - O).dot e) h0
    have e1 : ∀ a b : ℝ, ((a • e + b • s) : V3).dot e = a := by
      intro a b
      rw [V3.dot_add_left, V3.dot_smul_left, V3.dot_smul_left, F.ee, V3.dot_comm s e, F.es]
      ring
    have e2 : (planePt O e s (x i) (y i) - O).dot e = x i := by
      unfold planePt; rw [add_sub_cancel_left, e1]
    have e3 : (planePt O e s ((((φ j).2 : ℕ) + 5 / 4) * δ) t + r • V j - O).dot e = (((φ j).2 : ℕ) + 5 / 4) * δ + r * (l j * C) := by
      unfold planePt; rw [add_assoc, add_sub_cancel_left, V3.dot_add_left, e1, V3.dot_smul_left, hVe]
    simp only [e2, e3] at h1
    rw [P.te, decide_eq_true_eq] at hj
    have hj' : (((φ j).2 : ℕ) : ℝ) + 1 = nc := by exact_mod_cast hj
    have h2 := hx i
    rw [← hj'] at h2
    have h3 : 0 ≤ r * (l j * C) := mul_nonneg hr (mul_nonneg (hl j).le hC)
    nlinarith
  intro i j hj
  refine ⟨?_, fun r hr => ?_⟩
  · rw [hV]
    intro h0
    have h1 : ((l j) • (C • e + S • V3.cross s e)).dot (C • e + S • V3.cross s e) = l j := by
      simp only [V3.dot_add_left, V3.dot_add_right, V3.dot_smul_left, V3.dot_smul_right, F.ee, F.nn, PlaneFrame.en,
        V3.dot_cross_right]
      linear_combination l j * hu
    rw [h0, V3.dot_zero_left] at h1
    exact (hl j).ne h1
  · rw [P.ring]
    exact ⟨key i j r _ hj hr, key i j r _ hj hr⟩

/-- A planar lattice is well posed. -/
theorem wellPosed (P : PlanarLattice O e s δ lo hi φ L te) (hg : g ≠ 0) (hl : ∀ i, 0 < l i)
    (hV : ∀ i, V i = l i • (C • e + S • V3.cross s e)) (hu : C ^ 2 + S ^ 2 = 1) (hC : 0 ≤ C) {areas : Fin K → ℝ}
    (ha : ∀ i, 1e-14 ≤ areas i) {rho : ℝ} (hr : rho ≠ 0) : WellPosed L areas te rho g V where
  ctr := by
    have := P.clear hl hV hu hC (x := fun i => (((φ i).2 : ℕ) + 3 / 4) * δ) (y := fun i => (lo (φ i).1 + hi (φ i).1) / 2) (by
      intro i
      have hk : (((φ i).2 : ℕ) : ℝ) + 1 ≤ nc := by exact_mod_cast (φ i).2.isLt
      exact mul_lt_mul_of_pos_right (by linarith) P.pos)
    simpa only [P.ctr] using this
  cp := by
    have := P.clear hl hV hu hC (x := fun i => (((φ i).2 : ℕ) + 1 / 4) * δ) (y := fun i => (lo (φ i).1 + hi (φ i).1) / 2) (by
      intro i
      have hk : (((φ i).2 : ℕ) : ℝ) + 1 ≤ nc := by exact_mod_cast (φ i).2.isLt
      exact mul_lt_mul_of_pos_right (by linarith) P.pos)
    simpa only [P.cp] using this
  regular := P.regular hg hl hV hu hC
  areas := ha
  rho := fun _ => hr
  wind := by
    intro i h0
    have F := P.frame
    rw [hV] at h0
    have h1 : ((l i) • (C • e + S • V3.cross s e)).dot (C • e + S • V3.cross s e) = l i := by
      simp only [V3.dot_add_left, V3.dot_add_right, V3.dot_smul_left, V3.dot_smul_right, F.ee, F.nn, PlaneFrame.en,
        V3.dot_cross_right]
      linear_combination l i * hu
    rw [h0, V3.dot_zero_left] at h1
    exact (hl i).ne h1

/-! ### Comparison with the flat plate in two dimensions -/

/-- Circulation (up to a factor) around the rows `0, …, k` of the flat plate. -/
noncomputable def plate (δ : ℝ) (n k : ℕ) : ℝ := ∑ q ∈ Finset.range (k + 1), δ / 2 * plateWeight n q

theorem plate_last (δ : ℝ) {n k : ℕ} (hk : k + 1 = n) : plate δ n k = n * δ / 4 := by
  unfold plate
  rw [hk, ← Finset.mul_sum, plate_total]
  ring

theorem plate_le (hδ : 0 < δ) {n k : ℕ} (hk : k < n) : plate δ n k ≤ n * δ / 4 := by
  rw [← plate_last δ (n := n) (k := n - 1) (by omega)]
  unfold plate
  apply Finset.sum_le_sum_of_subset_of_nonneg
  · intro q hq
    rw [Finset.mem_range] at hq ⊢
    omega
  · intro q hq _
    rw [Finset.mem_range] at hq
    have := plate_pos (n := n) (q := q) (by omega)
    positivity

theorem tail_sum (C : ℝ) (c c' : κ) (k : ℕ) {q : ℕ} (hq : q < nc) :
    ∑ k' ∈ Finset.Ico q nc, entry C δ lo hi nc c k c' k' =
      tailKernel C (gap δ k q) (gap δ k nc) (hi c' - mid lo hi c) - tailKernel C (gap δ k q) (gap δ k nc) (lo c' - mid lo hi c) := by
  unfold entry
  rw [Finset.sum_add_distrib]
  have h1 : ∑ k' ∈ Finset.Ico q nc, ringKernel (gap δ k k') (gap δ k (k' + 1)) (lo c' - mid lo hi c) (hi c' - mid lo hi c) =
      (corner (gap δ k nc) (hi c' - mid lo hi c) - corner (gap δ k nc) (lo c' - mid lo hi c)) -
      (corner (gap δ k q) (hi c' - mid lo hi c) - corner (gap δ k q) (lo c' - mid lo hi c)) := by
    rw [Finset.sum_Ico_eq_sub _ hq.le]
    have e := fun n => Finset.sum_range_sub
      (fun k' => corner (gap δ k k') (hi c' - mid lo hi c) - corner (gap δ k k') (lo c' - mid lo hi c)) n
    unfold ringKernel
    rw [e, e]
    ring
  have h2 : ∀ w : ℝ, ∑ k' ∈ Finset.Ico q nc, (if k' + 1 = nc then w else 0) = w := by
    intro w
    rw [Finset.sum_eq_single (nc - 1)]
    · rw [if_pos (by omega)]
    · intro b _ hb
      rw [if_neg (by omega)]
    · intro h
      exact absurd (Finset.mem_Ico.2 (by omega)) h
  rw [h1, h2]
  unfold tailKernel
  ring

theorem parts (f ζ : ℕ → ℝ) (n : ℕ) :
    ∑ k ∈ Finset.range n, f k * ∑ q ∈ Finset.range (k + 1), ζ q = ∑ q ∈ Finset.range n, ζ q * ∑ k ∈ Finset.Ico q n, f k := by
  simp only [Finset.mul_sum]
  rw [Finset.sum_comm' (t' := Finset.range n) (s' := fun q => Finset.Ico q n)]
  · exact Finset.sum_congr rfl fun q _ => Finset.sum_congr rfl fun k _ => mul_comm _ _
  · intro k q
    simp only [Finset.mem_range, Finset.mem_Ico]
    omega

/-- The plate's circulation is too strong for the wing. -/
theorem plate_super (P : PlanarLattice O e s δ lo hi φ L te) (hC : 0 ≤ C) (hC1 : C ≤ 1) (i : Fin K) :
    1 ≤ ∑ j, kernel C δ lo hi φ i j * plate δ nc (φ j).2 := by
  have hδ := P.pos
  have hk := (φ i).2.isLt
  unfold kernel
  rw [φ.sum_comp (fun q => entry C δ lo hi nc (φ i).1 (φ i).2 q.1 q.2 * plate δ nc q.2), Fintype.sum_prod_type]
  have e1 : ∀ c : κ, ∑ k' : Fin nc, entry C δ lo hi nc (φ i).1 (φ i).2 c k' * plate δ nc k' =
      ∑ q ∈ Finset.range nc, δ / 2 * plateWeight nc q *
        (tailKernel C (gap δ (φ i).2 q) (gap δ (φ i).2 nc) (hi c - mid lo hi (φ i).1)
          - tailKernel C (gap δ (φ i).2 q) (gap δ (φ i).2 nc) (lo c - mid lo hi (φ i).1)) := by
    intro c
    rw [Fin.sum_univ_eq_sum_range (fun k' => entry C δ lo hi nc (φ i).1 (φ i).2 c k' * plate δ nc k')]
    unfold plate
    rw [parts]
    refine Finset.sum_congr rfl fun q hq => ?_
    rw [tail_sum C _ _ _ (Finset.mem_range.1 hq)]
  simp only [e1]
  rw [Finset.sum_comm]
  have e2 : (1 : ℝ) = ∑ q ∈ Finset.range nc, δ / 2 * plateWeight nc q * (2 * -(1 / gap δ (φ i).2 q)) := by
    refine (plate_tangential hk).symm.trans ?_
    refine Finset.sum_congr rfl fun q _ => ?_
    have h1 : (((φ i).2 : ℕ) : ℝ) + 1 / 2 - q ≠ 0 := sub_ne_zero.2 (plate_half_ne _ _)
    have h2 := gap_ne hδ (φ i).2 q
    have h3 : gap δ (φ i).2 q = -((((φ i).2 : ℕ) : ℝ) + 1 / 2 - q) * δ := by unfold gap; ring
    rw [h3]
    field_simp
  refine e2.le.trans ?_
  apply Finset.sum_le_sum
  intro q hq
  rw [Finset.mem_range] at hq
  rw [← Finset.mul_sum]
  have hp := plate_pos hq
  apply mul_le_mul_of_nonneg_left _ (by positivity)
  have hd : 0 < gap δ (φ i).2 nc := gap_pos hδ hk
  have hxd : gap δ (φ i).2 q ≤ gap δ (φ i).2 nc := by
    have : (q : ℝ) ≤ nc := by exact_mod_cast hq.le
    unfold gap
    exact mul_le_mul_of_nonneg_right (by linarith) hδ.le
  have := P.lt (φ i).1
  refine sum_intervals_ge (w := (hi (φ i).1 - lo (φ i).1) / 2) (i := (φ i).1) (by linarith)
    (fun x y hx h => tailKernel_antitone hC (gap_ne hδ _ _) hxd hd hx h)
    (tailKernel_neg C _ _) (fun x hx => tailKernel_ge hC hC1 (gap_ne hδ _ _) hxd hd hx) (a := fun c => lo c - mid lo hi (φ i).1)
    (b := fun c => hi c - mid lo hi (φ i).1) (fun c => by linarith [P.lt c]) (fun c c' h => ?_) ?_ ?_
  · rcases P.disj c c' h with h | h
    · left; linarith
    · right; linarith
  · unfold mid; ring
  · unfold mid; ring

/-- The equations of the circulations. -/
theorem kernel_gamma (P : PlanarLattice O e s δ lo hi φ L te) (hg : g ≠ 0) (hl : ∀ i, 0 < l i)
    (hV : ∀ i, V i = l i • (C • e + S • V3.cross s e)) (hu : C ^ 2 + S ^ 2 = 1) (hC : 0 ≤ C) (i : Fin K) :
    ∑ j, kernel C δ lo hi φ i j * (g * coreGamma L te g V j) = -(4 * Real.pi * (l i * S)) := by
  have F := P.frame
  have hpi := Real.pi_pos
  have hdet := P.regular hg hl hV hu hC
  have hsol := influence_mulVec_coreGamma hdet
  have hVn : ∀ i, (V i).dot (L i).normal = l i * S := by
    intro i
    rw [hV, P.normal, V3.dot_smul_left, V3.dot_add_left, V3.dot_smul_left, V3.dot_smul_left, F.nn, PlaneFrame.en]
    ring
  have h1 := congrFun hsol i
  rw [P.influence_kernel hl hV hu hC, hVn, Matrix.smul_mulVec, Pi.smul_apply, smul_eq_mul] at h1
  have h2 : ∑ j, kernel C δ lo hi φ i j * (g * coreGamma L te g V j) = g * (kernel C δ lo hi φ).mulVec (coreGamma L te g V) i := by
    unfold Matrix.mulVec dotProduct
    rw [Finset.mul_sum]
    exact Finset.sum_congr rfl fun j _ => by ring
  rw [h2]
  field_simp at h1
  linarith

/-- The equations of the circulations, scaled. -/
theorem kernel_gamma_scaled (P : PlanarLattice O e s δ lo hi φ L te) (hg : g ≠ 0) (hl : ∀ i, 0 < l i)
    (hV : ∀ i, V i = l i • (C • e + S • V3.cross s e)) (hu : C ^ 2 + S ^ 2 = 1) (hC : 0 ≤ C) (k : Fin K) :
    ∑ j, kernel C δ lo hi φ k j * (-(S * (g * coreGamma L te g V j))) = 4 * Real.pi * S ^ 2 * l k := by
  have e : ∑ j, kernel C δ lo hi φ k j * (-(S * (g * coreGamma L te g V j))) =
      -S * ∑ j, kernel C δ lo hi φ k j * (g * coreGamma L te g V j) := by
    rw [Finset.mul_sum]
    exact Finset.sum_congr rfl fun j _ => by ring
  rw [e, P.kernel_gamma hg hl hV hu hC]; ring

/-- Sign and size of the circulations. -/
theorem gamma_bounds (P : PlanarLattice O e s δ lo hi φ L te) (hg : g ≠ 0) (hl : ∀ i, 0 < l i) {M : ℝ} (hM : ∀ i, l i ≤ M)
    (hV : ∀ i, V i = l i • (C • e + S • V3.cross s e)) (hu : C ^ 2 + S ^ 2 = 1) (hC : 0 ≤ C) (i : Fin K) :
    (S ≠ 0 → 0 < -(S * (g * coreGamma L te g V i))) ∧
      |g * coreGamma L te g V i| ≤ Real.pi * (nc * δ) * (M * |S|) := by
  have hpi := Real.pi_pos
  have hC1 := le_one hu
  have hrow := P.kernel_gamma hg hl hV hu hC
  have hoff := P.kernel_off hC
  have hsum := P.kernel_sum_pos hC hC1
  by_cases hS : S = 0
  · subst hS
    refine ⟨fun h => absurd rfl h, ?_⟩
    have a1 := solution_nonneg hoff hsum (x := fun j => g * coreGamma L te g V j) (fun k => by rw [hrow]; simp) i
    have a2 := solution_nonneg hoff hsum (x := fun j => -(g * coreGamma L te g V j)) (fun k => by
      simp only [mul_neg, Finset.sum_neg_distrib]
      rw [hrow]; simp) i
    have : g * coreGamma L te g V i = 0 := by linarith
    rw [this]; simp
  -- scaled unknown
  have hx := P.kernel_gamma_scaled hg hl hV hu hC
  have hpos := solution_pos hoff hsum (x := fun j => -(S * (g * coreGamma L te g V j))) (fun k => by
    rw [hx]
    have := hl k
    positivity) i
  refine ⟨fun _ => hpos, ?_⟩
  have hle := solution_le_of hoff hsum (x := fun j => -(S * (g * coreGamma L te g V j)))
    (z := fun j => 4 * Real.pi * S ^ 2 * M * plate δ nc (φ j).2) (fun k => by
      have hs := P.plate_super hC hC1 k
      have e : ∑ j, kernel C δ lo hi φ k j * (4 * Real.pi * S ^ 2 * M * plate δ nc (φ j).2) =
          4 * Real.pi * S ^ 2 * M * ∑ j, kernel C δ lo hi φ k j * plate δ nc (φ j).2 := by
        rw [Finset.mul_sum]
        exact Finset.sum_congr rfl fun j _ => by ring
      have hM0 : 0 < M := (hl k).trans_le (hM k)
      rw [hx, e]
      calc 4 * Real.pi * S ^ 2 * l k ≤ 4 * Real.pi * S ^ 2 * M := by
            apply mul_le_mul_of_nonneg_left (hM k); positivity
        _ = 4 * Real.pi * S ^ 2 * M * 1 := by ring
        _ ≤ _ := by apply mul_le_mul_of_nonneg_left hs; positivity) i
  have hM0 : 0 < M := (hl i).trans_le (hM i)
  have hb : -(S * (g * coreGamma L te g V i)) ≤ 4 * Real.pi * S ^ 2 * M * (nc * δ / 4) :=
    hle.trans (by apply mul_le_mul_of_nonneg_left (plate_le P.pos (φ i).2.isLt); positivity)
  have habs : |S| * |g * coreGamma L te g V i| = -(S * (g * coreGamma L te g V i)) := by
    rw [← abs_mul, abs_of_neg (by linarith)]
  have hS0 : 0 < |S| := abs_pos.2 hS
  have hSS : S ^ 2 = |S| * |S| := by rw [← sq_abs]; ring
  rw [← habs, hSS] at hb
  have : |S| * |g * coreGamma L te g V i| ≤ |S| * (Real.pi * (nc * δ) * (M * |S|)) := by
    refine hb.trans (le_of_eq ?_); ring
  exact le_of_mul_le_mul_left this hS0

/-- Without normal wind there is no circulation. -/
theorem gamma_zero (P : PlanarLattice O e s δ lo hi φ L te) (hg : g ≠ 0) (hl : ∀ i, 0 < l i) {M : ℝ} (hM : ∀ i, l i ≤ M)
    (hV : ∀ i, V i = l i • (C • e + S • V3.cross s e)) (hu : C ^ 2 + S ^ 2 = 1) (hC : 0 ≤ C) (hS : S = 0) (i : Fin K) :
    coreGamma L te g V i = 0 := by
  have := (P.gamma_bounds hg hl hM hV hu hC i).2
  rw [hS, abs_zero, mul_zero, mul_zero] at this
  have := abs_eq_zero.1 (le_antisymm this (abs_nonneg _))
  exact (mul_eq_zero.1 this).resolve_left hg

/-- More wind gives more circulation everywhere. -/
theorem gamma_mono (P : PlanarLattice O e s δ lo hi φ L te) (hg : g ≠ 0) {V' : Fin K → V3} {l' : Fin K → ℝ}
    (hl : ∀ i, 0 < l i) (hl' : ∀ i, l i ≤ l' i)
    (hV : ∀ i, V i = l i • (C • e + S • V3.cross s e)) (hV' : ∀ i, V' i = l' i • (C • e + S • V3.cross s e))
    (hu : C ^ 2 + S ^ 2 = 1) (hC : 0 ≤ C) (i : Fin K) :
    -(S * (g * coreGamma L te g V i)) ≤ -(S * (g * coreGamma L te g V' i)) := by
  have hpi := Real.pi_pos
  refine solution_le_of (P.kernel_off hC) (P.kernel_sum_pos hC (le_one hu)) (x := fun j => -(S * (g * coreGamma L te g V j)))
    (z := fun j => -(S * (g * coreGamma L te g V' j))) (fun k => ?_) i
  rw [P.kernel_gamma_scaled hg hl hV hu hC, P.kernel_gamma_scaled hg (fun i => (hl i).trans_le (hl' i)) hV' hu hC]
  apply mul_le_mul_of_nonneg_left (hl' k)
  positivity

end PlanarLattice

end PySailing
