import Verif.Lemmas.Planar
import Verif.Lemmas.TaperKernel
import Mathlib.Analysis.Convex.Slope

/-!
# Vortex lattices in one plane with trapezoidal panels
-/

namespace PySailing

open Spec Set

namespace PlaneFrame

variable {e s : V3}

/-- A bound edge on an inclined line; the program leaves it out when the line passes close to the point. -/
theorem slantLine (F : PlaneFrame e s) {p p1 p2 : V3} {x1 y1 x2 y2 γ : ℝ} (h1 : p1 = p + (x1 • e + y1 • s)) (h2 : p2 = p + (x2 • e + y2 • s))
    (n1 : 1e-8 ≤ rho2 x1 y1) (n2 : 1e-8 ≤ rho2 x2 y2) (hlt : y1 < y2) :
    (vortexLine p p1 p2 γ).dot (V3.cross s e) =
      γ / (4 * Real.pi) * (-((1 - Taper.dropped (Taper.lineO x1 x2 y1 y2) (y2 - y1)) *
        (Taper.bd (Taper.lineO x1 x2 y1 y2) (Taper.lineQ x1 x2 y1 y2) y2 - Taper.bd (Taper.lineO x1 x2 y1 y2) (Taper.lineQ x1 x2 y1 y2) y1))) := by
  have hp := sub_pos.2 hlt
  have a1 := Taper.line_fst x1 x2 y1 y2
  have a2 := Taper.line_snd x1 x2 hlt
  generalize Taper.lineO x1 x2 y1 y2 = o at *
  generalize Taper.lineQ x1 x2 y1 y2 = q at *
  have ec : y1 * x2 - x1 * y2 = -(o * (y2 - y1)) := by rw [← a1, ← a2]; ring
  have eabs : |y1 * x2 - x1 * y2| = |o| * (y2 - y1) := by rw [ec, abs_neg, abs_mul, abs_of_pos hp]
  unfold Taper.dropped
  split_ifs with hd
  · rw [F.line h1 h2 n1 n2 (by rw [eabs]; exact hd), ec, sub_zero, one_mul]
    have ho : o ≠ 0 := by
      rintro rfl; norm_num at hd
    have r1 : rho2 x1 y1 ≠ 0 := by intro h; rw [h] at n1; norm_num at n1
    have r2 : rho2 x2 y2 ≠ 0 := by intro h; rw [h] at n2; norm_num at n2
    unfold Taper.bd
    rw [a1, a2]
    congr 1
    subst a1 a2
    have hp' := hp.ne'
    field_simp
    ring
  · have e1 : p - p1 = (-x1) • e + (-y1) • s := by rw [h1]; ext <;> simp <;> ring
    have e2 : p - p2 = (-x2) • e + (-y2) • s := by rw [h2]; ext <;> simp <;> ring
    have ec' : V3.cross (p - p1) (p - p2) = (y1 * x2 - x1 * y2) • V3.cross s e := by
      rw [e1, e2, cross]; congr 1; ring
    have hcore : coreTest p p1 p2 := by
      right; right
      rw [ec', V3.norm_sq, V3.dot_smul_left, V3.dot_smul_right, F.nn, mul_one, ← sq, ← sq_abs, eabs]
      have h3 := not_le.1 hd
      have h4 : 0 ≤ |o| * (y2 - y1) := by positivity
      nlinarith
    rw [vortexLine_core _ hcore, sub_self, zero_mul, neg_zero, mul_zero, V3.dot_zero_left]

/-- Trapezoidal ring in the plane, seen from a point of the plane. -/
theorem slantRing (F : PlaneFrame e s) {p A B C D : V3} {x1 x2 x1' x2' y1 y2 γ : ℝ} (hA : A = p + (x1' • e + y1 • s)) (hB : B = p + (x1 • e + y1 • s))
    (hC : C = p + (x2 • e + y2 • s)) (hD : D = p + (x2' • e + y2 • s)) (hlt : y1 < y2) (m1 : 0.02 ≤ |y1|) (m2 : 0.02 ≤ |y2|)
    (c1 : 0.04 ≤ x1' - x1) (c2 : 0.04 ≤ x2' - x2) :
    (vortexRing p A B C D γ).dot (V3.cross s e) = γ / (4 * Real.pi) * (Taper.edge x1' x2' y1 y2 - Taper.edge x1 x2 y1 y2) := by
  have hn : ∀ x {y : ℝ}, 0.02 ≤ |y| → 1e-8 ≤ rho2 x y := fun x y hy => le_trans (by linarith) (Taper.abs_le_rho2 x y)
  have k1 : (1e-4 : ℝ) ≤ |y1| * |x1 - x1'| := by
    rw [abs_sub_comm, abs_of_pos (show 0 < x1' - x1 by linarith)]; nlinarith
  have k2 : (1e-4 : ℝ) ≤ |y2| * |x2' - x2| := by
    rw [abs_of_pos (show 0 < x2' - x2 by linarith)]; nlinarith
  unfold vortexRing
  rw [V3.dot_add_left, V3.dot_add_left, V3.dot_add_left, F.sideLine hA hB (hn _ m1) (hn _ m1) k1,
    F.slantLine hB hC (hn _ m1) (hn _ m2) hlt, F.sideLine hC hD (hn _ m2) (hn _ m2) k2, vortexLine_swap, V3.dot_neg_left,
    F.slantLine hA hD (hn _ m1) (hn _ m2) hlt]
  have es : ∀ x y, x / rho2 x y / y = Taper.sd x y := by
    intro x y; unfold Taper.sd; rw [div_div, mul_comm]
  rw [sub_div, sub_div, es, es, es, es]
  unfold Taper.edge
  ring

theorem slantShoe (F : PlaneFrame e s) {p A B C D : V3} {x1 x2 x1' x2' y1 y2 γ l c S : ℝ} (hA : A = p + (x1' • e + y1 • s)) (hB : B = p + (x1 • e + y1 • s))
    (hC : C = p + (x2 • e + y2 • s)) (hD : D = p + (x2' • e + y2 • s)) (hlt : y1 < y2) (m1 : 0.02 ≤ |y1|) (m2 : 0.02 ≤ |y2|)
    (c1 : 0.04 ≤ x1' - x1) (c2 : 0.04 ≤ x2' - x2) (hl : 0 < l) (hu : c ^ 2 + S ^ 2 = 1) :
    (vortexHorseshoeV2 p A B C D (l • (c • e + S • V3.cross s e)) γ).dot (V3.cross s e) =
      γ / (4 * Real.pi) * (Taper.rear c x1' x2' y1 y2 - Taper.edge x1 x2 y1 y2) := by
  have hn : ∀ x {y : ℝ}, 0.02 ≤ |y| → 1e-8 ≤ rho2 x y := fun x y hy => le_trans (by linarith) (Taper.abs_le_rho2 x y)
  have k1 : (1e-4 : ℝ) ≤ |y1| * |x1 - x1'| := by
    rw [abs_sub_comm, abs_of_pos (show 0 < x1' - x1 by linarith)]; nlinarith
  have k2 : (1e-4 : ℝ) ≤ |y2| * |x2' - x2| := by
    rw [abs_of_pos (show 0 < x2' - x2 by linarith)]; nlinarith
  unfold vortexHorseshoeV2
  rw [V3.dot_add_left, V3.dot_add_left, V3.dot_add_left, V3.dot_add_left, F.sideLine hA hB (hn _ m1) (hn _ m1) k1,
    F.slantLine hB hC (hn _ m1) (hn _ m2) hlt, F.sideLine hC hD (hn _ m2) (hn _ m2) k2, F.wakeLine hD hl hu, F.wakeLine hA hl hu]
  have es : ∀ x y, x / rho2 x y / y = Taper.sd x y := by
    intro x y; unfold Taper.sd; rw [div_div, mul_comm]
  rw [sub_div, sub_div, es, es, es, es]
  unfold Taper.edge Taper.rear Taper.wk
  ring

end PlaneFrame

/-- A concave function is below the extensions of its chords. -/
theorem concave_ext {S : Set ℝ} {f : ℝ → ℝ} (hf : ConcaveOn ℝ S f) {a b p : ℝ} (ha : a ∈ S) (hb : b ∈ S) (hp : p ∈ S) (hab : a < b)
    (h : p ≤ a ∨ b ≤ p) : f p ≤ f a + (f b - f a) / (b - a) * (p - a) := by
  rcases h with h | h
  · rcases h.eq_or_lt with e | hlt
    · rw [e]; simp
    · have := hf.slope_anti_adjacent hp hb hlt hab
      rw [le_div_iff₀ (by linarith)] at this
      linarith
  · rcases h.eq_or_lt with e | hlt
    · rw [← e, div_mul_cancel₀ _ (by linarith : b - a ≠ 0)]; linarith
    · have := hf.slope_anti_adjacent ha hp hab hlt
      rw [div_le_iff₀ (by linarith)] at this
      have e : (f b - f a) / (b - a) * (p - a) = (f b - f a) / (b - a) * (p - b) + (f b - f a) := by
        have : b - a ≠ 0 := by linarith
        field_simp; ring
      linarith

/-- In a plane flow, the component `C` of the (unit) wind along the plane fits to the trailing edge `f`: it is concave, or it
has a slope of at most `Q` and the wind is close enough to the plane. -/
def Taper.Fits (C bot top : ℝ) (f : ℝ → ℝ) : Prop :=
  0 ≤ C ∧ (ConcaveOn ℝ (Icc bot top) f ∨ ∃ Q, 0 ≤ Q ∧ (∀ y ∈ Icc bot top, ∀ y' ∈ Icc bot top, |f y - f y'| ≤ Q * |y - y'|) ∧
    2 * Q * (1 - C ^ 2) ≤ C * (1 - C * (Q / Real.sqrt (1 + Q ^ 2))))

/-- A lattice of trapezoidal panels in one plane. At the height `y` the leading edge is at `xl y` and the panels have the
width `δ y`; strip `c` is between `lo c` and `hi c`. All panels are at least 4 cm high and wide. -/
structure TaperLattice {K nc : ℕ} {κ : Type} (O e s : V3) (xl δ : ℝ → ℝ) (bot top : ℝ) (lo hi : κ → ℝ) (φ : Fin K ≃ κ × Fin nc)
    (L : Fin K → PanelVars) (te : Fin K → Bool) : Prop where
  frame : PlaneFrame e s
  wide : ∀ y ∈ Icc bot top, 0.04 ≤ δ y
  high : ∀ c, 0.04 ≤ hi c - lo c
  bot_le : ∀ c, bot ≤ lo c
  le_top : ∀ c, hi c ≤ top
  disj : ∀ c c', c ≠ c' → hi c ≤ lo c' ∨ hi c' ≤ lo c
  normal : ∀ i, (L i).normal = V3.cross s e
  ctr : ∀ i, (L i).ctrP = planePt O e s ((xl (lo (φ i).1) + xl (hi (φ i).1)) / 2 +
    (((φ i).2 : ℕ) + 3 / 4) * ((δ (lo (φ i).1) + δ (hi (φ i).1)) / 2)) ((lo (φ i).1 + hi (φ i).1) / 2)
  cp : ∀ i, (L i).cp = planePt O e s ((xl (lo (φ i).1) + xl (hi (φ i).1)) / 2 +
    (((φ i).2 : ℕ) + 1 / 4) * ((δ (lo (φ i).1) + δ (hi (φ i).1)) / 2)) ((lo (φ i).1 + hi (φ i).1) / 2)
  ring : ∀ i, (L i).ring = ⟨planePt O e s (xl (lo (φ i).1) + (((φ i).2 : ℕ) + 5 / 4) * δ (lo (φ i).1)) (lo (φ i).1),
    planePt O e s (xl (lo (φ i).1) + (((φ i).2 : ℕ) + 1 / 4) * δ (lo (φ i).1)) (lo (φ i).1),
    planePt O e s (xl (hi (φ i).1) + (((φ i).2 : ℕ) + 1 / 4) * δ (hi (φ i).1)) (hi (φ i).1),
    planePt O e s (xl (hi (φ i).1) + (((φ i).2 : ℕ) + 5 / 4) * δ (hi (φ i).1)) (hi (φ i).1)⟩
  te : ∀ i, te i = decide (((φ i).2 : ℕ) + 1 = nc)

namespace TaperLattice

variable {K nc : ℕ} {κ : Type} [Fintype κ] [DecidableEq κ] {O e s : V3} {xl δ : ℝ → ℝ} {bot top : ℝ} {lo hi : κ → ℝ}
  {φ : Fin K ≃ κ × Fin nc} {L : Fin K → PanelVars} {te : Fin K → Bool}

/-- Middle of a strip. -/
noncomputable def mid (lo hi : κ → ℝ) (c : κ) : ℝ := (lo c + hi c) / 2

/-- Chordwise position of the control point of row `k`. -/
noncomputable def cx (xl δ : ℝ → ℝ) (lo hi : κ → ℝ) (c : κ) (k : ℕ) : ℝ :=
  (xl (lo c) + xl (hi c)) / 2 + (k + 3 / 4) * ((δ (lo c) + δ (hi c)) / 2)

/-- Front edge of the ring of row `k'` at height `y`, seen from this control point. -/
noncomputable def px (xl δ : ℝ → ℝ) (lo hi : κ → ℝ) (c : κ) (k k' : ℕ) (y : ℝ) : ℝ := xl y + (k' + 1 / 4) * δ y - cx xl δ lo hi c k

/-- Edge `k'` of strip `c'`. -/
noncomputable def bound (xl δ : ℝ → ℝ) (lo hi : κ → ℝ) (c : κ) (k : ℕ) (c' : κ) (k' : ℕ) : ℝ :=
  Taper.edge (px xl δ lo hi c k k' (lo c')) (px xl δ lo hi c k k' (hi c')) (lo c' - mid lo hi c) (hi c' - mid lo hi c)

/-- Trailing edge of strip `c'`. -/
noncomputable def trail (C : ℝ) (xl δ : ℝ → ℝ) (lo hi : κ → ℝ) (nc : ℕ) (c : κ) (k : ℕ) (c' : κ) : ℝ :=
  Taper.rear C (px xl δ lo hi c k nc (lo c')) (px xl δ lo hi c k nc (hi c')) (lo c' - mid lo hi c) (hi c' - mid lo hi c)

/-- Kernel of panel `(c', k')` at the control point of panel `(c, k)`. -/
noncomputable def entry (C : ℝ) (xl δ : ℝ → ℝ) (lo hi : κ → ℝ) (nc : ℕ) (c : κ) (k : ℕ) (c' : κ) (k' : ℕ) : ℝ :=
  (if k' + 1 = nc then trail C xl δ lo hi nc c k c' else bound xl δ lo hi c k c' (k' + 1)) - bound xl δ lo hi c k c' k'

section basic

variable (P : TaperLattice O e s xl δ bot top lo hi φ L te)
include P

theorem lt (c : κ) : lo c < hi c := by linarith [P.high c]

theorem lo_mem (c : κ) : lo c ∈ Icc bot top := ⟨P.bot_le c, by linarith [P.high c, P.le_top c]⟩

theorem hi_mem (c : κ) : hi c ∈ Icc bot top := ⟨by linarith [P.high c, P.bot_le c], P.le_top c⟩

theorem mid_mem (c : κ) : mid lo hi c ∈ Icc bot top := by
  have := P.lo_mem c
  have := P.hi_mem c
  unfold mid
  constructor <;> [have := P.bot_le c; have := P.le_top c] <;> linarith [P.lt c]

theorem sides (c c' : κ) (h : c ≠ c') : 0.02 ≤ lo c' - mid lo hi c ∨ hi c' - mid lo hi c ≤ -0.02 := by
  have := P.high c
  unfold mid
  rcases P.disj c c' h with h | h
  · left; linarith
  · right; linarith

theorem half_le (c c' : κ) : 0.02 ≤ |lo c' - mid lo hi c| ∧ 0.02 ≤ |hi c' - mid lo hi c| := by
  have h1 := P.high c
  have h2 := P.high c'
  by_cases h : c = c'
  · subst h
    unfold mid
    exact ⟨le_abs.2 (Or.inr (by linarith)), le_abs.2 (Or.inl (by linarith))⟩
  · rcases P.sides c c' h with h | h
    · exact ⟨le_abs.2 (Or.inl h), le_abs.2 (Or.inl (by linarith))⟩
    · exact ⟨le_abs.2 (Or.inr (by linarith)), le_abs.2 (Or.inr (by linarith))⟩

omit P in
omit [Fintype κ] [DecidableEq κ] in
theorem px_succ (c : κ) (k k' : ℕ) (y : ℝ) : px xl δ lo hi c k (k' + 1) y - px xl δ lo hi c k k' y = δ y := by
  unfold px; push_cast; ring

theorem lo_wide (c : κ) : 0.04 ≤ δ (lo c) := P.wide _ (P.lo_mem c)

theorem hi_wide (c : κ) : 0.04 ≤ δ (hi c) := P.wide _ (P.hi_mem c)

end basic

theorem influence_eq (P : TaperLattice O e s xl δ bot top lo hi φ L te) {V : Fin K → V3} {g C S : ℝ} {l : Fin K → ℝ} (hl : ∀ i, 0 < l i)
    (hV : ∀ i, V i = l i • (C • e + S • V3.cross s e)) (hu : C ^ 2 + S ^ 2 = 1) (i j : Fin K) :
    influence L te V g i j = g / (4 * Real.pi) * entry C xl δ lo hi nc (φ i).1 (φ i).2 (φ j).1 (φ j).2 := by
  have F := P.frame
  obtain ⟨m1, m2⟩ := P.half_le (φ i).1 (φ j).1
  have hlt : lo (φ j).1 - mid lo hi (φ i).1 < hi (φ j).1 - mid lo hi (φ i).1 := by linarith [P.lt (φ j).1]
  have hA : (L j).ring.A = (L i).ctrP + (px xl δ lo hi (φ i).1 (φ i).2 ((φ j).2 + 1) (lo (φ j).1) • e + (lo (φ j).1 - mid lo hi (φ i).1) • s) := by
    rw [P.ctr, P.ring]; unfold planePt px cx mid; push_cast; ext <;> simp <;> ring
  have hB : (L j).ring.B = (L i).ctrP + (px xl δ lo hi (φ i).1 (φ i).2 (φ j).2 (lo (φ j).1) • e + (lo (φ j).1 - mid lo hi (φ i).1) • s) := by
    rw [P.ctr, P.ring]; unfold planePt px cx mid; ext <;> simp <;> ring
  have hC' : (L j).ring.C = (L i).ctrP + (px xl δ lo hi (φ i).1 (φ i).2 (φ j).2 (hi (φ j).1) • e + (hi (φ j).1 - mid lo hi (φ i).1) • s) := by
    rw [P.ctr, P.ring]; unfold planePt px cx mid; ext <;> simp <;> ring
  have hD : (L j).ring.D = (L i).ctrP + (px xl δ lo hi (φ i).1 (φ i).2 ((φ j).2 + 1) (hi (φ j).1) • e + (hi (φ j).1 - mid lo hi (φ i).1) • s) := by
    rw [P.ctr, P.ring]; unfold planePt px cx mid; push_cast; ext <;> simp <;> ring
  have c1 : 0.04 ≤ px xl δ lo hi (φ i).1 (φ i).2 ((φ j).2 + 1) (lo (φ j).1) - px xl δ lo hi (φ i).1 (φ i).2 (φ j).2 (lo (φ j).1) := by
    rw [px_succ]; exact P.lo_wide _
  have c2 : 0.04 ≤ px xl δ lo hi (φ i).1 (φ i).2 ((φ j).2 + 1) (hi (φ j).1) - px xl δ lo hi (φ i).1 (φ i).2 (φ j).2 (hi (φ j).1) := by
    rw [px_succ]; exact P.hi_wide _
  rw [PySailing.influence_eq, velCoef_eq, P.normal]
  unfold entry bound trail
  rw [P.te]
  by_cases hk : ((φ j).2 : ℕ) + 1 = nc
  · rw [if_pos (by simpa using hk), if_pos hk, hV, F.slantShoe hA hB hC' hD hlt m1 m2 c1 c2 (hl j) hu, hk]
  · rw [if_neg (by simpa using hk), if_neg hk, F.slantRing hA hB hC' hD hlt m1 m2 c1 c2]

/-! ### Signs -/

theorem lineO_sub (f : ℝ → ℝ) (x a b p : ℝ) :
    Taper.lineO (f a - x) (f b - x) (a - p) (b - p) = f a + (f b - f a) / (b - a) * (p - a) - x := by
  unfold Taper.lineO Taper.lineQ
  rw [show f b - x - (f a - x) = f b - f a by ring, show b - p - (a - p) = b - a by ring]
  ring

theorem lineO_mid (f : ℝ → ℝ) (x : ℝ) {a b : ℝ} (h : a < b) :
    Taper.lineO (f a - x) (f b - x) (a - (a + b) / 2) (b - (a + b) / 2) = (f a + f b) / 2 - x := by
  rw [lineO_sub]
  have := (sub_pos.2 h).ne'
  field_simp
  ring

/-- Edges of the strip of the control point. -/
theorem own_line (P : TaperLattice O e s xl δ bot top lo hi φ L te) (c : κ) (k k' : ℕ) :
    Taper.lineO (px xl δ lo hi c k k' (lo c)) (px xl δ lo hi c k k' (hi c)) (lo c - mid lo hi c) (hi c - mid lo hi c) =
      ((k' : ℝ) - k - 1 / 2) * ((δ (lo c) + δ (hi c)) / 2) := by
  refine (lineO_mid (fun y => xl y + (k' + 1 / 4) * δ y) (cx xl δ lo hi c k) (P.lt c)).trans ?_
  unfold cx
  ring

theorem own_abs (P : TaperLattice O e s xl δ bot top lo hi φ L te) (c : κ) (k k' : ℕ) :
    1e-4 ≤ |Taper.lineO (px xl δ lo hi c k k' (lo c)) (px xl δ lo hi c k k' (hi c)) (lo c - mid lo hi c) (hi c - mid lo hi c)| *
      (hi c - mid lo hi c - (lo c - mid lo hi c)) := by
  rw [P.own_line, sub_sub_sub_cancel_right]
  have h1 := P.lo_wide c
  have h2 := P.hi_wide c
  have h3 := P.high c
  rw [abs_mul, abs_of_pos (show 0 < (δ (lo c) + δ (hi c)) / 2 by linarith)]
  have : (1 : ℝ) / 2 ≤ |(k' : ℝ) - k - 1 / 2| := by
    rcases Nat.lt_or_ge k k' with h | h
    · have : (k : ℝ) + 1 ≤ k' := by exact_mod_cast h
      exact le_abs.2 (Or.inl (by linarith))
    · have : (k' : ℝ) ≤ k := by exact_mod_cast h
      exact le_abs.2 (Or.inr (by linarith))
  have h4 : (0.02 : ℝ) ≤ |(k' : ℝ) - k - 1 / 2| * ((δ (lo c) + δ (hi c)) / 2) := by nlinarith
  nlinarith

theorem own_pos (P : TaperLattice O e s xl δ bot top lo hi φ L te) (c : κ) {k k' : ℕ} (h : k < k') :
    0 < Taper.lineO (px xl δ lo hi c k k' (lo c)) (px xl δ lo hi c k k' (hi c)) (lo c - mid lo hi c) (hi c - mid lo hi c) := by
  rw [P.own_line]
  have h1 := P.lo_wide c
  have h2 := P.hi_wide c
  have : (k : ℝ) + 1 ≤ k' := by exact_mod_cast h
  apply mul_pos <;> linarith

theorem own_neg (P : TaperLattice O e s xl δ bot top lo hi φ L te) (c : κ) {k k' : ℕ} (h : k' ≤ k) :
    Taper.lineO (px xl δ lo hi c k k' (lo c)) (px xl δ lo hi c k k' (hi c)) (lo c - mid lo hi c) (hi c - mid lo hi c) < 0 := by
  rw [P.own_line]
  have h1 := P.lo_wide c
  have h2 := P.hi_wide c
  have : (k' : ℝ) ≤ k := by exact_mod_cast h
  apply mul_neg_of_neg_of_pos <;> linarith

/-- The trailing edge of any part of the sail outside the strip of the control point. -/
theorem trail_ok (P : TaperLattice O e s xl δ bot top lo hi φ L te) {C : ℝ} (hC : Taper.Fits C bot top fun y => xl y + (nc + 1 / 4) * δ y)
    (hC1 : C ≤ 1) (c : κ) {k : ℕ} (hk : k < nc) {a b : ℝ} (ha : a ∈ Icc bot top)
    (hb : b ∈ Icc bot top) (hab : a < b) (h : hi c ≤ a ∨ b ≤ lo c) :
    Taper.RearOk C (px xl δ lo hi c k nc a) (px xl δ lo hi c k nc b) (a - mid lo hi c) (b - mid lo hi c) := by
  have hlt := P.lt c
  have hs : 0 < a - mid lo hi c ∨ b - mid lo hi c < 0 := by
    unfold mid
    rcases h with h | h
    · left; linarith
    · right; linarith
  have h3 := P.lo_wide c
  have h4 := P.hi_wide c
  have h5 : (k : ℝ) + 1 ≤ nc := by exact_mod_cast hk
  obtain ⟨hC0, hC⟩ := hC
  rcases hC with hconc | ⟨Q, hQ, hlip, hw⟩
  · refine Taper.rearOk_ahead hC0 hC1 hs ?_
    have e := lineO_sub (fun y => xl y + (nc + 1 / 4) * δ y) (cx xl δ lo hi c k) a b (mid lo hi c)
    change 0 ≤ Taper.lineO (xl a + (nc + 1 / 4) * δ a - cx xl δ lo hi c k) (xl b + (nc + 1 / 4) * δ b - cx xl δ lo hi c k) _ _
    rw [e]
    have h1 := concave_ext hconc ha hb (P.mid_mem c) hab (hs.imp (fun h => by linarith) (fun h => by linarith))
    have h2 := hconc.2 (P.lo_mem c) (P.hi_mem c) (show (0 : ℝ) ≤ 1 / 2 by norm_num) (show (0 : ℝ) ≤ 1 / 2 by norm_num) (by norm_num)
    have e2 : (1 / 2 : ℝ) • lo c + (1 / 2 : ℝ) • hi c = mid lo hi c := by simp only [smul_eq_mul, mid]; ring
    rw [e2] at h2
    simp only [smul_eq_mul] at h2
    unfold cx
    nlinarith
  · have key : ∀ y ∈ Icc bot top, hi c ≤ y ∨ y ≤ lo c → -(Q * |y - mid lo hi c|) ≤ px xl δ lo hi c k nc y := by
      intro y hy ho
      have l1 := (abs_le.1 (hlip _ (P.lo_mem c) _ (P.hi_mem c)))
      rw [abs_of_neg (by linarith : lo c - hi c < 0)] at l1
      have hcx : 0 ≤ (xl (lo c) + (nc + 1 / 4) * δ (lo c) + (xl (hi c) + (nc + 1 / 4) * δ (hi c))) / 2 - cx xl δ lo hi c k := by
        unfold cx; nlinarith
      unfold px mid
      rcases ho with ho | ho
      · have l2 := (abs_le.1 (hlip _ hy _ (P.hi_mem c))).1
        rw [abs_of_nonneg (by linarith : 0 ≤ y - hi c)] at l2
        rw [abs_of_nonneg (by linarith)]
        simp only at l1 l2
        nlinarith
      · have l2 := (abs_le.1 (hlip _ hy _ (P.lo_mem c))).1
        rw [abs_of_nonpos (by linarith : y - lo c ≤ 0)] at l2
        rw [abs_of_nonpos (by linarith)]
        simp only at l1 l2
        nlinarith
    refine Taper.rearOk_slope hC0 hC1 (by linarith) hs hQ ?_ (key a ha (h.imp id fun h => by linarith))
      (key b hb (h.imp (fun h => by linarith) id)) hw
    have := hlip _ hb _ ha
    rw [abs_of_pos (by linarith : 0 < b - a)] at this
    unfold px
    rw [sub_sub_sub_cancel_right, sub_sub_sub_cancel_right]
    exact this

theorem outside (P : TaperLattice O e s xl δ bot top lo hi φ L te) {c c' : κ} (h : c ≠ c') : hi c ≤ lo c' ∨ hi c' ≤ lo c := P.disj c c' h

theorem entry_nonpos (P : TaperLattice O e s xl δ bot top lo hi φ L te) {C : ℝ} (hC : Taper.Fits C bot top fun y => xl y + (nc + 1 / 4) * δ y)
    (hC1 : C ≤ 1) {c c' : κ} {k k' : ℕ} (hk : k < nc)
    (h : (c, k) ≠ (c', k')) : entry C xl δ lo hi nc c k c' k' ≤ 0 := by
  have w1 := P.lo_wide c'
  have w2 := P.hi_wide c'
  have w := P.high c'
  have s1 := px_succ (xl := xl) (δ := δ) (lo := lo) (hi := hi) c k k' (lo c')
  have s2 := px_succ (xl := xl) (δ := δ) (lo := lo) (hi := hi) c k k' (hi c')
  unfold entry
  rw [sub_nonpos]
  by_cases hc : c = c'
  · subst hc
    have hne : k ≠ k' := fun e => h (by rw [e])
    have hy1 : lo c - mid lo hi c < 0 := by unfold mid; linarith [P.lt c]
    have hy2 : 0 < hi c - mid lo hi c := by unfold mid; linarith [P.lt c]
    split_ifs with hk'
    · rw [hk'] at s1 s2
      exact Taper.rear_inLine hC.1 hC1 hy1 hy2 (by linarith) (by linarith) (P.own_abs c k k') (P.own_pos c (by omega)) (P.own_pos c hk)
    · refine Taper.edge_inLine hy1 hy2 (by linarith) (by linarith) (P.own_abs c k k') (P.own_abs c k (k' + 1)) ?_
      rcases Nat.lt_or_ge k k' with h1 | h1
      · exact Or.inl ⟨P.own_pos c h1, P.own_pos c (by omega)⟩
      · exact Or.inr ⟨P.own_neg c h1, P.own_neg c (by omega)⟩
  · have hs := P.sides c c' hc
    have hh : 0.04 ≤ hi c' - mid lo hi c - (lo c' - mid lo hi c) := by linarith
    split_ifs with hk'
    · rw [hk'] at s1 s2
      exact Taper.rear_beside hC.1 hC1 hh hs (by linarith) (by linarith)
        (P.trail_ok hC hC1 c hk (P.lo_mem c') (P.hi_mem c') (P.lt c') (P.outside hc))
    · exact Taper.edge_beside hh hs (by linarith) (by linarith)

theorem strip_sum (C : ℝ) (hnc : 0 < nc) (c c' : κ) (k : ℕ) :
    ∑ k' : Fin nc, entry C xl δ lo hi nc c k c' k' = trail C xl δ lo hi nc c k c' - bound xl δ lo hi c k c' 0 := by
  rw [Fin.sum_univ_eq_sum_range (fun k' => entry C xl δ lo hi nc c k c' k')]
  obtain ⟨n, rfl⟩ : ∃ n, nc = n + 1 := ⟨nc - 1, by omega⟩
  rw [Finset.sum_range_succ]
  have h1 : ∑ k' ∈ Finset.range n, entry C xl δ lo hi (n + 1) c k c' k' =
      ∑ k' ∈ Finset.range n, (bound xl δ lo hi c k c' (k' + 1) - bound xl δ lo hi c k c' k') := by
    refine Finset.sum_congr rfl fun k' hk' => ?_
    unfold entry
    rw [if_neg (by have := Finset.mem_range.1 hk'; omega)]
  rw [h1, Finset.sum_range_sub (fun k' => bound xl δ lo hi c k c' k')]
  unfold entry
  rw [if_pos rfl]
  ring

/-- The sides. -/
noncomputable def side (C : ℝ) (xl δ : ℝ → ℝ) (lo hi : κ → ℝ) (nc : ℕ) (c : κ) (k : ℕ) (y : ℝ) : ℝ :=
  Taper.sd (px xl δ lo hi c k nc (y + mid lo hi c)) y + Taper.wk C (px xl δ lo hi c k nc (y + mid lo hi c)) y + 1 / y

theorem strip_ge (P : TaperLattice O e s xl δ bot top lo hi φ L te) (C : ℝ) (c c' : κ) (k : ℕ) :
    side C xl δ lo hi nc c k (hi c' - mid lo hi c) - side C xl δ lo hi nc c k (lo c' - mid lo hi c) ≤
      trail C xl δ lo hi nc c k c' - bound xl δ lo hi c k c' 0 := by
  have w := P.high c'
  have key : bound xl δ lo hi c k c' 0 + 1 / (hi c' - mid lo hi c) ≤ 1 / (lo c' - mid lo hi c) := by
    unfold bound
    by_cases hc : c = c'
    · subst hc
      have a := P.own_abs c k 0
      have b := P.own_neg c (Nat.zero_le k)
      have hw : 0 < hi c - mid lo hi c := by unfold mid; linarith
      have e : lo c - mid lo hi c = -(hi c - mid lo hi c) := by unfold mid; ring
      rw [e] at a b ⊢
      have := Taper.front_own hw a b
      have e2 : 1 / -(hi c - mid lo hi c) = -(1 / (hi c - mid lo hi c)) := by rw [div_neg]
      have e3 : 2 / (hi c - mid lo hi c) = 2 * (1 / (hi c - mid lo hi c)) := by ring
      linarith
    · exact Taper.front_beside (by linarith) (P.sides c c' hc)
  unfold side trail Taper.rear
  simp only [sub_add_cancel]
  linarith

theorem row_sum_side (P : TaperLattice O e s xl δ bot top lo hi φ L te) {C : ℝ} (hC : Taper.Fits C bot top fun y => xl y + (nc + 1 / 4) * δ y)
    (hC1 : C ≤ 1) (i : Fin K) : side C xl δ lo hi nc (φ i).1 (φ i).2 (top - mid lo hi (φ i).1) -
      side C xl δ lo hi nc (φ i).1 (φ i).2 (-(mid lo hi (φ i).1 - bot)) ≤ ∑ j, entry C xl δ lo hi nc (φ i).1 (φ i).2 (φ j).1 (φ j).2 := by
  have hk := (φ i).2.isLt
  rw [φ.sum_comp (fun q => entry C xl δ lo hi nc (φ i).1 (φ i).2 q.1 q.2), Fintype.sum_prod_type]
  simp only [strip_sum C (by omega : 0 < nc)]
  have hw := P.high (φ i).1
  have m0 := P.mid_mem (φ i).1
  have hbot : bot ≤ lo (φ i).1 := P.bot_le _
  have htop : hi (φ i).1 ≤ top := P.le_top _
  have elo : lo (φ i).1 = mid lo hi (φ i).1 - (hi (φ i).1 - lo (φ i).1) / 2 := by unfold mid; ring
  have ehi : hi (φ i).1 = mid lo hi (φ i).1 + (hi (φ i).1 - lo (φ i).1) / 2 := by unfold mid; ring
  have hbt : bot < mid lo hi (φ i).1 := by linarith
  have htt : mid lo hi (φ i).1 < top := by linarith
  have hle : bot ≤ top := by linarith
  have hmono : ∀ a b, a ∈ Icc bot top → b ∈ Icc bot top → a ≤ b → (hi (φ i).1 ≤ a ∨ b ≤ lo (φ i).1) →
      side C xl δ lo hi nc (φ i).1 (φ i).2 (b - mid lo hi (φ i).1) ≤ side C xl δ lo hi nc (φ i).1 (φ i).2 (a - mid lo hi (φ i).1) := by
    intro a b ha hb hab hs
    rcases hab.eq_or_lt with h | h
    · rw [h]
    have := Taper.side_beside hC.1 hC1 (by linarith) (hs.imp (fun h => by linarith) (fun h => by linarith))
      (P.trail_ok hC hC1 (φ i).1 hk ha hb h hs)
    unfold side
    simp only [sub_add_cancel]
    linarith
  have hsum := Taper.sum_strips_ge (H := side C xl δ lo hi nc (φ i).1 (φ i).2) (w := (hi (φ i).1 - lo (φ i).1) / 2)
    (T := top - mid lo hi (φ i).1) (B := mid lo hi (φ i).1 - bot) (by linarith)
    (fun x y hx hxy hy => by
      have := hmono (x + mid lo hi (φ i).1) (y + mid lo hi (φ i).1) ⟨by linarith, by linarith⟩ ⟨by linarith, by linarith⟩ (by linarith)
        (Or.inl (by linarith))
      simpa only [add_sub_cancel_right] using this)
    (fun x y hx hxy hy => by
      have := hmono (x + mid lo hi (φ i).1) (y + mid lo hi (φ i).1) ⟨by linarith, by linarith⟩ ⟨by linarith, by linarith⟩ (by linarith)
        (Or.inr (by linarith))
      simpa only [add_sub_cancel_right] using this)
    (a := fun c => lo c - mid lo hi (φ i).1) (b := fun c => hi c - mid lo hi (φ i).1) (fun c => by linarith [P.lt c])
    (fun c c' h => by
      rcases P.disj c c' h with h | h
      · left; linarith
      · right; linarith) (i := (φ i).1) (by linarith) (by linarith) (fun c => by linarith [P.le_top c]) (fun c => by linarith [P.bot_le c])
  exact hsum.trans (Finset.sum_le_sum fun c _ => P.strip_ge C (φ i).1 c (φ i).2)

theorem row_sum (P : TaperLattice O e s xl δ bot top lo hi φ L te) {C : ℝ} (hC : Taper.Fits C bot top fun y => xl y + (nc + 1 / 4) * δ y)
    (hC1 : C ≤ 1) (i : Fin K) : 0 < ∑ j, entry C xl δ lo hi nc (φ i).1 (φ i).2 (φ j).1 (φ j).2 := by
  refine lt_of_lt_of_le ?_ (P.row_sum_side hC hC1 i)
  have hw := P.high (φ i).1
  have elo : lo (φ i).1 = mid lo hi (φ i).1 - (hi (φ i).1 - lo (φ i).1) / 2 := by unfold mid; ring
  have ehi : hi (φ i).1 = mid lo hi (φ i).1 + (hi (φ i).1 - lo (φ i).1) / 2 := by unfold mid; ring
  have hbot : bot ≤ lo (φ i).1 := P.bot_le _
  have htop : hi (φ i).1 ≤ top := P.le_top _
  have ht : 0 < side C xl δ lo hi nc (φ i).1 (φ i).2 (top - mid lo hi (φ i).1) := Taper.end_pos hC.1 hC1 (by linarith)
  have hb : side C xl δ lo hi nc (φ i).1 (φ i).2 (-(mid lo hi (φ i).1 - bot)) < 0 := by
    unfold side
    rw [Taper.sd_neg_right, Taper.wk_neg_right, div_neg]
    have := Taper.end_pos hC.1 hC1 (x := px xl δ lo hi (φ i).1 (φ i).2 nc (-(mid lo hi (φ i).1 - bot) + mid lo hi (φ i).1))
      (y := mid lo hi (φ i).1 - bot) (by linarith)
    linarith
  linarith

variable {V : Fin K → V3} {g C S : ℝ} {l : Fin K → ℝ}

/-- The influence matrix up to a factor. -/
noncomputable def kernel (C : ℝ) (xl δ : ℝ → ℝ) (lo hi : κ → ℝ) (φ : Fin K ≃ κ × Fin nc) : Matrix (Fin K) (Fin K) ℝ :=
  fun i j => entry C xl δ lo hi nc (φ i).1 (φ i).2 (φ j).1 (φ j).2

theorem kernel_off (P : TaperLattice O e s xl δ bot top lo hi φ L te) (hC : Taper.Fits C bot top fun y => xl y + (nc + 1 / 4) * δ y) (hC1 : C ≤ 1) (i j : Fin K) (h : i ≠ j) :
    kernel C xl δ lo hi φ i j ≤ 0 := by
  refine P.entry_nonpos hC hC1 (φ i).2.isLt fun h0 => h (φ.injective (Prod.ext (Prod.ext_iff.1 h0).1 ?_))
  exact Fin.ext (Prod.ext_iff.1 h0).2

theorem kernel_sum_pos (P : TaperLattice O e s xl δ bot top lo hi φ L te) (hC : Taper.Fits C bot top fun y => xl y + (nc + 1 / 4) * δ y) (hC1 : C ≤ 1) (i : Fin K) :
    0 < ∑ j, kernel C xl δ lo hi φ i j := P.row_sum hC hC1 i

theorem influence_kernel (P : TaperLattice O e s xl δ bot top lo hi φ L te) (hl : ∀ i, 0 < l i)
    (hV : ∀ i, V i = l i • (C • e + S • V3.cross s e)) (hu : C ^ 2 + S ^ 2 = 1) :
    influence L te V g = (g / (4 * Real.pi)) • kernel C xl δ lo hi φ := by
  ext i j
  exact P.influence_eq hl hV hu i j

theorem regular (P : TaperLattice O e s xl δ bot top lo hi φ L te) (hg : g ≠ 0) (hl : ∀ i, 0 < l i)
    (hV : ∀ i, V i = l i • (C • e + S • V3.cross s e)) (hu : C ^ 2 + S ^ 2 = 1) (hC : Taper.Fits C bot top fun y => xl y + (nc + 1 / 4) * δ y) :
    (influence L te V g).det ≠ 0 := by
  have hC1 := PlanarLattice.le_one hu
  rw [P.influence_kernel hl hV hu, Matrix.det_smul]
  refine mul_ne_zero (pow_ne_zero _ ?_) (det_ne_zero_of_rowSum (P.kernel_off hC hC1) (P.kernel_sum_pos hC hC1))
  have := Real.pi_pos
  positivity

omit [Fintype κ] [DecidableEq κ] in
theorem wind_ne (P : TaperLattice O e s xl δ bot top lo hi φ L te) (hl : ∀ i, 0 < l i)
    (hV : ∀ i, V i = l i • (C • e + S • V3.cross s e)) (hu : C ^ 2 + S ^ 2 = 1) (j : Fin K) : V j ≠ 0 := by
  have F := P.frame
  rw [hV]
  intro h0
  have h1 : ((l j) • (C • e + S • V3.cross s e)).dot (C • e + S • V3.cross s e) = l j := by
    simp only [V3.dot_add_left, V3.dot_add_right, V3.dot_smul_left, V3.dot_smul_right, F.ee, F.nn, PlaneFrame.en,
      V3.dot_cross_right]
    linear_combination l j * hu
  rw [h0, V3.dot_zero_left] at h1
  exact (hl j).ne h1

/-- The wakes pass the middle of no strip. -/
theorem clear (P : TaperLattice O e s xl δ bot top lo hi φ L te) (hl : ∀ i, 0 < l i)
    (hV : ∀ i, V i = l i • (C • e + S • V3.cross s e)) (hu : C ^ 2 + S ^ 2 = 1) (x : Fin K → ℝ) :
    clearOfWakes L te V fun i => planePt O e s (x i) ((lo (φ i).1 + hi (φ i).1) / 2) := by
  have F := P.frame
  have hse : s.dot e = 0 := by rw [V3.dot_comm]; exact F.es
  have hVs : ∀ j, (V j).dot s = 0 := by
    intro j
    rw [hV, V3.dot_smul_left, V3.dot_add_left, V3.dot_smul_left, V3.dot_smul_left, F.es, V3.dot_cross_left]
    ring
  have key : ∀ (i : Fin K) (j : Fin K) (r a t : ℝ), t - (lo (φ i).1 + hi (φ i).1) / 2 ≠ 0 →
      planePt O e s (x i) ((lo (φ i).1 + hi (φ i).1) / 2) ≠ planePt O e s a t + r • V j := by
    intro i j r a t ht h0
    have h1 := congrArg (fun v => (v - O).dot s) h0
    have e1 : ∀ a b : ℝ, ((a • e + b • s) : V3).dot s = b := by
      intro a b
      rw [V3.dot_add_left, V3.dot_smul_left, V3.dot_smul_left, F.ss, F.es]
      ring
    have e2 : (planePt O e s (x i) ((lo (φ i).1 + hi (φ i).1) / 2) - O).dot s = (lo (φ i).1 + hi (φ i).1) / 2 := by
      unfold planePt; rw [add_sub_cancel_left, e1]
    have e3 : (planePt O e s a t + r • V j - O).dot s = t := by
      unfold planePt; rw [add_assoc, add_sub_cancel_left, V3.dot_add_left, e1, V3.dot_smul_left, hVs, mul_zero, add_zero]
    simp only [e2, e3] at h1
    exact ht (by linarith)
  intro i j _
  refine ⟨P.wind_ne hl hV hu j, fun r _ => ?_⟩
  obtain ⟨m1, m2⟩ := P.half_le (φ i).1 (φ j).1
  rw [P.ring]
  refine ⟨key i j r _ _ ?_, key i j r _ _ ?_⟩
  · intro h0
    have : |lo (φ j).1 - mid lo hi (φ i).1| = 0 := by unfold mid; rw [h0, abs_zero]
    rw [this] at m1; norm_num at m1
  · intro h0
    have : |hi (φ j).1 - mid lo hi (φ i).1| = 0 := by unfold mid; rw [h0, abs_zero]
    rw [this] at m2; norm_num at m2

/-- The lattice is well posed. -/
theorem wellPosed (P : TaperLattice O e s xl δ bot top lo hi φ L te) (hg : g ≠ 0) (hl : ∀ i, 0 < l i)
    (hV : ∀ i, V i = l i • (C • e + S • V3.cross s e)) (hu : C ^ 2 + S ^ 2 = 1) (hC : Taper.Fits C bot top fun y => xl y + (nc + 1 / 4) * δ y) {areas : Fin K → ℝ}
    (ha : ∀ i, 1e-14 ≤ areas i) {rho : ℝ} (hr : rho ≠ 0) : WellPosed L areas te rho g V where
  ctr := by
    have := P.clear hl hV hu (fun i => (xl (lo (φ i).1) + xl (hi (φ i).1)) / 2 +
      (((φ i).2 : ℕ) + 3 / 4) * ((δ (lo (φ i).1) + δ (hi (φ i).1)) / 2))
    simpa only [P.ctr] using this
  cp := by
    have := P.clear hl hV hu (fun i => (xl (lo (φ i).1) + xl (hi (φ i).1)) / 2 +
      (((φ i).2 : ℕ) + 1 / 4) * ((δ (lo (φ i).1) + δ (hi (φ i).1)) / 2))
    simpa only [P.cp] using this
  regular := P.regular hg hl hV hu hC
  areas := ha
  rho := fun _ => hr
  wind := P.wind_ne hl hV hu

/-- The equations of the circulations, scaled. -/
theorem kernel_gamma_scaled (P : TaperLattice O e s xl δ bot top lo hi φ L te) (hg : g ≠ 0) (hl : ∀ i, 0 < l i)
    (hV : ∀ i, V i = l i • (C • e + S • V3.cross s e)) (hu : C ^ 2 + S ^ 2 = 1) (hC : Taper.Fits C bot top fun y => xl y + (nc + 1 / 4) * δ y) (i : Fin K) :
    ∑ j, kernel C xl δ lo hi φ i j * (-(S * (g * coreGamma L te g V j))) = 4 * Real.pi * S ^ 2 * l i := by
  have F := P.frame
  have hpi := Real.pi_pos
  have hsol := influence_mulVec_coreGamma (P.regular hg hl hV hu hC)
  have hVn : ∀ i, (V i).dot (L i).normal = l i * S := by
    intro i
    rw [hV, P.normal, V3.dot_smul_left, V3.dot_add_left, V3.dot_smul_left, V3.dot_smul_left, F.nn, PlaneFrame.en]
    ring
  have h1 := congrFun hsol i
  rw [P.influence_kernel hl hV hu, hVn, Matrix.smul_mulVec, Pi.smul_apply, smul_eq_mul] at h1
  have h2 : ∑ j, kernel C xl δ lo hi φ i j * (-(S * (g * coreGamma L te g V j))) =
      -S * (g * (kernel C xl δ lo hi φ).mulVec (coreGamma L te g V) i) := by
    unfold Matrix.mulVec dotProduct
    rw [Finset.mul_sum, Finset.mul_sum]
    exact Finset.sum_congr rfl fun j _ => by ring
  rw [h2]
  field_simp at h1
  have h3 : g * (kernel C xl δ lo hi φ).mulVec (coreGamma L te g V) i = -(4 * Real.pi * (l i * S)) := by linarith
  rw [h3]
  ring

/-- Sign of the circulations. -/
theorem gamma_sign (P : TaperLattice O e s xl δ bot top lo hi φ L te) (hg : g ≠ 0) (hl : ∀ i, 0 < l i)
    (hV : ∀ i, V i = l i • (C • e + S • V3.cross s e)) (hu : C ^ 2 + S ^ 2 = 1) (hC : Taper.Fits C bot top fun y => xl y + (nc + 1 / 4) * δ y) (hS : S ≠ 0) (i : Fin K) :
    0 < -(S * (g * coreGamma L te g V i)) := by
  have hpi := Real.pi_pos
  have hC1 := PlanarLattice.le_one hu
  refine solution_pos (P.kernel_off hC hC1) (P.kernel_sum_pos hC hC1) (x := fun j => -(S * (g * coreGamma L te g V j))) (fun k => ?_) i
  rw [P.kernel_gamma_scaled hg hl hV hu hC]
  have := hl k
  positivity

/-- Without a wind component normal to the plane there is no circulation. -/
theorem gamma_zero (P : TaperLattice O e s xl δ bot top lo hi φ L te) (hg : g ≠ 0) (hl : ∀ i, 0 < l i)
    (hV : ∀ i, V i = l i • (C • e + S • V3.cross s e)) (hu : C ^ 2 + S ^ 2 = 1) (hC : Taper.Fits C bot top fun y => xl y + (nc + 1 / 4) * δ y) (hS : S = 0) (i : Fin K) :
    g * coreGamma L te g V i = 0 := by
  have hreg := P.regular hg hl hV hu hC
  have h0 : (influence L te V g).mulVec (coreGamma L te g V) = 0 := by
    rw [influence_mulVec_coreGamma hreg]
    funext k
    rw [hV, P.normal, V3.dot_smul_left, V3.dot_add_left, V3.dot_smul_left, V3.dot_smul_left, PlaneFrame.en, hS]
    simp
  rw [congrFun (Matrix.eq_zero_of_mulVec_eq_zero hreg h0) i, Pi.zero_apply, mul_zero]

/-- More wind gives more circulation everywhere. -/
theorem gamma_mono (P : TaperLattice O e s xl δ bot top lo hi φ L te) (hg : g ≠ 0) {V' : Fin K → V3} {l' : Fin K → ℝ}
    (hl : ∀ i, 0 < l i) (hl' : ∀ i, l i ≤ l' i)
    (hV : ∀ i, V i = l i • (C • e + S • V3.cross s e)) (hV' : ∀ i, V' i = l' i • (C • e + S • V3.cross s e))
    (hu : C ^ 2 + S ^ 2 = 1) (hC : Taper.Fits C bot top fun y => xl y + (nc + 1 / 4) * δ y) (i : Fin K) :
    -(S * (g * coreGamma L te g V i)) ≤ -(S * (g * coreGamma L te g V' i)) := by
  have hpi := Real.pi_pos
  have hC1 := PlanarLattice.le_one hu
  refine solution_le_of (P.kernel_off hC hC1) (P.kernel_sum_pos hC hC1) (x := fun j => -(S * (g * coreGamma L te g V j)))
    (z := fun j => -(S * (g * coreGamma L te g V' j))) (fun k => ?_) i
  rw [P.kernel_gamma_scaled hg hl hV hu hC, P.kernel_gamma_scaled hg (fun i => (hl i).trans_le (hl' i)) hV' hu hC]
  apply mul_le_mul_of_nonneg_left (hl' k)
  positivity

end TaperLattice

end PySailing
