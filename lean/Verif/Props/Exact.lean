import Verif.Props.Rotations
import Verif.Props.Mesh
import Verif.Props.Sail
import Verif.Props.Vortex
import Verif.Spec.Scaling
import Verif.Lemmas.Decay

/-!
# Where exactly the refuted properties C05, C15, C19 and C29 hold
-/

namespace PySailing.Props

open PySailing PySailing.Spec

/-! ## C05 -/

/-- **C05, exactly where it holds.**  The heel and leeway transform of a point is undone if and only if the
heel does not carry the point across the water plane, or the heel is a multiple of 180 degrees. -/
theorem C05_exact (c : Csys) (p : V3) :
    c.reverseRotationsWithMirror (c.rotatePointWithMirror p) = p ↔
      (0 < p.z ↔ 0 < (c.rotatePointWithMirror p).z) ∨ Real.sin (deg2rad c.heelDeg) = 0 := by
  obtain ⟨S, hS⟩ : ∃ S, S = Real.sin (deg2rad c.heelDeg) := ⟨_, rfl⟩
  obtain ⟨C, hC⟩ : ∃ C, C = Real.cos (deg2rad c.heelDeg) := ⟨_, rfl⟩
  have hsc : S ^ 2 + C ^ 2 = 1 := by rw [hS, hC]; exact Real.sin_sq_add_cos_sq _
  by_cases hside : 0 < p.z ↔ 0 < (c.rotatePointWithMirror p).z
  · exact ⟨fun _ => Or.inl hside, fun _ => C05_round_trip_partial c p hside⟩
  simp only [hside, false_or]
  by_cases hp : 0 < p.z
  · have hq : ¬ 0 < (c.rotatePointWithMirror p).z := fun h => hside ⟨fun _ => h, fun _ => hp⟩
    rw [c.rotatePointWithMirror_pos hp] at hq ⊢
    simp only [Csys.reverseRotationsWithMirror, Csys.reverseLeeway_leeway]
    have hz : (c.leeway.mulVec (c.heeling.mulVec p)).z = (c.heeling.mulVec p).z := by
      rw [c.leeway_mulVec]
    rw [hz] at hq
    rw [if_neg hq, c.heeling_mulVec, c.heeling_mulVec, ← hS, ← hC]
    rw [c.heeling_mulVec, ← hS, ← hC] at hq
    constructor
    · intro h
      have hy := congrArg V3.y h
      have hz := congrArg V3.z h
      simp only at hy hz hq
      -- the double rotation fixes `(y, z)`, hence `S = 0`
      have h1 : S * (S * p.y - C * p.z) = 0 := by linear_combination (-1/2) * hy + (1/2) * p.y * hsc
      have h2 : S * (S * p.z + C * p.y) = 0 := by linear_combination (-1/2) * hz + (1/2) * p.z * hsc
      by_contra h0
      have e1 := (mul_eq_zero.1 h1).resolve_left h0
      have e2 := (mul_eq_zero.1 h2).resolve_left h0
      have : p.z = 0 := by
        have : (S ^ 2 + C ^ 2) * p.z = 0 := by linear_combination S * e2 - C * e1
        rwa [hsc, one_mul] at this
      linarith
    · intro h0
      rw [h0] at hsc ⊢
      have : C * C = 1 := by linarith
      ext <;> simp <;> rw [← mul_assoc, this, one_mul]
  · have hq : 0 < (c.rotatePointWithMirror p).z := by
      by_contra h; exact hside ⟨fun h' => absurd h' hp, fun h' => absurd h' h⟩
    rw [c.rotatePointWithMirror_npos hp] at hq ⊢
    simp only [Csys.reverseRotationsWithMirror, Csys.reverseLeeway_leeway]
    have hz : (c.leeway.mulVec (c.reverseHeeling.mulVec p)).z = (c.reverseHeeling.mulVec p).z := by
      rw [c.leeway_mulVec]
    rw [hz] at hq
    rw [if_pos hq, c.reverseHeeling_mulVec, c.reverseHeeling_mulVec, ← hS, ← hC]
    rw [c.reverseHeeling_mulVec, ← hS, ← hC] at hq
    constructor
    · intro h
      have hy := congrArg V3.y h
      have hz := congrArg V3.z h
      simp only at hy hz hq
      have h1 : S * (S * p.y + C * p.z) = 0 := by linear_combination (-1/2) * hy + (1/2) * p.y * hsc
      have h2 : S * (S * p.z - C * p.y) = 0 := by linear_combination (-1/2) * hz + (1/2) * p.z * hsc
      by_contra h0
      have e1 := (mul_eq_zero.1 h1).resolve_left h0
      have e2 := (mul_eq_zero.1 h2).resolve_left h0
      linarith
    · intro h0
      rw [h0] at hsc ⊢
      have : C * C = 1 := by linarith
      ext <;> simp <;> rw [← mul_assoc, this, one_mul]

/-- Both cases of `C05_exact` occur: without heel every point is restored; with 90 degrees of heel the
point `(0, 1, 1)` is not. -/
example : Real.sin (deg2rad (⟨0, 5, 0⟩ : Csys).heelDeg) = 0 ∧
    Real.sin (deg2rad (⟨90, 5, 0⟩ : Csys).heelDeg) ≠ 0 := by
  refine ⟨by simp [deg2rad], ?_⟩
  rw [show (⟨90, 5, 0⟩ : Csys).heelDeg = 90 from rfl, deg2rad_90]
  simp

/-! ## C15 -/

/-- **C15, exactly where it holds.**  For every plane quadrilateral (with unit normal `n`,
turning left at `p2`, `p3` and `p4` when seen along `-n`) the computed area differs from the true one by half of
`(p2 - p1) × (p4 - p3) · n`; it is right if and only if the chordwise edges `p1 p2` and `p3 p4` are parallel. -/
theorem C15_exact (q : Panel) (n : V3) (hn : n.norm = 1) (α β γ κ : ℝ)
    (hα : 0 < α) (hβ : 0 < β) (hγ : 0 < γ)
    (h2 : V3.cross (q.p2 - q.p1) (q.p3 - q.p2) = α • n) (h3 : V3.cross (q.p3 - q.p2) (q.p4 - q.p3) = β • n)
    (h4 : V3.cross (q.p4 - q.p3) (q.p1 - q.p4) = γ • n)
    (hκ : V3.cross (q.p2 - q.p1) (q.p4 - q.p3) = κ • n) :
    getPanelsArea [q] = [quadArea q.p1 q.p2 q.p3 q.p4 - κ / 2] ∧
    (getPanelsArea [q] = [quadArea q.p1 q.p2 q.p3 q.p4] ↔ V3.cross (q.p2 - q.p1) (q.p4 - q.p3) = 0) := by
  have hn0 : n ≠ 0 := by rintro rfl; simp at hn
  -- the two diagonals
  have hd : V3.cross (q.p3 - q.p1) (q.p4 - q.p2) = (α + β + κ) • n := by
    have : V3.cross (q.p3 - q.p1) (q.p4 - q.p2) = V3.cross (q.p2 - q.p1) (q.p3 - q.p2)
        + V3.cross (q.p3 - q.p2) (q.p4 - q.p3) + V3.cross (q.p2 - q.p1) (q.p4 - q.p3) := by
      ext <;> simp <;> ring
    rw [this, h2, h3, hκ, ← add_smul, ← add_smul]
  -- the other two triangles give the same area, hence it is positive
  have hs : (α + γ) • n = (α + β + κ) • n := by
    have : V3.cross (q.p3 - q.p1) (q.p4 - q.p2) = V3.cross (q.p2 - q.p1) (q.p3 - q.p2)
        + V3.cross (q.p4 - q.p3) (q.p1 - q.p4) := by
      ext <;> simp <;> ring
    rw [← hd, this, h2, h4, ← add_smul]
  have hpos : 0 < α + β + κ := by
    have h0 : (α + γ - (α + β + κ)) • n = 0 := by rw [sub_smul, hs, sub_self]
    have := (smul_eq_zero.1 h0).resolve_right hn0
    linarith
  have hq : quadArea q.p1 q.p2 q.p3 q.p4 = (α + β + κ) / 2 := by
    rw [quadArea, hd, V3.norm_smul, hn, abs_of_pos hpos, mul_one]
  have ha : getPanelsArea [q] = [(α + β) / 2] := by
    simp only [getPanelsArea, List.map_cons, List.map_nil, panelArea, h2, h3, V3.norm_smul, hn,
      abs_of_pos hα, abs_of_pos hβ, mul_one, List.cons.injEq, and_true]
    ring
  refine ⟨by rw [ha, hq]; congr 1; ring, ?_⟩
  rw [ha, hq, hκ]
  simp only [List.cons.injEq, and_true, smul_eq_zero, hn0, or_false]
  constructor <;> intro h <;> linarith

/-- Non-vacuity: the quadrilateral of `C15_refuted`. -/
example : let q : Panel := ⟨⟨0, 0, 0⟩, ⟨2, 0, 0⟩, ⟨2, 2, 0⟩, ⟨0, 1, 0⟩⟩
    let n : V3 := ⟨0, 0, 1⟩
    V3.cross (q.p2 - q.p1) (q.p3 - q.p2) = (4 : ℝ) • n ∧ V3.cross (q.p3 - q.p2) (q.p4 - q.p3) = (4 : ℝ) • n ∧
    V3.cross (q.p4 - q.p3) (q.p1 - q.p4) = (2 : ℝ) • n ∧
    V3.cross (q.p2 - q.p1) (q.p4 - q.p3) = (-2 : ℝ) • n := by
  refine ⟨?_, ?_, ?_, ?_⟩ <;> ext <;> simp <;> norm_num

/-! ## C19 -/

/-- **C19, exactly where it holds for the jib.**  With a mast that is not horizontal and a forestay of
non-zero length, the computed head of a jib of positive luff length is one luff length up the forestay if and
only if the forestay does not lean forward, `height * cos rake ≤ base`. -/
theorem C19_exact (f : SailFactory) (luff base height loa : ℝ) (hl : 0 < luff)
    (hs : 0 < Real.sin (deg2rad f.rakeDeg)) (hf : forestay f.rakeDeg base height ≠ 0) :
    ∃ tack head, f.jibMounting luff base height loa = .ok (tack, head) ∧
      tack = f.sheer • mastDirection f.rakeDeg - ⟨base + loa / Real.sin (deg2rad f.rakeDeg), 0, 0⟩ ∧
      (head = tack + luff • unit (forestay f.rakeDeg base height) ↔
        height * Real.cos (deg2rad f.rakeDeg) ≤ base) := by
  refine ⟨_, _, jibMounting_eq f luff base height loa hs hf, rfl, ?_⟩
  have hn := V3.norm_pos hf
  have hx : (forestay f.rakeDeg base height).x = base - height * Real.cos (deg2rad f.rakeDeg) := by
    simp [forestay, mastDirection]; ring
  have hy : (forestay f.rakeDeg base height).y = 0 := by simp [forestay, mastDirection]
  rw [add_right_inj, unit, smul_smul, mul_one_div]
  constructor
  · intro h
    have h := congrArg V3.x h
    simp only [V3.smul_x] at h
    have := mul_left_cancel₀ (div_pos hl hn).ne' h
    rw [abs_eq_self, hx] at this
    linarith
  · intro h
    congr 1
    ext
    · simp only; rw [abs_of_nonneg (by rw [hx]; linarith)]
    · exact hy.symm
    · rfl

/-- Non-vacuity: a vertical mast. -/
example : 0 < Real.sin (deg2rad 90) ∧ forestay 90 5 12 ≠ 0 := by
  refine ⟨by rw [deg2rad_90]; simp, fun h => ?_⟩
  have := congrArg V3.z h
  simp [forestay, mastDirection, deg2rad_90] at this

/-! ## C29 -/

/-- Outside of the core a vortex segment with circulation induces a velocity. -/
theorem vortexLine_ne_zero {p p1 p2 : V3} {γ : ℝ} (hγ : γ ≠ 0) (h : ¬ inSegmentCore p p1 p2) :
    vortexLine p p1 p2 γ ≠ 0 := by
  have hc := not_core_cross h
  rw [vortexLine_out γ h]
  obtain ⟨a, ha⟩ : ∃ a, a = p - p1 := ⟨_, rfl⟩
  obtain ⟨b, hb⟩ : ∃ b, b = p - p2 := ⟨_, rfl⟩
  have hab : p2 - p1 = a - b := by rw [ha, hb]; abel
  rw [← ha, ← hb] at hc ⊢
  rw [hab]
  have ha0 : a ≠ 0 := by rintro rfl; exact hc (by simp)
  have hb0 : b ≠ 0 := by rintro rfl; exact hc (by simp)
  have na := V3.norm_pos ha0
  have nb := V3.norm_pos hb0
  have nc := V3.norm_pos hc
  have hpi := Real.pi_pos
  have sa : a.dot a = a.norm * a.norm := (V3.norm_mul_self a).symm
  have sb : b.dot b = b.norm * b.norm := (V3.norm_mul_self b).symm
  -- strict Cauchy-Schwarz inequality
  have hlt : a.dot b < a.norm * b.norm := by
    have lag : (V3.cross a b).dot (V3.cross a b) = a.dot a * b.dot b - a.dot b ^ 2 := by
      simp only [V3.dot, V3.cross_x, V3.cross_y, V3.cross_z]; ring
    have hpos : 0 < (V3.cross a b).dot (V3.cross a b) := by
      rw [← V3.norm_mul_self]; positivity
    rw [lag, sa, sb] at hpos
    by_contra hge
    push Not at hge
    have : 0 ≤ a.norm * b.norm := by positivity
    nlinarith
  have hdot : (a - b).dot ((1 / a.norm) • a - (1 / b.norm) • b) =
      (a.norm + b.norm) * (a.norm * b.norm - a.dot b) / (a.norm * b.norm) := by
    rw [V3.dot_sub_right, V3.dot_sub_left, V3.dot_sub_left, V3.dot_smul_right, V3.dot_smul_right, V3.dot_smul_right,
      V3.dot_smul_right, sa, sb, V3.dot_comm b a]
    field_simp
    ring
  rw [hdot]
  refine smul_ne_zero (div_ne_zero hγ (by positivity)) (smul_ne_zero ?_ (smul_ne_zero ?_ hc))
  · exact (div_pos (mul_pos (by positivity) (by linarith)) (by positivity)).ne'
  · positivity

/-- **C29, exactly where it holds.**  Enlarging point and vortex segment `s` times divides the induced velocity
by `s` if and only if it brings the point neither into the core of the segment nor out of it (or there is no
circulation). -/
theorem C29_exact (p p1 p2 : V3) (γ s : ℝ) (hs : 0 < s) :
    vortexLine (s • p) (s • p1) (s • p2) γ = (1 / s) • vortexLine p p1 p2 γ ↔ γ = 0 ∨ sameCore s p p1 p2 := by
  by_cases hγ : γ = 0
  · simp only [hγ, true_or, iff_true]
    rw [vortexLine_gamma _ _ _ 0, zero_smul, vortexLine_gamma _ _ _ 0, zero_smul, smul_zero]
  simp only [hγ, false_or]
  have hs' : (1 / s : ℝ) ≠ 0 := (one_div_pos.2 hs).ne'
  constructor
  · intro h
    constructor
    · intro hc
      by_contra hn
      rw [vortexLine_core γ hc] at h
      exact smul_ne_zero hs' (vortexLine_ne_zero hγ hn) h.symm
    · intro hc
      by_contra hn
      rw [vortexLine_core γ hc, smul_zero] at h
      exact vortexLine_ne_zero hγ hn h
  · intro h
    by_cases hc : inSegmentCore p p1 p2
    · rw [vortexLine_core γ hc, vortexLine_core γ (h.2 hc), smul_zero]
    · exact vortexLine_scale γ hs hc (mt h.1 hc)

/-- Non-vacuity: a point one metre abeam of a segment of one metre, and the double size. -/
example : sameCore 2 ⟨1, 0, 0⟩ 0 ⟨0, 1, 0⟩ := by
  have n1 : (⟨1, 0, 0⟩ : V3).norm = 1 := by simp [V3.norm, V3.dot]
  have e1 : (⟨1, 0, 0⟩ : V3) - 0 = ⟨1, 0, 0⟩ := by simp
  have n2 : 1 ≤ ((⟨1, 0, 0⟩ : V3) - ⟨0, 1, 0⟩).norm := by
    rw [V3.norm]; apply Real.le_sqrt_of_sq_le; norm_num [V3.dot]
  have n3 : (V3.cross (⟨1, 0, 0⟩ : V3) ((⟨1, 0, 0⟩ : V3) - ⟨0, 1, 0⟩)).norm ^ 2 = 1 := by
    rw [V3.norm_sq]; norm_num [V3.dot]
  unfold sameCore inSegmentCore
  rw [← smul_sub, ← smul_sub, V3.cross_smul_left, V3.cross_smul_right, smul_smul, V3.norm_smul,
    V3.norm_smul, V3.norm_smul, mul_pow, e1, n1, n3]
  norm_num
  constructor <;> intro h <;> exfalso <;> linarith

end PySailing.Props
