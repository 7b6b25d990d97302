import Verif.Lemmas.Csys

/-!
# C01, C02, C03, C05, C06, C07, C08, C59: rotations and coordinate systems
-/

namespace PySailing.Props

open PySailing PySailing.Spec

/-! ## C01 -/

/-- **C01.** For every non-zero axis `rotation_matrix` returns a matrix; applied to any vector it
is Rodrigues' rotation about the normalised axis; it preserves dot products, cross products (so
it is a *proper* rotation) and fixes the axis.  For the zero axis it returns no finite matrix. -/
theorem C01_rotation_matrix_is_rodrigues (axis : V3) (theta : ℝ) :
    (axis ≠ 0 → ∃ M, rotationMatrix axis theta = .ok M ∧
      (∀ v, M.mulVec v = rodrigues (unit axis) theta v) ∧
      (∀ a b, (M.mulVec a).dot (M.mulVec b) = a.dot b) ∧
      (∀ a b, V3.cross (M.mulVec a) (M.mulVec b) = M.mulVec (V3.cross a b)) ∧
      M.mulVec axis = axis) ∧
    (axis = 0 → rotationMatrix axis theta = .error .nonFinite) := by
  refine ⟨fun h => ⟨rotationMatrixCore axis theta, by simp [rotationMatrix, h], ?_, ?_, ?_, ?_⟩,
    fun h => by simp [rotationMatrix, h]⟩
  · exact rotationMatrixCore_eq axis theta h
  · intro a b
    simp only [rotationMatrixCore_eq axis theta h]
    exact rodrigues_dot _ _ (unit_dot_self h) a b
  · intro a b
    simp only [rotationMatrixCore_eq axis theta h]
    exact rodrigues_cross _ _ (unit_dot_self h) a b
  · rw [rotationMatrixCore_eq axis theta h]
    conv_lhs => rw [← norm_smul_unit h]
    rw [unit_smul_pos _ (V3.norm_pos h)]
    conv_rhs => rw [← norm_smul_unit h]
    rw [rodrigues_smul]
    congr 1
    have : unit (unit axis) = unit axis := unit_of_dot_one (unit_dot_self h)
    rw [this]
    exact rodrigues_axis _ _ (unit_dot_self h)

/-- Sanity of the specification: a quarter turn about z sends x to y (right-handed). -/
theorem C01_spec_right_handed :
    rodrigues ⟨0, 0, 1⟩ (Real.pi / 2) ⟨1, 0, 0⟩ = ⟨0, 1, 0⟩ := by
  ext <;> simp [rodrigues, V3.dot]

/-- Non-vacuity: the axis of the docstring example. -/
example : (⟨4, 4, 1⟩ : V3) ≠ 0 := by
  intro h; have := congrArg V3.z h; simp at this

/-! ## C02 -/

/-- **C02.** One-parameter group law, inverse, and dependence on the axis only through its
direction. -/
theorem C02_rotation_group (axis : V3) (h : axis ≠ 0) :
    (∀ a b, ∃ A B C, rotationMatrix axis a = .ok A ∧ rotationMatrix axis b = .ok B ∧
      rotationMatrix axis (a + b) = .ok C ∧ ∀ v, B.mulVec (A.mulVec v) = C.mulVec v) ∧
    (∀ a, ∃ A B, rotationMatrix axis a = .ok A ∧ rotationMatrix axis (-a) = .ok B ∧
      ∀ v, B.mulVec (A.mulVec v) = v) ∧
    (∀ a (s : ℝ), 0 < s → ∃ A B, rotationMatrix axis a = .ok A ∧ rotationMatrix (s • axis) a = .ok B ∧
      A = B) ∧
    (∀ a (s : ℝ), s < 0 → ∃ A B, rotationMatrix axis (-a) = .ok A ∧
      rotationMatrix (s • axis) a = .ok B ∧ A = B) := by
  have hu := unit_dot_self h
  have okk : ∀ a, rotationMatrix axis a = .ok (rotationMatrixCore axis a) := by
    intro a; simp [rotationMatrix, h]
  have mext : ∀ A B : M3, (∀ v, A.mulVec v = B.mulVec v) → A = B := by
    intro A B hAB
    rw [M3.ext_of_basis A, M3.ext_of_basis B]; simp only [hAB]
  refine ⟨fun a b => ⟨_, _, _, okk a, okk b, okk _, fun v => ?_⟩,
    fun a => ⟨_, _, okk a, okk _, fun v => ?_⟩, fun a s hs => ?_, fun a s hs => ?_⟩
  · simp only [rotationMatrixCore_eq _ _ h]; exact rodrigues_comp _ _ _ hu _
  · simp only [rotationMatrixCore_eq _ _ h]; exact rodrigues_neg_cancel _ _ hu _
  · have hs0 : s • axis ≠ 0 := by simp [smul_eq_zero, hs.ne', h]
    refine ⟨_, rotationMatrixCore (s • axis) a, okk a, by simp only [rotationMatrix, hs0, if_false], mext _ _ fun v => ?_⟩
    rw [rotationMatrixCore_eq _ _ h, rotationMatrixCore_eq _ _ hs0, unit_smul_pos _ hs]
  · have hs0 : s • axis ≠ 0 := by simp [smul_eq_zero, hs.ne, h]
    refine ⟨_, rotationMatrixCore (s • axis) a, okk _, by simp only [rotationMatrix, hs0, if_false], mext _ _ fun v => ?_⟩
    rw [rotationMatrixCore_eq _ _ h, rotationMatrixCore_eq _ _ hs0, unit_smul_neg _ hs,
      rodrigues_neg_axis]

example : Csys.ex ≠ 0 := ex_ne

/-! ## C03 -/

/-- **C03 (partial: axis not parallel to x).** Every point is rotated about the line `p1 p2`;
points of the line stay, distances are preserved.  Missing: axes parallel to the x axis, see
`C03_refuted_parallel_x`. -/
theorem C03_rotation_about_line_partial (ps : List V3) (p1 p2 : V3) (theta : ℝ)
    (h : (p2 - p1).y ≠ 0 ∨ (p2 - p1).z ≠ 0) :
    rotatePointsAroundArbitraryAxis ps p1 p2 theta = .ok (ps.map (rotateAboutLine p1 p2 theta)) ∧
    (∀ t : ℝ, rotateAboutLine p1 p2 theta (p1 + t • (p2 - p1)) = p1 + t • (p2 - p1)) ∧
    (∀ p q, distance (rotateAboutLine p1 p2 theta p) (rotateAboutLine p1 p2 theta q) = distance p q) := by
  have h2 : (p2 - p1).y ^ 2 + (p2 - p1).z ^ 2 ≠ 0 := by
    rcases h with h | h
    · have : 0 < (p2 - p1).y ^ 2 := by positivity
      positivity
    · have : 0 < (p2 - p1).z ^ 2 := by positivity
      positivity
  have hax : p2 - p1 ≠ 0 := by
    intro h0; rw [h0] at h; simp at h
  have hs : Real.sqrt ((p2 - p1).y ^ 2 + (p2 - p1).z ^ 2) ≠ 0 := by
    rw [Real.sqrt_ne_zero (by positivity)]; exact h2
  refine ⟨?_, fun t => ?_, fun p q => ?_⟩
  · rw [rotatePointsAroundArbitraryAxis, if_neg (fun hh => hs hh.2)]
    congr 1
    exact List.map_congr_left fun p _ => rotateAboutLineCore_eq p1 p2 theta h2 p
  · rw [rotateAboutLine, add_sub_cancel_left, rodrigues_smul]
    congr 2
    conv_lhs => arg 3; rw [← norm_smul_unit hax]
    rw [rodrigues_smul, rodrigues_axis _ _ (unit_dot_self hax), norm_smul_unit hax]
  · rw [distance, distance, rotateAboutLine, rotateAboutLine, add_sub_add_left_eq_sub, ← rodrigues_sub,
      rodrigues_norm _ _ (unit_dot_self hax)]
    congr 1
    ext <;> simp

/-- Non-vacuity: a vertical mast. -/
example : ((⟨0, 0, 10⟩ : V3) - ⟨0, 0, 2⟩).y ≠ 0 ∨ ((⟨0, 0, 10⟩ : V3) - ⟨0, 0, 2⟩).z ≠ 0 := by
  right; simp; norm_num

/-- **C03 refuted** in full generality: for every axis parallel to x the code produces no finite
result, although the rotation is well defined. -/
theorem C03_refuted_parallel_x (ps : List V3) (hps : ps ≠ []) (p1 p2 : V3) (theta : ℝ)
    (hy : (p2 - p1).y = 0) (hz : (p2 - p1).z = 0) :
    rotatePointsAroundArbitraryAxis ps p1 p2 theta = .error .nonFinite ∧
    rotatePointsAroundArbitraryAxis ps p1 p2 theta ≠
      .ok (ps.map (rotateAboutLine p1 p2 theta)) := by
  have : rotatePointsAroundArbitraryAxis ps p1 p2 theta = .error .nonFinite := by
    rw [rotatePointsAroundArbitraryAxis, if_pos ⟨hps, by simp [hy, hz]⟩]
  exact ⟨this, by rw [this]; simp⟩

example : ((⟨1, 0, 0⟩ : V3) - ⟨0, 0, 0⟩).y = 0 ∧ ((⟨1, 0, 0⟩ : V3) - ⟨0, 0, 0⟩).z = 0 := by simp

/-- `rotate_points_around_origin_axis` is Rodrigues' rotation about the axis, whatever its
length and the sign of the angle. -/
theorem C03_origin_axis (ps : List V3) (axis : V3) (h : axis ≠ 0) (theta : ℝ) :
    rotatePointsAroundOriginAxis ps axis theta = .ok (ps.map (rodrigues (unit axis) theta)) := by
  rw [rotatePointsAroundOriginAxis, if_neg h]
  congr 1
  exact List.map_congr_left fun p _ => scipyRotvec_smul (unit axis) (unit_dot_self h) theta p

/-! ## C05 -/

/-- **C05 (partial: the heel does not carry the point across the water plane).**
Missing: points whose `z` changes sign; see `C05_refuted`. -/
theorem C05_round_trip_partial (c : Csys) (p : V3)
    (h : 0 < p.z ↔ 0 < (c.rotatePointWithMirror p).z) :
    c.reverseRotationsWithMirror (c.rotatePointWithMirror p) = p := by
  by_cases hp : 0 < p.z
  · have hq := h.1 hp
    rw [c.rotatePointWithMirror_pos hp] at hq ⊢
    simp only [Csys.reverseRotationsWithMirror, Csys.reverseLeeway_leeway]
    have hz : (c.leeway.mulVec (c.heeling.mulVec p)).z = (c.heeling.mulVec p).z := by
      rw [c.leeway_mulVec]
    rw [hz] at hq
    rw [if_pos hq, Csys.reverseHeeling_heeling]
  · have hq := mt h.2 hp
    rw [c.rotatePointWithMirror_npos hp] at hq ⊢
    simp only [Csys.reverseRotationsWithMirror, Csys.reverseLeeway_leeway]
    have hz : (c.leeway.mulVec (c.reverseHeeling.mulVec p)).z = (c.reverseHeeling.mulVec p).z := by
      rw [c.leeway_mulVec]
    rw [hz] at hq
    rw [if_neg hq, Csys.heeling_reverseHeeling]

/-- Points of an upright sail plane (`y = 0`, `z > 0`) always satisfy the hypothesis for heel
angles below 90 degrees. -/
theorem C05_round_trip_centreplane (c : Csys) (p : V3) (hy : p.y = 0) (hz : 0 < p.z)
    (hc : 0 < Real.cos (deg2rad c.heelDeg)) :
    c.reverseRotationsWithMirror (c.rotatePointWithMirror p) = p := by
  apply C05_round_trip_partial
  simp only [hz, true_iff]
  rw [c.rotatePointWithMirror_pos hz, c.leeway_mulVec, c.heeling_mulVec]
  simp only [hy, mul_zero, zero_add]
  positivity

example : 0 < Real.cos (deg2rad (⟨0, 5, 0⟩ : Csys).heelDeg) := by simp [deg2rad]

theorem deg2rad_90 : deg2rad 90 = Real.pi / 2 := by unfold deg2rad; ring

/-- **C05 refuted** as stated: heel 90, the point `(0, 1, 1)` does not come back. -/
theorem C05_refuted : ¬ ∀ (c : Csys) (p : V3),
    c.reverseRotationsWithMirror (c.rotatePointWithMirror p) = p := by
  intro h
  have h1 := congrArg V3.y (h ⟨90, 0, 0⟩ ⟨0, 1, 1⟩)
  have hp : 0 < (⟨0, 1, 1⟩ : V3).z := by simp
  rw [Csys.rotatePointWithMirror_pos _ hp] at h1
  simp only [Csys.reverseRotationsWithMirror, Csys.reverseLeeway_leeway, Csys.heeling_mulVec,
    deg2rad_90, Real.cos_pi_div_two, Real.sin_pi_div_two] at h1
  norm_num [Csys.heeling_mulVec, Csys.reverseHeeling_mulVec, deg2rad_90] at h1

/-! ## C06 -/

/-- **C06.** Mirror images stay mirror images, and points on the same side of the water keep
their distance. -/
theorem C06_mirror (c : Csys) :
    (∀ p : V3, p.z ≠ 0 → c.rotatePointWithMirror (mirror p) = mirror (c.rotatePointWithMirror p)) ∧
    (∀ p q : V3, (0 < p.z ↔ 0 < q.z) →
      distance (c.rotatePointWithMirror p) (c.rotatePointWithMirror q) = distance p q) := by
  refine ⟨fun p => c.rotatePointWithMirror_mirror, fun p q h => ?_⟩
  by_cases hp : 0 < p.z
  · rw [c.rotatePointWithMirror_pos hp, c.rotatePointWithMirror_pos (h.1 hp), distance,
      ← M3.mulVec_sub, c.leeway_norm, ← M3.mulVec_sub, c.heeling_norm, distance]
  · rw [c.rotatePointWithMirror_npos hp, c.rotatePointWithMirror_npos (mt h.2 hp), distance,
      ← M3.mulVec_sub, c.leeway_norm, ← M3.mulVec_sub, c.reverseHeeling_norm, distance]

example : (⟨1, 2, 3⟩ : V3).z ≠ 0 := by norm_num

/-- The mirror law needs `z ≠ 0`: a point of the water plane with `y ≠ 0` is its own mirror
image, but its image under a 90 degree heel is not. -/
theorem C06_needs_off_plane : ∃ (c : Csys) (p : V3), p.z = 0 ∧
    c.rotatePointWithMirror (mirror p) ≠ mirror (c.rotatePointWithMirror p) := by
  refine ⟨⟨90, 0, 0⟩, ⟨0, 1, 0⟩, rfl, fun h => ?_⟩
  have hm : mirror ⟨0, 1, 0⟩ = (⟨0, 1, 0⟩ : V3) := by simp [mirror]
  have h0 : ¬ 0 < (⟨0, 1, 0⟩ : V3).z := by simp
  rw [hm, Csys.rotatePointWithMirror_npos _ h0] at h
  have h1 := congrArg V3.z h
  norm_num [Csys.leeway_mulVec, Csys.reverseHeeling_mulVec, mirror, deg2rad_90] at h1

/-! ## C07 -/

/-- **C07.** The centreline transform preserves lengths and heights, and the total (above water)
moment is the transform of the total: transforming then summing equals summing then transforming. -/
theorem C07_centreline_rigid (c : Csys) (vs : List V3) :
    (c.fromXyzToCenterline vs).length = vs.length ∧
    (∀ i (h : i < vs.length), ∃ w, (c.fromXyzToCenterline vs)[i]? = some w ∧
      w.norm = (vs[i]).norm ∧ w.z = (vs[i]).z) ∧
    (∀ i j (hi : i < vs.length) (hj : j < vs.length), ∃ w w',
      (c.fromXyzToCenterline vs)[i]? = some w ∧ (c.fromXyzToCenterline vs)[j]? = some w' ∧
      w.dot w' = (vs[i]).dot (vs[j])) ∧
    [(c.fromXyzToCenterline vs).sum] = c.fromXyzToCenterline [vs.sum] ∧
    [(c.calcCenterlineMoments vs).2] = c.fromXyzToCenterline [(vs.take (vs.length / 2)).sum] := by
  refine ⟨by simp [Csys.fromXyzToCenterline], fun i h => ?_, fun i j hi hj => ?_, ?_, ?_⟩
  · refine ⟨c.leeway.mulVec vs[i], by simp [Csys.fromXyzToCenterline, h], c.leeway_norm _, ?_⟩
    rw [c.leeway_mulVec]
  · exact ⟨c.leeway.mulVec vs[i], c.leeway.mulVec vs[j], by simp [Csys.fromXyzToCenterline, hi],
      by simp [Csys.fromXyzToCenterline, hj], c.leeway_dot _ _⟩
  · simp [Csys.fromXyzToCenterline, Csys.leeway_sum]
  · simp only [Csys.calcCenterlineMoments, Csys.fromXyzToCenterline, ← List.map_take,
      Csys.leeway_sum]
    simp

example : (0 : ℕ) < ([⟨1, 2, 3⟩] : List V3).length := by simp

/-! ## C08 -/

/-- **C08 refuted.** With a leeway of 90 degrees the yacht's own x axis does not get the
components `(1, 0, 0)` in the "centreline" system. -/
theorem C08_refuted : ¬ ∀ c : Csys,
    c.fromXyzToCenterline [c.rotatePointWithoutMirror ⟨1, 0, 0⟩] = [⟨1, 0, 0⟩] := by
  intro h
  have h1 := h ⟨0, 90, 0⟩
  simp only [Csys.fromXyzToCenterline, Csys.rotatePointWithoutMirror, List.map_cons, List.map_nil,
    List.cons.injEq, and_true, Csys.leeway_mulVec, Csys.heeling_mulVec, deg2rad_90] at h1
  have h2 := congrArg V3.x h1
  norm_num at h2

/-- **C08 (partial: exact size of the error).** The image of the yacht's centreline is off by
twice the leeway; the transform is right exactly when the doubled leeway is a full turn, in
particular for zero leeway. -/
theorem C08_centreline_orientation_partial (c : Csys) :
    c.fromXyzToCenterline [c.rotatePointWithoutMirror ⟨1, 0, 0⟩] =
      [⟨Real.cos (2 * deg2rad c.leewayDeg), Real.sin (2 * deg2rad c.leewayDeg), 0⟩] ∧
    (c.fromXyzToCenterline [c.rotatePointWithoutMirror ⟨1, 0, 0⟩] = [⟨1, 0, 0⟩] ↔
      Real.cos (2 * deg2rad c.leewayDeg) = 1) ∧
    (c.leewayDeg = 0 → ∀ vs, c.fromXyzToCenterline vs = vs) := by
  have key : c.fromXyzToCenterline [c.rotatePointWithoutMirror ⟨1, 0, 0⟩] =
      [⟨Real.cos (2 * deg2rad c.leewayDeg), Real.sin (2 * deg2rad c.leewayDeg), 0⟩] := by
    simp only [Csys.fromXyzToCenterline, Csys.rotatePointWithoutMirror, List.map_cons,
      List.map_nil, Csys.leeway_mulVec, Csys.heeling_mulVec, Real.cos_two_mul', Real.sin_two_mul]
    congr 1
    ext <;> simp <;> ring
  refine ⟨key, ?_, fun h vs => ?_⟩
  · rw [key]
    constructor
    · intro h
      have := congrArg V3.x (List.cons.inj h).1
      simpa using this
    · intro h
      have hs : Real.sin (2 * deg2rad c.leewayDeg) = 0 := by
        have := Real.sin_sq_add_cos_sq (2 * deg2rad c.leewayDeg)
        rw [h] at this
        nlinarith
      rw [h, hs]
  · have : ∀ v, c.leeway.mulVec v = v := by
      intro v; rw [c.leeway_mulVec]; ext <;> simp [h, deg2rad]
    simp only [Csys.fromXyzToCenterline]
    rw [List.map_congr_left (fun v _ => this v)]; simp

/-! ## C59 -/

/-- **C59.** Constructing `CSYS_transformations` never fails: in exact arithmetic the four
internal comparisons with scipy's rotations hold for all angles, and the object stores the
arguments. -/
theorem C59_csys_constructor_total (heel leeway : ℝ) (v : V3) :
    csysInit heel leeway v = .ok ⟨heel, leeway, v⟩ := by
  simp only [csysInit, scipyMatrix_eq _ ex_dot, scipyMatrix_eq _ ez_dot, Csys.heeling,
    Csys.reverseHeeling, Csys.leeway, Csys.reverseLeeway, M3.almostEq_refl, and_self, if_true]

end PySailing.Props
