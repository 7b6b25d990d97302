import Verif.Props.Main
import Verif.Lemmas.MirrorExact

/-!
# A sail whose foot is at the water level (C106)
-/

namespace PySailing.Props

open PySailing PySailing.Spec

theorem reverseHeel_eq (heelDeg leewayDeg : ℝ) (v p : V3) :
    (⟨heelDeg, leewayDeg, v⟩ : Csys).leeway.mulVec ((⟨heelDeg, leewayDeg, v⟩ : Csys).reverseHeeling.mulVec p) =
      afloat (-heelDeg) leewayDeg p := by
  rw [Csys.leeway_mulVec, Csys.reverseHeeling_mulVec]
  ext <;> simp [afloat, rodrigues, V3.dot, deg2rad] <;> ring

theorem afloat_neg_iff (heelDeg leewayDeg : ℝ) {p : V3} (hz : p.z = 0) :
    afloat (-heelDeg) leewayDeg p = afloat heelDeg leewayDeg p ↔ Real.sin (deg2rad heelDeg) = 0 ∨ p.y = 0 := by
  rw [← reverseHeel_eq heelDeg leewayDeg 0, ← heel_eq heelDeg leewayDeg 0, Csys.leeway_mulVec, Csys.leeway_mulVec,
    Csys.reverseHeeling_mulVec, Csys.heeling_mulVec]
  simp only [hz, V3.mk.injEq]
  constructor
  · rintro ⟨-, -, h⟩
    have : Real.sin (deg2rad heelDeg) * p.y = 0 := by linarith
    exact mul_eq_zero.1 this
  · rintro (h | h) <;> simp [h]

/-- **C106.** For arguments without defects the sail is built, with the luff straight from the heeled tack to the
heeled head.  All points of the sail are where the heeled and twisted yacht has them, except possibly those of
the foot when the tack is at the water level: the program takes points at the water level for points of the
mirror image and heels them to the other side.  A point of the foot is then in its place if and only if the
yacht is upright or the point is in the plane of symmetry of the upright yacht. -/
theorem C106_foot_partial (s : SailInput) (θ : ℕ → ℝ) (h : SailArgs s θ) :
    ∃ g pts, sailGeometry s = .ok g ∧ g.panelsAbove = panelGrid s.nc s.ns pts ∧
      (∀ r k, 1 ≤ r → r ≤ s.ns → pts r k = afloatPoint s.csys.heelDeg s.csys.leewayDeg (s, θ) r k) ∧
      (0 < s.tack.z → ∀ k, pts 0 k = afloatPoint s.csys.heelDeg s.csys.leewayDeg (s, θ) 0 k) ∧
      (s.tack.z = 0 → ∀ k,
        pts 0 k = rotateAboutLine (afloat s.csys.heelDeg s.csys.leewayDeg s.tack)
          (afloat s.csys.heelDeg s.csys.leewayDeg s.head) (deg2rad (θ 0))
          (afloat (-s.csys.heelDeg) s.csys.leewayDeg
            (sailPoint s.tack s.head s.nc s.ns s.chords s.distance s.camber 0 k)) ∧
        (pts 0 k = afloatPoint s.csys.heelDeg s.csys.leewayDeg (s, θ) 0 k ↔
          Real.sin (deg2rad s.csys.heelDeg) = 0 ∨
            s.chords.getD 0 0 * camberCurve (s.camber.getD 0 0) (s.distance.getD 0 0) ((k : ℝ) / s.nc) = 0)) := by
  obtain ⟨g, hg, -, -, -, -, ha, -⟩ := sailGeometry_args h
  have hn := h.ns_ne
  have l0 : s.abovePt 0 0 = afloat s.csys.heelDeg s.csys.leewayDeg s.tack := by
    rw [h.abovePt_luff (Nat.zero_le _), show s.csys = ⟨s.csys.heelDeg, s.csys.leewayDeg, s.csys.vRef⟩ from rfl,
      heel_eq]
    congr 1
    ext <;> simp [lerp]
  have l1 : s.abovePt s.ns 0 = afloat s.csys.heelDeg s.csys.leewayDeg s.head := by
    rw [h.abovePt_luff le_rfl, show s.csys = ⟨s.csys.heelDeg, s.csys.leewayDeg, s.csys.vRef⟩ from rfl,
      heel_eq]
    congr 1
    ext <;> simp [lerp, div_self hn]
  have up : ∀ r k : ℕ, 0 < (lerp s.tack s.head ((r : ℝ) / s.ns)).z →
      s.aboveTwisted θ r k = afloatPoint s.csys.heelDeg s.csys.leewayDeg (s, θ) r k := by
    intro r k hz
    unfold SailInput.aboveTwisted afloatPoint
    rw [l0, l1, SailInput.abovePt, s.csys.rotatePointWithMirror_pos (p := sailPoint s.tack s.head s.nc s.ns s.chords s.distance s.camber r k) hz]
    congr 1
    exact heel_eq s.csys.heelDeg s.csys.leewayDeg s.csys.vRef _
  refine ⟨g, _, hg, ha, fun r k h0 hr => up r k (h.z_pos_of_row h0 hr), fun hz k => up 0 k (by simpa [lerp] using hz), fun hz k => ?_⟩
  have ez : (sailPoint s.tack s.head s.nc s.ns s.chords s.distance s.camber 0 k).z = 0 := by
    simp [sailPoint, lerp, hz]
  have e : s.aboveTwisted θ 0 k = rotateAboutLine (afloat s.csys.heelDeg s.csys.leewayDeg s.tack)
      (afloat s.csys.heelDeg s.csys.leewayDeg s.head) (deg2rad (θ 0))
      (afloat (-s.csys.heelDeg) s.csys.leewayDeg
        (sailPoint s.tack s.head s.nc s.ns s.chords s.distance s.camber 0 k)) := by
    unfold SailInput.aboveTwisted
    rw [l0, l1, SailInput.abovePt, s.csys.rotatePointWithMirror_npos (by rw [ez]; exact lt_irrefl _)]
    congr 1
    exact reverseHeel_eq s.csys.heelDeg s.csys.leewayDeg s.csys.vRef _
  refine ⟨e, ?_⟩
  have hax := h.above_axis.ne
  rw [l0, l1] at hax
  rw [e, afloatPoint, rotateAboutLine_inj hax, afloat_neg_iff _ _ ez]
  rfl

/-- A cambered sail with its foot at the water level, on a yacht heeled by 30 degrees. -/
noncomputable def footSail : SailInput :=
  { demoSail 2 [0.1, 0.1] [0.5, 0.5] none none with tack := ⟨0, 0, 0⟩, csys := ⟨30, 0, 0⟩ }

theorem footSail_args : SailArgs footSail (fun _ => 0) :=
  { (demoSail_ok 2 (by norm_num) 0.1 0.1 0.5 0.5 none none (by norm_num) (by norm_num) (by norm_num) (by norm_num)
      (fun _ => 0) (Or.inr ⟨Or.inl rfl, fun _ => rfl⟩)).toSailArgs with
    twist := Or.inr ⟨Or.inl rfl, fun _ => rfl⟩
    tack_y := rfl
    tack_z := le_rfl
    sloped := by norm_num [footSail, demoSail]
    heel := by
      have : deg2rad footSail.csys.heelDeg = Real.pi / 6 := by
        simp only [footSail, deg2rad]; ring
      rw [this, Real.cos_pi_div_six]
      positivity }

/-- **C106**, the finding: the sail is accepted, but the middle of its foot is not where the yacht has it. -/
theorem C106_refuted : ∃ (s : SailInput) (g : SailGeom) (pts : ℕ → ℕ → V3), SailArgs s (fun _ => 0) ∧
    sailGeometry s = .ok g ∧ g.panelsAbove = panelGrid s.nc s.ns pts ∧
    pts 0 1 ≠ afloatPoint s.csys.heelDeg s.csys.leewayDeg (s, fun _ => 0) 0 1 := by
  obtain ⟨g, pts, hg, hp, -, -, hf⟩ := C106_foot_partial footSail (fun _ => 0) footSail_args
  refine ⟨footSail, g, pts, footSail_args, hg, hp, fun he => ?_⟩
  have e : deg2rad footSail.csys.heelDeg = Real.pi / 6 := by
    simp only [footSail, deg2rad]; ring
  rcases ((hf rfl 1).2).1 he with h | h
  · rw [e, Real.sin_pi_div_six] at h
    norm_num at h
  · norm_num [footSail, demoSail, camberCurve] at h

end PySailing.Props
