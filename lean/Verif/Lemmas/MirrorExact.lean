import Verif.Lemmas.Sail

/-!
# When two camber lines agree at a chordwise station, and when an underwater point is a mirror image
-/

namespace PySailing

open PySailing.Spec

/-- Two camber lines of the same camber and different positions meet inside the chord at one station only. -/
theorem camberCurve_eq_lt {m p p' x : ℝ} (hm : m ≠ 0) (hp : 0 < p) (hlt : p < p') (hp' : p' < 1)
    (h : camberCurve m p x = camberCurve m p' x) (hx : 0 < x) (hx1 : x < 1) :
    x * (1 + p' - p) = p' := by
  have hp0 : 0 < p' := hp.trans hlt
  have h1 : 0 < 1 - p := by linarith
  have h1' : 0 < 1 - p' := by linarith
  unfold camberCurve at h
  by_cases ha : x < p
  · have hb : x < p' := ha.trans hlt
    rw [if_pos ha, if_pos hb] at h
    have h2 := mul_left_cancel₀ hm h
    have h3 : ((x - p) / p) ^ 2 = ((x - p') / p') ^ 2 := by linarith
    have e : (x - p) / p = x / p - 1 := by field_simp
    have e' : (x - p') / p' = x / p' - 1 := by field_simp
    rw [e, e'] at h3
    have hlt2 : x / p' < x / p := div_lt_div_of_pos_left hx hp hlt
    have hle : x / p < 1 := (div_lt_one hp).2 ha
    exfalso
    nlinarith
  · rw [if_neg ha] at h
    push Not at ha
    by_cases hb : x < p'
    · rw [if_pos hb] at h
      have h2 := mul_left_cancel₀ hm h
      have h3 : ((x - p) / (1 - p)) ^ 2 = ((x - p') / p') ^ 2 := by linarith
      rcases sq_eq_sq_iff_eq_or_eq_neg.1 h3 with h4 | h4
      · have : 0 ≤ (x - p) / (1 - p) := div_nonneg (by linarith) h1.le
        have : (x - p') / p' < 0 := div_neg_of_neg_of_pos (by linarith) hp0
        linarith
      · rw [← neg_div, div_eq_div_iff h1.ne' hp0.ne'] at h4
        linarith
    · rw [if_neg hb] at h
      push Not at hb
      have h2 := mul_left_cancel₀ hm h
      have h3 : ((x - p) / (1 - p)) ^ 2 = ((x - p') / (1 - p')) ^ 2 := by linarith
      have e : (x - p) / (1 - p) = 1 - (1 - x) / (1 - p) := by field_simp; ring
      have e' : (x - p') / (1 - p') = 1 - (1 - x) / (1 - p') := by field_simp; ring
      rw [e, e'] at h3
      have hlt2 : (1 - x) / (1 - p) < (1 - x) / (1 - p') :=
        div_lt_div_of_pos_left (by linarith) h1' (by linarith)
      have hle : (1 - x) / (1 - p') ≤ 1 := (div_le_one h1').2 (by linarith)
      exfalso
      nlinarith

theorem camberCurve_leading {m p : ℝ} (hp : 0 < p) : camberCurve m p 0 = 0 := by
  unfold camberCurve
  rw [if_pos hp]
  have : (0 - p) / p = -1 := by field_simp; ring
  rw [this]; ring

theorem camberCurve_trailing {m p : ℝ} (hp : p < 1) : camberCurve m p 1 = 0 := by
  unfold camberCurve
  rw [if_neg (not_lt.2 hp.le), div_self (by linarith : (1 - p) ≠ 0)]
  ring

/-- Positions symmetric about half chord give the same height at half chord. -/
theorem camberCurve_half {m p : ℝ} (hp : 0 < p) (hp1 : p < 1) :
    camberCurve m p (1 / 2) = camberCurve m (1 - p) (1 / 2) := by
  have h1 : (1 - p) ≠ 0 := by linarith
  unfold camberCurve
  by_cases h : (1 / 2 : ℝ) < p
  · rw [if_pos h, if_neg (by linarith)]
    have : 1 - (1 - p) = p := by ring
    rw [this]
    have : (1 / 2 - p) / p = -((1 / 2 - (1 - p)) / p) := by field_simp; ring
    rw [this, neg_sq]
  · rw [if_neg h]
    by_cases h' : (1 / 2 : ℝ) < 1 - p
    · rw [if_pos h']
      have : (1 / 2 - (1 - p)) / (1 - p) = -((1 / 2 - p) / (1 - p)) := by field_simp; ring
      rw [this, neg_sq]
    · have : p = 1 / 2 := by linarith
      subst this
      rw [if_neg h']
      norm_num

/-- Two rows of the same camber at `nc` chordwise stations coincide exactly when: there is no interior station,
or no camber, or the same position, or one interior station and positions symmetric about half chord. -/
theorem camber_row_iff {nc : ℕ} (hnc : 1 ≤ nc) {m p p' : ℝ} (hp : 0 < p) (hp1 : p < 1) (hp' : 0 < p')
    (hp1' : p' < 1) :
    (∀ k, k ≤ nc → camberCurve m p ((k : ℝ) / nc) = camberCurve m p' ((k : ℝ) / nc)) ↔
      m = 0 ∨ nc = 1 ∨ p = p' ∨ (nc = 2 ∧ p + p' = 1) := by
  have hn : (0 : ℝ) < nc := by exact_mod_cast hnc
  constructor
  · intro h
    by_cases hm : m = 0
    · exact Or.inl hm
    by_cases h1 : nc = 1
    · exact Or.inr (Or.inl h1)
    by_cases hpp : p = p'
    · exact Or.inr (Or.inr (Or.inl hpp))
    refine Or.inr (Or.inr (Or.inr ?_))
    have hx : ∀ k : ℕ, 1 ≤ k → k < nc → (0 : ℝ) < (k : ℝ) / nc ∧ (k : ℝ) / nc < 1 := by
      intro k hk hk'
      have : (0 : ℝ) < k := by exact_mod_cast hk
      have : (k : ℝ) < nc := by exact_mod_cast hk'
      exact ⟨by positivity, (div_lt_one hn).2 this⟩
    -- the station is determined by the positions
    have key : ∃ a b : ℝ, a ≠ 0 ∧ (nc = 2 → (1 / 2 * a = b → p + p' = 1)) ∧
        ∀ k : ℕ, 1 ≤ k → k < nc → (k : ℝ) / nc * a = b := by
      rcases lt_or_gt_of_ne hpp with hlt | hlt
      · refine ⟨1 + p' - p, p', by linarith, fun _ e => by linarith, fun k hk hk' => ?_⟩
        exact camberCurve_eq_lt hm hp hlt hp1' (h k hk'.le) (hx k hk hk').1 (hx k hk hk').2
      · refine ⟨1 + p - p', p, by linarith, fun _ e => by linarith, fun k hk hk' => ?_⟩
        exact camberCurve_eq_lt hm hp' hlt hp1 (h k hk'.le).symm (hx k hk hk').1 (hx k hk hk').2
    obtain ⟨a, b, ha, hab, hk⟩ := key
    have h2 : nc = 2 := by
      by_contra hne
      have e1 := hk 1 le_rfl (by omega)
      have e2 := hk 2 (by omega) (by omega)
      have : ((2 : ℕ) : ℝ) / nc = ((1 : ℕ) : ℝ) / nc := mul_right_cancel₀ ha (e2.trans e1.symm)
      rw [div_left_inj' hn.ne'] at this
      norm_num at this
    refine ⟨h2, hab h2 ?_⟩
    have e1 := hk 1 le_rfl (by omega)
    rw [h2] at e1
    simpa using e1
  · intro h k hk
    rcases h with rfl | rfl | rfl | ⟨rfl, h⟩
    · simp [camberCurve]
    · have : k = 0 ∨ k = 1 := by omega
      rcases this with rfl | rfl
      · simp [camberCurve_leading hp, camberCurve_leading hp']
      · simp [camberCurve_trailing hp1, camberCurve_trailing hp1']
    · rfl
    · have : k = 0 ∨ k = 1 ∨ k = 2 := by omega
      rcases this with rfl | rfl | rfl
      · simp [camberCurve_leading hp, camberCurve_leading hp']
      · have e : p' = 1 - p := by linarith
        rw [e]
        exact_mod_cast camberCurve_half (m := m) hp hp1
      · simp [camberCurve_trailing hp1, camberCurve_trailing hp1']

theorem mirror_inj {a b : V3} : mirror a = mirror b ↔ a = b := by
  constructor
  · intro h
    have := congrArg mirror h
    simp [mirror] at this
    exact V3.ext this.1 this.2.1 this.2.2
  · rintro rfl; rfl

theorem rotateAboutLine_inj {p1 p2 : V3} (h : p2 - p1 ≠ 0) (θ : ℝ) {p q : V3} :
    rotateAboutLine p1 p2 θ p = rotateAboutLine p1 p2 θ q ↔ p = q := by
  constructor
  · intro e
    have hd := rotateAboutLine_distance h θ p q
    rw [e] at hd
    have h0 : (p - q).norm = 0 := by
      rw [distance, sub_self] at hd
      rw [← distance.eq_1, ← hd]; simp [V3.norm, V3.dot]
    exact sub_eq_zero.1 (V3.norm_eq_zero.1 h0)
  · rintro rfl; rfl

namespace Spec.SailOk

variable {s : SailInput} {θ : ℕ → ℝ} (h : SailOk s θ)
include h

theorem pos_lt {r : ℕ} (hr : r ≤ s.ns) : 0 < s.distance.getD r 0 ∧ s.distance.getD r 0 < 1 := by
  refine ⟨h.pos r hr, ?_⟩
  have hl := h.valid.distance_len
  have : s.distance.getD r 0 ∈ s.distance.take (s.ns + 1) := by
    rw [List.getD_eq_getElem?_getD, List.getElem?_eq_getElem (by omega : r < s.distance.length),
      Option.getD_some]
    have h2 : r < (s.distance.take (s.ns + 1)).length := by
      rw [List.length_take]; omega
    have := List.getElem_mem h2
    rwa [List.getElem_take] at this
  have := (h.valid.distance_range _ this).2
  norm_num at this ⊢
  linarith

/-- An untwisted underwater point is the mirror image exactly when its camber height is. -/
theorem underPt_mirror_iff {r : ℕ} (hr : r ≤ s.ns) (k : ℕ) :
    s.underPt r k = mirror (s.abovePt (s.ns - r) k) ↔
      s.chords.getD (s.ns - r) 0 * camberCurve (s.camber.getD (s.ns - r) 0) (s.distance.getD r 0)
          ((k : ℝ) / s.nc) =
        s.chords.getD (s.ns - r) 0 * camberCurve (s.camber.getD (s.ns - r) 0)
          (s.distance.getD (s.ns - r) 0) ((k : ℝ) / s.nc) := by
  have hz := h.z_nonneg (Nat.sub_le s.ns r)
  have e : ((s.ns - r : ℕ) : ℝ) / s.ns = 1 - (r : ℝ) / s.ns := by
    have := h.ns_ne
    rw [Nat.cast_sub hr]
    field_simp
  rw [SailInput.underPt, ← h.rotate_mirror (Nat.sub_le s.ns r)]
  rw [s.csys.rotatePointWithMirror_npos (by exact not_lt.2 (h.z_neg hr)),
    s.csys.rotatePointWithMirror_npos (by
      simp only [mirror, sailPoint]; exact not_lt.2 (by linarith))]
  constructor
  · intro heq
    have h1 := congrArg s.csys.reverseLeeway.mulVec heq
    rw [s.csys.reverseLeeway_leeway, s.csys.reverseLeeway_leeway] at h1
    have h2 := congrArg s.csys.heeling.mulVec h1
    rw [s.csys.heeling_reverseHeeling, s.csys.heeling_reverseHeeling] at h2
    have h3 := congrArg V3.y h2
    simp only [sailPoint, mirror] at h3
    rwa [reverse_getD h.valid.chords_len hr, reverse_getD h.camber_len hr] at h3
  · intro heq
    congr 2
    unfold sailPoint
    rw [reverse_getD h.valid.chords_len hr, reverse_getD h.camber_len hr, heq, e]
    ext <;> simp [lerp, mirror] <;> ring

/-- A twisted underwater point is the mirror image exactly when its camber height is. -/
theorem underTwisted_mirror_iff {r : ℕ} (hr : r ≤ s.ns) (k : ℕ) :
    s.underTwisted θ r k = mirror (s.aboveTwisted θ (s.ns - r) k) ↔
      s.chords.getD (s.ns - r) 0 * camberCurve (s.camber.getD (s.ns - r) 0) (s.distance.getD r 0)
          ((k : ℝ) / s.nc) =
        s.chords.getD (s.ns - r) 0 * camberCurve (s.camber.getD (s.ns - r) 0)
          (s.distance.getD (s.ns - r) 0) ((k : ℝ) / s.nc) := by
  have hluff : ∀ r', r' ≤ s.ns → s.underPt r' 0 = mirror (s.abovePt (s.ns - r') 0) := by
    intro r' hr'
    rw [h.underPt_mirror_iff hr', Nat.cast_zero, zero_div, camberCurve_leading (h.pos_lt hr').1,
      camberCurve_leading (h.pos_lt (Nat.sub_le _ _)).1]
  have hax : mirror (s.abovePt 0 0) - mirror (s.abovePt s.ns 0) ≠ 0 := by
    rw [← mirror_sub]
    intro h0
    have h1 : mirror (s.abovePt 0 0 - s.abovePt s.ns 0) = mirror 0 := by
      rw [h0]; simp [mirror]; rfl
    have h2 := sub_eq_zero.1 (mirror_inj.1 h1)
    exact h.above_axis.ne (by rw [h2, sub_self])
  rw [SailInput.underTwisted, SailInput.aboveTwisted, hluff 0 (Nat.zero_le _), hluff _ le_rfl,
    Nat.sub_self, Nat.sub_zero, ← rotateAboutLine_mirror _ _ h.above_axis.ne,
    rotateAboutLine_inj hax, h.underPt_mirror_iff hr]

end Spec.SailOk

end PySailing
