import Verif.Lemmas.Wind

/-!
# Properties C21-C24, C62: wind profiles, apparent wind, inlet conditions
-/

namespace PySailing.Props

open PySailing Spec

/-! ## C21 -/

/-- **C21 (flat).** The flat profile gives the reference speed in the direction of the wind angle
at every height. -/
theorem C21_flat (α tws V h : ℝ) :
    (WindObj.mk α tws V .flat).trueWindAt h = .ok (tws • heading (deg α)) := by
  simp [WindObj.trueWindAt, lengthToXyz_eq]

/-- **C21 (logarithmic).** With positive roughness and reference height (not equal), the profile is
defined at every positive height; it has the direction of the wind angle with a signed speed which is
`tws_ref` at the reference height, `0` at the roughness height and strictly increasing when the
reference height is above the roughness height and `tws_ref > 0`. -/
theorem C21_logarithmic_partial {r ref : ℝ} (hr : 0 < r) (href : 0 < ref) (hne : ref ≠ r)
    (α tws V : ℝ) :
    ∃ s : ℝ → ℝ,
      (∀ h, 0 < h → (WindObj.mk α tws V (.log (some r) (some ref))).trueWindAt h =
        .ok (s h • heading (deg α))) ∧
      s ref = tws ∧ s r = 0 ∧
      (0 < tws → r < ref → ∀ h₁ h₂, 0 < h₁ → h₁ < h₂ → s h₁ < s h₂) ∧
      (0 ≤ tws → r < ref → ∀ h, r ≤ h → 0 ≤ s h) := by
  have hL := log_ratio_ne hr href hne
  refine ⟨fun h => tws * (Real.log (h / r) / Real.log (ref / r)), fun h hh => ?_, ?_, ?_, ?_, ?_⟩
  · simp only [WindObj.trueWindAt, logFactor_ok hr href hne hh]
    exact congrArg Except.ok (lengthToXyz_eq _ _)
  · simp only [div_self hL, mul_one]
  · simp only [div_self hr.ne', Real.log_one, zero_div, mul_zero]
  · intro htws hlt h₁ h₂ h0 h12
    have hpos : 0 < Real.log (ref / r) := Real.log_pos ((one_lt_div hr).2 hlt)
    have : Real.log (h₁ / r) < Real.log (h₂ / r) :=
      Real.log_lt_log (div_pos h0 hr) (div_lt_div_of_pos_right h12 hr)
    exact mul_lt_mul_of_pos_left (div_lt_div_of_pos_right this hpos) htws
  · intro htws hlt h hh
    have hpos : 0 < Real.log (ref / r) := Real.log_pos ((one_lt_div hr).2 hlt)
    exact mul_nonneg htws (div_nonneg (Real.log_nonneg ((one_le_div hr).2 hh)) hpos.le)

example : ∃ s : ℝ → ℝ, s 10 = 4.63 ∧ s 0.05 = 0 :=
  let ⟨s, _, h1, h2, _⟩ := C21_logarithmic_partial (r := 0.05) (ref := 10) (by norm_num)
    (by norm_num) (by norm_num) 50 4.63 4.63
  ⟨s, h1, h2⟩

/-- **C21 refuted (logarithmic).** Below the roughness height the logarithmic profile blows
*against* the wind angle: for the default roughness and reference height and `tws_ref > 0`, at
every height between `0` and the roughness the wind is a negative multiple of the heading. -/
theorem C21_refuted {tws h : ℝ} (htws : 0 < tws) (h0 : 0 < h) (h1 : h < 0.05) (α V : ℝ) :
    ∃ s : ℝ, s < 0 ∧ (WindObj.mk α tws V (.log (some 0.05) (some 10))).trueWindAt h =
      .ok (s • heading (deg α)) := by
  have hr : (0 : ℝ) < 0.05 := by norm_num
  refine ⟨tws * (Real.log (h / 0.05) / Real.log (10 / 0.05)), ?_, ?_⟩
  · have hpos : 0 < Real.log ((10 : ℝ) / 0.05) := Real.log_pos (by norm_num)
    have hneg : Real.log (h / 0.05) < 0 :=
      Real.log_neg (div_pos h0 hr) ((div_lt_one hr).2 h1)
    exact mul_neg_of_pos_of_neg htws (div_neg_of_neg_of_pos hneg hpos)
  · simp only [WindObj.trueWindAt, logFactor_ok hr (by norm_num : (0 : ℝ) < 10) (by norm_num) h0]
    exact congrArg Except.ok (lengthToXyz_eq _ _)

/-- **C21 (exponential).** With positive exponent and reference height, the profile is defined at
every height above the reference water level; it has the direction of the wind angle and a speed that
is `tws_ref` exactly one reference height above the water level (so at the reference height iff the
water level is 0, unless `tws_ref = 0`), nonnegative and strictly increasing for `tws_ref > 0`. -/
theorem C21_exponential {c ref : ℝ} (hc : 0 < c) (href : 0 < ref) (wl α tws V : ℝ) :
    ∃ s : ℝ → ℝ,
      (∀ h, wl ≤ h → (WindObj.mk α tws V (.exp (some c) (some ref) (some wl))).trueWindAt h =
        .ok (s h • heading (deg α))) ∧
      s (ref + wl) = tws ∧
      (tws ≠ 0 → wl ≤ ref → (s ref = tws ↔ wl = 0)) ∧
      (0 < tws → (∀ h, wl ≤ h → 0 ≤ s h) ∧ ∀ h₁ h₂, wl ≤ h₁ → h₁ < h₂ → s h₁ < s h₂) := by
  refine ⟨fun h => tws * ((h - wl) / ref) ^ c, fun h hh => ?_, ?_, ?_, ?_⟩
  · simp only [WindObj.trueWindAt, expFactor_ok hc href hh]
    exact congrArg Except.ok (lengthToXyz_eq _ _)
  · simp [href.ne']
  · intro htws hwl
    simp only
    constructor
    · intro h
      have h1 : ((ref - wl) / ref) ^ c = 1 := mul_left_cancel₀ htws (by rw [h, mul_one])
      have h2 : (ref - wl) / ref = 1 := by
        exact (Real.rpow_left_inj (div_nonneg (by linarith) href.le) zero_le_one hc.ne').1
          (h1.trans (Real.one_rpow c).symm)
      rw [div_eq_one_iff_eq href.ne'] at h2
      linarith
    · rintro rfl; simp [href.ne']
  · intro htws
    refine ⟨fun h hh => mul_nonneg htws.le
      (Real.rpow_nonneg (div_nonneg (by linarith) href.le) _), fun h₁ h₂ h0 h12 => ?_⟩
    exact mul_lt_mul_of_pos_left (Real.rpow_lt_rpow (div_nonneg (by linarith) href.le)
      (div_lt_div_of_pos_right (by linarith) href) hc) htws

example : ∃ s : ℝ → ℝ, (∀ h, 0 ≤ h →
    (WindObj.mk 50 4.63 4.63 (.exp (some 0.1428) (some 10) (some 0))).trueWindAt h =
      .ok (s h • heading (deg 50))) ∧ s 10 = 4.63 :=
  let ⟨s, h1, h2, _⟩ := C21_exponential (c := 0.1428) (ref := 10) (by norm_num) (by norm_num)
    0 50 4.63 4.63
  ⟨s, h1, by simpa using h2⟩

/-! ## C22 -/

/-- **C22 (vector sum).** The apparent wind is the true wind plus the yacht speed along x; for a
wind of speed `s` at the wind angle its squared length is given by the cosine law. -/
theorem C22_vector_sum (w : WindObj) :
    (∀ v, w.appInfs v = v + w.vYacht • (⟨1, 0, 0⟩ : V3)) ∧
    ∀ s : ℝ, (w.appInfs (s • heading (deg w.alphaDeg))).norm ^ 2 =
      w.vYacht ^ 2 + s ^ 2 + 2 * w.vYacht * s * Real.cos (deg w.alphaDeg) := by
  refine ⟨fun v => by ext <;> simp [WindObj.appInfs], fun s => ?_⟩
  rw [V3.norm_sq, appInfs_dot, ← deg2rad_eq_deg, WindObj.alpha]; ring

/-- **C22 (angle).** With some apparent wind, the angle formula returns a number; it is a direction
angle of the apparent wind exactly when `V_yacht * sin(alpha) ≥ 0` (wind from the usual side).
Missing from the full property: the other tack, see `C22_refuted`. -/
theorem C22_angle_partial (w : WindObj) {s : ℝ} (hs : 0 ≤ s)
    (happ : w.appInfs (s • heading (deg w.alphaDeg)) ≠ 0) :
    ∃ θ, w.appAlfaInfs (s • heading (deg w.alphaDeg)) = .ok θ ∧
      (PointsAlong (w.appInfs (s • heading (deg w.alphaDeg))) θ ↔
        0 ≤ w.vYacht * Real.sin (deg w.alphaDeg)) := by
  refine ⟨_, appAlfaInfs_ok w hs happ, ?_⟩
  obtain ⟨hc, hsn⟩ := appAlfa_cos_sin w happ
  have hα : deg w.alphaDeg = w.alpha := (deg2rad_eq_deg _).symm
  have h1 := Real.sin_sq_add_cos_sq w.alpha
  have h1' : w.vYacht * (Real.sin w.alpha ^ 2 + Real.cos w.alpha ^ 2) = w.vYacht := by
    rw [h1, mul_one]
  simp only [hα] at hc hsn ⊢
  have hv : w.appInfs (s • heading w.alpha) =
      ⟨s * Real.cos w.alpha + w.vYacht, s * Real.sin w.alpha, 0⟩ := by
    rw [← hα]; exact appInfs_heading w s
  constructor
  · intro h
    by_contra hneg
    push Not at hneg
    have hx := congrArg V3.x h
    rw [V3.smul_x] at hx
    simp only [heading] at hx hc
    rw [hc, abs_of_neg hneg] at hx
    have hx' : (w.appInfs (s • heading w.alpha)).x = s * Real.cos w.alpha + w.vYacht := by
      rw [hv]
    simp only [heading] at hx'
    rw [hx'] at hx
    have : w.vYacht * Real.sin w.alpha * Real.sin w.alpha = 0 := by linarith
    rcases mul_eq_zero.1 this with h' | h'
    · exact hneg.ne h'
    · rw [h', mul_zero] at hneg; exact lt_irrefl _ hneg
  · intro h
    rw [abs_of_nonneg h] at hc hsn
    unfold PointsAlong
    ext
    · rw [V3.smul_x]
      simp only [heading] at hc ⊢
      rw [hc, show (⟨Real.cos w.alpha, Real.sin w.alpha, 0⟩ : V3) = heading w.alpha from rfl, hv]
      show s * Real.cos w.alpha + w.vYacht = _
      linarith
    · rw [V3.smul_y]
      simp only [heading] at hsn ⊢
      rw [hsn, show (⟨Real.cos w.alpha, Real.sin w.alpha, 0⟩ : V3) = heading w.alpha from rfl, hv]
      show s * Real.sin w.alpha = _
      ring
    · rw [hv]; simp [heading]

/-- On the usual tack (`0 ≤ alpha ≤ 180` degrees, boat not sailing backwards) the formula equals
the `arctan2` angle that `InletConditions` reports. -/
theorem C22_agrees_with_arctan2 (w : WindObj) {s : ℝ} (hs : 0 ≤ s)
    (happ : w.appInfs (s • heading (deg w.alphaDeg)) ≠ 0)
    (hα0 : 0 ≤ w.alphaDeg) (hα1 : w.alphaDeg ≤ 180) (hV : 0 ≤ w.vYacht) :
    w.appAlfaInfs (s • heading (deg w.alphaDeg)) =
      .ok (arctan2 (w.appInfs (s • heading (deg w.alphaDeg))).y
        (w.appInfs (s • heading (deg w.alphaDeg))).x) := by
  have hr0 : 0 ≤ deg w.alphaDeg := mul_nonneg hα0 (by positivity)
  have hr1 : deg w.alphaDeg ≤ Real.pi := by
    unfold deg
    have := mul_le_mul_of_nonneg_right hα1 (by positivity : 0 ≤ Real.pi / 180)
    linarith
  have hsin := Real.sin_nonneg_of_nonneg_of_le_pi hr0 hr1
  obtain ⟨θ, hθ, hiff⟩ := C22_angle_partial w hs happ
  have hp := hiff.2 (mul_nonneg hV hsin)
  have hα : w.alpha = deg w.alphaDeg := deg2rad_eq_deg _
  have hθ' := hθ
  rw [appAlfaInfs_ok w hs happ] at hθ'
  injection hθ' with hθ'
  have hac0 := Real.arccos_nonneg ((w.vYacht * Real.cos w.alpha + s) /
        (w.appInfs (s • heading (Spec.deg w.alphaDeg))).norm)
  have hac1 := Real.arccos_le_pi ((w.vYacht * Real.cos w.alpha + s) /
        (w.appInfs (s • heading (Spec.deg w.alphaDeg))).norm)
  have hpos := V3.norm_pos happ
  have hle : θ ≤ Real.pi := by rw [← hθ', hα]; rw [hα] at hac0; linarith
  have hge : -Real.pi ≤ θ := by rw [← hθ', hα]; rw [hα] at hac1; linarith
  have hgt : -Real.pi < θ := by
    rcases hge.lt_or_eq with h | h
    · exact h
    · exfalso
      have hzero : deg w.alphaDeg = 0 := by
        have h1 : w.alpha - Real.arccos ((w.vYacht * Real.cos w.alpha + s) /
          (w.appInfs (s • heading (Spec.deg w.alphaDeg))).norm) = -Real.pi := by rw [hθ', h]
        rw [hα] at h1 hac1
        linarith
      have hx := congrArg V3.x hp
      rw [V3.smul_x, ← h, appInfs_heading, hα, hzero] at hx
      rw [appInfs_heading, hα, hzero] at hpos
      simp [heading] at hx hpos
      have h0 : 0 ≤ s + w.vYacht := by linarith
      linarith
  rw [hθ]
  congr 1
  symm
  exact arctan2_eq hpos (by have := congrArg V3.x hp; simpa [heading] using this)
    (by have := congrArg V3.y hp; simpa [heading] using this) hgt hle

/-- No apparent wind: the formula divides by zero. -/
theorem C22_no_wind (w : WindObj) {s : ℝ} (hs : 0 ≤ s)
    (happ : w.appInfs (s • heading (deg w.alphaDeg)) = 0) :
    w.appAlfaInfs (s • heading (deg w.alphaDeg)) = .error .nonFinite := by
  have hq := appInfs_dot w s
  rw [happ, V3.dot_zero_left] at hq
  have hn : (s • heading (Spec.deg w.alphaDeg)).norm = s := by
    rw [V3.norm_smul, heading_norm, mul_one, abs_of_nonneg hs]
  unfold WindObj.appAlfaInfs
  simp only [hn, ← hq, le_refl, if_true]

/-- **C22 refuted.** On the other tack the formula is wrong: wind angle -90 degrees, wind and yacht
speed 1: the returned angle is not a direction of the apparent wind `(1, -1, 0)`. -/
theorem C22_refuted : ∃ θ, (WindObj.mk (-90) 1 1 .flat).appAlfaInfs
      ((1 : ℝ) • heading (deg (-90))) = .ok θ ∧
    ¬ PointsAlong ((WindObj.mk (-90) 1 1 .flat).appInfs ((1 : ℝ) • heading (deg (-90)))) θ := by
  have h90 : deg (-90) = -(Real.pi / 2) := by unfold deg; ring
  obtain ⟨θ, h1, h2⟩ := C22_angle_partial (WindObj.mk (-90) 1 1 .flat) (s := 1) zero_le_one (by
    intro h
    have := congrArg V3.x h
    simp [WindObj.appInfs, heading, h90] at this)
  refine ⟨θ, h1, fun h => ?_⟩
  have := h2.1 h
  rw [show deg (WindObj.mk (-90) 1 1 .flat).alphaDeg = -(Real.pi / 2) from h90] at this
  norm_num [Real.sin_neg] at this

/-! ## C23 -/

/-- **C23 (exact behaviour).** What `Wind(conditions).profile` does for every profile name and
every pattern of missing parameters. -/
theorem C23_profile_partial (c : WindConditions) :
    windProfile c =
      if c.profile = "exponential" then
        .ok ⟨c.alphaDeg, c.twsRef, c.sog, .exp c.expCoeff c.refHeight c.waterLevel⟩
      else if c.profile = "flat" then
        if c.expCoeff = none ∨ c.refHeight = none then .error (.sysExit 0)
        else .ok ⟨c.alphaDeg, c.twsRef, c.sog, .flat⟩
      else if c.profile = "logarithmic" ∧ (c.roughness = none ∨ c.refHeight = none) then
        .error (.sysExit 0)
      else if c.profile = "expotentional" ∧ (c.expCoeff = none ∨ c.refHeight = none) then
        .error (.sysExit 0)
      else .ok ⟨c.alphaDeg, c.twsRef, c.sog, .log c.roughness c.refHeight⟩ := by
  unfold windProfile windPostInit windGetProfile
  by_cases h1 : c.profile = "exponential"
  · simp [h1]; rfl
  by_cases h2 : c.profile = "flat"
  · by_cases h3 : c.expCoeff = none ∨ c.refHeight = none <;> simp [h2, h3] <;> rfl
  by_cases h4 : c.profile = "logarithmic"
  · by_cases h3 : c.roughness = none ∨ c.refHeight = none <;> simp [h4, h3] <;> rfl
  by_cases h5 : c.profile = "expotentional"
  · by_cases h3 : c.expCoeff = none ∨ c.refHeight = none <;> simp [h5, h3] <;> rfl
  · simp [h1, h2, h4, h5]; rfl

/-- **C23 (correct part).** With all parameters present the three documented names select the
profile they name. -/
theorem C23_named_profiles (α tws sog c r ref wl : ℝ) (name : String) :
    (name = "flat" → windProfile ⟨α, tws, sog, name, some c, some ref, some wl, some r⟩ =
      .ok ⟨α, tws, sog, .flat⟩) ∧
    (name = "exponential" → windProfile ⟨α, tws, sog, name, some c, some ref, some wl, some r⟩ =
      .ok ⟨α, tws, sog, .exp (some c) (some ref) (some wl)⟩) ∧
    (name = "logarithmic" → windProfile ⟨α, tws, sog, name, some c, some ref, some wl, some r⟩ =
      .ok ⟨α, tws, sog, .log (some r) (some ref)⟩) := by
  refine ⟨?_, ?_, ?_⟩ <;> rintro rfl <;> simp [C23_profile_partial]

/-- **C23 refuted.** (a) Every unknown name is silently taken for the logarithmic profile.
(b) The exponential profile (the default) is never checked: without its exponent the wind object is
built and every use of it is a `TypeError`.  (c) The flat profile is rejected when parameters it
does not use are missing. -/
theorem C23_refuted :
    (∀ (name : String) (α tws sog c r ref wl : ℝ), name ≠ "exponential" → name ≠ "flat" →
      windProfile ⟨α, tws, sog, name, some c, some ref, some wl, some r⟩ =
        .ok ⟨α, tws, sog, .log (some r) (some ref)⟩) ∧
    (∀ (α tws sog r ref wl : ℝ), ∃ w,
      windProfile ⟨α, tws, sog, "exponential", none, some ref, some wl, some r⟩ = .ok w ∧
        ∀ h, w.trueWindAt h = .error .typeError) ∧
    (∀ (α tws sog : ℝ),
      windProfile ⟨α, tws, sog, "flat", none, none, none, none⟩ = .error (.sysExit 0)) := by
  refine ⟨fun name α tws sog c r ref wl h1 h2 => ?_, fun α tws sog r ref wl => ?_,
    fun α tws sog => ?_⟩
  · simp [C23_profile_partial, h1, h2]
  · exact ⟨_, by rw [C23_profile_partial]; exact if_pos rfl, fun h => rfl⟩
  · simp [C23_profile_partial]

/-- **C23, exactly where it holds.**  The wind that the settings ask for is built, and settings that do not name a
profile with all its parameters are rejected, if and only if the profile is `logarithmic`; or `exponential` with all its
parameters; or `flat` with a (useless) exponent and reference height; or the misspelt `expotentional` without exponent or
reference height. -/
theorem C23_exact (c : WindConditions) :
    ((∀ w, requestedWind c = some w → windProfile c = .ok w) ∧ (requestedWind c = none → ∃ e, windProfile c = .error e)) ↔
      (c.profile = "logarithmic" ∨
        (c.profile = "exponential" ∧ c.expCoeff ≠ none ∧ c.refHeight ≠ none ∧ c.waterLevel ≠ none) ∨
        (c.profile = "flat" ∧ c.expCoeff ≠ none ∧ c.refHeight ≠ none) ∨
        (c.profile = "expotentional" ∧ (c.expCoeff = none ∨ c.refHeight = none))) := by
  rw [C23_profile_partial]
  obtain ⟨α, tws, sog, name, e, r, l, z⟩ := c
  by_cases h1 : name = "exponential"
  · subst h1
    cases e <;> cases r <;> cases l <;> simp [requestedWind]
  by_cases h2 : name = "flat"
  · subst h2
    cases e <;> cases r <;> simp [requestedWind]
  by_cases h3 : name = "logarithmic"
  · subst h3
    cases r <;> cases z <;> simp [requestedWind]
  have hn : requestedWind ⟨α, tws, sog, name, e, r, l, z⟩ = none := by
    unfold requestedWind
    split <;> simp_all
  rw [hn]
  by_cases h4 : name = "expotentional"
  · subst h4
    cases e <;> cases r <;> simp
  · simp [h1, h2, h3, h4]

example : requestedWind ⟨60, 5, 3, "logarithmic", none, some 10, none, some 0.05⟩ = some ⟨60, 5, 3, .log (some 0.05) (some 10)⟩ ∧
    requestedWind ⟨60, 5, 3, "logarithmic", none, none, none, some 0.05⟩ = none ∧
    requestedWind ⟨60, 5, 3, "constant", none, some 10, none, some 0.05⟩ = none := ⟨rfl, rfl, rfl⟩

/-! ## C24 -/

/-- **C24.** Whenever `InletConditions` is built for a list of points, it is also built for the
mirrored points, with identical true wind, apparent wind, lengths and angles; the wind has no vertical
component, and the apparent wind of a point is the true wind at its height plus the yacht speed. -/
theorem C24_mirror {w : WindObj} {rho : ℝ} {ps : List V3} {i : Inlet}
    (h : inletConditions w rho ps = .ok i) :
    inletConditions w rho (ps.map mirror) = .ok { i with cpPoints := ps.map mirror } ∧
    i.twsAtCp.length = ps.length ∧ i.vAppInfs.length = ps.length ∧
    (∀ v ∈ i.twsAtCp, v.z = 0) ∧ (∀ v ∈ i.vAppInfs, v.z = 0) ∧
    ∀ (k : ℕ) (p : V3), ps[k]? = some p → ∃ v, w.trueWindAt |p.z| = .ok v ∧ i.twsAtCp[k]? = some v ∧
      i.vAppInfs[k]? = some (v + w.vYacht • (⟨1, 0, 0⟩ : V3)) ∧
      i.awaInfsDeg[k]? = some (180 / Real.pi * arctan2 v.y (v.x + w.vYacht)) := by
  unfold inletConditions at h ⊢
  have hmir : (ps.map mirror).mapM (fun p => w.trueWindAt |p.z|) =
      ps.mapM (fun p => w.trueWindAt |p.z|) := by
    rw [List.mapM_map]
    congr 1
    funext p
    simp [Function.comp, mirror]
  rw [hmir]
  cases hm : ps.mapM (fun p => w.trueWindAt |p.z|) with
  | error e => rw [hm] at h; cases h
  | ok tws =>
    rw [hm] at h
    obtain ⟨hlen, hget₀⟩ := mapM_ok_inv hm
    have hget : ∀ k (hk : k < ps.length) (hk' : k < tws.length),
        w.trueWindAt |ps[k].z| = .ok tws[k] := by
      intro k hk hk'
      obtain ⟨b, hb, hb'⟩ := hget₀ k hk
      rw [List.getElem?_eq_getElem hk'] at hb
      injection hb with hb
      rw [hb', hb]
    have hnil : tws ≠ [] := by
      rintro rfl
      cases h
    have h' : (Except.ok (⟨rho, w, ps, tws, tws.map V3.norm, tws.map w.appInfs,
        (tws.map w.appInfs).map V3.norm,
        (tws.map w.appInfs).map fun v => rad2deg (arctan2 v.y v.x)⟩ : Inlet) : Py Inlet) =
        .ok i := by
      rw [← h]; exact (if_neg hnil).symm
    injection h' with h'
    subst h'
    have hz : ∀ v ∈ tws, v.z = 0 := by
      intro v hv
      obtain ⟨k, hk, rfl⟩ := List.getElem_of_mem hv
      obtain ⟨s, hs⟩ := trueWindAt_horizontal (hget k (hlen ▸ hk) hk)
      rw [hs]; simp [heading]
    refine ⟨if_neg hnil, hlen, by simp [hlen], hz, ?_, ?_⟩
    · intro v hv
      obtain ⟨u, hu, rfl⟩ := List.mem_map.1 hv
      exact hz u hu
    · intro k p hk
      obtain ⟨hlt, rfl⟩ := List.getElem?_eq_some_iff.1 hk
      have hlt' : k < tws.length := hlen ▸ hlt
      refine ⟨tws[k], hget k hlt hlt', List.getElem?_eq_getElem hlt', ?_, ?_⟩
      · simp only [List.getElem?_map, List.getElem?_eq_getElem hlt', Option.map_some,
          (C22_vector_sum w).1]
      · simp only [List.getElem?_map, List.getElem?_eq_getElem hlt', Option.map_some,
          WindObj.appInfs, rad2deg]
        congr 1; ring

/-- The hypothesis of `C24_mirror` is met: flat wind, any non-empty list of points. -/
theorem C24_flat_ok (α tws V rho : ℝ) (p : V3) (ps : List V3) :
    ∃ i, inletConditions ⟨α, tws, V, .flat⟩ rho (p :: ps) = .ok i := by
  unfold inletConditions
  rw [mapM_ok (g := fun _ => tws • heading (deg α)) (fun q _ => C21_flat α tws V _)]
  exact ⟨_, rfl⟩

/-! ## C62 -/

/-- Value stored under a key in a list of rows. -/
def row (rows : List (String × ℝ)) (key : String) : Option ℝ := rows.lookup key

/-- **C62.** For the exponential profile with positive exponent and reference height and water level
0, the reference sheet reports the wind the user typed in: length `|tws_ref|`, direction of the
wind angle, apparent wind = true wind + yacht speed, and the centreline angle is the course angle
minus leeway. -/
theorem C62_reference_sheet {c ref : ℝ} (hc : 0 < c) (href : 0 < ref) (α tws V : ℝ) (csys : Csys) :
    ∃ rows, windIntegral ⟨α, tws, V, .exp (some c) (some ref) (some 0)⟩ csys = .ok rows ∧
      row rows "Reference_measurement_height" = some ref ∧
      row rows "TWS_at_reference_height_COG.x" = some (tws * Real.cos (deg α)) ∧
      row rows "TWS_at_reference_height_COG.y" = some (tws * Real.sin (deg α)) ∧
      row rows "TWS_length_at_reference_height" = some |tws| ∧
      row rows "V_app_infs_at_reference_height_COG.x" = some (tws * Real.cos (deg α) + V) ∧
      row rows "V_app_infs_at_reference_height_COG.y" = some (tws * Real.sin (deg α)) ∧
      ∃ θ, row rows "AWA_infs_at_reference_height_COG_deg" = some θ ∧
        PointsAlong ⟨tws * Real.cos (deg α) + V, tws * Real.sin (deg α), 0⟩ (deg θ) ∧
        row rows "AWA_infs_at_reference_height_COW_deg" = some (θ - csys.leewayDeg) := by
  have hf : expFactorFloat c ref 0 ref = .ok 1 := by
    have hb : (ref - 0) / ref = 1 := by rw [sub_zero, div_self href.ne']
    unfold expFactorFloat
    simp only [hb, Real.one_rpow]
    rw [if_neg href.ne', if_neg hc.ne', if_neg (fun h => by linarith [h.1]),
      if_neg (fun h => by linarith [h.1])]
  have hw : (⟨α, tws, V, .exp (some c) (some ref) (some 0)⟩ : WindObj).lengthToXyz (tws * 1) =
      tws • heading (deg α) := by
    rw [mul_one]; ext <;> simp [WindObj.lengthToXyz, heading, WindObj.alpha, deg, deg2rad]
  unfold windIntegral
  simp only [hf, hw, bind, Except.bind]
  refine ⟨_, rfl, by simp [row, List.lookup], by simp [row, List.lookup, heading],
    by simp [row, List.lookup, heading],
    by simp [row, List.lookup, V3.norm_smul, heading_norm],
    by simp [row, List.lookup, heading, WindObj.appInfs],
    by simp [row, List.lookup, heading, WindObj.appInfs],
    rad2deg (arctan2 (tws * Real.sin (deg α)) (tws * Real.cos (deg α) + V)),
    by simp [row, List.lookup, heading, WindObj.appInfs], ?_,
    by simp [row, List.lookup, heading, WindObj.appInfs]⟩
  have hd : ∀ r, deg (rad2deg r) = r := by
    intro r; unfold deg rad2deg; field_simp
  rw [hd]
  exact pointsAlong_arctan2 ⟨tws * Real.cos (deg α) + V, tws * Real.sin (deg α), 0⟩ rfl

example : ∃ rows, windIntegral ⟨50, 4.63, 4.63, .exp (some 0.1428) (some 10) (some 0)⟩
      ⟨10, 5, 0⟩ = .ok rows ∧ row rows "TWS_length_at_reference_height" = some |4.63| :=
  let ⟨rows, h, _, _, _, h', _⟩ := C62_reference_sheet (c := 0.1428) (ref := 10) (by norm_num)
    (by norm_num) 50 4.63 4.63 ⟨10, 5, 0⟩
  ⟨rows, h, h'⟩

/-- **C62 (limit).** For the other two profiles the sheet carries no wind data at all, whatever the
inputs: a single dummy row. -/
theorem C62_dummy (α tws V : ℝ) (r ref : Option ℝ) (csys : Csys) :
    windIntegral ⟨α, tws, V, .flat⟩ csys = .ok [("Not implemented - dummy variable", 123456789)] ∧
    windIntegral ⟨α, tws, V, .log r ref⟩ csys =
      .ok [("Not implemented - dummy variable", 123456789)] := ⟨rfl, rfl⟩

end PySailing.Props
