import Verif.Lemmas.FlatSail
import Verif.Props.Settings

/-!
# C110: every flat rectangular sail can be calculated
-/

namespace PySailing.Props

open PySailing PySailing.Spec

/-- **C110.** An upright flat rectangular sail above the water, with its mirror image under the water (any number of
panels, each of an area of at least `2e-4`), in a wind of any strength profile whose direction does not change with
the height and which does not come from behind: the solver always returns.  All circulations, in the sail and in its
image, have the same sign (with orientation `-1` that of the wind component normal to the sail) and vanish with that
component; none exceeds the circulation `π c M |u·n|` of a flat plate of infinite span in the strongest wind. -/
theorem C110_solver {s : SailInput} {θ : ℕ → ℝ} {chord τ : ℝ} (F : FlatSail s θ chord τ)
    (hbig : 2e-4 ≤ chord / s.nc * ((s.head.z - s.tack.z) / s.ns)) {sail : SailGeom} (hs : sailGeometry s = .ok sail)
    {set : SailSet} (hset : sailSet [sail] = .ok set) {w : WindObj} {u : V3} {M : ℝ}
    (hw : WindAlong w u M s.tack.z s.head.z) (hfront : 0 ≤ u.dot (leechDirection s.csys.leewayDeg τ))
    {rho g : ℝ} (hrho : rho ≠ 0) (hg : g ≠ 0) :
    ∃ r, vlm ⟨set.panels, s.nc, s.ns, rho, w, set.te, set.le, g⟩ = .ok r ∧
      (List.ofFn r.sol.gamma).length = 2 * (s.nc * s.ns) ∧ ∀ γ ∈ List.ofFn r.sol.gamma,
        (0 < u.dot (sailNormal s.csys.leewayDeg τ) → g * γ < 0) ∧ (u.dot (sailNormal s.csys.leewayDeg τ) < 0 → 0 < g * γ) ∧
        |g * γ| ≤ Real.pi * chord * (M * |u.dot (sailNormal s.csys.leewayDeg τ)|) := by
  obtain ⟨hu1, huz, hwind⟩ := hw
  choose! W l hW hl hM hWl using hwind
  refine ⟨_, F.solved hbig hs hset hu1 huz hW hWl hl hfront hrho hg, ?_, ?_⟩
  · rw [List.length_ofFn]
    exact PlanarBlocks.vars_length g s.nc s.ns (FlatSail.blocks s θ)
  intro γ h
  rw [List.mem_ofFn] at h
  obtain ⟨i, rfl⟩ := h
  exact F.gamma_bounds hbig hu1 huz hWl hl hM hfront rho hg i

/-- A curve through constant data is constant. -/
theorem curveValue_replicate {kind : String} {gi : List ℝ} (hne : gi ≠ [])
    (hk : kind = "linear" ∨ (kind = "spline" ∧ 4 ≤ gi.length))
    (hinc : ∀ i, i + 1 < gi.length → gi.getD i 0 < gi.getD (i + 1) 0) {x t v : ℝ} (h0 : 0 ≤ t) (h1 : t ≤ 1)
    (h : CurveValue kind (gi.length - 1) (fun i => gi.getD i 0) (fun i => (List.replicate gi.length x).getD i 0) t v) :
    v = x := by
  obtain ⟨a, b⟩ := curveWithin_replicate hne hk hinc x t v h0 h1 h
  exact le_antisymm b a

/-- A run with an upright main sail without camber, with a vertical mast and the same chord and twist in all
sections, nothing else than the sail being selected. -/
structure FlatMain (c : Config) (luff chord τ : ℝ) : Prop where
  mode : c.solver.lltTwist ∈ twistModes
  ns_pos : 1 ≤ c.solver.ns
  nc_pos : 1 ≤ c.solver.nc
  upright : c.heelDeg = 0
  sails : c.rig.sailsDef = "main"
  rake : c.rig.rakeDeg = 90
  base : c.rig.base ≠ none
  luff_eq : c.rig.mainLuff = some luff
  luff_pos : 0 < luff
  foot : 0 ≤ c.rig.sheer + c.rig.boom
  chord_pos : 0 < chord
  jib_twist : c.jib.twist ≠ none ∨ c.jib.girths ≠ none
  data : ∃ girths position, UniformSail c.solver.interpolation (mainData c) girths (List.replicate girths.length chord)
    (List.replicate girths.length τ) 0 position
  wind : ¬ WindIncomplete c.wind
  reference : ReferenceAboveWater c.wind

theorem FlatMain.wellFormed {c : Config} {luff chord τ : ℝ} (h : FlatMain c luff chord τ) : WellFormed c := by
  have hs : Real.sin (deg2rad c.heelDeg) = 0 := by rw [h.upright]; simp [deg2rad]
  obtain ⟨gi, po, hu⟩ := h.data
  refine ⟨h.mode, h.ns_pos, h.nc_pos, ?_, by rw [h.sails]; simp, h.base, ?_, h.jib_twist, fun e => absurd h.sails e, fun _ => ?_, h.wind⟩
  · rw [h.upright]; simp [deg2rad]
  · have := hu.girths_eq
    exact Or.inr (by simp only [mainData, withDefaultTwist] at this; simp [this])
  · refine ⟨⟨⟨_, h.luff_eq, h.luff_pos⟩, ?_, sin_deg_pos (by rw [h.rake]; norm_num) (by rw [h.rake]; norm_num)⟩, _, _, _, _, _, C108_uniform hu⟩
    rcases h.foot.lt_or_eq with h0 | h0
    · exact Or.inl h0
    · exact Or.inr ⟨h0.symm, hs⟩

/-- The flat sail a run with such a configuration builds. -/
theorem FlatMain.sail {c : Config} {luff chord τ : ℝ} (h : FlatMain c luff chord τ) :
    ∃ (sm : SailInput × (ℕ → ℝ)) (g : SailGeom) (set : SailSet), FlatSail sm.1 sm.2 chord τ ∧
      sm.1.nc = c.solver.nc ∧ sm.1.ns = c.solver.ns ∧ sm.1.csys = ⟨c.heelDeg, c.leewayDeg, c.vRef⟩ ∧
      sm.1.tack.z = c.rig.sheer + c.rig.boom ∧ sm.1.head.z = c.rig.sheer + c.rig.boom + luff ∧
      sailGeometry sm.1 = .ok g ∧ sailSet [g] = .ok set ∧
      sailSetOf fitpackSpline c.solver c.rig (some (mainData c)) (some (jibData c)) ⟨c.heelDeg, c.leewayDeg, c.vRef⟩ = .ok set := by
  have hwf := h.wellFormed
  obtain ⟨ss, set, hset, hb, -, hcs, -, -, d, -⟩ := wellFormed_set hwf
  obtain ⟨sm, rfl, hd⟩ := d h.sails
  obtain ⟨g, gs, hbf, hnil, hsails⟩ := List.forall₂_cons_left_iff.1 hb
  rw [List.forall₂_nil_left_iff] at hnil
  subst hnil
  have hss := sailSetOf_sails hset
  rw [hsails] at hss
  obtain ⟨hokS, e1, e2, hg⟩ := hbf
  obtain ⟨luff', gi, ch, tw, ca, di, hl, hgood, hdes⟩ := hd
  obtain ⟨gi', po, hu⟩ := h.data
  obtain rfl : luff' = luff := by rw [h.luff_eq] at hl; exact (Option.some.inj hl).symm
  obtain rfl : gi' = gi := by have := hu.girths_eq; rw [hgood.girths_eq] at this; exact (Option.some.inj this).symm
  obtain rfl : ch = List.replicate gi'.length chord := by have := hu.chords_eq; rw [hgood.chords_eq] at this; exact Option.some.inj this
  obtain rfl : tw = List.replicate gi'.length τ := by have := hu.twist_eq; rw [hgood.twist_eq] at this; exact Option.some.inj this
  obtain rfl : ca = List.replicate gi'.length 0 := by have := hu.camber_eq; rw [hgood.camber_eq] at this; exact Option.some.inj this
  have hns : (0 : ℝ) < c.solver.ns := by exact_mod_cast h.ns_pos
  have hfrac : ∀ r : ℕ, r ≤ c.solver.ns → 0 ≤ (r : ℝ) / c.solver.ns ∧ (r : ℝ) / c.solver.ns ≤ 1 := fun r hr =>
    ⟨by positivity, by rw [div_le_one hns]; exact_mod_cast hr⟩
  have hconst : ∀ {x v : ℝ} {r : ℕ}, r ≤ c.solver.ns → CurveValue c.solver.interpolation (gi'.length - 1) (fun i => gi'.getD i 0)
      (fun i => (List.replicate gi'.length x).getD i 0) ((r : ℝ) / c.solver.ns) v → v = x := fun hr hv =>
    curveValue_replicate hu.nonempty hu.kind_ok hu.increasing (hfrac _ hr).1 (hfrac _ hr).2 hv
  have hmast : mastDirection c.rig.rakeDeg = ⟨0, 0, 1⟩ := by
    unfold mastDirection
    rw [h.rake, show deg2rad 90 = Real.pi / 2 by unfold deg2rad; ring]
    simp
  have htz : sm.1.tack.z = c.rig.sheer + c.rig.boom := by rw [hdes.tack_eq, hmast]; simp
  have hhz : sm.1.head.z = c.rig.sheer + c.rig.boom + luff' := by rw [hdes.head_eq, hmast]; simp
  have F : FlatSail sm.1 sm.2 chord τ := {
    ok := hokS
    upright := by rw [hdes.csys_eq]; exact h.upright
    vertical := by rw [hdes.head_eq, hdes.tack_eq, hmast]; simp
    up := by have := h.luff_pos; rw [htz, hhz]; linarith
    chord_pos := h.chord_pos
    chords := fun r hr => hconst (e2 ▸ hr) (hdes.chords.2 r (e2 ▸ hr))
    camber := fun r hr => hconst (e2 ▸ hr) (hdes.camber.2 r (e2 ▸ hr))
    twist := fun r hr => hconst (e2 ▸ hr) (hdes.twist r (e2 ▸ hr)) }
  exact ⟨sm, g, set, F, e1, e2, hdes.csys_eq, htz, hhz, hg, hss, hset⟩

/-- **C110**, complete runs: with such a sail (panels of an area of at least `2e-4`) in a wind of constant direction
that does not come from behind, every run is completed and writes all its outputs; nothing is assumed about the
solver. -/
theorem C110_run (c : Config) {luff chord τ : ℝ} (h : FlatMain c luff chord τ)
    (hbig : 2e-4 ≤ chord / c.solver.nc * (luff / c.solver.ns)) (hrho : c.rho ≠ 0) {u : V3} {M : ℝ}
    (hw : WindAlong (windGetProfile c.wind) u M (c.rig.sheer + c.rig.boom) (c.rig.sheer + c.rig.boom + luff))
    (hfront : 0 ≤ u.dot (leechDirection c.leewayDeg τ)) :
    (run fitpackSpline c).2 = .ok () ∧ (run fitpackSpline c).1.map outputKind = outputOrder := by
  obtain ⟨set', hset', hok, -⟩ := C72_wellformed_partial c h.wellFormed h.reference
  apply hok
  obtain ⟨sm, g, set, F, e1, e2, hcs, htz, hhz, hg, hss, hset⟩ := h.sail
  rw [hset'] at hset
  injection hset with e
  subst e
  obtain ⟨r, hr, -⟩ := C110_solver F (by rw [htz, hhz, e1, e2, add_sub_cancel_left]; exact hbig) hg hss
    (w := windGetProfile c.wind) (u := u) (M := M) (by rw [htz, hhz]; exact hw) (by rw [hcs]; exact hfront)
    (rho := c.rho) (g := -1) hrho (by norm_num)
  rw [e1, e2] at hr
  exact ⟨r, hr⟩

/-- A flat wind profile: the same wind at all heights. -/
theorem windAlong_flat {w : WindConditions} (hf : w.profile = "flat") {V : V3}
    (hV : V = ⟨w.twsRef * Real.cos (w.alphaDeg * (Real.pi / 180)) + w.sog, w.twsRef * Real.sin (w.alphaDeg * (Real.pi / 180)), 0⟩)
    (hne : V ≠ 0) (lo hi : ℝ) : WindAlong (windGetProfile w) ((1 / V.norm) • V) V.norm lo hi := by
  have hl := V3.norm_pos hne
  refine ⟨?_, by rw [hV]; simp, fun h _ _ => ⟨⟨w.twsRef * Real.cos (w.alphaDeg * (Real.pi / 180)),
    w.twsRef * Real.sin (w.alphaDeg * (Real.pi / 180)), 0⟩, V.norm, ?_, hl, le_rfl, ?_⟩⟩
  · rw [V3.norm_smul, abs_of_pos (by positivity)]; field_simp
  · unfold windGetProfile
    simp only [hf]
    have ha : deg2rad w.alphaDeg = w.alphaDeg * (Real.pi / 180) := by unfold deg2rad; ring
    simp only [WindObj.trueWindAt, WindObj.lengthToXyz, WindObj.alpha, ha]
    rfl
  · rw [smul_smul, mul_one_div_cancel hl.ne', one_smul, hV]
    ext <;> simp [windGetProfile]

/-- An exponential wind profile with the yacht at rest: the wind grows with the height and keeps its direction. -/
theorem windAlong_exponential {w : WindConditions} (hf : w.profile = "exponential") (hs : w.sog = 0) (ht : 0 < w.twsRef)
    {c ref wl : ℝ} (h1 : w.expCoeff = some c) (h2 : w.refHeight = some ref) (h3 : w.waterLevel = some wl) (hc : 0 < c)
    (href : 0 < ref) {lo hi : ℝ} (hlo : wl ≤ lo) : WindAlong (windGetProfile w)
      ⟨Real.cos (w.alphaDeg * (Real.pi / 180)), Real.sin (w.alphaDeg * (Real.pi / 180)), 0⟩
      (w.twsRef * ((hi - wl) / ref) ^ c) lo hi := by
  have ha : deg2rad w.alphaDeg = w.alphaDeg * (Real.pi / 180) := by unfold deg2rad; ring
  refine ⟨?_, rfl, fun h g1 g2 => ?_⟩
  · have := Real.cos_sq_add_sin_sq (w.alphaDeg * (Real.pi / 180))
    unfold V3.norm V3.dot
    rw [Real.sqrt_eq_one]
    linear_combination this
  have hb : 0 < (h - wl) / ref := div_pos (by linarith) href
  refine ⟨(windGetProfile w).lengthToXyz (w.twsRef * ((h - wl) / ref) ^ c), w.twsRef * ((h - wl) / ref) ^ c, ?_, ?_, ?_, ?_⟩
  · unfold windGetProfile
    simp only [hf, h1, h2, h3, if_true, WindObj.trueWindAt, WindObj.expFactor]
    rw [if_neg href.ne', if_neg hc.ne', if_neg (fun h => absurd h.1 (not_lt.2 hb.le)), if_neg (fun h => hb.ne' h.1)]
    rfl
  · exact mul_pos ht (Real.rpow_pos_of_pos hb c)
  · apply mul_le_mul_of_nonneg_left _ ht.le
    apply Real.rpow_le_rpow hb.le _ hc.le
    apply div_le_div_of_nonneg_right _ href.le
    linarith
  · simp only [WindObj.lengthToXyz, WindObj.alpha, windGetProfile, ha, hs]
    ext <;> simp

/-- The shipped settings file `rectangle_variables.py` describes such a sail. -/
theorem rectangle_flat : FlatMain rectangleConfig 5 1 (-10) := {
  mode := by simp [rectangleConfig, twistModes]
  ns_pos := by simp [rectangleConfig]
  nc_pos := by simp [rectangleConfig]
  upright := rfl
  sails := rfl
  rake := rfl
  base := by simp [rectangleConfig]
  luff_eq := rfl
  luff_pos := by norm_num
  foot := by simp [rectangleConfig]
  chord_pos := by norm_num
  jib_twist := Or.inl (by simp [rectangleConfig])
  data := ⟨shippedMainGirths, 0.5, uniform_main (Or.inr rfl) (by
    simp [rectangleConfig, mainData, withDefaultTwist, shippedMainGirths, List.replicate]) (by simp [shippedMainGirths])
    (by simp [shippedMainGirths]) le_rfl (by norm_num)⟩
  wind := rectangle_wellFormed.wind
  reference := fun h => absurd h (by simp [rectangleConfig]) }

/-- The wind of that file. -/
theorem rectangle_wind : ∃ u M, (∀ lo hi, WindAlong (windGetProfile rectangleConfig.wind) u M lo hi) ∧ 0 ≤ u.dot (leechDirection 0 (-10)) := by
  have hpi := Real.pi_pos
  set V : V3 := ⟨1 * Real.cos (1 * (Real.pi / 180)) + 0, 1 * Real.sin (1 * (Real.pi / 180)), 0⟩ with hV
  have hne : V ≠ 0 := by
    intro h
    have hs : 0 < Real.sin (1 * (Real.pi / 180)) := Real.sin_pos_of_pos_of_lt_pi (by positivity) (by linarith)
    have := congrArg V3.y h
    simp only [hV, V3.zero_y] at this
    linarith
  refine ⟨_, _, windAlong_flat (w := rectangleConfig.wind) rfl (V := V) rfl hne, ?_⟩
  have : 0 ≤ V.dot (leechDirection 0 (-10)) := by
    have hc : V.dot (leechDirection 0 (-10)) = Real.cos (1 * (Real.pi / 180) - (0 + -10) * (Real.pi / 180)) := by
      rw [Real.cos_sub]
      simp [V3.dot, hV, leechDirection]
    rw [hc]
    apply Real.cos_nonneg_of_mem_Icc
    constructor <;> linarith
  have hl := V3.norm_pos hne
  have e : ((1 / V.norm) • V).dot (leechDirection 0 (-10)) = 1 / V.norm * V.dot (leechDirection 0 (-10)) := by
    simp only [V3.dot, V3.smul_x, V3.smul_y, V3.smul_z]; ring
  change 0 ≤ ((1 / V.norm) • V).dot (leechDirection 0 (-10))
  rw [e]
  positivity

/-- **C110.** A run with the shipped settings file `rectangle_variables.py` is completed and writes all its
outputs. -/
theorem C110_rectangle : ∃ c, Configured shippedRectangle c ∧
    runSettings fitpackSpline shippedRectangle = some (run fitpackSpline c) ∧
    (run fitpackSpline c).2 = .ok () ∧ (run fitpackSpline c).1.map outputKind = outputOrder := by
  refine ⟨rectangleConfig, rectangle_configured, (C107_config _ _ rectangle_known).1 _ rectangle_configured, ?_⟩
  obtain ⟨u, M, h1, h2⟩ := rectangle_wind
  exact C110_run rectangleConfig rectangle_flat (by norm_num [rectangleConfig]) (by norm_num [rectangleConfig]) (h1 _ _) h2

end PySailing.Props
