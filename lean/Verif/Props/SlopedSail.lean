import Verif.Lemmas.SlopedShape
import Verif.Lemmas.TaperForce
import Verif.Props.FlatSailForce
import Mathlib.Analysis.Real.Pi.Bounds

/-!
# C122: flat sails of any shape in a wind close to the sail
-/

namespace PySailing.Props

open PySailing PySailing.Spec

/-- **C122.** An upright flat sail above the water, with a leech of any shape that runs aft or forward by at most `Q`
metres per metre of height, with its mirror image under the water (any number of panels, none smaller than 4 cm by 4 cm),
in a wind of any strength profile whose direction does not change with the height and which is close enough to the plane
of the sail: the solver always returns.  All circulations, in the sail and in its image, have the same sign (with
orientation `-1` that of the wind component normal to the sail), and they vanish with that component. -/
theorem C122_solver {s : SailInput} {θ : ℕ → ℝ} {chord : ℝ → ℝ} {τ Q : ℝ} (F : SlopedSail s θ chord τ Q) {sail : SailGeom}
    (hs : sailGeometry s = .ok sail) {set : SailSet} (hset : sailSet [sail] = .ok set) {w : WindObj} {u : V3} {M : ℝ}
    (hw : WindAlong w u M s.tack.z s.head.z) (hclose : CloseToSail (u.dot (leechDirection s.csys.leewayDeg τ)) Q)
    {rho g : ℝ} (hrho : rho ≠ 0) (hg : g ≠ 0) :
    ∃ r, vlm ⟨set.panels, s.nc, s.ns, rho, w, set.te, set.le, g⟩ = .ok r ∧
      (List.ofFn r.sol.gamma).length = 2 * (s.nc * s.ns) ∧ ∀ γ ∈ List.ofFn r.sol.gamma,
        (0 < u.dot (sailNormal s.csys.leewayDeg τ) → g * γ < 0) ∧ (u.dot (sailNormal s.csys.leewayDeg τ) < 0 → 0 < g * γ) ∧
        (u.dot (sailNormal s.csys.leewayDeg τ) = 0 → γ = 0) :=
  F.toPlaneSail.solver hs hset hw (F.fits hclose) hrho hg

/-- **C122.** The horizontal part of the lift of every strip of such a sail (and of its image) is across the wind, to the
side to which the wind would pass through the sail, and vanishes with the component of the wind normal to the sail. -/
theorem C122_strip {s : SailInput} {θ : ℕ → ℝ} {chord : ℝ → ℝ} {τ Q : ℝ} (F : SlopedSail s θ chord τ Q) {sail : SailGeom}
    (hs : sailGeometry s = .ok sail) {set : SailSet} (hset : sailSet [sail] = .ok set) {w : WindObj} {u : V3} {M : ℝ}
    (hw : WindAlong w u M s.tack.z s.head.z) (hclose : CloseToSail (u.dot (leechDirection s.csys.leewayDeg τ)) Q)
    {rho g : ℝ} (hrho : 0 < rho) (hg : g ≠ 0) {r : Vlm}
    (hr : vlm ⟨set.panels, s.nc, s.ns, rho, w, set.te, set.le, g⟩ = .ok r) {b j : ℕ} (hb : b < 2) (hj : j < s.ns) :
    ∃ L : ℝ, (stripSum s.nc s.ns (List.ofFn r.sol.lift) b j).x = L * (acrossWind u).x ∧
      (stripSum s.nc s.ns (List.ofFn r.sol.lift) b j).y = L * (acrossWind u).y ∧
      (0 < u.dot (sailNormal s.csys.leewayDeg τ) → 0 < L) ∧ (u.dot (sailNormal s.csys.leewayDeg τ) < 0 → L < 0) ∧
      (u.dot (sailNormal s.csys.leewayDeg τ) = 0 → L = 0) :=
  F.toPlaneSail.force_strip hs hset hw (F.fits hclose) hrho hg hr hb hj

/-- **C122**, the whole sail: so is the horizontal part of the lift of all panels above the water. -/
theorem C122_sail {s : SailInput} {θ : ℕ → ℝ} {chord : ℝ → ℝ} {τ Q : ℝ} (F : SlopedSail s θ chord τ Q) {sail : SailGeom}
    (hs : sailGeometry s = .ok sail) {set : SailSet} (hset : sailSet [sail] = .ok set) {w : WindObj} {u : V3} {M : ℝ}
    (hw : WindAlong w u M s.tack.z s.head.z) (hclose : CloseToSail (u.dot (leechDirection s.csys.leewayDeg τ)) Q)
    {rho g : ℝ} (hrho : 0 < rho) (hg : g ≠ 0) {r : Vlm}
    (hr : vlm ⟨set.panels, s.nc, s.ns, rho, w, set.te, set.le, g⟩ = .ok r) :
    ∃ L : ℝ, (((List.ofFn r.sol.lift).take (s.nc * s.ns)).sum).x = L * (acrossWind u).x ∧
      (((List.ofFn r.sol.lift).take (s.nc * s.ns)).sum).y = L * (acrossWind u).y ∧
      (0 < u.dot (sailNormal s.csys.leewayDeg τ) → 0 < L) ∧ (u.dot (sailNormal s.csys.leewayDeg τ) < 0 → L < 0) ∧
      (u.dot (sailNormal s.csys.leewayDeg τ) = 0 → L = 0) :=
  F.toPlaneSail.force_sail hs hset hw (F.fits hclose) hrho hg hr

/-- **C122.** If the wind gets stronger without changing its direction (at every height of the sail at least as fast as
before), neither the circulation of any panel nor the horizontal part of the lift of any strip gets smaller. -/
theorem C122_monotone {s : SailInput} {θ : ℕ → ℝ} {chord : ℝ → ℝ} {τ Q : ℝ} (F : SlopedSail s θ chord τ Q) {sail : SailGeom}
    (hs : sailGeometry s = .ok sail) {set : SailSet} (hset : sailSet [sail] = .ok set) {w w' : WindObj} {u : V3} {M M' : ℝ}
    (hw : WindAlong w u M s.tack.z s.head.z) (hw' : WindAlong w' u M' s.tack.z s.head.z)
    (hle : ∀ h v v', s.tack.z < h → h < s.head.z → w.trueWindAt h = .ok v → w'.trueWindAt h = .ok v' →
      (v + ⟨w.vYacht, 0, 0⟩).norm ≤ (v' + ⟨w'.vYacht, 0, 0⟩).norm)
    (hclose : CloseToSail (u.dot (leechDirection s.csys.leewayDeg τ)) Q) {rho g : ℝ} (hrho : 0 < rho) (hg : g ≠ 0) {r r' : Vlm}
    (hr : vlm ⟨set.panels, s.nc, s.ns, rho, w, set.te, set.le, g⟩ = .ok r)
    (hr' : vlm ⟨set.panels, s.nc, s.ns, rho, w', set.te, set.le, g⟩ = .ok r') :
    (∀ k, |(List.ofFn r.sol.gamma).getD k 0| ≤ |(List.ofFn r'.sol.gamma).getD k 0|) ∧
    ∀ b j, b < 2 → j < s.ns → |(stripSum s.nc s.ns (List.ofFn r.sol.lift) b j).dot (acrossWind u)| ≤
      |(stripSum s.nc s.ns (List.ofFn r'.sol.lift) b j).dot (acrossWind u)| :=
  F.toPlaneSail.monotone hs hset hw hw' hle (F.fits hclose) hrho hg hr hr'

/-! ### Complete runs -/

theorem sloped_designed {c : Config} (hc : WellFormed c) (hup : c.heelDeg = 0) {sc : SailConf}
    {girths chords : List ℝ} {τ Q position : ℝ} (hu : UniformSail c.solver.interpolation sc girths chords (List.replicate girths.length τ) 0 position)
    {gi ch tw ca di : List ℝ} (hgood : GoodSail c.solver.interpolation sc gi ch tw ca di) {tack head : V3} {sm : SailInput × (ℕ → ℝ)}
    (hdes : DesignedSail c.solver.interpolation c.solver.ns c.solver.nc ⟨c.heelDeg, c.leewayDeg, c.vRef⟩ gi ch tw ca di tack head sm)
    (hok : SailOk sm.1 sm.2) (T : SlopedShape c.solver.interpolation c.solver.nc c.solver.ns girths chords tack head τ Q) :
    ∃ chord, SlopedSail sm.1 sm.2 chord τ Q := by
  obtain rfl : girths = gi := by have := hu.girths_eq; rw [hgood.girths_eq] at this; exact (Option.some.inj this).symm
  obtain rfl : ch = chords := by have := hu.chords_eq; rw [hgood.chords_eq] at this; exact Option.some.inj this
  obtain rfl : tw = List.replicate girths.length τ := by have := hu.twist_eq; rw [hgood.twist_eq] at this; exact Option.some.inj this
  obtain rfl : ca = List.replicate girths.length 0 := by have := hu.camber_eq; rw [hgood.camber_eq] at this; exact Option.some.inj this
  have hns : (0 : ℝ) < c.solver.ns := by exact_mod_cast hc.ns_pos
  have hconst : ∀ {x v : ℝ} {r : ℕ}, r ≤ c.solver.ns → CurveValue c.solver.interpolation (girths.length - 1) (fun i => girths.getD i 0)
      (fun i => (List.replicate girths.length x).getD i 0) ((r : ℝ) / c.solver.ns) v → v = x := fun hr hv =>
    curveValue_replicate hu.nonempty hu.kind_ok hu.increasing (by positivity) (by rw [div_le_one hns]; exact_mod_cast hr) hv
  exact Taper.sloped hok hdes hup hconst hconst T

/-- **C122**, complete runs with a main sail: a well-formed upright configuration with either type of interpolation, no
camber, the same twist in all sections, and a sail of this shape between the boom and the head.  In a wind of constant
direction close enough to the sail every run is completed and writes all its outputs. -/
theorem C122_main (c : Config) (hc : WellFormed c) (href : ReferenceAboveWater c.wind) (hup : c.heelDeg = 0)
    (hsails : c.rig.sailsDef = "main") {luff : ℝ} (hl : c.rig.mainLuff = some luff)
    {girths chords : List ℝ} {τ Q position : ℝ}
    (hu : UniformSail c.solver.interpolation (mainData c) girths chords (List.replicate girths.length τ) 0 position) {tack head : V3}
    (htack : tack = (c.rig.sheer + c.rig.boom) • mastDirection c.rig.rakeDeg)
    (hhead : head = (c.rig.sheer + c.rig.boom + luff) • mastDirection c.rig.rakeDeg)
    (T : SlopedShape c.solver.interpolation c.solver.nc c.solver.ns girths chords tack head τ Q) (hrho : c.rho ≠ 0) {u : V3} {M : ℝ}
    (hw : WindAlong (windGetProfile c.wind) u M tack.z head.z) (hclose : CloseToSail (u.dot (leechDirection c.leewayDeg τ)) Q) :
    (run fitpackSpline c).2 = .ok () ∧ (run fitpackSpline c).1.map outputKind = outputOrder := by
  subst htack hhead
  obtain ⟨set, hset, hok, -⟩ := C72_wellformed_partial c hc href
  apply hok
  obtain ⟨ss, set', hset', hb, -, hcs, -, -, d, -⟩ := wellFormed_set hc
  rw [hset] at hset'
  injection hset' with e
  subst e
  obtain ⟨sm, rfl, hd⟩ := d hsails
  obtain ⟨g, gs, hbf, hnil, hsl⟩ := List.forall₂_cons_left_iff.1 hb
  rw [List.forall₂_nil_left_iff] at hnil
  subst hnil
  have hss := sailSetOf_sails hset
  rw [hsl] at hss
  obtain ⟨hokS, e1, e2, hg⟩ := hbf
  obtain ⟨luff', gi, ch, tw, ca, di, hl', hgood, hdes⟩ := hd
  obtain rfl : luff' = luff := by rw [hl] at hl'; exact (Option.some.inj hl').symm
  obtain ⟨chord, F⟩ := sloped_designed hc hup hu hgood hdes hokS T
  obtain ⟨r, hr, -⟩ := C122_solver F hg hss (w := windGetProfile c.wind) (u := u) (M := M)
    (by rw [hdes.tack_eq, hdes.head_eq]; exact hw) (by rw [hdes.csys_eq]; exact hclose) (rho := c.rho) (g := -1) hrho (by norm_num)
  rw [e1, e2] at hr
  exact ⟨r, hr⟩

/-- **C122**, complete runs with a jib. -/
theorem C122_jib (c : Config) (hc : WellFormed c) (href : ReferenceAboveWater c.wind) (hup : c.heelDeg = 0)
    (hsails : c.rig.sailsDef = "jib") {luff base height : ℝ} (hl : c.rig.jibLuff = some luff)
    (hbase : c.rig.base = some base) (hheight : c.rig.height = some height) {girths chords : List ℝ} {τ Q position : ℝ}
    (hu : UniformSail c.solver.interpolation (jibData c) girths chords (List.replicate girths.length τ) 0 position) {tack head : V3}
    (htack : tack = jibTack c.rig base) (hhead : head = jibHead c.rig luff base height)
    (T : SlopedShape c.solver.interpolation c.solver.nc c.solver.ns girths chords tack head τ Q) (hrho : c.rho ≠ 0) {u : V3} {M : ℝ}
    (hw : WindAlong (windGetProfile c.wind) u M tack.z head.z) (hclose : CloseToSail (u.dot (leechDirection c.leewayDeg τ)) Q) :
    (run fitpackSpline c).2 = .ok () ∧ (run fitpackSpline c).1.map outputKind = outputOrder := by
  subst htack hhead
  obtain ⟨set, hset, hok, -⟩ := C72_wellformed_partial c hc href
  apply hok
  obtain ⟨ss, set', hset', hb, -, hcs, -, d, -⟩ := wellFormed_set hc
  rw [hset] at hset'
  injection hset' with e
  subst e
  obtain ⟨sm, rfl, hd⟩ := d hsails
  obtain ⟨g, gs, hbf, hnil, hsl⟩ := List.forall₂_cons_left_iff.1 hb
  rw [List.forall₂_nil_left_iff] at hnil
  subst hnil
  have hss := sailSetOf_sails hset
  rw [hsl] at hss
  obtain ⟨hokS, e1, e2, hg⟩ := hbf
  obtain ⟨luff', base', height', gi, ch, tw, ca, di, hl', hb', hh', hgood, hdes⟩ := hd
  obtain rfl : luff' = luff := by rw [hl] at hl'; exact (Option.some.inj hl').symm
  obtain rfl : base' = base := by rw [hbase] at hb'; exact (Option.some.inj hb').symm
  obtain rfl : height' = height := by rw [hheight] at hh'; exact (Option.some.inj hh').symm
  obtain ⟨chord, F⟩ := sloped_designed hc hup hu hgood hdes hokS T
  obtain ⟨r, hr, -⟩ := C122_solver F hg hss (w := windGetProfile c.wind) (u := u) (M := M)
    (by rw [hdes.tack_eq, hdes.head_eq]; exact hw) (by rw [hdes.csys_eq]; exact hclose) (rho := c.rho) (g := -1) hrho (by norm_num)
  rw [e1, e2] at hr
  exact ⟨r, hr⟩

/-- **C122.** For leeches of at most 45 degrees an angle of up to 19 degrees between wind and sail is close enough. -/
theorem C122_angle {Q α : ℝ} (h0 : 0 ≤ Q) (h1 : Q ≤ 1) (ha : |α| ≤ 19) : CloseToSail (Real.cos (α * (Real.pi / 180))) Q := by
  have hpi := Real.pi_lt_d2
  have hx : |α * (Real.pi / 180)| ≤ 0.3325 := by
    rw [abs_mul, abs_of_pos (a := Real.pi / 180) (by positivity)]
    nlinarith [abs_nonneg α, Real.pi_pos]
  have hx2 : (α * (Real.pi / 180)) ^ 2 ≤ 0.12 := by
    rw [← sq_abs]
    nlinarith [abs_nonneg (α * (Real.pi / 180))]
  have hc := Real.one_sub_sq_div_two_le_cos (x := α * (Real.pi / 180))
  have hc1 := Real.cos_le_one (α * (Real.pi / 180))
  generalize Real.cos (α * (Real.pi / 180)) = c at *
  have hc0 : 0.94 ≤ c := by linarith
  have hs : Q / Real.sqrt (1 + Q ^ 2) ≤ 0.7072 := by
    have hpos : 0 < Real.sqrt (1 + Q ^ 2) := Real.sqrt_pos.2 (by positivity)
    rw [div_le_iff₀ hpos]
    have : Q / 0.7072 ≤ Real.sqrt (1 + Q ^ 2) := by
      apply Real.le_sqrt_of_sq_le
      rw [div_pow, div_le_iff₀ (by norm_num)]
      nlinarith
    rw [div_le_iff₀ (by norm_num)] at this
    linarith
  refine ⟨by linarith, ?_⟩
  have a1 : 2 * Q * (1 - c ^ 2) ≤ 2 * (1 - c ^ 2) := by
    apply mul_le_mul_of_nonneg_right _ (by nlinarith)
    linarith
  have a2 : c * (1 - c * 0.7072) ≤ c * (1 - c * (Q / Real.sqrt (1 + Q ^ 2))) := by
    apply mul_le_mul_of_nonneg_left _ (by linarith)
    have := mul_le_mul_of_nonneg_left hs (by linarith : 0 ≤ c)
    linarith
  nlinarith

theorem sweep_mast : ((0 : ℝ) + 0) • mastDirection (90 + 45) = 0 ∧
    ((0 : ℝ) + 0 + 0.5 / Real.cos (deg2rad 45)) • mastDirection (90 + 45) = ⟨0.5, 0, 0.5⟩ := by
  have h45 : deg2rad 45 = Real.pi / 4 := by unfold deg2rad; ring
  have h135 : deg2rad (90 + 45) = Real.pi / 4 + Real.pi / 2 := by unfold deg2rad; ring
  have h2 : Real.sqrt 2 ≠ 0 := by positivity
  constructor
  · ext <;> simp
  · simp only [mastDirection, h45, h135, Real.cos_add_pi_div_two, Real.sin_add_pi_div_two, Real.cos_pi_div_four, Real.sin_pi_div_four]
    ext <;> simp

/-- The shipped swept sail: rows of the chord 0.2 m, leech at 45 degrees. -/
theorem sweep_shape : SlopedShape "linear" 1 4 shippedMainGirths (List.replicate 7 0.2) 0 ⟨0.5, 0, 0.5⟩ 0 1 := by
  have hconst : ∀ {v : ℝ} {r : ℕ}, r ≤ 4 → CurveValue "linear" (shippedMainGirths.length - 1) (fun i => shippedMainGirths.getD i 0)
      (fun i => (List.replicate 7 0.2).getD i 0) ((r : ℝ) / (4 : ℕ)) v → v = 0.2 := fun hr hv =>
    curveValue_replicate (by simp [shippedMainGirths]) (Or.inl rfl) shippedMain_inc (by positivity)
      (by rw [div_le_one (by norm_num)]; exact_mod_cast hr) hv
  refine ⟨Or.inr rfl, by norm_num, by norm_num, fun r hr v v' hv hv' => ?_, by norm_num, fun r hr v hv => ?_⟩
  · rw [hconst hr.le hv, hconst hr hv']
    norm_num [abs_of_pos]
  · rw [hconst hr hv]
    norm_num

/-- **C122.** A run with the shipped settings file `sweep_variables.py` is completed and writes all its outputs. -/
theorem C122_sweep : runSettings fitpackSpline shippedSweep = some (run fitpackSpline sweepConfig) ∧
    (run fitpackSpline sweepConfig).2 = .ok () ∧ (run fitpackSpline sweepConfig).1.map outputKind = outputOrder := by
  refine ⟨(C107_config _ _ sweep_known).1 _ sweep_configured, ?_⟩
  have hV : (⟨sweepConfig.wind.twsRef * Real.cos (sweepConfig.wind.alphaDeg * (Real.pi / 180)) + sweepConfig.wind.sog,
      sweepConfig.wind.twsRef * Real.sin (sweepConfig.wind.alphaDeg * (Real.pi / 180)), 0⟩ : V3) =
      ⟨Real.cos (4 * (Real.pi / 180)), Real.sin (4 * (Real.pi / 180)), 0⟩ := by
    simp [sweepConfig]
  have hn : (⟨Real.cos (4 * (Real.pi / 180)), Real.sin (4 * (Real.pi / 180)), 0⟩ : V3).norm = 1 := by
    have := Real.cos_sq_add_sin_sq (4 * (Real.pi / 180))
    unfold V3.norm V3.dot
    rw [Real.sqrt_eq_one]
    linear_combination this
  have hw := fun lo hi => windAlong_flat (w := sweepConfig.wind) rfl hV.symm (fun h => by rw [h, V3.norm_zero] at hn; norm_num at hn) lo hi
  rw [hn, div_one, one_smul] at hw
  have hu : UniformSail sweepConfig.solver.interpolation (mainData sweepConfig) shippedMainGirths (List.replicate 7 0.2)
      (List.replicate shippedMainGirths.length 0) 0 0.5 := by
    have := uniform_main (kind := "linear") (Or.inl rfl) (c := mainData sweepConfig) (chords := List.replicate 7 0.2)
      (twist := List.replicate 7 0) (camber := 0) (by simp [mainData, withDefaultTwist, sweepConfig, shippedMainGirths, List.replicate]) (by simp) (by simp) le_rfl (by norm_num)
    exact this
  refine C122_main sweepConfig sweep_wellFormed (fun h => absurd h (by simp [sweepConfig])) rfl rfl rfl hu
    sweep_mast.1.symm sweep_mast.2.symm sweep_shape (by norm_num [sweepConfig]) (hw _ _) ?_
  have := C122_angle (Q := 1) (α := 4) (by norm_num) le_rfl (by norm_num)
  simpa [V3.dot, leechDirection, sweepConfig] using this

/-! ### Examples -/

/-- A sail with a hollow leech: chords of 2 m, 1.2 m and 1 m at 1 m, 2 m and 3 m above the water. -/
noncomputable def demoHollow : SailInput :=
  { head := ⟨0, 0, 3⟩, tack := ⟨0, 0, 1⟩, csys := ⟨0, 0, 0⟩, ns := 2, nc := 1, chords := [2, 1.2, 1]
    twist := none, mode := none, camber := [0, 0, 0], distance := [0.5, 0.5, 0.5], name := "hollow" }

theorem demoHollow_sloped : SlopedSail demoHollow (fun _ => 0) (fun z => max (2 - 0.8 * (z - 1)) (1.2 - 0.2 * (z - 2))) 0 1 where
  ok := ⟨⟨by norm_num [demoHollow], by norm_num [demoHollow], ⟨rfl, le_rfl, le_rfl, by norm_num [demoHollow], by norm_num [demoHollow]⟩, rfl,
    (by
      intro r hr
      have : r = 0 ∨ r = 1 ∨ r = 2 := by simp [demoHollow] at hr; omega
      rcases this with rfl | rfl | rfl <;> norm_num [demoHollow]),
    Or.inr ⟨Or.inl rfl, fun _ => rfl⟩, rfl, rfl, by norm_num [demoHollow], by norm_num [demoHollow], by norm_num [demoHollow],
    by simp [demoHollow, deg2rad]⟩, Or.inl (by norm_num [demoHollow])⟩
  upright := rfl
  luff := Or.inl rfl
  up := by norm_num [demoHollow]
  slope_nonneg := by norm_num
  slope := by
    intro z _ z' _
    have h := abs_max_sub_max_le_max (2 - 0.8 * (z - 1)) (1.2 - 0.2 * (z - 2)) (2 - 0.8 * (z' - 1)) (1.2 - 0.2 * (z' - 2))
    have e1 : |2 - 0.8 * (z - 1) - (2 - 0.8 * (z' - 1))| = 0.8 * |z - z'| := by
      rw [show 2 - 0.8 * (z - 1) - (2 - 0.8 * (z' - 1)) = -(0.8 * (z - z')) by ring, abs_neg, abs_mul, abs_of_pos (by norm_num)]
    have e2 : |1.2 - 0.2 * (z - 2) - (1.2 - 0.2 * (z' - 2))| = 0.2 * |z - z'| := by
      rw [show 1.2 - 0.2 * (z - 2) - (1.2 - 0.2 * (z' - 2)) = -(0.2 * (z - z')) by ring, abs_neg, abs_mul, abs_of_pos (by norm_num)]
    rw [e1, e2, max_eq_left (a := 0.8 * |z - z'|) (by linarith [abs_nonneg (z - z')])] at h
    have e : ∀ a b : ℝ, (1 + 1 / (4 * ((1 : ℕ) : ℝ))) * a - (1 + 1 / (4 * ((1 : ℕ) : ℝ))) * b = 1.25 * (a - b) := by
      intro a b; norm_num; ring
    simp only [aftEdge, luffAt, demoHollow, sub_self, mul_zero, zero_add, e]
    rw [abs_mul, abs_of_pos (by norm_num)]
    linarith
  chords := by
    intro r hr
    have : r = 0 ∨ r = 1 ∨ r = 2 := by simp [demoHollow] at hr; omega
    rcases this with rfl | rfl | rfl <;> norm_num [demoHollow]
  camber := by
    intro r hr
    have : r = 0 ∨ r = 1 ∨ r = 2 := by simp [demoHollow] at hr; omega
    rcases this with rfl | rfl | rfl <;> norm_num [demoHollow]
  twist := fun _ _ => rfl
  high := by norm_num [demoHollow]
  wide := by
    intro z hz
    have := hz.2
    simp only [demoHollow] at this ⊢
    rw [Nat.cast_one, div_one]
    refine le_trans ?_ (le_max_right _ _)
    linarith

theorem closeWind_along {v : ℝ} (hv : 0 < v) (lo hi : ℝ) :
    WindAlong ⟨10, v, 0, .flat⟩ ⟨Real.cos (10 * (Real.pi / 180)), Real.sin (10 * (Real.pi / 180)), 0⟩ v lo hi := by
  have ha : deg2rad 10 = 10 * (Real.pi / 180) := by unfold deg2rad; ring
  refine ⟨?_, rfl, fun h _ _ => ⟨_, v, rfl, hv, le_rfl, ?_⟩⟩
  · have := Real.cos_sq_add_sin_sq (10 * (Real.pi / 180))
    unfold V3.norm V3.dot
    rw [Real.sqrt_eq_one]
    linear_combination this
  · simp only [WindObj.lengthToXyz, WindObj.alpha, ha]
    ext <;> simp

/-- Non-vacuity of C122: winds of 3 and 5 m/s at 10 degrees on that sail. -/
example : ∃ sail set r r', sailGeometry demoHollow = .ok sail ∧ sailSet [sail] = .ok set ∧
    vlm ⟨set.panels, 1, 2, 1.2, ⟨10, 3, 0, .flat⟩, set.te, set.le, -1⟩ = .ok r ∧
    vlm ⟨set.panels, 1, 2, 1.2, ⟨10, 5, 0, .flat⟩, set.te, set.le, -1⟩ = .ok r' ∧
    (∀ γ ∈ List.ofFn r.sol.gamma, -1 * γ < 0) ∧
    (∃ L : ℝ, (stripSum 1 2 (List.ofFn r.sol.lift) 0 1).x =
      L * (acrossWind ⟨Real.cos (10 * (Real.pi / 180)), Real.sin (10 * (Real.pi / 180)), 0⟩).x ∧ 0 < L) ∧
    ∀ k, |(List.ofFn r.sol.gamma).getD k 0| ≤ |(List.ofFn r'.sol.gamma).getD k 0| := by
  have F := demoHollow_sloped
  obtain ⟨sail, hs, -⟩ := sailGeometry_ok F.ok
  obtain ⟨set, hset⟩ : ∃ set, sailSet [sail] = .ok set := by
    unfold sailSet
    rw [if_neg (by simp)]
    exact ⟨_, rfl⟩
  have h0 : CloseToSail (V3.dot ⟨Real.cos (10 * (Real.pi / 180)), Real.sin (10 * (Real.pi / 180)), 0⟩
      (leechDirection demoHollow.csys.leewayDeg 0)) 1 := by
    have := C122_angle (Q := 1) (α := 10) (by norm_num) le_rfl (by norm_num)
    simpa [V3.dot, leechDirection, demoHollow] using this
  have hn : (0 : ℝ) < V3.dot ⟨Real.cos (10 * (Real.pi / 180)), Real.sin (10 * (Real.pi / 180)), 0⟩ (sailNormal demoHollow.csys.leewayDeg 0) := by
    have h2 := sin_deg_pos (x := 10) (by norm_num) (by norm_num)
    have ha : deg2rad 10 = 10 * (Real.pi / 180) := by unfold deg2rad; ring
    rw [ha] at h2
    simpa [V3.dot, sailNormal, demoHollow] using h2
  have w3 := closeWind_along (v := 3) (by norm_num) demoHollow.tack.z demoHollow.head.z
  have w5 := closeWind_along (v := 5) (by norm_num) demoHollow.tack.z demoHollow.head.z
  obtain ⟨r, hr, -, hsign⟩ := C122_solver F hs hset w3 h0 (rho := 1.2) (g := -1) (by norm_num) (by norm_num)
  obtain ⟨r', hr', -⟩ := C122_solver F hs hset w5 h0 (rho := 1.2) (g := -1) (by norm_num) (by norm_num)
  obtain ⟨L, e, -, hL, -⟩ := C122_strip F hs hset w3 h0 (by norm_num) (by norm_num) hr (b := 0) (j := 1) (by norm_num) (by norm_num [demoHollow])
  refine ⟨sail, set, r, r', hs, hset, hr, hr', fun γ h => (hsign γ h).1 hn, ⟨L, e, hL hn⟩, ?_⟩
  refine (C122_monotone F hs hset w3 w5 (fun h v v' h1 h2 hv hv' => ?_) h0 (by norm_num) (by norm_num) hr hr').1
  simp only [WindObj.trueWindAt, Except.ok.injEq] at hv hv'
  subst hv hv'
  have e3 : ∀ x : ℝ, 0 < x → ((⟨10, x, 0, .flat⟩ : WindObj).lengthToXyz x + ⟨0, 0, 0⟩).norm = x := by
    intro x hx
    have ha : deg2rad 10 = 10 * (Real.pi / 180) := by unfold deg2rad; ring
    have e : (⟨10, x, 0, .flat⟩ : WindObj).lengthToXyz x + ⟨0, 0, 0⟩ =
        x • (⟨Real.cos (10 * (Real.pi / 180)), Real.sin (10 * (Real.pi / 180)), 0⟩ : V3) := by
      simp only [WindObj.lengthToXyz, WindObj.alpha, ha]
      ext <;> simp
    rw [e, V3.norm_smul, w3.1, abs_of_pos hx, mul_one]
  show ((⟨10, 3, 0, .flat⟩ : WindObj).lengthToXyz 3 + ⟨0, 0, 0⟩).norm ≤ ((⟨10, 5, 0, .flat⟩ : WindObj).lengthToXyz 5 + ⟨0, 0, 0⟩).norm
  rw [e3 3 (by norm_num), e3 5 (by norm_num)]
  norm_num

end PySailing.Props
