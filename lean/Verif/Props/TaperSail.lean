import Verif.Lemmas.TaperShape
import Verif.Lemmas.TaperForce
import Verif.Props.FlatSailForce

/-!
# C120, C121: flat sails with a chord that decreases with the height
-/

namespace PySailing.Props

open PySailing PySailing.Spec

/-- **C120.** An upright flat sail above the water whose leech is straight or curved outwards and does not run aft with
the height, with its mirror image under the water (any number of panels, none smaller than 4 cm by 4 cm), in a wind of
any strength profile whose direction does not change with the height and which does not come from behind: the solver
always returns.  All circulations, in the sail and in its image, have the same sign (with orientation `-1` that of the
wind component normal to the sail), and they vanish with that component. -/
theorem C120_solver {s : SailInput} {θ : ℕ → ℝ} {chord : ℝ → ℝ} {τ : ℝ} (F : TaperedSail s θ chord τ) {sail : SailGeom}
    (hs : sailGeometry s = .ok sail) {set : SailSet} (hset : sailSet [sail] = .ok set) {w : WindObj} {u : V3} {M : ℝ}
    (hw : WindAlong w u M s.tack.z s.head.z) (hfront : 0 ≤ u.dot (leechDirection s.csys.leewayDeg τ))
    {rho g : ℝ} (hrho : rho ≠ 0) (hg : g ≠ 0) :
    ∃ r, vlm ⟨set.panels, s.nc, s.ns, rho, w, set.te, set.le, g⟩ = .ok r ∧
      (List.ofFn r.sol.gamma).length = 2 * (s.nc * s.ns) ∧ ∀ γ ∈ List.ofFn r.sol.gamma,
        (0 < u.dot (sailNormal s.csys.leewayDeg τ) → g * γ < 0) ∧ (u.dot (sailNormal s.csys.leewayDeg τ) < 0 → 0 < g * γ) ∧
        (u.dot (sailNormal s.csys.leewayDeg τ) = 0 → γ = 0) :=
  F.toPlaneSail.solver hs hset hw (F.fits hfront) hrho hg

/-- **C121.** The horizontal part of the lift of every strip of such a sail (and of its image) is across the wind, to the
side to which the wind would pass through the sail, and vanishes with the component of the wind normal to the sail. -/
theorem C121_strip {s : SailInput} {θ : ℕ → ℝ} {chord : ℝ → ℝ} {τ : ℝ} (F : TaperedSail s θ chord τ) {sail : SailGeom}
    (hs : sailGeometry s = .ok sail) {set : SailSet} (hset : sailSet [sail] = .ok set) {w : WindObj} {u : V3} {M : ℝ}
    (hw : WindAlong w u M s.tack.z s.head.z) (hfront : 0 ≤ u.dot (leechDirection s.csys.leewayDeg τ))
    {rho g : ℝ} (hrho : 0 < rho) (hg : g ≠ 0) {r : Vlm}
    (hr : vlm ⟨set.panels, s.nc, s.ns, rho, w, set.te, set.le, g⟩ = .ok r) {b j : ℕ} (hb : b < 2) (hj : j < s.ns) :
    ∃ L : ℝ, (stripSum s.nc s.ns (List.ofFn r.sol.lift) b j).x = L * (acrossWind u).x ∧
      (stripSum s.nc s.ns (List.ofFn r.sol.lift) b j).y = L * (acrossWind u).y ∧
      (0 < u.dot (sailNormal s.csys.leewayDeg τ) → 0 < L) ∧ (u.dot (sailNormal s.csys.leewayDeg τ) < 0 → L < 0) ∧
      (u.dot (sailNormal s.csys.leewayDeg τ) = 0 → L = 0) :=
  F.toPlaneSail.force_strip hs hset hw (F.fits hfront) hrho hg hr hb hj

/-- **C121**, the whole sail: so is the horizontal part of the lift of all panels above the water. -/
theorem C121_sail {s : SailInput} {θ : ℕ → ℝ} {chord : ℝ → ℝ} {τ : ℝ} (F : TaperedSail s θ chord τ) {sail : SailGeom}
    (hs : sailGeometry s = .ok sail) {set : SailSet} (hset : sailSet [sail] = .ok set) {w : WindObj} {u : V3} {M : ℝ}
    (hw : WindAlong w u M s.tack.z s.head.z) (hfront : 0 ≤ u.dot (leechDirection s.csys.leewayDeg τ))
    {rho g : ℝ} (hrho : 0 < rho) (hg : g ≠ 0) {r : Vlm}
    (hr : vlm ⟨set.panels, s.nc, s.ns, rho, w, set.te, set.le, g⟩ = .ok r) :
    ∃ L : ℝ, (((List.ofFn r.sol.lift).take (s.nc * s.ns)).sum).x = L * (acrossWind u).x ∧
      (((List.ofFn r.sol.lift).take (s.nc * s.ns)).sum).y = L * (acrossWind u).y ∧
      (0 < u.dot (sailNormal s.csys.leewayDeg τ) → 0 < L) ∧ (u.dot (sailNormal s.csys.leewayDeg τ) < 0 → L < 0) ∧
      (u.dot (sailNormal s.csys.leewayDeg τ) = 0 → L = 0) :=
  F.toPlaneSail.force_sail hs hset hw (F.fits hfront) hrho hg hr

/-- **C121.** If the wind gets stronger without changing its direction (at every height of the sail at least as fast as
before), neither the circulation of any panel nor the horizontal part of the lift of any strip gets smaller. -/
theorem C121_monotone {s : SailInput} {θ : ℕ → ℝ} {chord : ℝ → ℝ} {τ : ℝ} (F : TaperedSail s θ chord τ) {sail : SailGeom}
    (hs : sailGeometry s = .ok sail) {set : SailSet} (hset : sailSet [sail] = .ok set) {w w' : WindObj} {u : V3} {M M' : ℝ}
    (hw : WindAlong w u M s.tack.z s.head.z) (hw' : WindAlong w' u M' s.tack.z s.head.z)
    (hle : ∀ h v v', s.tack.z < h → h < s.head.z → w.trueWindAt h = .ok v → w'.trueWindAt h = .ok v' →
      (v + ⟨w.vYacht, 0, 0⟩).norm ≤ (v' + ⟨w'.vYacht, 0, 0⟩).norm)
    (hfront : 0 ≤ u.dot (leechDirection s.csys.leewayDeg τ)) {rho g : ℝ} (hrho : 0 < rho) (hg : g ≠ 0) {r r' : Vlm}
    (hr : vlm ⟨set.panels, s.nc, s.ns, rho, w, set.te, set.le, g⟩ = .ok r)
    (hr' : vlm ⟨set.panels, s.nc, s.ns, rho, w', set.te, set.le, g⟩ = .ok r') :
    (∀ k, |(List.ofFn r.sol.gamma).getD k 0| ≤ |(List.ofFn r'.sol.gamma).getD k 0|) ∧
    ∀ b j, b < 2 → j < s.ns → |(stripSum s.nc s.ns (List.ofFn r.sol.lift) b j).dot (acrossWind u)| ≤
      |(stripSum s.nc s.ns (List.ofFn r'.sol.lift) b j).dot (acrossWind u)| :=
  F.toPlaneSail.monotone hs hset hw hw' hle (F.fits hfront) hrho hg hr hr'

/-! ### Complete runs -/

theorem tapered_designed {c : Config} (hc : WellFormed c) (hup : c.heelDeg = 0) (hk : c.solver.interpolation = "linear") {sc : SailConf}
    {girths chords : List ℝ} {τ position : ℝ} (hu : UniformSail "linear" sc girths chords (List.replicate girths.length τ) 0 position)
    {gi ch tw ca di : List ℝ} (hgood : GoodSail c.solver.interpolation sc gi ch tw ca di) {tack head : V3} {sm : SailInput × (ℕ → ℝ)}
    (hdes : DesignedSail c.solver.interpolation c.solver.ns c.solver.nc ⟨c.heelDeg, c.leewayDeg, c.vRef⟩ gi ch tw ca di tack head sm)
    (hok : SailOk sm.1 sm.2) (T : TaperedShape c.solver.nc c.solver.ns girths chords tack head τ) :
    ∃ chord, TaperedSail sm.1 sm.2 chord τ := by
  obtain rfl : girths = gi := by have := hu.girths_eq; rw [hgood.girths_eq] at this; exact (Option.some.inj this).symm
  obtain rfl : ch = chords := by have := hu.chords_eq; rw [hgood.chords_eq] at this; exact Option.some.inj this
  obtain rfl : tw = List.replicate girths.length τ := by have := hu.twist_eq; rw [hgood.twist_eq] at this; exact Option.some.inj this
  obtain rfl : ca = List.replicate girths.length 0 := by have := hu.camber_eq; rw [hgood.camber_eq] at this; exact Option.some.inj this
  have hns : (0 : ℝ) < c.solver.ns := by exact_mod_cast hc.ns_pos
  have hconst : ∀ {x v : ℝ} {r : ℕ}, r ≤ c.solver.ns → CurveValue "linear" (girths.length - 1) (fun i => girths.getD i 0)
      (fun i => (List.replicate girths.length x).getD i 0) ((r : ℝ) / c.solver.ns) v → v = x := fun hr hv =>
    curveValue_replicate hu.nonempty hu.kind_ok hu.increasing (by positivity) (by rw [div_le_one hns]; exact_mod_cast hr) hv
  rw [hk] at hdes
  exact Taper.designed hok hdes hup hu.increasing hconst hconst T

/-- **C120**, complete runs with a main sail: a well-formed upright configuration, chords interpolated linearly, no
camber, the same twist in all sections, and a sail of this shape between the boom and the head.  In a wind of constant
direction that does not come from behind every run is completed and writes all its outputs. -/
theorem C120_main (c : Config) (hc : WellFormed c) (href : ReferenceAboveWater c.wind) (hup : c.heelDeg = 0)
    (hsails : c.rig.sailsDef = "main") (hk : c.solver.interpolation = "linear") {luff : ℝ} (hl : c.rig.mainLuff = some luff)
    {girths chords : List ℝ} {τ position : ℝ}
    (hu : UniformSail "linear" (mainData c) girths chords (List.replicate girths.length τ) 0 position) {tack head : V3}
    (htack : tack = (c.rig.sheer + c.rig.boom) • mastDirection c.rig.rakeDeg)
    (hhead : head = (c.rig.sheer + c.rig.boom + luff) • mastDirection c.rig.rakeDeg)
    (T : TaperedShape c.solver.nc c.solver.ns girths chords tack head τ) (hrho : c.rho ≠ 0) {u : V3} {M : ℝ}
    (hw : WindAlong (windGetProfile c.wind) u M tack.z head.z) (hfront : 0 ≤ u.dot (leechDirection c.leewayDeg τ)) :
    (run fitpackSpline c).2 = .ok () ∧ (run fitpackSpline c).1.map outputKind = outputOrder := by
  subst htack hhead
  obtain ⟨set, hset, hok, -⟩ := C72_wellformed_partial c hc href
  apply hok
  obtain ⟨ss, set', hset', hb, -, hcs, -, -, d, -⟩ := wellFormed_set hc
  rw [hset] at hset'
  injection hset' with e
  subst e
  obtain ⟨sm, rfl, hd⟩ := d hsails
  obtain ⟨g, gs, hbf, hnil, hsl⟩ := List.forall₂_cons_left_iff.1 hb
  rw [List.forall₂_nil_left_iff] at hnil
  subst hnil
  have hss := sailSetOf_sails hset
  rw [hsl] at hss
  obtain ⟨hokS, e1, e2, hg⟩ := hbf
  obtain ⟨luff', gi, ch, tw, ca, di, hl', hgood, hdes⟩ := hd
  obtain rfl : luff' = luff := by rw [hl] at hl'; exact (Option.some.inj hl').symm
  obtain ⟨chord, F⟩ := tapered_designed hc hup hk hu hgood hdes hokS T
  obtain ⟨r, hr, -⟩ := C120_solver F hg hss (w := windGetProfile c.wind) (u := u) (M := M)
    (by rw [hdes.tack_eq, hdes.head_eq]; exact hw) (by rw [hdes.csys_eq]; exact hfront) (rho := c.rho) (g := -1) hrho (by norm_num)
  rw [e1, e2] at hr
  exact ⟨r, hr⟩

/-- **C120**, complete runs with a jib. -/
theorem C120_jib (c : Config) (hc : WellFormed c) (href : ReferenceAboveWater c.wind) (hup : c.heelDeg = 0)
    (hsails : c.rig.sailsDef = "jib") (hk : c.solver.interpolation = "linear") {luff base height : ℝ} (hl : c.rig.jibLuff = some luff)
    (hbase : c.rig.base = some base) (hheight : c.rig.height = some height) {girths chords : List ℝ} {τ position : ℝ}
    (hu : UniformSail "linear" (jibData c) girths chords (List.replicate girths.length τ) 0 position) {tack head : V3}
    (htack : tack = jibTack c.rig base) (hhead : head = jibHead c.rig luff base height)
    (T : TaperedShape c.solver.nc c.solver.ns girths chords tack head τ) (hrho : c.rho ≠ 0) {u : V3} {M : ℝ}
    (hw : WindAlong (windGetProfile c.wind) u M tack.z head.z) (hfront : 0 ≤ u.dot (leechDirection c.leewayDeg τ)) :
    (run fitpackSpline c).2 = .ok () ∧ (run fitpackSpline c).1.map outputKind = outputOrder := by
  subst htack hhead
  obtain ⟨set, hset, hok, -⟩ := C72_wellformed_partial c hc href
  apply hok
  obtain ⟨ss, set', hset', hb, -, hcs, -, d, -⟩ := wellFormed_set hc
  rw [hset] at hset'
  injection hset' with e
  subst e
  obtain ⟨sm, rfl, hd⟩ := d hsails
  obtain ⟨g, gs, hbf, hnil, hsl⟩ := List.forall₂_cons_left_iff.1 hb
  rw [List.forall₂_nil_left_iff] at hnil
  subst hnil
  have hss := sailSetOf_sails hset
  rw [hsl] at hss
  obtain ⟨hokS, e1, e2, hg⟩ := hbf
  obtain ⟨luff', base', height', gi, ch, tw, ca, di, hl', hb', hh', hgood, hdes⟩ := hd
  obtain rfl : luff' = luff := by rw [hl] at hl'; exact (Option.some.inj hl').symm
  obtain rfl : base' = base := by rw [hbase] at hb'; exact (Option.some.inj hb').symm
  obtain rfl : height' = height := by rw [hheight] at hh'; exact (Option.some.inj hh').symm
  obtain ⟨chord, F⟩ := tapered_designed hc hup hk hu hgood hdes hokS T
  obtain ⟨r, hr, -⟩ := C120_solver F hg hss (w := windGetProfile c.wind) (u := u) (M := M)
    (by rw [hdes.tack_eq, hdes.head_eq]; exact hw) (by rw [hdes.csys_eq]; exact hfront) (rho := c.rho) (g := -1) hrho (by norm_num)
  rw [e1, e2] at hr
  exact ⟨r, hr⟩

/-! ### Examples -/

/-- A sail with a luff from 1 m to 3 m, a chord of 2 m at the foot and of 1 m at the head, one panel deep, two strips. -/
noncomputable def demoTaper : SailInput :=
  { head := ⟨0, 0, 3⟩, tack := ⟨0, 0, 1⟩, csys := ⟨0, 0, 0⟩, ns := 2, nc := 1, chords := [2, 1.5, 1]
    twist := none, mode := none, camber := [0, 0, 0], distance := [0.5, 0.5, 0.5], name := "taper" }

theorem demoTaper_tapered : TaperedSail demoTaper (fun _ => 0) (fun z => (5 - z) / 2) 0 where
  ok := ⟨⟨by norm_num [demoTaper], by norm_num [demoTaper], ⟨rfl, le_rfl, le_rfl, by norm_num [demoTaper], by norm_num [demoTaper]⟩, rfl,
    (by
      intro r hr
      have : r = 0 ∨ r = 1 ∨ r = 2 := by simp [demoTaper] at hr; omega
      rcases this with rfl | rfl | rfl <;> norm_num [demoTaper]),
    Or.inr ⟨Or.inl rfl, fun _ => rfl⟩, rfl, rfl, by norm_num [demoTaper], by norm_num [demoTaper], by norm_num [demoTaper],
    by simp [demoTaper, deg2rad]⟩, Or.inl (by norm_num [demoTaper])⟩
  upright := rfl
  luff := Or.inl rfl
  up := by norm_num [demoTaper]
  concave := by
    refine ⟨convex_Icc _ _, fun x _ y _ a b _ _ h => ?_⟩
    simp only [smul_eq_mul]
    have : b = 1 - a := by linarith
    subst this
    exact le_of_eq (by ring)
  leech := by
    intro x _ y _ h
    simp only [aftEdge, luffAt, demoTaper]
    norm_num
    linarith
  chords := by
    intro r hr
    have : r = 0 ∨ r = 1 ∨ r = 2 := by simp [demoTaper] at hr; omega
    rcases this with rfl | rfl | rfl <;> norm_num [demoTaper]
  camber := by
    intro r hr
    have : r = 0 ∨ r = 1 ∨ r = 2 := by simp [demoTaper] at hr; omega
    rcases this with rfl | rfl | rfl <;> norm_num [demoTaper]
  twist := fun _ _ => rfl
  high := by norm_num [demoTaper]
  wide := by
    intro z hz
    have := hz.2
    simp only [demoTaper] at this ⊢
    norm_num
    linarith

/-- Non-vacuity of C120 and C121: winds of 3 and 5 m/s at 60 degrees on that sail. -/
example : ∃ sail set r r', sailGeometry demoTaper = .ok sail ∧ sailSet [sail] = .ok set ∧
    vlm ⟨set.panels, 1, 2, 1.2, ⟨60, 3, 0, .flat⟩, set.te, set.le, -1⟩ = .ok r ∧
    vlm ⟨set.panels, 1, 2, 1.2, ⟨60, 5, 0, .flat⟩, set.te, set.le, -1⟩ = .ok r' ∧
    (∀ γ ∈ List.ofFn r.sol.gamma, -1 * γ < 0) ∧
    (∃ L : ℝ, (stripSum 1 2 (List.ofFn r.sol.lift) 0 1).x = L * (acrossWind ⟨1 / 2, Real.sqrt 3 / 2, 0⟩).x ∧ 0 < L) ∧
    ∀ k, |(List.ofFn r.sol.gamma).getD k 0| ≤ |(List.ofFn r'.sol.gamma).getD k 0| := by
  have F := demoTaper_tapered
  obtain ⟨sail, hs, -⟩ := sailGeometry_ok F.ok
  obtain ⟨set, hset⟩ : ∃ set, sailSet [sail] = .ok set := by
    unfold sailSet
    rw [if_neg (by simp)]
    exact ⟨_, rfl⟩
  have h0 : (0 : ℝ) ≤ V3.dot ⟨1 / 2, Real.sqrt 3 / 2, 0⟩ (leechDirection demoTaper.csys.leewayDeg 0) := by
    simp [V3.dot, leechDirection, demoTaper]
  have hn : (0 : ℝ) < V3.dot ⟨1 / 2, Real.sqrt 3 / 2, 0⟩ (sailNormal demoTaper.csys.leewayDeg 0) := by
    simp [V3.dot, sailNormal, demoTaper]
  have w3 := demoWind_along (v := 3) (by norm_num) demoTaper.tack.z demoTaper.head.z
  have w5 := demoWind_along (v := 5) (by norm_num) demoTaper.tack.z demoTaper.head.z
  obtain ⟨r, hr, -, hsign⟩ := C120_solver F hs hset w3 h0 (rho := 1.2) (g := -1) (by norm_num) (by norm_num)
  obtain ⟨r', hr', -⟩ := C120_solver F hs hset w5 h0 (rho := 1.2) (g := -1) (by norm_num) (by norm_num)
  obtain ⟨L, e, -, hL, -⟩ := C121_strip F hs hset w3 h0 (by norm_num) (by norm_num) hr (b := 0) (j := 1) (by norm_num) (by norm_num [demoTaper])
  refine ⟨sail, set, r, r', hs, hset, hr, hr', fun γ h => (hsign γ h).1 hn, ⟨L, e, hL hn⟩, ?_⟩
  refine (C121_monotone F hs hset w3 w5 (fun h v v' h1 h2 hv hv' => ?_) h0 (by norm_num) (by norm_num) hr hr').1
  simp only [WindObj.trueWindAt, Except.ok.injEq] at hv hv'
  subst hv hv'
  have e3 : ∀ x : ℝ, 0 < x → ((⟨60, x, 0, .flat⟩ : WindObj).lengthToXyz x + ⟨0, 0, 0⟩).norm = x := by
    intro x hx
    have h3 : Real.sqrt 3 ^ 2 = 3 := Real.sq_sqrt (by norm_num)
    have ha : deg2rad 60 = Real.pi / 3 := by unfold deg2rad; ring
    have e : (⟨60, x, 0, .flat⟩ : WindObj).lengthToXyz x + ⟨0, 0, 0⟩ = x • (⟨1 / 2, Real.sqrt 3 / 2, 0⟩ : V3) := by
      simp only [WindObj.lengthToXyz, WindObj.alpha, ha, Real.cos_pi_div_three, Real.sin_pi_div_three]
      ext <;> simp
    rw [e, V3.norm_smul, w3.1, abs_of_pos hx, mul_one]
  show ((⟨60, 3, 0, .flat⟩ : WindObj).lengthToXyz 3 + ⟨0, 0, 0⟩).norm ≤ ((⟨60, 5, 0, .flat⟩ : WindObj).lengthToXyz 5 + ⟨0, 0, 0⟩).norm
  rw [e3 3 (by norm_num), e3 5 (by norm_num)]
  norm_num

/-- A yacht with flat tapered sails: a main sail with a roach and 8 degrees of twist, a triangular jib amidships. -/
noncomputable def taperConfig (sails : String) : Config where
  heelDeg := 0
  leewayDeg := 0
  rho := 1.2
  wind := ⟨30, 5, 0, "flat", some 0, some 10, some 0, some 0.05⟩
  solver := ⟨6, 3, "linear", "real_twist"⟩
  rig := ⟨some 6, some 5, some 4, some 3, 1, 0.5, 90, 0, sails⟩
  main := ⟨some [8, 8, 8], some [0, 0.5, 1], some [2, 1.7, 1], some [0, 0, 0], some [0.5, 0.5, 0.5]⟩
  jib := ⟨some [0, 0], some [0, 1], some [4, 0.2], some [0, 0], some [0.5, 0.5]⟩
  vRef := ⟨0, 0, 0⟩
  clrUpright := ⟨0, 0, -1⟩

theorem taperConfig_main (sails : String) :
    UniformSail "linear" (mainData (taperConfig sails)) [0, 0.5, 1] [2, 1.7, 1] (List.replicate 3 8) 0 0.5 where
  girths_eq := rfl
  chords_eq := rfl
  twist_eq := rfl
  camber_eq := rfl
  distance_eq := rfl
  nonempty := by simp
  kind_ok := Or.inl rfl
  increasing := by
    intro i hi
    have hi' : i < 2 := by simp only [List.length_cons, List.length_nil] at hi; omega
    clear hi
    interval_cases i <;> norm_num
  chords_len := rfl
  twist_len := rfl
  camber_range := by norm_num
  position_range := by norm_num

theorem taperConfig_jib (sails : String) :
    UniformSail "linear" (jibData (taperConfig sails)) [0, 1] [4, 0.2] (List.replicate 2 0) 0 0.5 where
  girths_eq := rfl
  chords_eq := rfl
  twist_eq := rfl
  camber_eq := rfl
  distance_eq := rfl
  nonempty := by simp
  kind_ok := Or.inl rfl
  increasing := by
    intro i hi
    have hi' : i < 1 := by simp only [List.length_cons, List.length_nil] at hi; omega
    clear hi
    interval_cases i <;> norm_num
  chords_len := rfl
  twist_len := rfl
  camber_range := by norm_num
  position_range := by norm_num

theorem taperConfig_wellFormed {sails : String} (h : sails ∈ ["jib", "main", "jib_and_main"]) : WellFormed (taperConfig sails) :=
  C108_wellformed _ (by simp [taperConfig, twistModes]) (by simp [taperConfig]) (by simp [taperConfig]) (by norm_num [taperConfig])
    h (by norm_num [taperConfig]) ⟨3, rfl, by norm_num⟩ (by norm_num [taperConfig]) (by norm_num [taperConfig]) (Or.inl rfl)
    (fun _ => ⟨⟨5, rfl, by norm_num⟩, ⟨4, rfl, by norm_num⟩⟩) (fun _ => ⟨6, rfl, by norm_num⟩)
    ⟨_, _, _, _, _, taperConfig_jib sails⟩ ⟨_, _, _, _, _, taperConfig_main sails⟩ (by simp [WindIncomplete, taperConfig])

theorem mastDirection_upright : mastDirection 90 = ⟨0, 0, 1⟩ := by
  have h : deg2rad 90 = Real.pi / 2 := by unfold deg2rad; ring
  simp [mastDirection, h]

theorem taperConfig_wind (sails : String) (lo hi : ℝ) :
    WindAlong (windGetProfile (taperConfig sails).wind) ⟨Real.sqrt 3 / 2, 1 / 2, 0⟩ 5 lo hi := by
  have h3 : Real.sqrt 3 ^ 2 = 3 := Real.sq_sqrt (by norm_num)
  have ha : (30 : ℝ) * (Real.pi / 180) = Real.pi / 6 := by ring
  have hV : (⟨(taperConfig sails).wind.twsRef * Real.cos ((taperConfig sails).wind.alphaDeg * (Real.pi / 180)) + (taperConfig sails).wind.sog,
      (taperConfig sails).wind.twsRef * Real.sin ((taperConfig sails).wind.alphaDeg * (Real.pi / 180)), 0⟩ : V3) =
      (5 : ℝ) • (⟨Real.sqrt 3 / 2, 1 / 2, 0⟩ : V3) := by
    simp only [taperConfig, ha, Real.cos_pi_div_six, Real.sin_pi_div_six]
    ext <;> simp
  have hn : (⟨Real.sqrt 3 / 2, 1 / 2, 0⟩ : V3).norm = 1 := by
    unfold V3.norm V3.dot
    rw [Real.sqrt_eq_one]
    linear_combination h3 / 4
  have hne : (5 : ℝ) • (⟨Real.sqrt 3 / 2, 1 / 2, 0⟩ : V3) ≠ 0 := by
    intro h
    have := congrArg V3.y h
    norm_num at this
  have := windAlong_flat (w := (taperConfig sails).wind) rfl hV.symm hne lo hi
  rw [V3.norm_smul, hn, mul_one, abs_of_pos (by norm_num), smul_smul] at this
  norm_num at this
  exact this

/-- Non-vacuity of C120 for complete runs: with this main sail, and with this jib, the run is completed. -/
example : ((run fitpackSpline (taperConfig "main")).2 = .ok () ∧ (run fitpackSpline (taperConfig "main")).1.map outputKind = outputOrder) ∧
    (run fitpackSpline (taperConfig "jib")).2 = .ok () ∧ (run fitpackSpline (taperConfig "jib")).1.map outputKind = outputOrder := by
  constructor
  · refine C120_main _ (taperConfig_wellFormed (by simp)) (fun h => absurd h (by simp [taperConfig])) rfl rfl rfl rfl (taperConfig_main _)
      rfl rfl ⟨by norm_num, by norm_num, Or.inl ?_, ?_, ?_, ?_, ?_, ?_⟩ (by norm_num [taperConfig]) (taperConfig_wind _ _ _) ?_
    all_goals try simp only [taperConfig, mastDirection_upright]
    · norm_num
    · norm_num
    · intro i k hi hk
      have hi' : i < 2 := by simp only [List.length_cons, List.length_nil] at hi; omega
      have hk' : k < 3 := hk
      clear hi hk
      interval_cases i <;> interval_cases k <;> norm_num
    · intro i hi
      have hi' : i < 2 := by simp only [List.length_cons, List.length_nil] at hi; omega
      clear hi
      interval_cases i <;> norm_num
    · norm_num
    · intro i hi
      have hi' : i < 3 := hi
      clear hi
      interval_cases i <;> norm_num
    · have h1 := cos_deg_pos (x := 0 + 8) (by norm_num) (by norm_num)
      have h2 := sin_deg_pos (x := 0 + 8) (by norm_num) (by norm_num)
      unfold deg2rad at h1 h2
      simp only [V3.dot, leechDirection]
      positivity
  · have hf : (forestay 90 3 4).norm = 5 := by
      have e : forestay 90 3 4 = ⟨3, 0, 4⟩ := by
        simp only [forestay, mastDirection_upright]
        ext <;> simp
      rw [e]
      unfold V3.norm V3.dot
      rw [Real.sqrt_eq_iff_mul_self_eq_of_pos (by norm_num)]
      norm_num
    have hx : (forestay 90 3 4).x = 3 := by simp [forestay, mastDirection_upright]
    have hz : (forestay 90 3 4).z = 4 := by simp [forestay, mastDirection_upright]
    have e1 : jibTack (taperConfig "jib").rig 3 = ⟨-3, 0, 1⟩ := by
      simp only [jibTack, taperConfig, mastDirection_upright]
      ext <;> simp
    have e2 : jibHead (taperConfig "jib").rig 5 3 4 = ⟨0, 0, 5⟩ := by
      unfold jibHead
      rw [e1]
      simp only [taperConfig, hf, hx, hz]
      ext <;> norm_num
    refine C120_jib _ (taperConfig_wellFormed (by simp)) (fun h => absurd h (by simp [taperConfig])) rfl rfl rfl rfl rfl rfl
      (taperConfig_jib _) e1.symm e2.symm ⟨by norm_num, by norm_num, Or.inr rfl, by norm_num, ?_, ?_, ?_, ?_⟩
      (by norm_num [taperConfig]) (taperConfig_wind _ _ _) ?_
    all_goals try simp only [taperConfig]
    · intro i k hi hk
      have hi' : i < 1 := by simp only [List.length_cons, List.length_nil] at hi; omega
      have hk' : k < 2 := hk
      clear hi hk
      interval_cases i
      interval_cases k <;> norm_num
    · intro i hi
      have hi' : i < 1 := by simp only [List.length_cons, List.length_nil] at hi; omega
      clear hi
      interval_cases i
      norm_num
    · norm_num
    · intro i hi
      have hi' : i < 2 := hi
      clear hi
      interval_cases i <;> norm_num
    · simp only [V3.dot, leechDirection, add_zero, zero_mul, Real.cos_zero, Real.sin_zero, mul_zero, mul_one]
      positivity

end PySailing.Props
