import Verif.Lemmas.Outputs
import Verif.Props.Runner
import Verif.Props.Rotations
import Verif.Demo.TwoPanels

/-!
# A complete run of the program

A main sail of one panel, chord and luff 1, on an upright yacht in a beam wind: its lattice is the
two-panel lattice of `Demo/TwoPanels.lean`.
-/

namespace PySailing.Demo

open Spec Props

/-- The configuration of the run. -/
noncomputable def config : Config where
  heelDeg := 0
  leewayDeg := 0
  rho := 1
  wind := ⟨90, 1, 1, "flat", some 1, some 10, none, none⟩
  solver := ⟨1, 1, "linear", "real_twist"⟩
  rig := demoRig "main"
  main := demoConf
  jib := demoConf
  vRef := 0
  clrUpright := 0

theorem curve_linear {m : ℕ} {xs ys : ℕ → ℝ} {x v : ℝ} (h : CurveValue "linear" m xs ys x v) :
    PolygonValue m xs ys x v := by
  rcases h with ⟨-, h⟩ | ⟨h, -⟩
  · exact h
  · exact absurd h (by decide)

theorem sampled_const {v : List ℝ} {x : ℝ} (h : Sampled "linear" 1 [0, 1] [x, x] v) {r : ℕ} (hr : r ≤ 1) :
    v.getD r 0 = x := by
  obtain ⟨-, h⟩ := h
  have p := curve_linear (h r hr)
  have : (r = 0 ∨ r = 1) := by omega
  rcases this with rfl | rfl
  · have := p.left (by simp); simpa using this
  · have := p.right (by simp); simpa using this

theorem sampled_two {v : List ℝ} {x : ℝ} (h : Sampled "linear" 1 [0, 1] [x, x] v) : v = [x, x] := by
  have h0 := sampled_const h (r := 0) (by omega)
  have h1 := sampled_const h (r := 1) le_rfl
  obtain ⟨hl, -⟩ := h
  match v, hl with
  | [a, b], _ => simp at h0 h1; rw [h0, h1]

theorem set_exists (spline : SplineFn) : ∃ set, sailSetOf spline config.solver config.rig (some config.main)
    (some config.jib) ⟨0, 0, 0⟩ = .ok set ∧ set.panels = input2.panels ∧ set.te = input2.te ∧
    set.le = input2.le ∧ ∃ g, set.sails = [g] ∧ g.name = "main_sail" := by
  obtain ⟨ss, set, hset, hb, -, hlen, -, -, -, hD, -⟩ := sailSetOf_ok spline config.solver config.rig ⟨0, 0, 0⟩
    (Or.inl rfl) (Or.inr (Or.inr rfl)) le_rfl le_rfl (by simp [deg2rad]) demoConf demoConf
    (by simp [config, demoRig]) (fun h => absurd rfl h)
    (fun _ => ⟨demo_goodMain _, _, _, _, _, _, demo_goodSail⟩)
  obtain ⟨sm, rfl, luff, gi, ch, tw, ca, di, hl, hg, hd⟩ := hD rfl
  have hs := sailSetOf_sails hset
  obtain ⟨hp, ht, hle⟩ := sailSet_blocks hb hs
  refine ⟨set, hset, ?_, ht, hle, ?_⟩
  · have e1 : luff = 1 := by cases hl; rfl
    have e2 := hg.girths_eq; cases e2
    have e3 := hg.chords_eq; cases e3
    have e4 := hg.twist_eq; cases e4
    have e5 := hg.camber_eq; cases e5
    have e6 := hg.distance_eq; cases e6
    have ht0 : ∀ r, r ≤ 1 → sm.2 r = 0 := by
      intro r hr
      have p := curve_linear (hd.twist r hr)
      have : (r = 0 ∨ r = 1) := by omega
      rcases this with rfl | rfl
      · have := p.left (by simp); simpa using this
      · have := p.right (by simp [config]); simpa using this
    have hc := sampled_two hd.chords
    have hm := sampled_two hd.camber
    have hz := sampled_two hd.distance
    have s90 : Real.sin (deg2rad 90) = 1 := sin_deg_90
    have c90 : Real.cos (deg2rad 90) = 0 := by
      rw [show deg2rad 90 = Real.pi / 2 by simp [deg2rad]; ring]; exact Real.cos_pi_div_two
    have tack : sm.1.tack = ⟨0, 0, 1⟩ := by
      rw [hd.tack_eq]
      ext <;> simp [config, demoRig, mastDirection, s90, c90] <;> norm_num
    have head : sm.1.head = ⟨0, 0, 2⟩ := by
      rw [hd.head_eq, e1]
      ext <;> simp [config, demoRig, mastDirection, s90, c90] <;> norm_num
    have hns : sm.1.ns = 1 := hd.ns_eq
    have hnc : sm.1.nc = 1 := hd.nc_eq
    have hab : ∀ r k, r ≤ 1 → abovePoints sm r k = pts r k := by
      intro r k hr
      unfold abovePoints SailInput.aboveTwisted
      rw [ht0 r hr]
      simp only [deg2rad, zero_mul, rotateAboutLine_zero, SailInput.abovePt, hd.csys_eq]
      rw [demo_upright, hns, hnc, tack, head, hc, hm, hz]
      have : (r = 0 ∨ r = 1) := by omega
      rcases this with rfl | rfl <;> ext <;> simp [sailPoint, lerp, pts, camberCurve] <;> norm_num
    have hun : ∀ r k, r ≤ 1 → underPoints sm r k = mirrorMesh 1 pts r k := by
      intro r k hr
      unfold underPoints SailInput.underTwisted
      rw [hns, ht0 (1 - r) (by omega)]
      simp only [deg2rad, zero_mul, rotateAboutLine_zero, SailInput.underPt, hd.csys_eq]
      rw [demo_upright, hns, hnc, tack, head, hc, hm, hz]
      have : (r = 0 ∨ r = 1) := by omega
      rcases this with rfl | rfl <;> ext <;> simp [sailPoint, lerp, pts, camberCurve, mirrorMesh, mirror] <;> norm_num
    rw [hp]
    show [panelOf (abovePoints sm) 0 0, panelOf (underPoints sm) 0 0] =
      [panelOf pts 0 0, panelOf (mirrorMesh 1 pts) 0 0]
    simp only [panelOf, hab, hun, zero_add, le_refl, zero_le]
  · cases hsl : set.sails with
    | nil => rw [hsl] at hlen; simp [config, demoRig] at hlen
    | cons g l =>
      rw [hsl] at hlen
      have : l = [] := by
        rw [if_neg (by simp [config, demoRig])] at hlen
        simpa using hlen
      subst this
      refine ⟨g, rfl, ?_⟩
      obtain ⟨-, h2, -⟩ := C65_selection spline config.solver config.rig (some config.main) (some config.jib) ⟨0, 0, 0⟩
      obtain ⟨g', -, h3, h4⟩ := h2 rfl set hset
      rw [hsl] at h3
      injection h3 with h3
      rw [h3]; exact h4

theorem prepared (spline : SplineFn) : ∃ p, prepare spline config = .ok p ∧ p.csys = ⟨0, 0, 0⟩ ∧
    vlm input2 = .ok p.vlm ∧ p.vlm.vars = [vars (-1), (vars (-1)).mirrored] ∧ p.vlm.inlet.vAppInfs = [V, V] := by
  obtain ⟨set, hset, e1, e2, e3, -⟩ := set_exists spline
  obtain ⟨r, hr, hV, hv, -⟩ := vlm_ok2
  have hin : config.vlmInput set (windGetProfile config.wind) = input2 := by
    simp only [Config.vlmInput, e1, e2, e3]
    rfl
  have hs : sailPostInit config.rig (some demoConf) (some demoConf) = .ok () :=
    ((C53_validation_partial (demoRig "main")).2.1 rfl (some demoConf) demoConf).1 ⟨⟨_, rfl⟩, demoConf_complete⟩
  obtain ⟨p, hp, hc, -, hpv⟩ := prepare_of (spline := spline) (c := config) (main := demoConf) (jib := demoConf)
    (base := 1) (set := set) (r := r) rfl rfl (by simp [windPostInit, config]) hs hset rfl (by rw [hin]; exact hr)
  exact ⟨p, hp, hc, by rw [hpv]; exact hr, by rw [hpv]; exact hv, by rw [hpv]; exact hV⟩

/-- The same run in any wind that the checks accept and that blows with speed 1 from abeam at the height
of the sail. -/
theorem prepared_wind (spline : SplineFn) (w : WindConditions) (h0 : windPostInit w = .ok ())
    (h1 : (windGetProfile w).trueWindAt |3 / 2| = .ok ⟨0, 1, 0⟩) (h2 : (windGetProfile w).vYacht = 1) :
    ∃ p, prepare spline { config with wind := w } = .ok p ∧ p.csys = ⟨0, 0, 0⟩ ∧
      p.vlm.inlet.winds = windGetProfile w ∧ p.vlm.vars = [vars (-1), (vars (-1)).mirrored] := by
  obtain ⟨set, hset, e1, e2, e3, -⟩ := set_exists spline
  obtain ⟨r, hr, hw, hv⟩ := vlm_ok2_wind _ h1 h2
  have hin : Config.vlmInput { config with wind := w } set (windGetProfile w) =
      { input2 with wind := windGetProfile w } := by
    simp only [Config.vlmInput, e1, e2, e3]
    rfl
  have hs : sailPostInit config.rig (some demoConf) (some demoConf) = .ok () :=
    ((C53_validation_partial (demoRig "main")).2.1 rfl (some demoConf) demoConf).1 ⟨⟨_, rfl⟩, demoConf_complete⟩
  obtain ⟨p, hp, hc, -, hpv⟩ := prepare_of (spline := spline) (c := { config with wind := w }) (main := demoConf)
    (jib := demoConf) (base := 1) (set := set) (r := r) rfl rfl h0 hs hset rfl
    ((congrArg vlm hin).trans hr)
  exact ⟨p, hp, hc, by rw [hpv]; exact hw, by rw [hpv]; exact hv⟩

end PySailing.Demo
