import Verif.Demo.Run

/-!
# A run with a cambered sail

With one panel along the chord the camber line is sampled at its two ends, where it is zero: the panels are
those of the flat sail.
-/

namespace PySailing.Demo

open Spec Props

/-- The example sail with ten percent camber. -/
noncomputable def camberedConf : SailConf := { demoConf with camber := some [1 / 10, 1 / 10] }

/-- The configuration of the run. -/
noncomputable def cambered : Config := { config with main := camberedConf, jib := camberedConf }

theorem camberedConf_complete : ArraysComplete camberedConf := ⟨_, _, _, _, rfl, rfl, rfl, rfl, rfl, rfl, rfl⟩

theorem cambered_goodSail : GoodSail "linear" camberedConf [0, 1] [1, 1] [0, 0] [1 / 10, 1 / 10] [1 / 2, 1 / 2] :=
  { demo_goodSail with
    camber_eq := rfl
    camber_len := rfl
    camber_range := curveWithin_linear (by simp) rfl demo_increasing (by simp; norm_num) }

theorem set_cambered (spline : SplineFn) : ∃ set, sailSetOf spline cambered.solver cambered.rig (some cambered.main)
    (some cambered.jib) ⟨0, 0, 0⟩ = .ok set ∧ set.panels = input2.panels ∧ set.te = input2.te ∧
    set.le = input2.le ∧ ∃ g, set.sails = [g] ∧ g.name = "main_sail" := by
  obtain ⟨ss, set, hset, hb, -, hlen, -, -, -, hD, -⟩ := sailSetOf_ok spline cambered.solver cambered.rig ⟨0, 0, 0⟩
    (Or.inl rfl) (Or.inr (Or.inr rfl)) le_rfl le_rfl (by simp [deg2rad]) camberedConf camberedConf
    (by simp [cambered, config, demoRig]) (fun h => absurd rfl h)
    (fun _ => ⟨demo_goodMain _, _, _, _, _, _, cambered_goodSail⟩)
  obtain ⟨sm, rfl, luff, gi, ch, tw, ca, di, hl, hg, hd⟩ := hD rfl
  have hs := sailSetOf_sails hset
  obtain ⟨hp, ht, hle⟩ := sailSet_blocks hb hs
  refine ⟨set, hset, ?_, ht, hle, ?_⟩
  · have e1 : luff = 1 := by cases hl; rfl
    have e2 := hg.girths_eq; cases e2
    have e3 := hg.chords_eq; cases e3
    have e4 := hg.twist_eq; cases e4
    have e5 := hg.camber_eq; cases e5
    have e6 := hg.distance_eq; cases e6
    have ht0 : ∀ r, r ≤ 1 → sm.2 r = 0 := by
      intro r hr
      have p := curve_linear (hd.twist r hr)
      have : (r = 0 ∨ r = 1) := by omega
      rcases this with rfl | rfl
      · have := p.left (by simp); simpa using this
      · have := p.right (by simp [cambered, config]); simpa using this
    have hc := sampled_two hd.chords
    have hm := sampled_two hd.camber
    have hz := sampled_two hd.distance
    have s90 : Real.sin (deg2rad 90) = 1 := sin_deg_90
    have c90 : Real.cos (deg2rad 90) = 0 := by
      rw [show deg2rad 90 = Real.pi / 2 by simp [deg2rad]; ring]; exact Real.cos_pi_div_two
    have tack : sm.1.tack = ⟨0, 0, 1⟩ := by
      rw [hd.tack_eq]
      ext <;> simp [cambered, config, demoRig, mastDirection, s90, c90] <;> norm_num
    have head : sm.1.head = ⟨0, 0, 2⟩ := by
      rw [hd.head_eq, e1]
      ext <;> simp [cambered, config, demoRig, mastDirection, s90, c90] <;> norm_num
    have hns : sm.1.ns = 1 := hd.ns_eq
    have hnc : sm.1.nc = 1 := hd.nc_eq
    have hab : ∀ r k, r ≤ 1 → k ≤ 1 → abovePoints sm r k = pts r k := by
      intro r k hr hk
      unfold abovePoints SailInput.aboveTwisted
      rw [ht0 r hr]
      simp only [deg2rad, zero_mul, rotateAboutLine_zero, SailInput.abovePt, hd.csys_eq]
      rw [demo_upright, hns, hnc, tack, head, hc, hm, hz]
      have : (r = 0 ∨ r = 1) := by omega
      have hk' : (k = 0 ∨ k = 1) := by omega
      rcases this with rfl | rfl <;> rcases hk' with rfl | rfl <;> ext <;> simp [sailPoint, lerp, pts, camberCurve] <;> norm_num
    have hun : ∀ r k, r ≤ 1 → k ≤ 1 → underPoints sm r k = mirrorMesh 1 pts r k := by
      intro r k hr hk
      unfold underPoints SailInput.underTwisted
      rw [hns, ht0 (1 - r) (by omega)]
      simp only [deg2rad, zero_mul, rotateAboutLine_zero, SailInput.underPt, hd.csys_eq]
      rw [demo_upright, hns, hnc, tack, head, hc, hm, hz]
      have : (r = 0 ∨ r = 1) := by omega
      have hk' : (k = 0 ∨ k = 1) := by omega
      rcases this with rfl | rfl <;> rcases hk' with rfl | rfl <;> ext <;> simp [sailPoint, lerp, pts, camberCurve, mirrorMesh, mirror] <;> norm_num
    rw [hp]
    show [panelOf (abovePoints sm) 0 0, panelOf (underPoints sm) 0 0] =
      [panelOf pts 0 0, panelOf (mirrorMesh 1 pts) 0 0]
    simp only [panelOf, hab, hun, zero_add, le_refl, zero_le]
  · cases hsl : set.sails with
    | nil => rw [hsl] at hlen; simp [cambered, config, demoRig] at hlen
    | cons g l =>
      rw [hsl] at hlen
      have : l = [] := by
        rw [if_neg (by simp [cambered, config, demoRig])] at hlen
        simpa using hlen
      subst this
      refine ⟨g, rfl, ?_⟩
      obtain ⟨-, h2, -⟩ := C65_selection spline cambered.solver cambered.rig (some cambered.main) (some cambered.jib) ⟨0, 0, 0⟩
      obtain ⟨g', -, h3, h4⟩ := h2 rfl set hset
      rw [hsl] at h3
      injection h3 with h3
      rw [h3]; exact h4

theorem prepared_cambered (spline : SplineFn) : ∃ p, prepare spline cambered = .ok p ∧ p.csys = ⟨0, 0, 0⟩ ∧
    vlm input2 = .ok p.vlm ∧ p.vlm.vars = [vars (-1), (vars (-1)).mirrored] ∧ p.vlm.inlet.vAppInfs = [V, V] := by
  obtain ⟨set, hset, e1, e2, e3, -⟩ := set_cambered spline
  obtain ⟨r, hr, hV, hv, -⟩ := vlm_ok2
  have hin : cambered.vlmInput set (windGetProfile cambered.wind) = input2 := by
    simp only [Config.vlmInput, e1, e2, e3]
    rfl
  have hs : sailPostInit cambered.rig (some camberedConf) (some camberedConf) = .ok () :=
    ((C53_validation_partial (demoRig "main")).2.1 rfl (some camberedConf) camberedConf).1 ⟨⟨_, rfl⟩, camberedConf_complete⟩
  obtain ⟨p, hp, hc, -, hpv⟩ := prepare_of (spline := spline) (c := cambered) (main := camberedConf) (jib := camberedConf)
    (base := 1) (set := set) (r := r) rfl rfl (by simp [windPostInit, cambered, config]) hs hset rfl (by rw [hin]; exact hr)
  exact ⟨p, hp, hc, by rw [hpv]; exact hr, by rw [hpv]; exact hv, by rw [hpv]; exact hV⟩

end PySailing.Demo
