import Verif.Props.Workbook

/-!
# C95: the sheet `Components` of a run
-/

namespace PySailing.Props

open PySailing PySailing.Spec

/-- The sails of a configuration, in the order of the results: name and height of the tack of the upright
yacht. The jib is tacked at the sheer line, the main sail at the boom. -/
noncomputable def sailsOf (c : Config) : List (String × ℝ) :=
  let sheer := c.rig.sheer * Real.sin (deg2rad c.rig.rakeDeg)
  let boom := (c.rig.sheer + c.rig.boom) * Real.sin (deg2rad c.rig.rakeDeg)
  if c.rig.sailsDef = "jib" then [("jib", sheer)]
  else if c.rig.sailsDef = "main" then [("main_sail", boom)]
  else [("jib", sheer), ("main_sail", boom)]

theorem sailJib_tack {spline : SplineFn} {s : SolverConf} {rig : RigConf} {jib : Option SailConf}
    {csys : Csys} {g : SailGeom} (h : sailJib spline s rig jib csys = .ok g) :
    g.tackMounting.z = rig.sheer * Real.sin (deg2rad rig.rakeDeg) := by
  unfold sailJib SailFactory.makeJib at h
  simp only [bind, Except.bind] at h
  repeat' split at h
  all_goals first
    | (cases h; done)
    | (rename_i m hm
       rw [sailGeometry_tack h]
       simp only [SailFactory.jibMounting] at hm
       repeat' split at hm
       all_goals first
         | (cases hm; done)
         | (injection hm with hm; rw [← hm]; simp [RigConf.factory, SailFactory.sheerXyz, SailFactory.rake]))

theorem sailsOf_eq {spline : SplineFn} {c : Config} {p : Prepared} (hp : prepare spline c = .ok p) :
    p.set.sails.map (fun g => (g.name, g.tackMounting.z)) = sailsOf c := by
  obtain ⟨main, jib, base, -, -, -, -, -, hset, -⟩ := prepare_ok hp
  obtain ⟨s1, s2, s3, s4⟩ := C65_selection spline c.solver c.rig (some main) (some jib) p.csys
  by_cases d1 : c.rig.sailsDef = "jib"
  · obtain ⟨g, hg, hs, hn⟩ := s1 d1 _ hset
    rw [hs]
    simp [sailsOf, d1, hn, sailJib_tack hg]
  by_cases d2 : c.rig.sailsDef = "main"
  · obtain ⟨g, hg, hs, hn⟩ := s2 d2 _ hset
    rw [hs]
    simp [sailsOf, d2, hn, sailMain_tack hg]
  by_cases d3 : c.rig.sailsDef = "jib_and_main"
  · obtain ⟨g, g', hg, hg', hs, hn, hn'⟩ := s3 d3 _ hset
    rw [hs]
    simp [sailsOf, d3, hn, hn', sailJib_tack hg, sailMain_tack hg']
  · rw [s4 (by simp [d1, d2, d3])] at hset
    cases hset

/-- If the girths are computed, no sail has its highest pressure point at the height of its tack. -/
theorem cpGirthsAll_top {sails : List SailGeom} {m : ℕ} (hn : sails ≠ []) (hm : 0 < m) {c : Csys} {cps : List V3}
    (hl : cps.length = 2 * (sails.length * m)) {r : List ℝ × List V3} (h : cpGirthsAll sails c cps = .ok r)
    {b : ℕ} (hb : b < sails.length) : ∃ top, IsGreatest {z | ∃ k, k < m ∧
      (z = (c.reverseRotationsWithMirror (row cps (b * m + k))).z ∨
       z = (c.reverseRotationsWithMirror (row cps (sails.length * m + (b * m + k)))).z)} top ∧
      top ≠ sails[b].tackMounting.z := by
  have hpos : 0 < sails.length := List.length_pos_iff.2 hn
  obtain ⟨chunks, hc, hcl, hcc⟩ := arraySplit_chunks (xs := cps) (g := 2 * sails.length) (n := m)
    (by omega) (by rw [hl]; ring)
  unfold cpGirthsAll at h
  simp only [hc, bind, Except.bind] at h
  split at h
  · cases h
  rename_i rows hrows
  obtain ⟨-, hrow⟩ := mapM_ok_inv hrows
  obtain ⟨y, -, hy⟩ := hrow b (by simpa using hb)
  rw [List.getElem_range] at hy
  have e1 : idx chunks b = .ok ((cps.drop (b * m)).take m) := by
    unfold idx; rw [hcc b (by omega)]
  have e2 : idx chunks (b + sails.length) = .ok ((cps.drop ((b + sails.length) * m)).take m) := by
    unfold idx; rw [hcc _ (by omega)]
  have e3 : idx sails b = .ok sails[b] := by
    unfold idx; rw [List.getElem?_eq_getElem hb]
  rw [e1, e2, e3] at hy
  have l1 : (b + 1) * m ≤ sails.length * m := Nat.mul_le_mul_right _ hb
  have l2 : (b + sails.length + 1) * m ≤ (2 * sails.length) * m := Nat.mul_le_mul_right _ (by omega)
  have r1 : (b + 1) * m = b * m + m := by ring
  have r2 : (b + sails.length + 1) * m = (b + sails.length) * m + m := by ring
  have r3 : (2 * sails.length) * m = 2 * (sails.length * m) := by ring
  have e4 : cpStraightYacht ((cps.drop (b * m)).take m ++
      (cps.drop ((b + sails.length) * m)).take m) c =
      uprightAbove c cps m b ++ uprightUnder c cps sails.length m b := by
    rw [chunk_range _ (by omega), chunk_range _ (by omega)]
    unfold cpStraightYacht
    rw [List.map_append, List.map_map, List.map_map]
    rfl
  simp only [e4] at hy
  have hset : {z | ∃ k, k < m ∧
      (z = (c.reverseRotationsWithMirror (row cps (b * m + k))).z ∨
       z = (c.reverseRotationsWithMirror (row cps (sails.length * m + (b * m + k)))).z)} =
      {z | ∃ p ∈ uprightAbove c cps m b ++ uprightUnder c cps sails.length m b, z = p.z} := by
    ext z
    simp only [Set.mem_setOf_eq, List.mem_append, uprightAbove, uprightUnder, List.mem_map,
      List.mem_range, upright]
    constructor
    · rintro ⟨k, hk, rfl | rfl⟩
      · exact ⟨_, .inl ⟨k, hk, rfl⟩, rfl⟩
      · exact ⟨_, .inr ⟨k, hk, rfl⟩, by rw [show (b + sails.length) * m + k =
          sails.length * m + (b * m + k) by ring]⟩
    · rintro ⟨p, ⟨k, hk, rfl⟩ | ⟨k, hk, rfl⟩, rfl⟩
      · exact ⟨k, hk, .inl rfl⟩
      · exact ⟨k, hk, .inr (by rw [show (b + sails.length) * m + k =
          sails.length * m + (b * m + k) by ring])⟩
  have hfin : {z | ∃ p ∈ uprightAbove c cps m b ++ uprightUnder c cps sails.length m b, z = p.z}.Finite := by
    refine ((uprightAbove c cps m b ++ uprightUnder c cps sails.length m b).map V3.z).toFinset.finite_toSet.subset ?_
    rintro z ⟨p, hp, rfl⟩
    simp only [List.coe_toFinset, Set.mem_setOf_eq]
    exact List.mem_map.2 ⟨p, hp, rfl⟩
  have hnon : {z | ∃ p ∈ uprightAbove c cps m b ++ uprightUnder c cps sails.length m b, z = p.z}.Nonempty := by
    rw [← hset]
    exact ⟨_, 0, hm, .inl rfl⟩
  obtain ⟨top, h1, h2⟩ := Set.exists_max_image _ id hfin hnon
  have htop : IsGreatest {z | ∃ p ∈ uprightAbove c cps m b ++ uprightUnder c cps sails.length m b, z = p.z} top :=
    ⟨h1, fun z hz => h2 z hz⟩
  refine ⟨top, by rw [hset]; exact htop, fun he => ?_⟩
  rw [((C50_girths _ sails[b].tackMounting).2 top htop).1 he] at hy
  cases hy

/-- **C95.** In every run that writes its workbook, the sheet `Components` has one row for each panel above
the water, sail after sail in the order jib, main sail.  The row of panel `k` of sail `b` contains the name
of the sail, everything computed for the panel (circulation, velocities, wind, pressure, force, moment,
pressure point), the height `z` of its pressure point on the upright yacht, and the girth
`(z - T) / (top - T)`, where `T` is the height of the tack given by the rig and `top` the height of the
sail's highest pressure point. -/
theorem C95_sheet (spline : SplineFn) (c : Config) (t : SavedResults) (h : .workbook (some t) ∈ (run spline c).1) :
    ∃ p, prepare spline c = .ok p ∧
      (∀ col ∈ t.components, col.2.length = (sailsOf c).length * (c.solver.nc * c.solver.ns)) ∧
      ∀ b (hb : b < (sailsOf c).length), ∃ top,
        IsGreatest {z | ∃ k, k < c.solver.nc * c.solver.ns ∧
          (z = (p.csys.reverseRotationsWithMirror (row (p.vlm.vars.map PanelVars.cp)
              (b * (c.solver.nc * c.solver.ns) + k))).z ∨
           z = (p.csys.reverseRotationsWithMirror (row (p.vlm.vars.map PanelVars.cp)
              ((sailsOf c).length * (c.solver.nc * c.solver.ns) + (b * (c.solver.nc * c.solver.ns) + k)))).z)} top ∧
        top ≠ (sailsOf c)[b].2 ∧
        ∀ k, k < c.solver.nc * c.solver.ns → ∃ sail tws,
          let q := b * (c.solver.nc * c.solver.ns) + k
          let z := (p.csys.reverseRotationsWithMirror (row (p.vlm.vars.map PanelVars.cp) q)).z
          (windGetProfile c.wind).trueWindAt |(row (p.vlm.vars.map PanelVars.cp) q).z| = .ok tws ∧
          t.components.cell "sail_name" q = some (.text (sailsOf c)[b].1) ∧
          t.components.cell "cp_points_upright.z" q = some (.num z) ∧
          t.components.cell "girths" q = some (.num ((z - (sailsOf c)[b].2) / (top - (sailsOf c)[b].2))) ∧
          ∀ x ∈ panelCells p.vlm p.csys p.csys sail top tws q, t.components.cell x.1 q = some x.2 := by
  obtain ⟨p, hp, hs⟩ := run_workbook h
  obtain ⟨hn, hm, hlen, -⟩ := prepared_shape hp
  obtain ⟨main, jib, base, -, -, -, -, -, hset, -, -, hv, res, hres, hflow⟩ := prepare_ok hp
  obtain ⟨-, hsh, -⟩ := sailSetOf_shape hset
  have hne : p.set.sails ≠ [] := by
    intro e; rw [e] at hn; simp at hn
  have hso := sailsOf_eq hp
  have hsl : (sailsOf c).length = p.set.sails.length := by rw [← hso]; simp
  obtain ⟨-, hvl, -⟩ := vlm_lengths hv
  have hcl : (p.vlm.vars.map PanelVars.cp).length = 2 * (p.set.sails.length * (c.solver.nc * c.solver.ns)) := by
    rw [List.length_map, hvl]; exact hlen
  obtain ⟨g, hg⟩ : ∃ g, cpGirthsAll p.set.sails p.csys (p.vlm.vars.map PanelVars.cp) = .ok g := by
    unfold saveResults at hs
    simp only [bind, Except.bind] at hs
    split at hs
    · cases hs
    split at hs
    · cases hs
    · rename_i g hg; exact ⟨g, hg⟩
  have hic := (saveResults_integrals hs).2
  have htop := fun b (hb : b < p.set.sails.length) => cpGirthsAll_top hne hm hcl hg hb
  choose! top ht1 ht2 using htop
  obtain ⟨s, hs', hcols, hrows⟩ := C49_components _ _ hv p.set.sails (c.solver.nc * c.solver.ns) p.set
    (sailSetOf_sails hset) rfl (fun g hg => (hsh g hg).1) (fun g hg => (hsh g hg).2.1) p.csys p.csys res hres
    p.flow (by rw [hflow]; rfl) t.inlet hic top ht1 ht2
  rw [hs] at hs'
  injection hs' with hs'
  subst hs'
  refine ⟨p, hp, by rw [hsl]; exact hcols, fun b hb => ?_⟩
  have hb' : b < p.set.sails.length := by rw [← hsl]; exact hb
  have hsb : (sailsOf c)[b] = (p.set.sails[b].name, p.set.sails[b].tackMounting.z) := by
    simp only [← hso, List.getElem_map]
  refine ⟨top b, by rw [hsl]; exact ht1 b hb', by rw [hsb]; exact ht2 b hb', fun k hk => ?_⟩
  obtain ⟨tws, P, -, -, htw, -, hcell⟩ := hrows b hb' k hk
  refine ⟨p.set.sails[b], tws, htw, ?_, ?_, ?_, hcell⟩
  · rw [hsb]
    exact hcell ("sail_name", _) (by simp [panelCells])
  · exact hcell ("cp_points_upright.z", _) (by simp [panelCells])
  · rw [hsb]
    exact hcell ("girths", _) (by simp [panelCells])

/-- Non-vacuity: the run of the one panel main sail, tacked at height 1. -/
example (spline : SplineFn) : (∃ t, .workbook (some t) ∈ (run spline Demo.config).1) ∧
    sailsOf Demo.config = [("main_sail", 1)] := by
  refine ⟨demo_workbook spline, ?_⟩
  simp [sailsOf, Demo.config, demoRig, deg2rad_90]
  norm_num

end PySailing.Props
