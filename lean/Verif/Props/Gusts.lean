import Verif.Props.AnySolver

/-!
# C119: small changes of the wind speed change the results little
-/

namespace PySailing.Props

open PySailing PySailing.Spec

/-- **C119.** If two winds over a flat sail have the same direction and their speeds differ by at most `ε` at every
height of the sail, the circulations differ by at most `π · chord · ε sin α / |g|`, and the lifts of a strip by at most
`π ρ (M + M') ε sin α · area`, however fine the mesh. -/
theorem C119_gusts {s : SailInput} {θ : ℕ → ℝ} {chord τ : ℝ} (F : FlatSail s θ chord τ)
    (hbig : 2e-4 ≤ chord / s.nc * ((s.head.z - s.tack.z) / s.ns)) {sail : SailGeom} (hs : sailGeometry s = .ok sail)
    {set : SailSet} (hset : sailSet [sail] = .ok set) {w w' : WindObj} {u : V3} {M M' ε : ℝ}
    (hw : WindAlong w u M s.tack.z s.head.z) (hw' : WindAlong w' u M' s.tack.z s.head.z)
    (hclose : ∀ h v v', s.tack.z < h → h < s.head.z → w.trueWindAt h = .ok v → w'.trueWindAt h = .ok v' →
      |(v + ⟨w.vYacht, 0, 0⟩).norm - (v' + ⟨w'.vYacht, 0, 0⟩).norm| ≤ ε)
    (hfront : 0 ≤ u.dot (leechDirection s.csys.leewayDeg τ)) {rho g : ℝ} (hrho : 0 < rho) (hg : g ≠ 0) {r r' : Vlm}
    (hr : vlm ⟨set.panels, s.nc, s.ns, rho, w, set.te, set.le, g⟩ = .ok r)
    (hr' : vlm ⟨set.panels, s.nc, s.ns, rho, w', set.te, set.le, g⟩ = .ok r') :
    (∀ k, |(List.ofFn r.sol.gamma).getD k 0 - (List.ofFn r'.sol.gamma).getD k 0| ≤
      Real.pi * chord * (ε * |u.dot (sailNormal s.csys.leewayDeg τ)|) / |g|) ∧
    ∀ b j, b < 2 → j < s.ns →
      (stripSum s.nc s.ns (List.ofFn r.sol.lift) b j - stripSum s.nc s.ns (List.ofFn r'.sol.lift) b j).norm ≤
        Real.pi * rho * (M + M') * (ε * |u.dot (sailNormal s.csys.leewayDeg τ)|) * (chord * ((s.head.z - s.tack.z) / s.ns)) := by
  obtain ⟨hu1, huz, hwind⟩ := hw
  choose! W l hW hl hM hWl using hwind
  obtain ⟨-, -, hwind'⟩ := hw'
  choose! W' l' hW' hl' hM' hWl' using hwind'
  have hll : ∀ h, s.tack.z < h → h < s.head.z → |l h - l' h| ≤ ε := by
    intro h h1 h2
    have := hclose h _ _ h1 h2 (hW h h1 h2) (hW' h h1 h2)
    rw [hWl h h1 h2, hWl' h h1 h2, V3.norm_smul, V3.norm_smul, hu1, mul_one, mul_one, abs_of_pos (hl h h1 h2),
      abs_of_pos (hl' h h1 h2)] at this
    exact this
  rw [F.solved hbig hs hset hu1 huz hW hWl hl hfront hrho.ne' hg] at hr
  rw [F.solved hbig hs hset hu1 huz hW' hWl' hl' hfront hrho.ne' hg] at hr'
  injection hr with hr
  injection hr' with hr'
  subst hr hr'
  have P := F.planar hbig
  have hε : 0 ≤ ε := by
    have h1 : s.tack.z < (s.tack.z + s.head.z) / 2 := by linarith [F.up]
    have h2 : (s.tack.z + s.head.z) / 2 < s.head.z := by linarith [F.up]
    exact (abs_nonneg _).trans (hll _ h1 h2)
  have hncR : (0 : ℝ) < s.nc := by exact_mod_cast F.ok.nc_pos
  have hchord := F.chord_pos
  have hpi := Real.pi_pos
  have hkl : ∀ k, |FlatSail.speeds g s θ l k - FlatSail.speeds g s θ l' k| ≤ ε := by
    intro k
    obtain ⟨b, i, j, hb, hi, hj, rfl⟩ := FlatSail.panel_cases g s θ k
    obtain ⟨h1, h2⟩ := F.midHeight_mem hb hj
    unfold FlatSail.speeds
    rw [F.cp_height hbig g hb hi hj]
    exact hll _ h1 h2
  have hγ : ∀ k, |g * (PlanarBlocks.gammaOf g s.nc s.ns (FlatSail.blocks s θ) (FlatSail.winds g rho s θ w W) k -
      PlanarBlocks.gammaOf g s.nc s.ns (FlatSail.blocks s θ) (FlatSail.winds g rho s θ w' W') k)| ≤
      Real.pi * chord * (ε * |u.dot (sailNormal s.csys.leewayDeg τ)|) := by
    intro k
    rw [show ∀ x y : ℝ, g * (x - y) = -(g * (y - x)) by intro x y; ring, abs_neg]
    refine ((P.lattice g).gamma_gust hg (F.speeds_mem hbig g (p := fun x => 0 < x) hl) (F.speeds_mem hbig g (p := fun x => 0 < x) hl')
      hε hkl (F.winds_speed hbig g rho hu1 huz hWl) (F.winds_speed hbig g rho hu1 huz hWl') (FlatSail.decompose hu1 huz _ _).2 hfront k).trans
      (le_of_eq ?_)
    field_simp
  constructor
  · intro k
    by_cases hk : k < (PlanarBlocks.vars g s.nc s.ns (FlatSail.blocks s θ)).length
    · have h := hγ ⟨k, hk⟩
      rw [abs_mul] at h
      rw [List.getD_eq_getElem?_getD, List.getD_eq_getElem?_getD, List.getElem?_ofFn, List.getElem?_ofFn, dif_pos (by exact hk),
        dif_pos (by exact hk), le_div_iff₀ (abs_pos.2 hg), mul_comm]
      exact h
    · rw [List.getD_eq_getElem?_getD, List.getD_eq_getElem?_getD, List.getElem?_ofFn, List.getElem?_ofFn, dif_neg (by exact hk),
        dif_neg (by exact hk)]
      simp only [Option.getD_none, sub_zero, abs_zero]
      positivity
  · intro b j hb hj
    have hb' : b < (FlatSail.blocks s θ).length := hb
    obtain ⟨m1, m2⟩ := F.midHeight_mem hb hj
    have hns : (0 : ℝ) < s.ns := by exact_mod_cast F.ok.ns_pos
    have hwd : 0 < (s.head.z - s.tack.z) / s.ns := div_pos (sub_pos.2 F.up) hns
    have e1 := F.strip (set := set) hbig hu1 huz hWl rho g hb' hj
    have e2 := F.strip (set := set) hbig hu1 huz hWl' rho g hb' hj
    have hu' : (⟨-u.y, u.x, 0⟩ : V3).norm = 1 := by
      have h2 : (⟨-u.y, u.x, 0⟩ : V3).norm = u.norm := by
        unfold V3.norm
        simp only [V3.dot, huz]
        congr 1
        ring
      rw [h2, hu1]
    have hc := hγ (PlanarBlocks.panelIx g s.nc s.ns (FlatSail.blocks s θ) hb' (Nat.sub_lt F.ok.nc_pos one_pos) hj)
    have hbd := (F.gamma_bounds hbig hu1 huz hWl hl hM hfront rho hg
      (PlanarBlocks.panelIx g s.nc s.ns (FlatSail.blocks s θ) hb' (Nat.sub_lt F.ok.nc_pos one_pos) hj)).2.2
    rw [stripSum_eq, e1, stripSum_eq, e2, ← sub_smul, V3.norm_smul, hu', mul_one]
    have hlp' := hl' _ m1 m2
    have hlM' := hM' _ m1 m2
    have hM0' := hlp'.le.trans hlM'
    have hd := hll _ m1 m2
    rw [mul_sub] at hc
    generalize g * PlanarBlocks.gammaOf g s.nc s.ns (FlatSail.blocks s θ) (FlatSail.winds g rho s θ w W)
      (PlanarBlocks.panelIx g s.nc s.ns (FlatSail.blocks s θ) hb' (Nat.sub_lt F.ok.nc_pos one_pos) hj) = x at hc hbd ⊢
    generalize g * PlanarBlocks.gammaOf g s.nc s.ns (FlatSail.blocks s θ) (FlatSail.winds g rho s θ w' W')
      (PlanarBlocks.panelIx g s.nc s.ns (FlatSail.blocks s θ) hb' (Nat.sub_lt F.ok.nc_pos one_pos) hj) = y at hc ⊢
    generalize |u.dot (sailNormal s.csys.leewayDeg τ)| = S at *
    generalize (s.head.z - s.tack.z) / (s.ns : ℝ) = h at *
    have key : |l (FlatSail.midHeight s b j) * x - l' (FlatSail.midHeight s b j) * y| ≤
        ε * (Real.pi * chord * (M * S)) + M' * (Real.pi * chord * (ε * S)) := by
      rw [show l (FlatSail.midHeight s b j) * x - l' (FlatSail.midHeight s b j) * y =
        (l (FlatSail.midHeight s b j) - l' (FlatSail.midHeight s b j)) * x + l' (FlatSail.midHeight s b j) * (x - y) by ring]
      refine (abs_add_le _ _).trans ?_
      rw [abs_mul, abs_mul, abs_of_pos hlp']
      gcongr
    calc _ = |(-(rho * h)) * (l (FlatSail.midHeight s b j) * x - l' (FlatSail.midHeight s b j) * y)| := by congr 1; ring
      _ = rho * h * |l (FlatSail.midHeight s b j) * x - l' (FlatSail.midHeight s b j) * y| := by
          rw [abs_mul, abs_neg, abs_of_pos (mul_pos hrho hwd)]
      _ ≤ rho * h * (ε * (Real.pi * chord * (M * S)) + M' * (Real.pi * chord * (ε * S))) := by gcongr
      _ = _ := by ring

example : ∃ sail set r r', sailGeometry demoFoot = .ok sail ∧ sailSet [sail] = .ok set ∧
    vlm ⟨set.panels, 2, 2, 1.2, ⟨60, 5, 0, .flat⟩, set.te, set.le, -1⟩ = .ok r ∧
    vlm ⟨set.panels, 2, 2, 1.2, ⟨60, 5.1, 0, .flat⟩, set.te, set.le, -1⟩ = .ok r' ∧
    ∀ k, |(List.ofFn r.sol.gamma).getD k 0 - (List.ofFn r'.sol.gamma).getD k 0| ≤
      Real.pi * 1 * (0.1 * |(⟨1 / 2, Real.sqrt 3 / 2, 0⟩ : V3).dot (sailNormal demoFoot.csys.leewayDeg 0)|) / |(-1 : ℝ)| := by
  have F := demoFoot_flat
  obtain ⟨sail, hs, -⟩ := sailGeometry_ok F.ok
  obtain ⟨set, hset⟩ : ∃ set, sailSet [sail] = .ok set := by
    unfold sailSet
    rw [if_neg (by simp)]
    exact ⟨_, rfl⟩
  have w := demoWind_along (v := 5) (by norm_num) demoFoot.tack.z demoFoot.head.z
  have w' := demoWind_along (v := 5.1) (by norm_num) demoFoot.tack.z demoFoot.head.z
  have hd : 0 ≤ (⟨1 / 2, Real.sqrt 3 / 2, 0⟩ : V3).dot (leechDirection demoFoot.csys.leewayDeg 0) := by
    simp [V3.dot, leechDirection, demoFoot]
  have hb : 2e-4 ≤ 1 / (demoFoot.nc : ℝ) * ((demoFoot.head.z - demoFoot.tack.z) / demoFoot.ns) := by norm_num [demoFoot]
  obtain ⟨r, hr, -⟩ := C110_solver F hb hs hset w hd (rho := 1.2) (g := -1) (by norm_num) (by norm_num)
  obtain ⟨r', hr', -⟩ := C110_solver F hb hs hset w' hd (rho := 1.2) (g := -1) (by norm_num) (by norm_num)
  refine ⟨sail, set, r, r', hs, hset, hr, hr', ?_⟩
  refine (C119_gusts F hb hs hset w w' (fun h v v' h1 h2 hv hv' => ?_) hd (by norm_num) (by norm_num) hr hr').1
  have hn : ∀ {x : ℝ}, 0 < x → ∀ {v : V3}, (⟨60, x, 0, .flat⟩ : WindObj).trueWindAt h = .ok v → (v + ⟨0, 0, 0⟩).norm = x := by
    intro x hx v hv
    obtain ⟨hu1, -, -, hk⟩ := demoWind_uniform hx demoFoot.tack.z demoFoot.head.z
    obtain ⟨v₁, hv₁, e⟩ := hk h h1 h2
    rw [hv] at hv₁
    injection hv₁ with hv₁
    subst hv₁
    rw [e, V3.norm_smul, hu1, abs_of_pos hx, mul_one]
  rw [hn (by norm_num) hv, hn (by norm_num) hv']
  norm_num [abs_le]

end PySailing.Props
