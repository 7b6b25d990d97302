import Verif.Lemmas.TaperBound
import Verif.Props.AnySolver
import Verif.Props.SlopedSail
import Verif.Props.TaperSail

/-!
# C123: circulations and lifts of flat sails of any shape are bounded, and continuous, independently of the mesh
-/

namespace PySailing.Props

open PySailing PySailing.Spec

theorem suits {s : SailInput} {θ : ℕ → ℝ} {chord : ℝ → ℝ} {τ c : ℝ} (h : SailInWind s θ chord τ c) : PlaneSail s θ chord τ ∧
    Taper.Fits c (-s.head.z) s.head.z fun y => PlaneSail.front s y + (s.nc + 1 / 4) * PlaneSail.width s chord y := by
  rcases h with ⟨F, hc⟩ | ⟨Q, F, hc⟩
  · exact ⟨F.toPlaneSail, F.fits hc⟩
  · exact ⟨F.toPlaneSail, F.fits hc⟩

/-- **C123.** However many panels: the circulations of a flat sail (with a leech curved outwards, or with any leech and a wind
close to the sail) are at most `4π R M sin α / |g|`, where `M` bounds the wind speed, `α` is the angle between wind and sail
and `R` is the reach of the sail, and the horizontal lift of every strip is at most `4π ρ R M² sin α` times its height. -/
theorem C123_bound {s : SailInput} {θ : ℕ → ℝ} {chord : ℝ → ℝ} {τ X : ℝ} {u : V3}
    (F : SailInWind s θ chord τ (u.dot (leechDirection s.csys.leewayDeg τ))) (hX : Overhang s chord X) {sail : SailGeom}
    (hs : sailGeometry s = .ok sail) {set : SailSet} (hset : sailSet [sail] = .ok set) {w : WindObj} {M : ℝ}
    (hw : WindAlong w u M s.tack.z s.head.z) {rho g : ℝ} (hrho : 0 < rho) (hg : g ≠ 0) {r : Vlm}
    (hr : vlm ⟨set.panels, s.nc, s.ns, rho, w, set.te, set.le, g⟩ = .ok r) :
    (∀ γ ∈ List.ofFn r.sol.gamma, |γ| ≤ 4 * Real.pi * reach s X * (M * |u.dot (sailNormal s.csys.leewayDeg τ)|) / |g|) ∧
    ∀ b j, b < 2 → j < s.ns → ∀ d : V3, d.z = 0 → |(stripSum s.nc s.ns (List.ofFn r.sol.lift) b j).dot d| ≤
      rho * M * ((s.head.z - s.tack.z) / s.ns) * (4 * Real.pi * reach s X * (M * |u.dot (sailNormal s.csys.leewayDeg τ)|)) *
        |(acrossWind u).dot d| := by
  obtain ⟨F, hfit⟩ := suits F
  obtain ⟨hu1, huz, hwind⟩ := hw
  choose! W l hW hl hM hWl using hwind
  rw [F.solved hs hset hu1 huz hW hWl hl hfit hrho.ne' hg] at hr
  injection hr with hr
  subst hr
  have hγ : ∀ k, |g * PlanarBlocks.gammaOf g s.nc s.ns (FlatSail.blocks s θ) (FlatSail.winds g rho s θ w W) k| ≤
      4 * Real.pi * reach s X * (M * |u.dot (sailNormal s.csys.leewayDeg τ)|) := by
    intro k
    rw [← PlaneSail.rowMin_eq]
    exact (F.tapered.lattice g).gamma_bound hg (F.speeds_mem g (p := fun x => 0 < x) hl) (F.speeds_mem g (p := fun x => x ≤ M) hM)
      (F.winds_speed g rho hu1 huz hWl) (FlatSail.decompose hu1 huz _ _).2 hfit (F.over hX) k
  constructor
  · intro γ h
    rw [List.mem_ofFn] at h
    obtain ⟨k, rfl⟩ := h
    have := hγ k
    rw [abs_mul] at this
    rw [le_div_iff₀ (abs_pos.2 hg), mul_comm]
    exact this
  · intro b j hb hj d hd
    have hb' : b < (FlatSail.blocks s θ).length := hb
    obtain ⟨m1, m2⟩ := F.midHeight_mem hb hj
    have hns : (0 : ℝ) < s.ns := by exact_mod_cast F.ok.ns_pos
    have hwd : 0 < (s.head.z - s.tack.z) / s.ns := div_pos (sub_pos.2 F.up) hns
    have hlp := hl _ m1 m2
    have hlM := hM _ m1 m2
    have hM0 := hlp.trans_le hlM
    rw [stripSum_eq, V3.sum_dot, F.strip hu1 huz hWl rho g hb' hj hd, abs_mul]
    apply mul_le_mul_of_nonneg_right _ (abs_nonneg _)
    have h0 := hγ (PlanarBlocks.panelIx g s.nc s.ns (FlatSail.blocks s θ) hb' (Nat.sub_lt F.ok.nc_pos one_pos) hj)
    have h1 := (abs_nonneg _).trans h0
    rw [abs_neg, abs_mul, abs_mul, abs_mul ((s.head.z - s.tack.z) / s.ns), abs_of_pos hrho, abs_of_pos hlp, abs_of_pos hwd]
    calc _ ≤ rho * (M * ((s.head.z - s.tack.z) / s.ns * (4 * Real.pi * reach s X * (M * |u.dot (sailNormal s.csys.leewayDeg τ)|)))) := by
          gcongr
      _ = _ := by ring

/-- **C123.** Whatever routine solves the linear system, when the calculation returns then the exact calculation returns
too, and the circulations and lifts differ from the exact ones by `1e-12` times these lengths and heights at most. -/
theorem C123_any_solver {s : SailInput} {θ : ℕ → ℝ} {chord : ℝ → ℝ} {τ X : ℝ} {u : V3}
    (F : SailInWind s θ chord τ (u.dot (leechDirection s.csys.leewayDeg τ))) (hX : Overhang s chord X) {sail : SailGeom}
    (hs : sailGeometry s = .ok sail) {set : SailSet} (hset : sailSet [sail] = .ok set) {w : WindObj} {M : ℝ}
    (hw : WindAlong w u M s.tack.z s.head.z) {rho g : ℝ} (hrho : 0 < rho) (hg : g ≠ 0) (solve : LinearSolver) {r : Vlm}
    (hr : vlmWith solve ⟨set.panels, s.nc, s.ns, rho, w, set.te, set.le, g⟩ = .ok r) :
    ∃ r₀, vlm ⟨set.panels, s.nc, s.ns, rho, w, set.te, set.le, g⟩ = .ok r₀ ∧
      (∀ k, |(List.ofFn r.sol.gamma).getD k 0 - (List.ofFn r₀.sol.gamma).getD k 0| ≤ 4 * Real.pi * reach s X * 1e-12 / |g|) ∧
      ∀ b j, b < 2 → j < s.ns → ∀ d : V3, d.z = 0 →
        |(stripSum s.nc s.ns (List.ofFn r.sol.lift) b j - stripSum s.nc s.ns (List.ofFn r₀.sol.lift) b j).dot d| ≤
          rho * M * ((s.head.z - s.tack.z) / s.ns) * (4 * Real.pi * reach s X * 1e-12) * |(acrossWind u).dot d| := by
  obtain ⟨F, hfit⟩ := suits F
  obtain ⟨hu1, huz, hwind⟩ := hw
  choose! W l hW hl hM hWl using hwind
  have hr₀ := F.solved hs hset hu1 huz hW hWl hl hfit hrho.ne' hg
  refine ⟨_, hr₀, ?_⟩
  obtain ⟨-, -, b1, b2, b3⟩ := (vlm_ok_iff _ _).1 hr₀
  obtain ⟨ri, ra, rv, rn, rs⟩ := r
  obtain ⟨a0, a1, a2, a3, a4⟩ := (vlmWith_ok_iff _ _ _).1 hr
  simp only at a0 a1 a2 a3 a4
  rw [b1] at a2
  injection a2 with a2
  subst a2
  rw [b2] at a3
  injection a3 with a3
  subst a3
  obtain ⟨-, -, γ, -, hf, hsol⟩ := (vlmCoreWith_ok_iff _ _ _ _ _ _ _ _ _ _).1 a4
  have hf' : List.Forall₂ (BuiltFrom s.nc s.ns) [(s, θ)] [sail] := List.Forall₂.cons ⟨F.ok, rfl, rfl, hs⟩ List.Forall₂.nil
  obtain ⟨-, hte, hle⟩ := sailSet_blocks hf' hset
  have hte' : set.te = trailingFlags s.nc s.ns (FlatSail.blocks s θ).length := hte
  have hle' : set.le = leadingFlags s.nc s.ns (FlatSail.blocks s θ).length := hle
  have hclose : ∀ k, |g * (γ k - PlanarBlocks.gammaOf g s.nc s.ns (FlatSail.blocks s θ) (FlatSail.winds g rho s θ w W) k)| ≤
      4 * Real.pi * reach s X * 1e-12 := by
    intro k
    rw [← PlaneSail.rowMin_eq]
    refine (F.tapered.lattice g).gamma_close (V := FlatSail.winds g rho s θ w W) hg (F.speeds_mem g (p := fun x => 0 < x) hl)
      (F.winds_speed g rho hu1 huz hWl) (FlatSail.decompose hu1 huz _ _).2 hfit (F.over hX) (γ := γ) (ε := 1e-12) (by norm_num) ?_ k
    intro i
    have := hf i
    simp only [hte'] at this
    exact this
  have h0 : 0 ≤ reach s X := by
    have := F.head_pos
    unfold reach
    positivity
  have hpi := Real.pi_pos
  constructor
  · intro k
    rw [hsol]
    by_cases hk : k < (PlanarBlocks.vars g s.nc s.ns (FlatSail.blocks s θ)).length
    · have h := hclose ⟨k, hk⟩
      rw [abs_mul] at h
      rw [List.getD_eq_getElem?_getD, List.getD_eq_getElem?_getD, List.getElem?_ofFn, List.getElem?_ofFn, dif_pos (by exact hk),
        dif_pos (by exact hk)]
      rw [le_div_iff₀ (abs_pos.2 hg), mul_comm]
      exact h
    · rw [List.getD_eq_getElem?_getD, List.getD_eq_getElem?_getD, List.getElem?_ofFn, List.getElem?_ofFn, dif_neg (by exact hk),
        dif_neg (by exact hk)]
      simp only [Option.getD_none, sub_zero, abs_zero]
      positivity
  · intro b j hb hj d hd
    have hb' : b < (FlatSail.blocks s θ).length := hb
    obtain ⟨m1, m2⟩ := F.midHeight_mem hb hj
    have hns : (0 : ℝ) < s.ns := by exact_mod_cast F.ok.ns_pos
    have hwd : 0 < (s.head.z - s.tack.z) / s.ns := div_pos (sub_pos.2 F.up) hns
    have e1 := F.strip_of hu1 huz hWl rho g γ hb' hj hd
    have e2 := F.strip (set := set) hu1 huz hWl rho g hb' hj hd
    have e0 : (stripSum s.nc s.ns (List.ofFn rs.lift) b j).dot d = ∑ i ∈ Finset.range s.nc, ((List.ofFn (panelForce
        (PlanarBlocks.latOf g s.nc s.ns (FlatSail.blocks s θ)) (PlanarBlocks.leOf s.nc s.ns (FlatSail.blocks s θ) _) s.ns rho γ
        (FlatSail.winds g rho s θ w W))).getD (panelNo s.nc s.ns b i j) 0).dot d := by
      rw [stripSum_eq, V3.sum_dot, hsol]
      simp only [hle']
      rfl
    have hc := hclose (PlanarBlocks.panelIx g s.nc s.ns (FlatSail.blocks s θ) hb' (Nat.sub_lt F.ok.nc_pos one_pos) hj)
    have hlp := hl _ m1 m2
    have hlM := hM _ m1 m2
    have hM0 := hlp.trans_le hlM
    rw [V3.dot_sub_left, e0, e1, stripSum_eq, V3.sum_dot, e2, ← sub_mul, abs_mul]
    apply mul_le_mul_of_nonneg_right _ (abs_nonneg _)
    calc _ = rho * (l (FlatSail.midHeight s b j) * ((s.head.z - s.tack.z) / s.ns * |g * (γ (PlanarBlocks.panelIx g s.nc s.ns (FlatSail.blocks s θ) hb'
            (Nat.sub_lt F.ok.nc_pos one_pos) hj) - PlanarBlocks.gammaOf g s.nc s.ns (FlatSail.blocks s θ) (FlatSail.winds g rho s θ w W)
            (PlanarBlocks.panelIx g s.nc s.ns (FlatSail.blocks s θ) hb' (Nat.sub_lt F.ok.nc_pos one_pos) hj))|)) := by
          rw [← abs_of_pos hrho, ← abs_of_pos hlp, ← abs_of_pos hwd, ← abs_mul, ← abs_mul, ← abs_mul, ← abs_neg]
          simp only [abs_of_pos hrho, abs_of_pos hlp, abs_of_pos hwd]
          congr 1
          ring
      _ ≤ rho * (M * ((s.head.z - s.tack.z) / s.ns * (4 * Real.pi * reach s X * 1e-12))) := by gcongr
      _ = _ := by ring

/-- **C123.** If two winds over such a sail have the same direction and their speeds differ by at most `ε` at every height
of the sail, the circulations differ by at most `4π R ε sin α / |g|`, and the horizontal lifts of a strip by at most
`4π ρ R (M + M') ε sin α` times its height. -/
theorem C123_gusts {s : SailInput} {θ : ℕ → ℝ} {chord : ℝ → ℝ} {τ X : ℝ} {u : V3}
    (F : SailInWind s θ chord τ (u.dot (leechDirection s.csys.leewayDeg τ))) (hX : Overhang s chord X) {sail : SailGeom}
    (hs : sailGeometry s = .ok sail) {set : SailSet} (hset : sailSet [sail] = .ok set) {w w' : WindObj} {M M' ε : ℝ}
    (hw : WindAlong w u M s.tack.z s.head.z) (hw' : WindAlong w' u M' s.tack.z s.head.z)
    (hclose : ∀ h v v', s.tack.z < h → h < s.head.z → w.trueWindAt h = .ok v → w'.trueWindAt h = .ok v' →
      |(v + ⟨w.vYacht, 0, 0⟩).norm - (v' + ⟨w'.vYacht, 0, 0⟩).norm| ≤ ε) {rho g : ℝ} (hrho : 0 < rho) (hg : g ≠ 0) {r r' : Vlm}
    (hr : vlm ⟨set.panels, s.nc, s.ns, rho, w, set.te, set.le, g⟩ = .ok r)
    (hr' : vlm ⟨set.panels, s.nc, s.ns, rho, w', set.te, set.le, g⟩ = .ok r') :
    (∀ k, |(List.ofFn r.sol.gamma).getD k 0 - (List.ofFn r'.sol.gamma).getD k 0| ≤
      4 * Real.pi * reach s X * (ε * |u.dot (sailNormal s.csys.leewayDeg τ)|) / |g|) ∧
    ∀ b j, b < 2 → j < s.ns → ∀ d : V3, d.z = 0 →
      |(stripSum s.nc s.ns (List.ofFn r.sol.lift) b j - stripSum s.nc s.ns (List.ofFn r'.sol.lift) b j).dot d| ≤
        rho * (M + M') * ((s.head.z - s.tack.z) / s.ns) * (4 * Real.pi * reach s X * (ε * |u.dot (sailNormal s.csys.leewayDeg τ)|)) *
          |(acrossWind u).dot d| := by
  obtain ⟨F, hfit⟩ := suits F
  obtain ⟨hu1, huz, hwind⟩ := hw
  choose! W l hW hl hM hWl using hwind
  obtain ⟨-, -, hwind'⟩ := hw'
  choose! W' l' hW' hl' hM' hWl' using hwind'
  have hll : ∀ h, s.tack.z < h → h < s.head.z → |l h - l' h| ≤ ε := by
    intro h h1 h2
    have := hclose h _ _ h1 h2 (hW h h1 h2) (hW' h h1 h2)
    rw [hWl h h1 h2, hWl' h h1 h2, V3.norm_smul, V3.norm_smul, hu1, mul_one, mul_one, abs_of_pos (hl h h1 h2),
      abs_of_pos (hl' h h1 h2)] at this
    exact this
  rw [F.solved hs hset hu1 huz hW hWl hl hfit hrho.ne' hg] at hr
  rw [F.solved hs hset hu1 huz hW' hWl' hl' hfit hrho.ne' hg] at hr'
  injection hr with hr
  injection hr' with hr'
  subst hr hr'
  have hε : 0 ≤ ε := by
    have h1 : s.tack.z < (s.tack.z + s.head.z) / 2 := by linarith [F.up]
    have h2 : (s.tack.z + s.head.z) / 2 < s.head.z := by linarith [F.up]
    exact (abs_nonneg _).trans (hll _ h1 h2)
  have h0 : 0 ≤ reach s X := by
    have := F.head_pos
    unfold reach
    positivity
  have hpi := Real.pi_pos
  have hkl : ∀ k, |FlatSail.speeds g s θ l k - FlatSail.speeds g s θ l' k| ≤ ε := by
    intro k
    obtain ⟨b, i, j, hb, hi, hj, rfl⟩ := FlatSail.panel_cases g s θ k
    obtain ⟨h1, h2⟩ := F.midHeight_mem hb hj
    unfold FlatSail.speeds
    rw [F.cp_height g hb hi hj]
    exact hll _ h1 h2
  have hγ : ∀ k, |g * (PlanarBlocks.gammaOf g s.nc s.ns (FlatSail.blocks s θ) (FlatSail.winds g rho s θ w W) k -
      PlanarBlocks.gammaOf g s.nc s.ns (FlatSail.blocks s θ) (FlatSail.winds g rho s θ w' W') k)| ≤
      4 * Real.pi * reach s X * (ε * |u.dot (sailNormal s.csys.leewayDeg τ)|) := by
    intro k
    rw [← PlaneSail.rowMin_eq]
    exact (F.tapered.lattice g).gamma_gust hg (F.speeds_mem g (p := fun x => 0 < x) hl) (F.speeds_mem g (p := fun x => 0 < x) hl')
      hε hkl (F.winds_speed g rho hu1 huz hWl) (F.winds_speed g rho hu1 huz hWl') (FlatSail.decompose hu1 huz _ _).2 hfit (F.over hX) k
  have hbound : ∀ k, |g * PlanarBlocks.gammaOf g s.nc s.ns (FlatSail.blocks s θ) (FlatSail.winds g rho s θ w W) k| ≤
      4 * Real.pi * reach s X * (M * |u.dot (sailNormal s.csys.leewayDeg τ)|) := by
    intro k
    rw [← PlaneSail.rowMin_eq]
    exact (F.tapered.lattice g).gamma_bound hg (F.speeds_mem g (p := fun x => 0 < x) hl) (F.speeds_mem g (p := fun x => x ≤ M) hM)
      (F.winds_speed g rho hu1 huz hWl) (FlatSail.decompose hu1 huz _ _).2 hfit (F.over hX) k
  constructor
  · intro k
    by_cases hk : k < (PlanarBlocks.vars g s.nc s.ns (FlatSail.blocks s θ)).length
    · have h := hγ ⟨k, hk⟩
      rw [abs_mul] at h
      rw [List.getD_eq_getElem?_getD, List.getD_eq_getElem?_getD, List.getElem?_ofFn, List.getElem?_ofFn, dif_pos (by exact hk),
        dif_pos (by exact hk), le_div_iff₀ (abs_pos.2 hg), mul_comm]
      exact h
    · rw [List.getD_eq_getElem?_getD, List.getD_eq_getElem?_getD, List.getElem?_ofFn, List.getElem?_ofFn, dif_neg (by exact hk),
        dif_neg (by exact hk)]
      simp only [Option.getD_none, sub_zero, abs_zero]
      positivity
  · intro b j hb hj d hd
    have hb' : b < (FlatSail.blocks s θ).length := hb
    obtain ⟨m1, m2⟩ := F.midHeight_mem hb hj
    have hns : (0 : ℝ) < s.ns := by exact_mod_cast F.ok.ns_pos
    have hwd : 0 < (s.head.z - s.tack.z) / s.ns := div_pos (sub_pos.2 F.up) hns
    have e1 := F.strip (set := set) hu1 huz hWl rho g hb' hj hd
    have e2 := F.strip (set := set) hu1 huz hWl' rho g hb' hj hd
    have hc := hγ (PlanarBlocks.panelIx g s.nc s.ns (FlatSail.blocks s θ) hb' (Nat.sub_lt F.ok.nc_pos one_pos) hj)
    have hbd := hbound (PlanarBlocks.panelIx g s.nc s.ns (FlatSail.blocks s θ) hb' (Nat.sub_lt F.ok.nc_pos one_pos) hj)
    rw [V3.dot_sub_left, stripSum_eq, V3.sum_dot, e1, stripSum_eq, V3.sum_dot, e2, ← sub_mul, abs_mul]
    apply mul_le_mul_of_nonneg_right _ (abs_nonneg _)
    have hlp' := hl' _ m1 m2
    have hlM' := hM' _ m1 m2
    have hM0' := hlp'.le.trans hlM'
    have hd := hll _ m1 m2
    rw [mul_sub] at hc
    generalize g * PlanarBlocks.gammaOf g s.nc s.ns (FlatSail.blocks s θ) (FlatSail.winds g rho s θ w W)
      (PlanarBlocks.panelIx g s.nc s.ns (FlatSail.blocks s θ) hb' (Nat.sub_lt F.ok.nc_pos one_pos) hj) = x at hc hbd ⊢
    generalize g * PlanarBlocks.gammaOf g s.nc s.ns (FlatSail.blocks s θ) (FlatSail.winds g rho s θ w' W')
      (PlanarBlocks.panelIx g s.nc s.ns (FlatSail.blocks s θ) hb' (Nat.sub_lt F.ok.nc_pos one_pos) hj) = y at hc ⊢
    generalize |u.dot (sailNormal s.csys.leewayDeg τ)| = S at *
    generalize (s.head.z - s.tack.z) / (s.ns : ℝ) = h at *
    generalize 4 * Real.pi * reach s X = R at *
    have key : |l (FlatSail.midHeight s b j) * x - l' (FlatSail.midHeight s b j) * y| ≤ ε * (R * (M * S)) + M' * (R * (ε * S)) := by
      rw [show l (FlatSail.midHeight s b j) * x - l' (FlatSail.midHeight s b j) * y =
        (l (FlatSail.midHeight s b j) - l' (FlatSail.midHeight s b j)) * x + l' (FlatSail.midHeight s b j) * (x - y) by ring]
      refine (abs_add_le _ _).trans ?_
      rw [abs_mul, abs_mul, abs_of_pos hlp']
      gcongr
    calc _ = |(-(rho * h)) * (l (FlatSail.midHeight s b j) * x - l' (FlatSail.midHeight s b j) * y)| := by congr 1; ring
      _ = rho * h * |l (FlatSail.midHeight s b j) * x - l' (FlatSail.midHeight s b j) * y| := by
          rw [abs_mul, abs_neg, abs_of_pos (mul_pos hrho hwd)]
      _ ≤ rho * h * (ε * (R * (M * S)) + M' * (R * (ε * S))) := by gcongr
      _ = _ := by ring

/-! ### Examples -/

theorem demoTaper_overhang : Overhang demoTaper (fun z => (5 - z) / 2) 1.25 := by
  refine ⟨by norm_num, fun z hz => ?_⟩
  have h1 : (1 : ℝ) ≤ z := hz.1
  simp only [aftEdge, luffAt, demoTaper]
  norm_num
  linarith

example : ∃ sail set r r' ra, sailGeometry demoTaper = .ok sail ∧ sailSet [sail] = .ok set ∧
    vlm ⟨set.panels, 1, 2, 1.2, ⟨60, 5, 0, .flat⟩, set.te, set.le, -1⟩ = .ok r ∧
    vlm ⟨set.panels, 1, 2, 1.2, ⟨60, 5.1, 0, .flat⟩, set.te, set.le, -1⟩ = .ok r' ∧
    vlmWith sloppySolver ⟨set.panels, 1, 2, 1.2, ⟨60, 5, 0, .flat⟩, set.te, set.le, -1⟩ = .ok ra ∧
    (∀ γ ∈ List.ofFn r.sol.gamma, |γ| ≤ 4 * Real.pi * reach demoTaper 1.25 *
      (5 * |(⟨1 / 2, Real.sqrt 3 / 2, 0⟩ : V3).dot (sailNormal demoTaper.csys.leewayDeg 0)|) / |(-1 : ℝ)|) ∧
    (∀ k, |(List.ofFn r.sol.gamma).getD k 0 - (List.ofFn r'.sol.gamma).getD k 0| ≤ 4 * Real.pi * reach demoTaper 1.25 *
      (0.1 * |(⟨1 / 2, Real.sqrt 3 / 2, 0⟩ : V3).dot (sailNormal demoTaper.csys.leewayDeg 0)|) / |(-1 : ℝ)|) ∧
    ∀ k, |(List.ofFn ra.sol.gamma).getD k 0 - (List.ofFn r.sol.gamma).getD k 0| ≤ 4 * Real.pi * reach demoTaper 1.25 * 1e-12 / |(-1 : ℝ)| := by
  have F := demoTaper_tapered
  obtain ⟨sail, hs, -⟩ := sailGeometry_ok F.ok
  obtain ⟨set, hset⟩ : ∃ set, sailSet [sail] = .ok set := by
    unfold sailSet
    rw [if_neg (by simp)]
    exact ⟨_, rfl⟩
  have h0 : (0 : ℝ) ≤ V3.dot ⟨1 / 2, Real.sqrt 3 / 2, 0⟩ (leechDirection demoTaper.csys.leewayDeg 0) := by
    simp [V3.dot, leechDirection, demoTaper]
  have w := demoWind_along (v := 5) (by norm_num) demoTaper.tack.z demoTaper.head.z
  have w' := demoWind_along (v := 5.1) (by norm_num) demoTaper.tack.z demoTaper.head.z
  have F' : SailInWind demoTaper (fun _ => 0) (fun z => (5 - z) / 2) 0 _ := Or.inl ⟨F, h0⟩
  obtain ⟨r, hr, hlen, -⟩ := C120_solver F hs hset w h0 (rho := 1.2) (g := -1) (by norm_num) (by norm_num)
  obtain ⟨r', hr', -⟩ := C120_solver F hs hset w' h0 (rho := 1.2) (g := -1) (by norm_num) (by norm_num)
  obtain ⟨sol, hsol, -⟩ := sloppy_accepted hr (by rw [List.length_ofFn] at hlen; rw [hlen]; norm_num [demoTaper])
  obtain ⟨r₀, hr₀, hclose, -⟩ := C123_any_solver F' demoTaper_overhang hs hset w (by norm_num) (by norm_num) _ hsol
  obtain rfl : r₀ = r := by rw [hr] at hr₀; injection hr₀ with h; exact h.symm
  refine ⟨sail, set, r₀, r', _, hs, hset, hr, hr', hsol, (C123_bound F' demoTaper_overhang hs hset w (by norm_num) (by norm_num) hr).1, ?_, hclose⟩
  refine (C123_gusts F' demoTaper_overhang hs hset w w' (fun h v v' h1 h2 hv hv' => ?_) (by norm_num) (by norm_num) hr hr').1
  have hn : ∀ {x : ℝ}, 0 < x → ∀ {v : V3}, (⟨60, x, 0, .flat⟩ : WindObj).trueWindAt h = .ok v → (v + ⟨0, 0, 0⟩).norm = x := by
    intro x hx v hv
    obtain ⟨hu1, -, -, hk⟩ := demoWind_uniform hx demoTaper.tack.z demoTaper.head.z
    obtain ⟨v₁, hv₁, e⟩ := hk h h1 h2
    rw [hv] at hv₁
    injection hv₁ with hv₁
    subst hv₁
    rw [e, V3.norm_smul, hu1, abs_of_pos hx, mul_one]
  rw [hn (by norm_num) hv, hn (by norm_num) hv']
  norm_num [abs_le]

end PySailing.Props
