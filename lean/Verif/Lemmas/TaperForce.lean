import Verif.Lemmas.TaperSail
import Verif.Props.FlatSailForce

/-!
# Circulations and forces of flat sails of any shape
-/

namespace PySailing.Spec.PlaneSail

open PySailing Props

theorem solver {s : SailInput} {θ : ℕ → ℝ} {chord : ℝ → ℝ} {τ : ℝ} (F : PlaneSail s θ chord τ) {sail : SailGeom}
    (hs : sailGeometry s = .ok sail) {set : SailSet} (hset : sailSet [sail] = .ok set) {w : WindObj} {u : V3} {M : ℝ}
    (hw : WindAlong w u M s.tack.z s.head.z) (hfit : Taper.Fits (u.dot (leechDirection s.csys.leewayDeg τ)) (-s.head.z) s.head.z
      fun y => front s y + (s.nc + 1 / 4) * width s chord y)
    {rho g : ℝ} (hrho : rho ≠ 0) (hg : g ≠ 0) :
    ∃ r, vlm ⟨set.panels, s.nc, s.ns, rho, w, set.te, set.le, g⟩ = .ok r ∧
      (List.ofFn r.sol.gamma).length = 2 * (s.nc * s.ns) ∧ ∀ γ ∈ List.ofFn r.sol.gamma,
        (0 < u.dot (sailNormal s.csys.leewayDeg τ) → g * γ < 0) ∧ (u.dot (sailNormal s.csys.leewayDeg τ) < 0 → 0 < g * γ) ∧
        (u.dot (sailNormal s.csys.leewayDeg τ) = 0 → γ = 0) := by
  obtain ⟨hu1, huz, hwind⟩ := hw
  choose! W l hW hl hM hWl using hwind
  refine ⟨_, F.solved hs hset hu1 huz hW hWl hl hfit hrho hg, ?_, ?_⟩
  · rw [List.length_ofFn]
    exact PlanarBlocks.vars_length g s.nc s.ns (FlatSail.blocks s θ)
  intro γ h
  rw [List.mem_ofFn] at h
  obtain ⟨i, rfl⟩ := h
  obtain ⟨a, b, c⟩ := F.gamma_sign hu1 huz hWl hl hfit rho hg i
  exact ⟨a, b, fun h => (mul_eq_zero.1 (c h)).resolve_left hg⟩

theorem force_strip {s : SailInput} {θ : ℕ → ℝ} {chord : ℝ → ℝ} {τ : ℝ} (F : PlaneSail s θ chord τ) {sail : SailGeom}
    (hs : sailGeometry s = .ok sail) {set : SailSet} (hset : sailSet [sail] = .ok set) {w : WindObj} {u : V3} {M : ℝ}
    (hw : WindAlong w u M s.tack.z s.head.z) (hfit : Taper.Fits (u.dot (leechDirection s.csys.leewayDeg τ)) (-s.head.z) s.head.z
      fun y => front s y + (s.nc + 1 / 4) * width s chord y)
    {rho g : ℝ} (hrho : 0 < rho) (hg : g ≠ 0) {r : Vlm}
    (hr : vlm ⟨set.panels, s.nc, s.ns, rho, w, set.te, set.le, g⟩ = .ok r) {b j : ℕ} (hb : b < 2) (hj : j < s.ns) :
    ∃ L : ℝ, (stripSum s.nc s.ns (List.ofFn r.sol.lift) b j).x = L * (acrossWind u).x ∧
      (stripSum s.nc s.ns (List.ofFn r.sol.lift) b j).y = L * (acrossWind u).y ∧
      (0 < u.dot (sailNormal s.csys.leewayDeg τ) → 0 < L) ∧ (u.dot (sailNormal s.csys.leewayDeg τ) < 0 → L < 0) ∧
      (u.dot (sailNormal s.csys.leewayDeg τ) = 0 → L = 0) := by
  obtain ⟨hu1, huz, hwind⟩ := hw
  choose! W l hW hl hM hWl using hwind
  rw [F.solved hs hset hu1 huz hW hWl hl hfit hrho.ne' hg] at hr
  injection hr with hr
  subst hr
  have hb' : b < (FlatSail.blocks s θ).length := hb
  obtain ⟨m1, m2⟩ := F.midHeight_mem hb hj
  obtain ⟨a1, a2, a3⟩ := F.gamma_sign hu1 huz hWl hl hfit rho hg
    (PlanarBlocks.panelIx g s.nc s.ns (FlatSail.blocks s θ) hb' (Nat.sub_lt F.ok.nc_pos one_pos) hj)
  have hns : (0 : ℝ) < s.ns := by exact_mod_cast F.ok.ns_pos
  have hwd : 0 < (s.head.z - s.tack.z) / s.ns := div_pos (sub_pos.2 F.up) hns
  have hlp := hl _ m1 m2
  have key := fun {d : V3} (hd : d.z = 0) => F.strip (set := set) hu1 huz hWl rho g hb' hj hd
  refine ⟨-(rho * (l (FlatSail.midHeight s b j) * ((s.head.z - s.tack.z) / s.ns * (g * PlanarBlocks.gammaOf g s.nc s.ns (FlatSail.blocks s θ)
    (FlatSail.winds g rho s θ w W) (PlanarBlocks.panelIx g s.nc s.ns (FlatSail.blocks s θ) hb' (Nat.sub_lt F.ok.nc_pos one_pos) hj))))),
    ?_, ?_, fun h => ?_, fun h => ?_, fun h => ?_⟩
  · have := key (d := ⟨1, 0, 0⟩) rfl
    rw [← V3.sum_dot, ← stripSum_eq] at this
    simpa [V3.dot] using this
  · have := key (d := ⟨0, 1, 0⟩) rfl
    rw [← V3.sum_dot, ← stripSum_eq] at this
    simpa [V3.dot] using this
  · have := mul_pos_of_neg_of_neg (a1 h) (neg_lt_zero.2 (mul_pos hrho (mul_pos hlp hwd)))
    linarith
  · have := mul_pos (a2 h) (mul_pos hrho (mul_pos hlp hwd))
    linarith
  · rw [a3 h]; simp

theorem force_sail {s : SailInput} {θ : ℕ → ℝ} {chord : ℝ → ℝ} {τ : ℝ} (F : PlaneSail s θ chord τ) {sail : SailGeom}
    (hs : sailGeometry s = .ok sail) {set : SailSet} (hset : sailSet [sail] = .ok set) {w : WindObj} {u : V3} {M : ℝ}
    (hw : WindAlong w u M s.tack.z s.head.z) (hfit : Taper.Fits (u.dot (leechDirection s.csys.leewayDeg τ)) (-s.head.z) s.head.z
      fun y => front s y + (s.nc + 1 / 4) * width s chord y)
    {rho g : ℝ} (hrho : 0 < rho) (hg : g ≠ 0) {r : Vlm}
    (hr : vlm ⟨set.panels, s.nc, s.ns, rho, w, set.te, set.le, g⟩ = .ok r) :
    ∃ L : ℝ, (((List.ofFn r.sol.lift).take (s.nc * s.ns)).sum).x = L * (acrossWind u).x ∧
      (((List.ofFn r.sol.lift).take (s.nc * s.ns)).sum).y = L * (acrossWind u).y ∧
      (0 < u.dot (sailNormal s.csys.leewayDeg τ) → 0 < L) ∧ (u.dot (sailNormal s.csys.leewayDeg τ) < 0 → L < 0) ∧
      (u.dot (sailNormal s.csys.leewayDeg τ) = 0 → L = 0) := by
  have hstrip := fun j (hj : j < s.ns) => F.force_strip hs hset hw hfit hrho hg hr (b := 0) (by norm_num) hj
  choose! L hx hy h2 h3 h4 using hstrip
  have hlen : s.nc * s.ns ≤ r.vars.length := by
    obtain ⟨hu1, huz, hwind⟩ := hw
    choose! W l hW hl hM hWl using hwind
    rw [F.solved hs hset hu1 huz hW hWl hl hfit hrho.ne' hg] at hr
    injection hr with hr
    subst hr
    refine le_trans ?_ (PlanarBlocks.vars_length g s.nc s.ns (FlatSail.blocks s θ)).ge
    exact Nat.le_mul_of_pos_left _ (by simp [FlatSail.blocks])
  have hne : (Finset.range s.ns).Nonempty := Finset.nonempty_range_iff.2 (Nat.one_le_iff_ne_zero.1 F.ok.ns_pos)
  have hsum : ((List.ofFn r.sol.lift).take (s.nc * s.ns)).sum = ∑ j ∈ Finset.range s.ns, stripSum s.nc s.ns (List.ofFn r.sol.lift) 0 j := by
    rw [sum_take _ hlen, sum_grid]
    refine Finset.sum_congr rfl fun j hj => ?_
    unfold stripSum
    refine Finset.sum_congr rfl fun i _ => ?_
    rw [zero_mul, zero_add]
  have hc : ∀ (f : ℕ → V3), (∑ j ∈ Finset.range s.ns, f j).x = ∑ j ∈ Finset.range s.ns, (f j).x ∧
      (∑ j ∈ Finset.range s.ns, f j).y = ∑ j ∈ Finset.range s.ns, (f j).y := fun f =>
    ⟨by simpa [V3.dot] using V3.sum_dot (Finset.range s.ns) f ⟨1, 0, 0⟩, by simpa [V3.dot] using V3.sum_dot (Finset.range s.ns) f ⟨0, 1, 0⟩⟩
  refine ⟨∑ j ∈ Finset.range s.ns, L j, ?_, ?_, fun h => ?_, fun h => ?_, fun h => ?_⟩
  · rw [hsum, (hc _).1, Finset.sum_mul]
    exact Finset.sum_congr rfl fun j hj => hx j (Finset.mem_range.1 hj)
  · rw [hsum, (hc _).2, Finset.sum_mul]
    exact Finset.sum_congr rfl fun j hj => hy j (Finset.mem_range.1 hj)
  · exact Finset.sum_pos (fun j hj => h2 j (Finset.mem_range.1 hj) h) hne
  · exact Finset.sum_neg (fun j hj => h3 j (Finset.mem_range.1 hj) h) hne
  · exact Finset.sum_eq_zero fun j hj => h4 j (Finset.mem_range.1 hj) h

theorem monotone {s : SailInput} {θ : ℕ → ℝ} {chord : ℝ → ℝ} {τ : ℝ} (F : PlaneSail s θ chord τ) {sail : SailGeom}
    (hs : sailGeometry s = .ok sail) {set : SailSet} (hset : sailSet [sail] = .ok set) {w w' : WindObj} {u : V3} {M M' : ℝ}
    (hw : WindAlong w u M s.tack.z s.head.z) (hw' : WindAlong w' u M' s.tack.z s.head.z)
    (hle : ∀ h v v', s.tack.z < h → h < s.head.z → w.trueWindAt h = .ok v → w'.trueWindAt h = .ok v' →
      (v + ⟨w.vYacht, 0, 0⟩).norm ≤ (v' + ⟨w'.vYacht, 0, 0⟩).norm)
    (hfit : Taper.Fits (u.dot (leechDirection s.csys.leewayDeg τ)) (-s.head.z) s.head.z
      fun y => front s y + (s.nc + 1 / 4) * width s chord y) {rho g : ℝ} (hrho : 0 < rho) (hg : g ≠ 0) {r r' : Vlm}
    (hr : vlm ⟨set.panels, s.nc, s.ns, rho, w, set.te, set.le, g⟩ = .ok r)
    (hr' : vlm ⟨set.panels, s.nc, s.ns, rho, w', set.te, set.le, g⟩ = .ok r') :
    (∀ k, |(List.ofFn r.sol.gamma).getD k 0| ≤ |(List.ofFn r'.sol.gamma).getD k 0|) ∧
    ∀ b j, b < 2 → j < s.ns → |(stripSum s.nc s.ns (List.ofFn r.sol.lift) b j).dot (acrossWind u)| ≤
      |(stripSum s.nc s.ns (List.ofFn r'.sol.lift) b j).dot (acrossWind u)| := by
  obtain ⟨hu1, huz, hwind⟩ := hw
  choose! W l hW hl hM hWl using hwind
  obtain ⟨-, -, hwind'⟩ := hw'
  choose! W' l' hW' hl' hM' hWl' using hwind'
  have hll : ∀ h, s.tack.z < h → h < s.head.z → l h ≤ l' h := by
    intro h h1 h2
    have := hle h _ _ h1 h2 (hW h h1 h2) (hW' h h1 h2)
    rw [hWl h h1 h2, hWl' h h1 h2, V3.norm_smul, V3.norm_smul, hu1, mul_one, mul_one, abs_of_pos (hl h h1 h2),
      abs_of_pos (hl' h h1 h2)] at this
    exact this
  rw [F.solved hs hset hu1 huz hW hWl hl hfit hrho.ne' hg] at hr
  rw [F.solved hs hset hu1 huz hW' hWl' hl' hfit hrho.ne' hg] at hr'
  injection hr with hr
  injection hr' with hr'
  subst hr hr'
  have hγ := F.gamma_mono hu1 huz hWl hl hWl' hll hfit rho rho hg
  constructor
  · intro k
    by_cases hk : k < (PlanarBlocks.vars g s.nc s.ns (FlatSail.blocks s θ)).length
    · have := hγ ⟨k, hk⟩
      rw [abs_mul, abs_mul] at this
      have := le_of_mul_le_mul_left this (abs_pos.2 hg)
      rw [List.getD_eq_getElem?_getD, List.getD_eq_getElem?_getD, List.getElem?_ofFn, List.getElem?_ofFn, dif_pos (by exact hk),
        dif_pos (by exact hk)]
      exact this
    · rw [List.getD_eq_getElem?_getD, List.getD_eq_getElem?_getD, List.getElem?_ofFn, List.getElem?_ofFn, dif_neg (by exact hk),
        dif_neg (by exact hk)]
  · intro b j hb hj
    have hb' : b < (FlatSail.blocks s θ).length := hb
    obtain ⟨m1, m2⟩ := F.midHeight_mem hb hj
    have hns : (0 : ℝ) < s.ns := by exact_mod_cast F.ok.ns_pos
    have hwd : 0 < (s.head.z - s.tack.z) / s.ns := div_pos (sub_pos.2 F.up) hns
    rw [stripSum_eq, stripSum_eq, V3.sum_dot, V3.sum_dot, F.strip hu1 huz hWl rho g hb' hj (d := acrossWind u) rfl,
      F.strip hu1 huz hWl' rho g hb' hj (d := acrossWind u) rfl, abs_mul, abs_mul]
    apply mul_le_mul_of_nonneg_right _ (abs_nonneg _)
    rw [abs_neg, abs_neg, abs_mul, abs_mul, abs_mul, abs_mul rho, abs_mul (l' _), abs_mul ((s.head.z - s.tack.z) / s.ns), abs_of_pos hrho,
      abs_of_pos (hl _ m1 m2), abs_of_pos (hl' _ m1 m2), abs_of_pos hwd]
    have := hγ (PlanarBlocks.panelIx g s.nc s.ns (FlatSail.blocks s θ) hb' (Nat.sub_lt F.ok.nc_pos one_pos) hj)
    have h1 := hll _ m1 m2
    have h2 := hl _ m1 m2
    gcongr
    exact h2.le.trans h1

end PySailing.Spec.PlaneSail
