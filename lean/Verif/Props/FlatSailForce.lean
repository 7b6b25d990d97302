import Verif.Props.FlatSail
import Verif.Lemmas.PlanarExtend

/-!
# C111, C112, C113: lift of a flat sail
-/

namespace PySailing.Props

open PySailing PySailing.Spec

theorem stripSum_eq (nc ns : ℕ) (values : List V3) (b j : ℕ) :
    stripSum nc ns values b j = ∑ i ∈ Finset.range nc, values.getD (panelNo nc ns b i j) 0 := by
  unfold stripSum panelNo
  refine Finset.sum_congr rfl fun i _ => ?_
  rw [add_mul, mul_assoc]

/-- **C111.** The lift of every strip of a flat rectangular sail (and of its image) is across the wind, to the side
to which the wind would pass through the sail, and vanishes with the component of the wind normal to the sail; it never
exceeds the lift of a flat plate of infinite span, `½ ρ M² · 2π sin α · area`. -/
theorem C111_strip {s : SailInput} {θ : ℕ → ℝ} {chord τ : ℝ} (F : FlatSail s θ chord τ)
    (hbig : 2e-4 ≤ chord / s.nc * ((s.head.z - s.tack.z) / s.ns)) {sail : SailGeom} (hs : sailGeometry s = .ok sail)
    {set : SailSet} (hset : sailSet [sail] = .ok set) {w : WindObj} {u : V3} {M : ℝ}
    (hw : WindAlong w u M s.tack.z s.head.z) (hfront : 0 ≤ u.dot (leechDirection s.csys.leewayDeg τ))
    {rho g : ℝ} (hrho : 0 < rho) (hg : g ≠ 0) {r : Vlm}
    (hr : vlm ⟨set.panels, s.nc, s.ns, rho, w, set.te, set.le, g⟩ = .ok r) {b j : ℕ} (hb : b < 2) (hj : j < s.ns) :
    ∃ L : ℝ, stripSum s.nc s.ns (List.ofFn r.sol.lift) b j = L • acrossWind u ∧
      (0 < u.dot (sailNormal s.csys.leewayDeg τ) → 0 < L) ∧ (u.dot (sailNormal s.csys.leewayDeg τ) < 0 → L < 0) ∧
      |L| ≤ 1 / 2 * rho * M ^ 2 * (2 * Real.pi * |u.dot (sailNormal s.csys.leewayDeg τ)|) * (chord * ((s.head.z - s.tack.z) / s.ns)) := by
  obtain ⟨hu1, huz, hwind⟩ := hw
  choose! W l hW hl hM hWl using hwind
  rw [F.solved hbig hs hset hu1 huz hW hWl hl hfront hrho.ne' hg] at hr
  injection hr with hr
  subst hr
  have hb' : b < (FlatSail.blocks s θ).length := hb
  obtain ⟨m1, m2⟩ := F.midHeight_mem hb hj
  obtain ⟨a1, a2, a3⟩ := F.gamma_bounds hbig hu1 huz hWl hl hM hfront rho hg
    (PlanarBlocks.panelIx g s.nc s.ns (FlatSail.blocks s θ) hb' (Nat.sub_lt F.ok.nc_pos one_pos) hj)
  have hns : (0 : ℝ) < s.ns := by exact_mod_cast F.ok.ns_pos
  have hwd : 0 < (s.head.z - s.tack.z) / s.ns := div_pos (sub_pos.2 F.up) hns
  have hlp := hl _ m1 m2
  have hlM := hM _ m1 m2
  refine ⟨_, (stripSum_eq _ _ _ _ _).trans (F.strip hbig hu1 huz hWl rho g hb' hj), fun h => ?_, fun h => ?_, ?_⟩
  · have := mul_pos_of_neg_of_neg (a1 h) (neg_lt_zero.2 (mul_pos hrho (mul_pos hlp hwd)))
    linarith
  · have := mul_pos (a2 h) (mul_pos hrho (mul_pos hlp hwd))
    linarith
  · rw [abs_neg, abs_mul, abs_mul, abs_mul, abs_of_pos hrho, abs_of_pos hlp, abs_of_pos hwd]
    have hpi := Real.pi_pos
    have hM0 : 0 < M := hlp.trans_le hlM
    have hB : 0 ≤ Real.pi * chord * (M * |u.dot (sailNormal s.csys.leewayDeg τ)|) := by
      have := F.chord_pos
      positivity
    calc _ ≤ rho * (M * ((s.head.z - s.tack.z) / s.ns * (Real.pi * chord * (M * |u.dot (sailNormal s.csys.leewayDeg τ)|)))) := by
          gcongr
      _ = _ := by ring

theorem sum_take {n : ℕ} (f : Fin n → V3) {m : ℕ} (hm : m ≤ n) :
    ((List.ofFn f).take m).sum = ∑ k ∈ Finset.range m, (List.ofFn f).getD k 0 := by
  induction m with
  | zero => simp
  | succ m ih =>
    have hlt : m < (List.ofFn f).length := by rw [List.length_ofFn]; omega
    rw [Finset.sum_range_succ, ← ih (by omega), List.take_add_one, List.getElem?_eq_getElem hlt, List.sum_append,
      List.getD_eq_getElem?_getD, List.getElem?_eq_getElem hlt]
    simp

theorem sum_grid (f : ℕ → V3) (a b : ℕ) :
    ∑ k ∈ Finset.range (a * b), f k = ∑ j ∈ Finset.range b, ∑ i ∈ Finset.range a, f (i * b + j) := by
  rw [Finset.sum_comm]
  induction a with
  | zero => simp
  | succ a ih => rw [add_mul, one_mul, Finset.sum_range_add, ih, Finset.sum_range_succ]

/-- **C111**, the whole sail: the lift of all panels above the water is across the wind, to the side to which the wind
would pass through the sail, and at most `½ ρ M² · 2π sin α · A` with the sail area `A`. -/
theorem C111_sail {s : SailInput} {θ : ℕ → ℝ} {chord τ : ℝ} (F : FlatSail s θ chord τ)
    (hbig : 2e-4 ≤ chord / s.nc * ((s.head.z - s.tack.z) / s.ns)) {sail : SailGeom} (hs : sailGeometry s = .ok sail)
    {set : SailSet} (hset : sailSet [sail] = .ok set) {w : WindObj} {u : V3} {M : ℝ}
    (hw : WindAlong w u M s.tack.z s.head.z) (hfront : 0 ≤ u.dot (leechDirection s.csys.leewayDeg τ))
    {rho g : ℝ} (hrho : 0 < rho) (hg : g ≠ 0) {r : Vlm}
    (hr : vlm ⟨set.panels, s.nc, s.ns, rho, w, set.te, set.le, g⟩ = .ok r) :
    ∃ L : ℝ, ((List.ofFn r.sol.lift).take (s.nc * s.ns)).sum = L • acrossWind u ∧
      (0 < u.dot (sailNormal s.csys.leewayDeg τ) → 0 < L) ∧ (u.dot (sailNormal s.csys.leewayDeg τ) < 0 → L < 0) ∧
      |L| ≤ 1 / 2 * rho * M ^ 2 * (2 * Real.pi * |u.dot (sailNormal s.csys.leewayDeg τ)|) * (chord * (s.head.z - s.tack.z)) := by
  have hstrip := fun j (hj : j < s.ns) => C111_strip F hbig hs hset hw hfront hrho hg hr (b := 0) (by norm_num) hj
  choose! L h1 h2 h3 h4 using hstrip
  have hlen : s.nc * s.ns ≤ r.vars.length := by
    obtain ⟨hu1, huz, hwind⟩ := hw
    choose! W l hW hl hM hWl using hwind
    rw [F.solved hbig hs hset hu1 huz hW hWl hl hfront hrho.ne' hg] at hr
    injection hr with hr
    subst hr
    refine le_trans ?_ (PlanarBlocks.vars_length g s.nc s.ns (FlatSail.blocks s θ)).ge
    exact Nat.le_mul_of_pos_left _ (by simp [FlatSail.blocks])
  have hns : (0 : ℝ) < s.ns := by exact_mod_cast F.ok.ns_pos
  have hne : (Finset.range s.ns).Nonempty := Finset.nonempty_range_iff.2 (Nat.one_le_iff_ne_zero.1 F.ok.ns_pos)
  refine ⟨∑ j ∈ Finset.range s.ns, L j, ?_, fun h => ?_, fun h => ?_, ?_⟩
  · rw [sum_take _ hlen, sum_grid, Finset.sum_smul]
    refine Finset.sum_congr rfl fun j hj => ?_
    rw [← h1 j (Finset.mem_range.1 hj)]
    unfold stripSum
    refine Finset.sum_congr rfl fun i _ => ?_
    rw [zero_mul, zero_add]
  · exact Finset.sum_pos (fun j hj => h2 j (Finset.mem_range.1 hj) h) hne
  · exact Finset.sum_neg (fun j hj => h3 j (Finset.mem_range.1 hj) h) hne
  · refine (Finset.abs_sum_le_sum_abs _ _).trans ((Finset.sum_le_sum fun j hj => h4 j (Finset.mem_range.1 hj)).trans (le_of_eq ?_))
    rw [Finset.sum_const, Finset.card_range, nsmul_eq_mul]
    field_simp

/-- **C112.** If the wind gets stronger without changing its direction (at every height of the sail at least as fast as
before), neither the circulation of any panel nor the lift of any strip gets smaller. -/
theorem C112_monotone {s : SailInput} {θ : ℕ → ℝ} {chord τ : ℝ} (F : FlatSail s θ chord τ)
    (hbig : 2e-4 ≤ chord / s.nc * ((s.head.z - s.tack.z) / s.ns)) {sail : SailGeom} (hs : sailGeometry s = .ok sail)
    {set : SailSet} (hset : sailSet [sail] = .ok set) {w w' : WindObj} {u : V3} {M M' : ℝ}
    (hw : WindAlong w u M s.tack.z s.head.z) (hw' : WindAlong w' u M' s.tack.z s.head.z)
    (hle : ∀ h v v', s.tack.z < h → h < s.head.z → w.trueWindAt h = .ok v → w'.trueWindAt h = .ok v' →
      (v + ⟨w.vYacht, 0, 0⟩).norm ≤ (v' + ⟨w'.vYacht, 0, 0⟩).norm)
    (hfront : 0 ≤ u.dot (leechDirection s.csys.leewayDeg τ)) {rho g : ℝ} (hrho : 0 < rho) (hg : g ≠ 0) {r r' : Vlm}
    (hr : vlm ⟨set.panels, s.nc, s.ns, rho, w, set.te, set.le, g⟩ = .ok r)
    (hr' : vlm ⟨set.panels, s.nc, s.ns, rho, w', set.te, set.le, g⟩ = .ok r') :
    (∀ k, |(List.ofFn r.sol.gamma).getD k 0| ≤ |(List.ofFn r'.sol.gamma).getD k 0|) ∧
    ∀ b j, b < 2 → j < s.ns → (stripSum s.nc s.ns (List.ofFn r.sol.lift) b j).norm ≤
      (stripSum s.nc s.ns (List.ofFn r'.sol.lift) b j).norm := by
  obtain ⟨hu1, huz, hwind⟩ := hw
  choose! W l hW hl hM hWl using hwind
  obtain ⟨-, -, hwind'⟩ := hw'
  choose! W' l' hW' hl' hM' hWl' using hwind'
  have hll : ∀ h, s.tack.z < h → h < s.head.z → l h ≤ l' h := by
    intro h h1 h2
    have := hle h _ _ h1 h2 (hW h h1 h2) (hW' h h1 h2)
    rw [hWl h h1 h2, hWl' h h1 h2, V3.norm_smul, V3.norm_smul, hu1, mul_one, mul_one, abs_of_pos (hl h h1 h2),
      abs_of_pos (hl' h h1 h2)] at this
    exact this
  rw [F.solved hbig hs hset hu1 huz hW hWl hl hfront hrho.ne' hg] at hr
  rw [F.solved hbig hs hset hu1 huz hW' hWl' hl' hfront hrho.ne' hg] at hr'
  injection hr with hr
  injection hr' with hr'
  subst hr hr'
  have hγ := F.gamma_mono hbig hu1 huz hWl hl hWl' hM hll hfront rho rho hg
  constructor
  · intro k
    by_cases hk : k < (PlanarBlocks.vars g s.nc s.ns (FlatSail.blocks s θ)).length
    · have := hγ ⟨k, hk⟩
      rw [abs_mul, abs_mul] at this
      have := le_of_mul_le_mul_left this (abs_pos.2 hg)
      rw [List.getD_eq_getElem?_getD, List.getD_eq_getElem?_getD, List.getElem?_ofFn, List.getElem?_ofFn, dif_pos (by exact hk),
        dif_pos (by exact hk)]
      exact this
    · rw [List.getD_eq_getElem?_getD, List.getD_eq_getElem?_getD, List.getElem?_ofFn, List.getElem?_ofFn, dif_neg (by exact hk),
        dif_neg (by exact hk)]
  · intro b j hb hj
    have hb' : b < (FlatSail.blocks s θ).length := hb
    obtain ⟨m1, m2⟩ := F.midHeight_mem hb hj
    have hns : (0 : ℝ) < s.ns := by exact_mod_cast F.ok.ns_pos
    have hwd : 0 < (s.head.z - s.tack.z) / s.ns := div_pos (sub_pos.2 F.up) hns
    rw [stripSum_eq, stripSum_eq, F.strip hbig hu1 huz hWl rho g hb' hj, F.strip hbig hu1 huz hWl' rho g hb' hj, V3.norm_smul, V3.norm_smul]
    apply mul_le_mul_of_nonneg_right _ (V3.norm_nonneg _)
    rw [abs_neg, abs_neg, abs_mul, abs_mul, abs_mul, abs_mul rho, abs_mul (l' _), abs_mul ((s.head.z - s.tack.z) / s.ns), abs_of_pos hrho,
      abs_of_pos (hl _ m1 m2), abs_of_pos (hl' _ m1 m2), abs_of_pos hwd]
    have := hγ (PlanarBlocks.panelIx g s.nc s.ns (FlatSail.blocks s θ) hb' (Nat.sub_lt F.ok.nc_pos one_pos) hj)
    have h1 := hll _ m1 m2
    have h2 := hl _ m1 m2
    gcongr
    exact h2.le.trans h1

/-- **C113.** A flat sail that is a part of a larger flat sail (same chord, sheeting and strips, without the lowest `a`
strips and some of the uppermost ones: reefed): neither the circulation of any panel nor the lift of any strip is larger
than for the same panel or strip of the whole sail in the same wind.  The same holds under the water. -/
theorem C113_part {s s' : SailInput} {θ θ' : ℕ → ℝ} {chord τ τ' : ℝ} (F : FlatSail s θ chord τ) (F' : FlatSail s' θ' chord τ')
    {a : ℕ} (hp : PartOf s s' a) (hdir : s.csys.leewayDeg + τ = s'.csys.leewayDeg + τ')
    (hbig : 2e-4 ≤ chord / s.nc * ((s.head.z - s.tack.z) / s.ns))
    {sail sail' : SailGeom} (hs : sailGeometry s = .ok sail) (hs' : sailGeometry s' = .ok sail')
    {set set' : SailSet} (hset : sailSet [sail] = .ok set) (hset' : sailSet [sail'] = .ok set') {w : WindObj} {u : V3} {M : ℝ}
    (hw : WindAlong w u M s'.tack.z s'.head.z) (hfront : 0 ≤ u.dot (leechDirection s.csys.leewayDeg τ))
    {rho g : ℝ} (hrho : 0 < rho) (hg : g ≠ 0) {r r' : Vlm}
    (hr : vlm ⟨set.panels, s.nc, s.ns, rho, w, set.te, set.le, g⟩ = .ok r)
    (hr' : vlm ⟨set'.panels, s'.nc, s'.ns, rho, w, set'.te, set'.le, g⟩ = .ok r') {j : ℕ} (hj : j < s.ns) :
    (∀ i, i < s.nc → |(List.ofFn r.sol.gamma).getD (i * s.ns + j) 0| ≤ |(List.ofFn r'.sol.gamma).getD (i * s'.ns + (j + a)) 0|) ∧
    (∀ i, i < s.nc → |(List.ofFn r.sol.gamma).getD (s.nc * s.ns + i * s.ns + j) 0| ≤
      |(List.ofFn r'.sol.gamma).getD (s'.nc * s'.ns + i * s'.ns + (j + (s'.ns - s.ns - a))) 0|) ∧
    (stripSum s.nc s.ns (List.ofFn r.sol.lift) 0 j).norm ≤ (stripSum s'.nc s'.ns (List.ofFn r'.sol.lift) 0 (j + a)).norm ∧
    (stripSum s.nc s.ns (List.ofFn r.sol.lift) 1 j).norm ≤
      (stripSum s'.nc s'.ns (List.ofFn r'.sol.lift) 1 (j + (s'.ns - s.ns - a))).norm := by
  obtain ⟨hu1, huz, hwind⟩ := hw
  choose! W l hW hl hM hWl using hwind
  have hst := hp.strips
  have hnc := hp.rows
  have hin := F.part_range F' hp
  have hbig' : 2e-4 ≤ chord / s'.nc * ((s'.head.z - s'.tack.z) / s'.ns) := by rw [← hp.height, ← hp.rows]; exact hbig
  have hfront' : 0 ≤ u.dot (leechDirection s'.csys.leewayDeg τ') := by
    unfold leechDirection at hfront ⊢; rw [← hdir]; exact hfront
  have hWl1 := fun h h1 h2 => hWl h (hin h h1 h2).1 (hin h h1 h2).2
  rw [F.solved hbig hs hset hu1 huz (fun h h1 h2 => hW h (hin h h1 h2).1 (hin h h1 h2).2) hWl1
    (fun h h1 h2 => hl h (hin h h1 h2).1 (hin h h1 h2).2) hfront hrho.ne' hg] at hr
  rw [F'.solved hbig' hs' hset' hu1 huz hW hWl hl hfront' hrho.ne' hg] at hr'
  injection hr with hr
  injection hr' with hr'
  subst hr hr'
  have hj' : ∀ b : ℕ, (j + if b = 0 then a else s'.ns - s.ns - a) < s'.ns := by intro b; split_ifs <;> omega
  have hγ := fun {b i : ℕ} (hb : b < 2) (hi : i < s.nc) => F.gamma_part F' hp hdir hbig hu1 huz hWl hl hM hfront rho rho hg hb hi hj
    (hnc ▸ hi) (hj' b)
  have hpanel : ∀ b i, b < 2 → i < s.nc →
      |(List.ofFn (FlatSail.result set g rho s θ w W).sol.gamma).getD (panelNo s.nc s.ns b i j) 0| ≤
      |(List.ofFn (FlatSail.result set' g rho s' θ' w W).sol.gamma).getD
        (panelNo s'.nc s'.ns b i (j + if b = 0 then a else s'.ns - s.ns - a)) 0| := by
    intro b i hb hi
    have h := hγ hb hi
    rw [abs_mul, abs_mul] at h
    have h := le_of_mul_le_mul_left h (abs_pos.2 hg)
    have k1 := (PlanarBlocks.panelIx g s.nc s.ns (FlatSail.blocks s θ) hb hi hj).isLt
    have k2 := (PlanarBlocks.panelIx g s'.nc s'.ns (FlatSail.blocks s' θ') hb (hnc ▸ hi) (hj' b)).isLt
    rw [List.getD_eq_getElem?_getD, List.getD_eq_getElem?_getD, List.getElem?_ofFn, List.getElem?_ofFn, dif_pos (by exact k1),
      dif_pos (by exact k2)]
    exact h
  have hstrip : ∀ b, b < 2 → (stripSum s.nc s.ns (List.ofFn (FlatSail.result set g rho s θ w W).sol.lift) b j).norm ≤
      (stripSum s'.nc s'.ns (List.ofFn (FlatSail.result set' g rho s' θ' w W).sol.lift) b
        (j + if b = 0 then a else s'.ns - s.ns - a)).norm := by
    intro b hb
    have hb1 : b < (FlatSail.blocks s θ).length := hb
    have hb2 : b < (FlatSail.blocks s' θ').length := hb
    obtain ⟨m1, m2⟩ := F'.midHeight_mem hb (hj' b)
    have hns : (0 : ℝ) < s'.ns := by exact_mod_cast F'.ok.ns_pos
    have hwd : 0 < (s'.head.z - s'.tack.z) / s'.ns := div_pos (sub_pos.2 F'.up) hns
    have hmid : FlatSail.midHeight s b j = FlatSail.midHeight s' b (j + if b = 0 then a else s'.ns - s.ns - a) := by
      unfold FlatSail.midHeight
      rw [F.rows_part F' hp hb, show j + (if b = 0 then a else s'.ns - s.ns - a) + 1 =
        (j + 1) + (if b = 0 then a else s'.ns - s.ns - a) by omega, F.rows_part F' hp hb]
    rw [stripSum_eq, stripSum_eq, F.strip hbig hu1 huz hWl1 rho g hb1 hj, F'.strip hbig' hu1 huz hWl rho g hb2 (hj' b), V3.norm_smul,
      V3.norm_smul, hmid, hp.height]
    apply mul_le_mul_of_nonneg_right _ (V3.norm_nonneg _)
    rw [abs_neg, abs_neg, abs_mul, abs_mul, abs_mul, abs_mul rho, abs_mul (l _), abs_mul ((s'.head.z - s'.tack.z) / s'.ns), abs_of_pos hrho,
      abs_of_pos (hl _ m1 m2), abs_of_pos hwd]
    have := hγ hb (Nat.sub_lt F.ok.nc_pos one_pos)
    have h2 := hl _ m1 m2
    have e : PlanarBlocks.panelIx g s'.nc s'.ns (FlatSail.blocks s' θ') hb2 (Nat.sub_lt F'.ok.nc_pos one_pos) (hj' b) =
        PlanarBlocks.panelIx g s'.nc s'.ns (FlatSail.blocks s' θ') hb2 (hnc ▸ Nat.sub_lt F.ok.nc_pos one_pos : s.nc - 1 < s'.nc) (hj' b) := by
      apply Fin.ext
      simp only [PlanarBlocks.panelIx, hnc]
    rw [e]
    gcongr
  refine ⟨fun i hi => ?_, fun i hi => ?_, hstrip 0 (by norm_num), hstrip 1 (by norm_num)⟩
  · have := hpanel 0 i (by norm_num) hi
    simpa [panelNo] using this
  · have := hpanel 1 i (by norm_num) hi
    simp only [panelNo, one_mul, one_ne_zero, if_false, add_mul] at this
    exact this

/-- A flat sail of chord and luff 1, one metre above the water. -/
theorem demoSail_flat : FlatSail (demoSail 2 [0, 0] [0.5, 0.5] none none) (fun _ => 0) 1 0 where
  ok := by
    apply demoSail_ok <;> norm_num
    exact Or.inr ⟨Or.inl rfl, fun _ => rfl⟩
  upright := rfl
  vertical := rfl
  up := by norm_num [demoSail]
  chord_pos := one_pos
  chords := by
    intro r hr
    have : r = 0 ∨ r = 1 := by simp [demoSail] at hr; omega
    rcases this with rfl | rfl <;> simp [demoSail]
  camber := by
    intro r hr
    have : r = 0 ∨ r = 1 := by simp [demoSail] at hr; omega
    rcases this with rfl | rfl <;> simp [demoSail]
  twist := fun _ _ => rfl

/-- A flat wind of the given speed from 60 degrees. -/
theorem demoWind_along {v : ℝ} (hv : 0 < v) (lo hi : ℝ) :
    WindAlong ⟨60, v, 0, .flat⟩ ⟨1 / 2, Real.sqrt 3 / 2, 0⟩ v lo hi := by
  have h3 : Real.sqrt 3 ^ 2 = 3 := Real.sq_sqrt (by norm_num)
  have ha : deg2rad 60 = Real.pi / 3 := by unfold deg2rad; ring
  refine ⟨?_, rfl, fun h _ _ => ⟨⟨v / 2, v * (Real.sqrt 3 / 2), 0⟩, v, ?_, hv, le_rfl, ?_⟩⟩
  · unfold V3.norm V3.dot
    rw [Real.sqrt_eq_one]
    linear_combination h3 / 4
  · simp [WindObj.trueWindAt, WindObj.lengthToXyz, WindObj.alpha, ha, Real.cos_pi_div_three, Real.sin_pi_div_three]
    ring
  · ext <;> simp
    ring

/-- Non-vacuity of C111 and C112: winds of 3 and 5 m/s on that sail. -/
example : ∃ sail set r r', sailGeometry (demoSail 2 [0, 0] [0.5, 0.5] none none) = .ok sail ∧ sailSet [sail] = .ok set ∧
    vlm ⟨set.panels, 2, 1, 1.2, ⟨60, 3, 0, .flat⟩, set.te, set.le, -1⟩ = .ok r ∧
    vlm ⟨set.panels, 2, 1, 1.2, ⟨60, 5, 0, .flat⟩, set.te, set.le, -1⟩ = .ok r' ∧
    (∃ L : ℝ, stripSum 2 1 (List.ofFn r.sol.lift) 0 0 = L • acrossWind ⟨1 / 2, Real.sqrt 3 / 2, 0⟩ ∧ 0 < L) ∧
    (stripSum 2 1 (List.ofFn r.sol.lift) 0 0).norm ≤ (stripSum 2 1 (List.ofFn r'.sol.lift) 0 0).norm := by
  have F := demoSail_flat
  obtain ⟨sail, hs, -⟩ := sailGeometry_ok F.ok
  obtain ⟨set, hset⟩ : ∃ set, sailSet [sail] = .ok set := by
    unfold sailSet
    rw [if_neg (by simp)]
    exact ⟨_, rfl⟩
  have hbig : (2e-4 : ℝ) ≤ 1 / (demoSail 2 [0, 0] [0.5, 0.5] none none).nc *
      (((demoSail 2 [0, 0] [0.5, 0.5] none none).head.z - (demoSail 2 [0, 0] [0.5, 0.5] none none).tack.z) /
        (demoSail 2 [0, 0] [0.5, 0.5] none none).ns) := by norm_num [demoSail]
  have h0 : (0 : ℝ) ≤ V3.dot ⟨1 / 2, Real.sqrt 3 / 2, 0⟩
      (leechDirection (demoSail 2 [0, 0] [0.5, 0.5] none none).csys.leewayDeg 0) := by
    simp [V3.dot, leechDirection, demoSail]
  have hn : (0 : ℝ) < V3.dot ⟨1 / 2, Real.sqrt 3 / 2, 0⟩
      (sailNormal (demoSail 2 [0, 0] [0.5, 0.5] none none).csys.leewayDeg 0) := by
    simp [V3.dot, sailNormal, demoSail]
  have w3 := demoWind_along (v := 3) (by norm_num) (demoSail 2 [0, 0] [0.5, 0.5] none none).tack.z
    (demoSail 2 [0, 0] [0.5, 0.5] none none).head.z
  have w5 := demoWind_along (v := 5) (by norm_num) (demoSail 2 [0, 0] [0.5, 0.5] none none).tack.z
    (demoSail 2 [0, 0] [0.5, 0.5] none none).head.z
  obtain ⟨r, hr, -⟩ := C110_solver F hbig hs hset w3 h0 (rho := 1.2) (g := -1) (by norm_num) (by norm_num)
  obtain ⟨r', hr', -⟩ := C110_solver F hbig hs hset w5 h0 (rho := 1.2) (g := -1) (by norm_num) (by norm_num)
  obtain ⟨L, e, hL, -⟩ := C111_strip F hbig hs hset w3 h0 (by norm_num) (by norm_num) hr (b := 0) (j := 0) (by norm_num) (by norm_num [demoSail])
  refine ⟨sail, set, r, r', hs, hset, hr, hr', ⟨L, e, hL hn⟩, ?_⟩
  refine (C112_monotone F hbig hs hset w3 w5 (fun h v v' h1 h2 hv hv' => ?_) h0 (by norm_num) (by norm_num) hr hr').2 0 0 (by norm_num)
    (by norm_num [demoSail])
  obtain ⟨hu1, huz, k3⟩ := w3
  obtain ⟨-, -, k5⟩ := w5
  simp only [WindObj.trueWindAt, Except.ok.injEq] at hv hv'
  subst hv hv'
  have e3 : ∀ x : ℝ, 0 < x → ((⟨60, x, 0, .flat⟩ : WindObj).lengthToXyz x + ⟨0, 0, 0⟩).norm = x := by
    intro x hx
    have h3 : Real.sqrt 3 ^ 2 = 3 := Real.sq_sqrt (by norm_num)
    have ha : deg2rad 60 = Real.pi / 3 := by unfold deg2rad; ring
    have e : (⟨60, x, 0, .flat⟩ : WindObj).lengthToXyz x + ⟨0, 0, 0⟩ = x • (⟨1 / 2, Real.sqrt 3 / 2, 0⟩ : V3) := by
      simp only [WindObj.lengthToXyz, WindObj.alpha, ha, Real.cos_pi_div_three, Real.sin_pi_div_three]
      ext <;> simp
    rw [e, V3.norm_smul, hu1, abs_of_pos hx, mul_one]
  rw [e3 3 (by norm_num), e3 5 (by norm_num)]
  norm_num

/-- Twice that sail. -/
noncomputable def demoTall : SailInput :=
  { head := ⟨0, 0, 3⟩, tack := ⟨0, 0, 1⟩, csys := ⟨0, 0, 0⟩, ns := 2, nc := 2, chords := [1, 1, 1]
    twist := none, mode := none, camber := [0, 0, 0], distance := [0.5, 0.5, 0.5], name := "tall" }

/-- Non-vacuity of C113: the lower half of a sail with a luff of 2. -/
example : FlatSail demoTall (fun _ => 0) 1 0 ∧ PartOf (demoSail 2 [0, 0] [0.5, 0.5] none none) demoTall 0 := by
  refine ⟨⟨⟨⟨by norm_num [demoTall], by norm_num [demoTall], ⟨rfl, le_rfl, le_rfl, by norm_num [demoTall], by norm_num [demoTall]⟩, rfl, ?_,
    Or.inr ⟨Or.inl rfl, fun _ => rfl⟩, rfl, rfl, by norm_num [demoTall], by norm_num [demoTall], by norm_num [demoTall],
    by simp [demoTall, deg2rad]⟩, Or.inl (by norm_num [demoTall])⟩, rfl, rfl, by norm_num [demoTall], one_pos, ?_, ?_, fun _ _ => rfl⟩,
    rfl, by norm_num [demoSail, demoTall], by norm_num [demoSail, demoTall], by norm_num [demoSail, demoTall]⟩
  all_goals
    intro r hr
    have : r = 0 ∨ r = 1 ∨ r = 2 := by simp [demoTall] at hr; omega
    rcases this with rfl | rfl | rfl <;> norm_num [demoTall]

end PySailing.Props
