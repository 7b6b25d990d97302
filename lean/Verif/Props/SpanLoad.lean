import Verif.Lemmas.FlatSailRow
import Verif.Props.InducedDrag

/-!
# C116, C117: load along the span
-/

namespace PySailing.Props

open PySailing PySailing.Spec

/-- **C116**, the wing: for every row of panels the magnitude of the calculated circulation does not decrease from one
tip to the middle of the span, nor from the other tip to the middle. -/
theorem C116_wing {a : AircraftInput} (hc : 0 < a.chord) (hb : 0 < a.half) (hnc : 0 < a.nc)
    (hbig : 2e-4 ≤ a.chord / a.nc * (2 * a.half / a.ns)) (hg : a.g ≠ 0) (hz : a.V.z = 0)
    (hC : 0 ≤ a.V.dot (chordDirection a.aoaDeg)) {w : Aircraft} (h : aircraft a = .ok w) {i j : ℕ} (hi : i < a.nc) (hj : j + 1 < a.ns) :
    (2 * (j + 1) ≤ a.ns → |(List.ofFn w.gamma).getD (i * a.ns + j) 0| ≤ |(List.ofFn w.gamma).getD (i * a.ns + (j + 1)) 0|) ∧
    (a.ns ≤ 2 * (j + 1) → |(List.ofFn w.gamma).getD (i * a.ns + (j + 1)) 0| ≤ |(List.ofFn w.gamma).getD (i * a.ns + j) 0|) := by
  obtain ⟨-, -, -, hns, hq, -, -, hpan, hte, hle, hv, ⟨sol, hsol, hgam, -⟩, -⟩ := aircraft_inv h
  have hV : a.V ≠ 0 := by
    intro h0
    apply hq
    rw [h0]
    simp [V3.norm, V3.dot]
  have hl : 0 < a.V.norm := V3.norm_pos hV
  have hnsR : (0 : ℝ) < a.ns := by exact_mod_cast hns
  have P := a.planar hc hb hnc hns hbig
  obtain ⟨hdecomp, hu⟩ := a.wind_frame hV hz
  obtain ⟨x, I, E, hx⟩ := P.row (y0 := -a.half) (w := 2 * a.half / a.ns) (by positivity) (fun b r hb' _ => by
    have : b = 0 := by simpa using hb'
    subst this
    simp
    field_simp
    ring) hg hl (V := fun _ => a.V) (fun _ => hdecomp) hu (div_nonneg hC hl.le)
  simp only [List.length_singleton, one_mul] at I E
  have hvars : w.vars = PlanarBlocks.vars a.g a.nc a.ns [wingPoint a.chord a.half a.aoaDeg a.nc a.ns] := by
    have := P.varsOk a.g hnc hns (by simp)
    rw [hpan, hte] at hv
    rw [List.length_singleton, hv] at this
    injection this
  have hgamma : List.ofFn w.gamma = List.ofFn (PlanarBlocks.gammaOf a.g a.nc a.ns
      [wingPoint a.chord a.half a.aoaDeg a.nc a.ns] (fun _ => a.V)) := by
    obtain ⟨i1, i2, i3, i4, ps, vars, gamma, force, pressure, i5, i6, i7⟩ := w
    simp only at hvars hpan hte hle hsol hgam ⊢
    subst hvars
    rw [hpan, hte, hle] at hsol
    rw [← hgam, ((vlmCore_ok_iff _ _ _ _ _ _ _ _ _).1 hsol).2.2]
    rfl
  have hat : ∀ q, q < a.ns → |(List.ofFn w.gamma).getD (i * a.ns + q) 0| = |a.g|⁻¹ * x q ⟨i, hi⟩ := by
    intro q hq
    have e := hx 0 i q (by simp) hi hq
    simp only [List.length_singleton, Nat.sub_self, Nat.zero_sub, zero_mul, zero_add] at e
    have k1 := (PlanarBlocks.panelIx a.g a.nc a.ns [wingPoint a.chord a.half a.aoaDeg a.nc a.ns] (b := 0) (by simp) hi hq).isLt
    have hk : (PlanarBlocks.panelIx a.g a.nc a.ns [wingPoint a.chord a.half a.aoaDeg a.nc a.ns] (b := 0) (by simp) hi hq : ℕ) = i * a.ns + q := by
      simp [PlanarBlocks.panelIx, panelNo]
    rw [hgamma, e, abs_mul, inv_mul_cancel_left₀ (abs_ne_zero.2 hg), ← hk, List.getD_eq_getElem?_getD, List.getElem?_ofFn, dif_pos k1,
      Option.getD_some]
  have hpi := Real.pi_pos
  have hb0 : 0 ≤ 4 * Real.pi * |a.V.dot (wingNormal a.aoaDeg) / a.V.norm| * a.V.norm := by positivity
  rw [hat j (by omega), hat (j + 1) hj]
  exact ⟨fun h2 => mul_le_mul_of_nonneg_left (I.rises hb0 E h2 _) (by positivity),
    fun h2 => mul_le_mul_of_nonneg_left (I.falls hb0 E h2 hj _) (by positivity)⟩

/-- **C116**, the sail: a flat rectangular sail standing on the water, in a uniform wind.  From one strip to the next
higher one neither the magnitude of the circulation of any row nor the lift of the strip increases. -/
theorem C116_sail {s : SailInput} {θ : ℕ → ℝ} {chord τ : ℝ} (F : FlatSail s θ chord τ) (h0 : s.tack.z = 0)
    (hbig : 2e-4 ≤ chord / s.nc * ((s.head.z - s.tack.z) / s.ns)) {sail : SailGeom} (hs : sailGeometry s = .ok sail)
    {set : SailSet} (hset : sailSet [sail] = .ok set) {w : WindObj} {u : V3} {M : ℝ}
    (hw : UniformWind w u M s.tack.z s.head.z) (hfront : 0 ≤ u.dot (leechDirection s.csys.leewayDeg τ))
    {rho g : ℝ} (hrho : 0 < rho) (hg : g ≠ 0) {r : Vlm}
    (hr : vlm ⟨set.panels, s.nc, s.ns, rho, w, set.te, set.le, g⟩ = .ok r) {j : ℕ} (hj : j + 1 < s.ns) :
    (∀ i, i < s.nc → |(List.ofFn r.sol.gamma).getD (i * s.ns + (j + 1)) 0| ≤ |(List.ofFn r.sol.gamma).getD (i * s.ns + j) 0|) ∧
    (stripSum s.nc s.ns (List.ofFn r.sol.lift) 0 (j + 1)).norm ≤ (stripSum s.nc s.ns (List.ofFn r.sol.lift) 0 j).norm := by
  obtain ⟨hu1, huz, hM, hwind⟩ := hw
  choose! W hW hWl using hwind
  rw [F.solved hbig hs hset hu1 huz hW (l := fun _ => M) hWl (fun _ _ _ => hM) hfront hrho.ne' hg] at hr
  injection hr with hr
  subst hr
  obtain ⟨x, I, E, hx⟩ := F.row h0 hbig hu1 huz hM hWl hfront rho hg rfl
  have hpi := Real.pi_pos
  have hb0 : 0 ≤ 4 * Real.pi * |u.dot (sailNormal s.csys.leewayDeg τ)| * M := by positivity
  have hlen : 0 < (FlatSail.blocks s θ).length := by simp [FlatSail.blocks]
  have hfall : ∀ k, x ((1 - 0) * s.ns + (j + 1)) k ≤ x ((1 - 0) * s.ns + j) k := by
    intro k
    have := I.falls hb0 E (i := s.ns + j) (by omega) (by omega) k
    simpa [add_assoc] using this
  constructor
  · intro i hi
    have hat : ∀ q (hq : q < s.ns), |(List.ofFn (FlatSail.result set g rho s θ w W).sol.gamma).getD (i * s.ns + q) 0| =
        |g|⁻¹ * x ((1 - 0) * s.ns + q) ⟨i, hi⟩ := by
      intro q hq
      have k1 := (PlanarBlocks.panelIx g s.nc s.ns (FlatSail.blocks s θ) hlen hi hq).isLt
      have hk : (PlanarBlocks.panelIx g s.nc s.ns (FlatSail.blocks s θ) hlen hi hq : ℕ) = i * s.ns + q := by
        simp [PlanarBlocks.panelIx, panelNo]
      rw [hx 0 i q hlen hi hq, abs_mul, inv_mul_cancel_left₀ (abs_ne_zero.2 hg), ← hk, List.getD_eq_getElem?_getD, List.getElem?_ofFn,
        dif_pos (by exact k1), Option.getD_some]
      rfl
    rw [hat _ hj, hat _ (by omega)]
    exact mul_le_mul_of_nonneg_left (hfall _) (by positivity)
  · have hns : (0 : ℝ) < s.ns := by exact_mod_cast F.ok.ns_pos
    have hwd : 0 < (s.head.z - s.tack.z) / s.ns := div_pos (sub_pos.2 F.up) hns
    rw [stripSum_eq, stripSum_eq, F.strip_norm hbig hM hu1 huz hWl hrho g hlen hj, F.strip_norm hbig hM hu1 huz hWl hrho g hlen (by omega),
      ← hx, ← hx]
    exact mul_le_mul_of_nonneg_left (hfall _) (by positivity)

/-- The lift of the whole sail: the strips all pull to the same side. -/
theorem total_lift {s : SailInput} {θ : ℕ → ℝ} {chord τ : ℝ} (F : FlatSail s θ chord τ)
    (hbig : 2e-4 ≤ chord / s.nc * ((s.head.z - s.tack.z) / s.ns)) {sail : SailGeom} (hs : sailGeometry s = .ok sail)
    {set : SailSet} (hset : sailSet [sail] = .ok set) {w : WindObj} {u : V3} {M : ℝ}
    (hw : WindAlong w u M s.tack.z s.head.z) (hfront : 0 ≤ u.dot (leechDirection s.csys.leewayDeg τ))
    {rho g : ℝ} (hrho : 0 < rho) (hg : g ≠ 0) {r : Vlm}
    (hr : vlm ⟨set.panels, s.nc, s.ns, rho, w, set.te, set.le, g⟩ = .ok r) :
    ((List.ofFn r.sol.lift).take (s.nc * s.ns)).sum.norm =
      ∑ j ∈ Finset.range s.ns, (stripSum s.nc s.ns (List.ofFn r.sol.lift) 0 j).norm := by
  have hstrip := fun j (hj : j < s.ns) => C111_strip F hbig hs hset hw hfront hrho hg hr (b := 0) (by norm_num) hj
  choose! L h1 h2 h3 h4 using hstrip
  have hlen : s.nc * s.ns ≤ r.vars.length := by
    obtain ⟨hu1, huz, hwind⟩ := hw
    choose! W l hW hl hM hWl using hwind
    rw [F.solved hbig hs hset hu1 huz hW hWl hl hfront hrho.ne' hg] at hr
    injection hr with hr
    subst hr
    refine le_trans ?_ (PlanarBlocks.vars_length g s.nc s.ns (FlatSail.blocks s θ)).ge
    exact Nat.le_mul_of_pos_left _ (by simp [FlatSail.blocks])
  have hsum : ((List.ofFn r.sol.lift).take (s.nc * s.ns)).sum = (∑ j ∈ Finset.range s.ns, L j) • acrossWind u := by
    rw [sum_take _ hlen, sum_grid, Finset.sum_smul]
    refine Finset.sum_congr rfl fun j hj => ?_
    rw [← h1 j (Finset.mem_range.1 hj)]
    unfold stripSum
    refine Finset.sum_congr rfl fun i _ => ?_
    rw [zero_mul, zero_add]
  rw [hsum, V3.norm_smul, abs_sum_same_sign, Finset.sum_mul]
  · refine Finset.sum_congr rfl fun j hj => ?_
    rw [h1 j (Finset.mem_range.1 hj), V3.norm_smul]
  · rcases lt_trichotomy (u.dot (sailNormal s.csys.leewayDeg τ)) 0 with h | h | h
    · exact Or.inr fun j hj => (h3 j (Finset.mem_range.1 hj) h).le
    · refine Or.inl fun j hj => le_of_eq ?_
      have := h4 j (Finset.mem_range.1 hj)
      rw [h, abs_zero] at this
      simp only [mul_zero, zero_mul] at this
      exact (abs_nonpos_iff.1 this).symm
    · exact Or.inl fun j hj => (h2 j (Finset.mem_range.1 hj) h).le

/-- **C117.** Two flat rectangular sails standing on the water, made of the same strips and sheeted alike, in the same
uniform wind: the one with more strips (the taller one) has at least as much lift per sail area. -/
theorem C117_aspect_ratio {s s' : SailInput} {θ θ' : ℕ → ℝ} {chord τ τ' : ℝ} (F : FlatSail s θ chord τ) (F' : FlatSail s' θ' chord τ')
    (h0 : s.tack.z = 0) (h0' : s'.tack.z = 0) (hnc : s.nc = s'.nc) (hns : s.ns ≤ s'.ns) (hheight : s.head.z / s.ns = s'.head.z / s'.ns)
    (hdir : s.csys.leewayDeg + τ = s'.csys.leewayDeg + τ')
    (hbig : 2e-4 ≤ chord / s.nc * (s.head.z / s.ns))
    {sail sail' : SailGeom} (hs : sailGeometry s = .ok sail) (hs' : sailGeometry s' = .ok sail')
    {set set' : SailSet} (hset : sailSet [sail] = .ok set) (hset' : sailSet [sail'] = .ok set') {w : WindObj} {u : V3} {M : ℝ}
    (hw : UniformWind w u M 0 s'.head.z) (hfront : 0 ≤ u.dot (leechDirection s.csys.leewayDeg τ))
    {rho g : ℝ} (hrho : 0 < rho) (hg : g ≠ 0) {r r' : Vlm}
    (hr : vlm ⟨set.panels, s.nc, s.ns, rho, w, set.te, set.le, g⟩ = .ok r)
    (hr' : vlm ⟨set'.panels, s'.nc, s'.ns, rho, w, set'.te, set'.le, g⟩ = .ok r') :
    ((List.ofFn r.sol.lift).take (s.nc * s.ns)).sum.norm / (chord * s.head.z) ≤
      ((List.ofFn r'.sol.lift).take (s'.nc * s'.ns)).sum.norm / (chord * s'.head.z) := by
  have hnsp := F.ok.ns_pos
  have hns1 : (0 : ℝ) < s.ns := by exact_mod_cast hnsp
  have hns2 : (0 : ℝ) < s'.ns := by exact_mod_cast F'.ok.ns_pos
  have hz1 : 0 < s.head.z := by have := F.up; rw [h0] at this; exact this
  have hz2 : 0 < s'.head.z := by have := F'.up; rw [h0'] at this; exact this
  have hz12 : s.head.z ≤ s'.head.z := by
    have e1 : s.head.z = s.ns * (s'.head.z / s'.ns) := by rw [← hheight]; field_simp
    have e2 : s'.head.z = s'.ns * (s'.head.z / s'.ns) := by field_simp
    have h1 : 0 < s'.head.z / s'.ns := div_pos hz2 hns2
    have h2 : (s.ns : ℝ) ≤ s'.ns := by exact_mod_cast hns
    have := mul_le_mul_of_nonneg_right h2 h1.le
    rwa [← e1, ← e2] at this
  have hw1 : UniformWind w u M s.tack.z s.head.z := ⟨hw.1, hw.2.1, hw.2.2.1, fun h h1 h2 => hw.2.2.2 h (by linarith) (by linarith)⟩
  have hw2 : UniformWind w u M s'.tack.z s'.head.z := by rw [h0']; exact hw
  have hd1 : (s.head.z - s.tack.z) / s.ns = s.head.z / s.ns := by rw [h0, sub_zero]
  have hd2 : (s'.head.z - s'.tack.z) / s'.ns = s.head.z / s.ns := by rw [h0', sub_zero, hheight]
  have hbig1 : 2e-4 ≤ chord / s.nc * ((s.head.z - s.tack.z) / s.ns) := by rw [hd1]; exact hbig
  have hbig2 : 2e-4 ≤ chord / s'.nc * ((s'.head.z - s'.tack.z) / s'.ns) := by rw [hd2, ← hnc]; exact hbig
  have hC : u.dot (leechDirection s'.csys.leewayDeg τ') = u.dot (leechDirection s.csys.leewayDeg τ) := by
    unfold leechDirection; rw [hdir]
  have hS : u.dot (sailNormal s'.csys.leewayDeg τ') = u.dot (sailNormal s.csys.leewayDeg τ) := by
    unfold sailNormal; rw [hdir]
  have hfront' : 0 ≤ u.dot (leechDirection s'.csys.leewayDeg τ') := by rw [hC]; exact hfront
  rw [total_lift F hbig1 hs hset hw1.along hfront hrho hg hr, total_lift F' hbig2 hs' hset' hw2.along hfront' hrho hg hr']
  obtain ⟨hu1, huz, hM, hwind⟩ := hw
  choose! W hW hWl using hwind
  have hW1 := fun h (h1 : s.tack.z < h) (h2 : h < s.head.z) => hW h (by linarith) (by linarith)
  have hWl1 := fun h (h1 : s.tack.z < h) (h2 : h < s.head.z) => hWl h (by linarith) (by linarith)
  have hW2 := fun h (h1 : s'.tack.z < h) (h2 : h < s'.head.z) => hW h (by linarith) (by linarith)
  have hWl2 := fun h (h1 : s'.tack.z < h) (h2 : h < s'.head.z) => hWl h (by linarith) (by linarith)
  rw [F.solved hbig1 hs hset hu1 huz hW1 (l := fun _ => M) hWl1 (fun _ _ _ => hM) hfront hrho.ne' hg] at hr
  rw [F'.solved hbig2 hs' hset' hu1 huz hW2 (l := fun _ => M) hWl2 (fun _ _ _ => hM) hfront' hrho.ne' hg] at hr'
  injection hr with hr
  injection hr' with hr'
  subst hr hr'
  obtain ⟨x, I, E, hx⟩ := F.row h0 hbig1 hu1 huz hM hWl1 hfront rho hg hnc
  obtain ⟨x', I', E', hx'⟩ := F'.row h0' hbig2 hu1 huz hM hWl2 hfront' rho hg rfl
  rw [hC, hd2] at I' E'
  rw [hS] at E'
  rw [hd1, hnc] at I E
  have hpi := Real.pi_pos
  have hb0 : 0 ≤ 4 * Real.pi * |u.dot (sailNormal s.csys.leewayDeg τ)| * M := by positivity
  have hlen : 0 < (FlatSail.blocks s θ).length := by simp [FlatSail.blocks]
  have hlen' : 0 < (FlatSail.blocks s' θ').length := by simp [FlatSail.blocks]
  have key := I.mean I' hb0 E E' hnsp hns ⟨s'.nc - 1, Nat.sub_lt F'.ok.nc_pos one_pos⟩
  have e1 : ∑ j ∈ Finset.range s.ns, (stripSum s.nc s.ns (List.ofFn (FlatSail.result set g rho s θ w W).sol.lift) 0 j).norm =
      rho * M * (s.head.z / s.ns) * ∑ q ∈ Finset.range s.ns, x (s.ns + q) ⟨s'.nc - 1, Nat.sub_lt F'.ok.nc_pos one_pos⟩ := by
    rw [Finset.mul_sum]
    refine Finset.sum_congr rfl fun j hj => ?_
    rw [stripSum_eq, F.strip_norm hbig1 hM hu1 huz hWl1 hrho g hlen (Finset.mem_range.1 hj), ← hx, hd1]
    simp only [hnc, Nat.sub_zero, one_mul]
  have e2 : ∑ j ∈ Finset.range s'.ns, (stripSum s'.nc s'.ns (List.ofFn (FlatSail.result set' g rho s' θ' w W).sol.lift) 0 j).norm =
      rho * M * (s.head.z / s.ns) * ∑ q ∈ Finset.range s'.ns, x' (s'.ns + q) ⟨s'.nc - 1, Nat.sub_lt F'.ok.nc_pos one_pos⟩ := by
    rw [Finset.mul_sum]
    refine Finset.sum_congr rfl fun j hj => ?_
    rw [stripSum_eq, F'.strip_norm hbig2 hM hu1 huz hWl2 hrho g hlen' (Finset.mem_range.1 hj), ← hx', hd2]
    simp only [Nat.sub_zero, one_mul]
  rw [e1, e2, div_le_div_iff₀ (mul_pos F.chord_pos hz1) (mul_pos F.chord_pos hz2)]
  have e3 : s'.head.z = s'.ns * (s.head.z / s.ns) := by rw [hheight]; field_simp
  have e4 : s.head.z = s.ns * (s.head.z / s.ns) := by field_simp
  have hq : 0 < s.head.z / s.ns := div_pos hz1 hns1
  rw [e3]
  generalize ∑ q ∈ Finset.range s.ns, x (s.ns + q) ⟨s'.nc - 1, Nat.sub_lt F'.ok.nc_pos one_pos⟩ = A at *
  generalize ∑ q ∈ Finset.range s'.ns, x' (s'.ns + q) ⟨s'.nc - 1, Nat.sub_lt F'.ok.nc_pos one_pos⟩ = B at *
  have hfac : 0 ≤ rho * M * (s.head.z / s.ns) * (chord * (s.head.z / s.ns)) := by
    have := F.chord_pos
    positivity
  have := mul_le_mul_of_nonneg_left key hfac
  calc _ = rho * M * (s.head.z / s.ns) * (chord * (s.head.z / s.ns)) * (s'.ns * A) := by ring
    _ ≤ rho * M * (s.head.z / s.ns) * (chord * (s.head.z / s.ns)) * (s.ns * B) := this
    _ = rho * M * (s.head.z / s.ns) * B * (chord * (s.ns * (s.head.z / s.ns))) := by ring
    _ = _ := by rw [← e4]

/-- A flat wind from 60 degrees is uniform. -/
theorem demoWind_uniform {v : ℝ} (hv : 0 < v) (lo hi : ℝ) :
    UniformWind ⟨60, v, 0, .flat⟩ ⟨1 / 2, Real.sqrt 3 / 2, 0⟩ v lo hi := by
  have h3 : Real.sqrt 3 ^ 2 = 3 := Real.sq_sqrt (by norm_num)
  have ha : deg2rad 60 = Real.pi / 3 := by unfold deg2rad; ring
  refine ⟨(demoWind_along hv lo hi).1, rfl, hv, fun h _ _ => ⟨⟨v / 2, v * (Real.sqrt 3 / 2), 0⟩, ?_, ?_⟩⟩
  · simp [WindObj.trueWindAt, WindObj.lengthToXyz, WindObj.alpha, ha, Real.cos_pi_div_three, Real.sin_pi_div_three]
    ring
  · ext <;> simp
    ring

/-- The lower half of `demoFoot`. -/
noncomputable def demoLow : SailInput :=
  { head := ⟨0, 0, 1⟩, tack := ⟨0, 0, 0⟩, csys := ⟨0, 0, 0⟩, ns := 1, nc := 2, chords := [1, 1]
    twist := none, mode := none, camber := [0, 0], distance := [0.5, 0.5], name := "low" }

theorem demoLow_flat : FlatSail demoLow (fun _ => 0) 1 0 := by
  refine ⟨⟨⟨by norm_num [demoLow], by norm_num [demoLow], ⟨rfl, le_rfl, le_rfl, by norm_num [demoLow], by norm_num [demoLow]⟩, rfl, ?_,
    Or.inr ⟨Or.inl rfl, fun _ => rfl⟩, rfl, rfl, by norm_num [demoLow], by norm_num [demoLow], by norm_num [demoLow],
    by simp [demoLow, deg2rad]⟩, Or.inr (by simp [demoLow, deg2rad])⟩, rfl, rfl, by norm_num [demoLow], one_pos, ?_, ?_, fun _ _ => rfl⟩
  all_goals
    intro r hr
    have : r = 0 ∨ r = 1 := by simp [demoLow] at hr; omega
    rcases this with rfl | rfl <;> norm_num [demoLow]

/-- Non-vacuity of C116 and C117: sails of height 1 and 2 on the water in a wind of 5 m/s. -/
example : ∃ sail set sail' set' r r', sailGeometry demoLow = .ok sail ∧ sailSet [sail] = .ok set ∧
    sailGeometry demoFoot = .ok sail' ∧ sailSet [sail'] = .ok set' ∧
    vlm ⟨set.panels, 2, 1, 1.2, ⟨60, 5, 0, .flat⟩, set.te, set.le, -1⟩ = .ok r ∧
    vlm ⟨set'.panels, 2, 2, 1.2, ⟨60, 5, 0, .flat⟩, set'.te, set'.le, -1⟩ = .ok r' ∧
    (stripSum 2 2 (List.ofFn r'.sol.lift) 0 1).norm ≤ (stripSum 2 2 (List.ofFn r'.sol.lift) 0 0).norm ∧
    ((List.ofFn r.sol.lift).take 2).sum.norm / (1 * 1) ≤ ((List.ofFn r'.sol.lift).take 4).sum.norm / (1 * 2) := by
  have F := demoLow_flat
  have F' := demoFoot_flat
  obtain ⟨sail, hs, -⟩ := sailGeometry_ok F.ok
  obtain ⟨sail', hs', -⟩ := sailGeometry_ok F'.ok
  obtain ⟨set, hset⟩ : ∃ set, sailSet [sail] = .ok set := by
    unfold sailSet
    rw [if_neg (by simp)]
    exact ⟨_, rfl⟩
  obtain ⟨set', hset'⟩ : ∃ set, sailSet [sail'] = .ok set := by
    unfold sailSet
    rw [if_neg (by simp)]
    exact ⟨_, rfl⟩
  have w1 := demoWind_uniform (v := 5) (by norm_num) demoLow.tack.z demoLow.head.z
  have w2 := demoWind_uniform (v := 5) (by norm_num) demoFoot.tack.z demoFoot.head.z
  obtain ⟨r, hr, -⟩ := C110_solver F (by norm_num [demoLow]) hs hset w1.along (by simp [V3.dot, leechDirection, demoLow]) (rho := 1.2) (g := -1)
    (by norm_num) (by norm_num)
  obtain ⟨r', hr', -⟩ := C110_solver F' (by norm_num [demoFoot]) hs' hset' w2.along (by simp [V3.dot, leechDirection, demoFoot]) (rho := 1.2)
    (g := -1) (by norm_num) (by norm_num)
  refine ⟨sail, set, sail', set', r, r', hs, hset, hs', hset', hr, hr', ?_, ?_⟩
  · exact (C116_sail F' rfl (by norm_num [demoFoot]) hs' hset' w2 (by simp [V3.dot, leechDirection, demoFoot]) (by norm_num) (by norm_num)
      hr' (j := 0) (by norm_num [demoFoot])).2
  · exact C117_aspect_ratio F F' rfl rfl rfl (by norm_num [demoLow, demoFoot]) (by norm_num [demoLow, demoFoot])
      (by norm_num [demoLow, demoFoot]) (by norm_num [demoLow]) hs hs' hset hset'
      (demoWind_uniform (v := 5) (by norm_num) 0 _) (by simp [V3.dot, leechDirection, demoLow]) (by norm_num) (by norm_num) hr hr'

/-- Non-vacuity of C116: a wing with 2 rows of 20 panels at 5 degrees in a stream of 10 m/s. -/
example : ∃ w, aircraft ⟨1, 5, 5, 20, 2, ⟨10, 0, 0⟩, 1.225, 1⟩ = .ok w ∧
    |(List.ofFn w.gamma).getD 20 0| ≤ |(List.ofFn w.gamma).getD 21 0| := by
  have hcos : 0 ≤ Real.cos (5 * (Real.pi / 180)) := by
    have := Real.pi_pos
    exact Real.cos_nonneg_of_neg_pi_div_two_le_of_le (by linarith) (by linarith)
  have hd : 0 ≤ (⟨10, 0, 0⟩ : V3).dot (chordDirection 5) := by
    unfold chordDirection
    simp only [V3.dot]
    linarith
  obtain ⟨w, hw, -⟩ := C109_wing ⟨1, 5, 5, 20, 2, ⟨10, 0, 0⟩, 1.225, 1⟩ (by norm_num) (by norm_num) (by norm_num) (by norm_num)
    (by norm_num) (by norm_num) (by norm_num) (by simp [V3.ext_iff]) rfl hd
  exact ⟨w, hw, (C116_wing (by norm_num) (by norm_num) (by norm_num) (by norm_num) (by norm_num) rfl hd hw (i := 1) (j := 0) (by norm_num)
    (by norm_num)).1 (by norm_num)⟩

end PySailing.Props
