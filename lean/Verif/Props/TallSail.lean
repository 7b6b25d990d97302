import Verif.Spec.TallSail
import Verif.Lemmas.TallRow
import Verif.Props.SpanLoad

/-!
# C124: the lift of tall flat sails and of long wings tends to that of a flat plate of infinite span
-/

namespace PySailing.Props

open PySailing PySailing.Spec

/-- **C124.** However the chord is divided into panels: with more and more strips of the same height a flat sail on the water,
in the same uniform wind, gets the lift per area of a flat plate of infinite span, `½ ρ M² · 2π sin α`, up to any given
`ε`; and every strip of the lower half of the sail does so. -/
theorem C124_tall_sail {chord h : ℝ} (hchord : 0 < chord) (hh : 0 < h) {nc : ℕ} (hnc : 0 < nc) (hbig : 2e-4 ≤ chord / nc * h)
    (dir : ℝ) {u : V3} (hfront : 0 ≤ u.dot (leechDirection dir 0)) (M : ℝ) {rho : ℝ} (hrho : 0 < rho) {ε : ℝ} (hε : 0 < ε) :
    ∃ n₀ : ℕ, ∀ (s : SailInput) (θ : ℕ → ℝ) (τ : ℝ), StripSail s θ chord τ nc h dir → n₀ ≤ s.ns →
      ∀ (sail : SailGeom) (set : SailSet) (w : WindObj) (g : ℝ) (r : Vlm), sailGeometry s = .ok sail → sailSet [sail] = .ok set →
        UniformWind w u M 0 s.head.z → g ≠ 0 → vlm ⟨set.panels, s.nc, s.ns, rho, w, set.te, set.le, g⟩ = .ok r →
        |((List.ofFn r.sol.lift).take (s.nc * s.ns)).sum.norm / (chord * s.head.z) - plateLift rho M (|u.dot (sailNormal dir 0)|)| ≤ ε ∧
        ∀ j, 2 * j ≤ s.ns → j < s.ns → |(stripSum s.nc s.ns (List.ofFn r.sol.lift) 0 j).norm / (chord * h) -
          plateLift rho M (|u.dot (sailNormal dir 0)|)| ≤ ε := by
  set S := |u.dot (sailNormal dir 0)| with hS
  set b := 4 * Real.pi * S * M with hb
  set X := Real.pi * chord * (M * S) with hX
  have hpi := Real.pi_pos
  -- the tolerance of the circulations
  by_cases hM : 0 < M
  swap
  · exact ⟨0, fun s θ τ _ _ sail set w g r _ _ hw => absurd hw.2.2.1 hM⟩
  have hδ : 0 < chord / nc := div_pos hchord (by exact_mod_cast hnc)
  obtain ⟨N₀, hN₀⟩ := PlanarLattice.tall_mean (C := u.dot (leechDirection dir 0)) hδ hh nc b X
    (ε := chord * ε / (2 * (rho * M))) (by positivity)
  refine ⟨N₀, fun s θ τ T hn sail set w g r hs hset hw hg hr => ?_⟩
  obtain ⟨F, h0, hrows, hheight, hdir⟩ := T
  have hnsp := F.ok.ns_pos
  have hns : (0 : ℝ) < s.ns := by exact_mod_cast hnsp
  have hwd : (s.head.z - s.tack.z) / s.ns = h := by rw [h0, sub_zero, hheight]; field_simp
  have hC : u.dot (leechDirection s.csys.leewayDeg τ) = u.dot (leechDirection dir 0) := by unfold leechDirection; rw [hdir, add_zero]
  have hSn : u.dot (sailNormal s.csys.leewayDeg τ) = u.dot (sailNormal dir 0) := by unfold sailNormal; rw [hdir, add_zero]
  have hbig' : 2e-4 ≤ chord / s.nc * ((s.head.z - s.tack.z) / s.ns) := by rw [hwd, hrows]; exact hbig
  have hfront' : 0 ≤ u.dot (leechDirection s.csys.leewayDeg τ) := by rw [hC]; exact hfront
  have hw' : UniformWind w u M s.tack.z s.head.z := by rw [h0]; exact hw
  have htot := total_lift F hbig' hs hset hw'.along hfront' hrho hg hr
  obtain ⟨hu1, huz, -, hwind⟩ := hw'
  choose! W hW hWl using hwind
  rw [F.solved hbig' hs hset hu1 huz hW (l := fun _ => M) hWl (fun _ _ _ => hM) hfront' hrho.ne' hg] at hr
  injection hr with hr
  subst hr
  obtain ⟨x, I, E, hx⟩ := F.row h0 hbig' hu1 huz hM hWl hfront' rho hg hrows
  rw [hC, hwd, hrows] at I E
  rw [hSn] at E
  have hlen : 0 < (FlatSail.blocks s θ).length := by simp [FlatSail.blocks]
  have hlen1 : 1 < (FlatSail.blocks s θ).length := by simp [FlatSail.blocks]
  have hbd : ∀ j k, j < 2 * s.ns → |x j k| ≤ X := by
    intro j k hj
    have gb : ∀ i, |g * PlanarBlocks.gammaOf g s.nc s.ns (FlatSail.blocks s θ) (FlatSail.winds g rho s θ w W) i| ≤ X := by
      intro i
      have := (F.gamma_bounds hbig' hu1 huz hWl (l := fun _ => M) (M := M) (fun _ _ _ => hM) (fun _ _ _ => le_rfl) hfront' rho hg i).2.2
      rw [hSn] at this
      exact this
    have hk : (k : ℕ) < s.nc := by rw [hrows]; exact k.isLt
    by_cases hlow : j < s.ns
    · have := hx 1 k j hlen1 hk hlow
      simp only [Nat.sub_self, zero_mul, zero_add] at this
      rw [this, abs_abs]
      exact gb _
    · have := hx 0 k (j - s.ns) hlen hk (by omega)
      rw [Nat.sub_zero, one_mul, Nat.add_sub_cancel' (not_lt.1 hlow)] at this
      rw [this, abs_abs]
      exact gb _
  set last : Fin nc := ⟨nc - 1, Nat.sub_lt hnc one_pos⟩ with hlast
  have hXlast : b * PlanarLattice.plate (chord / nc) nc last = X := by
    have hncR : (nc : ℝ) ≠ 0 := by exact_mod_cast hnc.ne'
    rw [PlanarLattice.plate_last _ (by simp only [hlast]; omega), hb, hX]
    field_simp
  have hmean := hN₀ (2 * s.ns) (by omega) x E hbd last
  rw [hXlast] at hmean
  have hb0 : 0 ≤ b := by positivity
  have hXle : ∀ j, j < 2 * s.ns → x j last ≤ X := fun j hj => (le_abs_self _).trans (hbd j last hj)
  have hstrip : ∀ j, j < s.ns → (stripSum s.nc s.ns (List.ofFn (FlatSail.result set g rho s θ w W).sol.lift) 0 j).norm =
      rho * M * h * x (s.ns + j) last := by
    intro j hj
    have := hx 0 (s.nc - 1) j hlen (Nat.sub_lt F.ok.nc_pos one_pos) hj
    rw [stripSum_eq, F.strip_norm hbig' hM hu1 huz hWl hrho g hlen hj, ← this, hwd]
    simp only [hrows, Nat.sub_zero, one_mul, hlast]
  have hplate : plateLift rho M S = rho * M / chord * X := by
    unfold plateLift
    rw [hX]
    field_simp
  have hfac : 0 < rho * M / chord := by positivity
  constructor
  · rw [htot, Finset.sum_congr rfl fun j hj => hstrip j (Finset.mem_range.1 hj), ← Finset.mul_sum]
    have hh2 := I.half E last
    have e1 : rho * M * h * (∑ q ∈ Finset.range s.ns, x (s.ns + q) last) / (chord * s.head.z) - plateLift rho M S =
        rho * M / chord / (2 * s.ns) * ((∑ j ∈ Finset.range (2 * s.ns), x j last) - ((2 * s.ns : ℕ) : ℝ) * X) := by
      rw [← hh2, hplate, hheight]
      push_cast
      field_simp
    rw [e1, abs_mul, abs_of_pos (by positivity)]
    calc _ ≤ rho * M / chord / (2 * s.ns) * (((2 * s.ns : ℕ) : ℝ) * (chord * ε / (2 * (rho * M)))) :=
          mul_le_mul_of_nonneg_left hmean (by positivity)
      _ = ε / 2 := by push_cast; field_simp
      _ ≤ ε := by linarith
  · intro j hj hjn
    have := I.near hb0 E hXle hmean hj hjn
    rw [hstrip j hjn]
    have e1 : rho * M * h * x (s.ns + j) last / (chord * h) - plateLift rho M S = rho * M / chord * (x (s.ns + j) last - X) := by
      rw [hplate]
      field_simp
    rw [e1, abs_mul, abs_of_pos hfac]
    calc _ ≤ rho * M / chord * (2 * (chord * ε / (2 * (rho * M)))) := mul_le_mul_of_nonneg_left this hfac.le
      _ = ε := by field_simp

/-- **C124**, the wing: with more and more strips of the same width the mean over the span of the circulation around a flat
wing (of the vortices at the trailing edge) tends to `π c |V·n|`, the circulation of a flat plate of infinite span. -/
theorem C124_long_wing {chord h : ℝ} (hchord : 0 < chord) (hh : 0 < h) {nc : ℕ} (hnc : 0 < nc) (hbig : 2e-4 ≤ chord / nc * h)
    (aoa : ℝ) {V : V3} (hz : V.z = 0) (hfront : 0 ≤ V.dot (chordDirection aoa)) {ε : ℝ} (hε : 0 < ε) :
    ∃ n₀ : ℕ, ∀ (a : AircraftInput) (w : Aircraft), StripWing a chord h aoa nc V → n₀ ≤ a.ns → a.g ≠ 0 → aircraft a = .ok w →
      |(∑ j ∈ Finset.range a.ns, |a.g * (List.ofFn w.gamma).getD ((nc - 1) * a.ns + j) 0|) / a.ns -
        Real.pi * chord * (|V.dot (wingNormal aoa)|)| ≤ ε := by
  by_cases hV0 : V = 0
  · refine ⟨0, fun a w T _ _ hok => ?_⟩
    obtain ⟨-, -, -, -, hq, -⟩ := aircraft_inv hok
    exact absurd (by rw [T.stream, hV0]; simp [V3.norm, V3.dot]) hq
  have hl : 0 < V.norm := V3.norm_pos hV0
  have hpi := Real.pi_pos
  set S := V.dot (wingNormal aoa) / V.norm with hS
  set C := V.dot (chordDirection aoa) / V.norm with hC
  set b := 4 * Real.pi * |S| * V.norm with hb
  set X := Real.pi * chord * |V.dot (wingNormal aoa)| with hX
  have hδ : 0 < chord / nc := div_pos hchord (by exact_mod_cast hnc)
  obtain ⟨N₀, hN₀⟩ := PlanarLattice.tall_mean (C := C) hδ hh nc b X hε
  refine ⟨N₀, fun a w T hn hg hok => ?_⟩
  obtain ⟨hc, hspan, hrows, haoa, hstream⟩ := T
  subst hc hrows haoa
  obtain ⟨-, -, -, hns, hq, -, -, hpan, hte, hle, hv, ⟨sol, hsol, hgam, -⟩, -⟩ := aircraft_inv hok
  have hnsR : (0 : ℝ) < a.ns := by exact_mod_cast hns
  have hhalf : 0 < a.half := by
    have : 0 < 2 * a.half := by rw [hspan]; positivity
    linarith
  have hwidth : 2 * a.half / a.ns = h := by rw [hspan]; field_simp
  have hVa : a.V ≠ 0 := by rw [hstream]; exact hV0
  have P := a.planar hchord hhalf hnc hns (by rw [hwidth]; exact hbig)
  obtain ⟨hdecomp, hu⟩ := a.wind_frame hVa (by rw [hstream]; exact hz)
  have hla : 0 < a.V.norm := by rw [hstream]; exact hl
  have hfa : 0 ≤ a.V.dot (chordDirection a.aoaDeg) / a.V.norm := by rw [hstream]; exact div_nonneg hfront hl.le
  obtain ⟨x, I, E, hx⟩ := P.row (y0 := -a.half) (w := 2 * a.half / a.ns) (by positivity) (fun b r hb' _ => by
    have : b = 0 := by simpa using hb'
    subst this
    simp
    field_simp
    ring) hg hla (V := fun _ => a.V) (fun _ => hdecomp) hu hfa
  simp only [List.length_singleton, one_mul] at I E
  rw [hwidth, hstream] at E
  have hvars : w.vars = PlanarBlocks.vars a.g a.nc a.ns [wingPoint a.chord a.half a.aoaDeg a.nc a.ns] := by
    have := P.varsOk a.g hnc hns (by simp)
    rw [hpan, hte] at hv
    rw [List.length_singleton, hv] at this
    injection this
  have hgamma : List.ofFn w.gamma = List.ofFn (PlanarBlocks.gammaOf a.g a.nc a.ns
      [wingPoint a.chord a.half a.aoaDeg a.nc a.ns] (fun _ => a.V)) := by
    obtain ⟨i1, i2, i3, i4, ps, vars, gamma, force, pressure, i5, i6, i7⟩ := w
    simp only at hvars hpan hte hle hsol hgam ⊢
    subst hvars
    rw [hpan, hte, hle] at hsol
    rw [← hgam, ((vlmCore_ok_iff _ _ _ _ _ _ _ _ _).1 hsol).2.2]
    rfl
  have hat : ∀ i q, ∀ hi : i < a.nc, q < a.ns → |a.g * (List.ofFn w.gamma).getD (i * a.ns + q) 0| = x q ⟨i, hi⟩ := by
    intro i q hi hq
    have e := hx 0 i q (by simp) hi hq
    simp only [List.length_singleton, Nat.sub_self, Nat.zero_sub, zero_mul, zero_add] at e
    have k1 := (PlanarBlocks.panelIx a.g a.nc a.ns [wingPoint a.chord a.half a.aoaDeg a.nc a.ns] (b := 0) (by simp) hi hq).isLt
    have hk : (PlanarBlocks.panelIx a.g a.nc a.ns [wingPoint a.chord a.half a.aoaDeg a.nc a.ns] (b := 0) (by simp) hi hq : ℕ) = i * a.ns + q := by
      simp [PlanarBlocks.panelIx, panelNo]
    rw [hgamma, e, ← hk, List.getD_eq_getElem?_getD, List.getElem?_ofFn, dif_pos k1, Option.getD_some]
  obtain ⟨w', hw', -, hbound⟩ := C109_wing a hchord hhalf hnc hns (by rw [hwidth]; exact hbig) (by
    rintro h0
    apply hq
    rw [h0]
    simp) hg hVa (by rw [hstream]; exact hz) (by rw [hstream]; exact hfront)
  rw [hok] at hw'
  injection hw' with hw'
  subst hw'
  rw [hstream] at hbound
  have hlenw : (List.ofFn w.gamma).length = a.nc * a.ns := by
    rw [hgamma, List.length_ofFn, PlanarBlocks.vars_length]; simp
  have hbd : ∀ j k, j < a.ns → |x j k| ≤ X := by
    intro j k hj
    have hlt : (k : ℕ) * a.ns + j < (List.ofFn w.gamma).length := by
      rw [hlenw]
      calc (k : ℕ) * a.ns + j < (k : ℕ) * a.ns + a.ns := by omega
        _ = (k + 1) * a.ns := by ring
        _ ≤ a.nc * a.ns := Nat.mul_le_mul_right _ k.isLt
    rw [← hat k j k.isLt hj, abs_abs, List.getD_eq_getElem?_getD, List.getElem?_eq_getElem hlt, Option.getD_some]
    exact (hbound _ (List.getElem_mem hlt)).2.2
  set last : Fin a.nc := ⟨a.nc - 1, Nat.sub_lt hnc one_pos⟩ with hlast
  have hXlast : b * PlanarLattice.plate (a.chord / a.nc) a.nc last = X := by
    have hncR : (a.nc : ℝ) ≠ 0 := by exact_mod_cast hnc.ne'
    rw [PlanarLattice.plate_last _ (by simp only [hlast]; omega), hb, hX, hS, abs_div, abs_of_pos hl]
    field_simp
  have hmean := hN₀ a.ns hn x E hbd last
  rw [hXlast] at hmean
  rw [Finset.sum_congr rfl fun j hj => hat (a.nc - 1) j (Nat.sub_lt hnc one_pos) (Finset.mem_range.1 hj)]
  have e : (∑ j ∈ Finset.range a.ns, x j ⟨a.nc - 1, Nat.sub_lt hnc one_pos⟩) / a.ns - X =
      (a.ns : ℝ)⁻¹ * ((∑ j ∈ Finset.range a.ns, x j last) - a.ns * X) := by
    rw [hlast]
    field_simp
  rw [e, abs_mul, abs_of_pos (by positivity)]
  calc _ ≤ (a.ns : ℝ)⁻¹ * (a.ns * ε) := mul_le_mul_of_nonneg_left hmean (by positivity)
    _ = ε := by field_simp

/-- A sail of chord 1 on the water, of `n + 1` strips of height 1 with two panels each. -/
noncomputable def demoStrips (n : ℕ) : SailInput :=
  { head := ⟨0, 0, n + 1⟩, tack := ⟨0, 0, 0⟩, csys := ⟨0, 0, 0⟩, ns := n + 1, nc := 2, chords := List.replicate (n + 2) 1
    twist := none, mode := none, camber := List.replicate (n + 2) 0, distance := List.replicate (n + 2) 0.5, name := "tall" }

theorem demoStrips_flat (n : ℕ) : StripSail (demoStrips n) (fun _ => 0) 1 0 2 1 0 := by
  have hn : (0 : ℝ) < n + 1 := by positivity
  have get : ∀ (c : ℝ) r, r ≤ n + 1 → (List.replicate (n + 2) c).getD r 0 = c := by
    intro c r hr
    rw [List.getD_eq_getElem?_getD, List.getElem?_replicate_of_lt (by omega)]
    rfl
  have args : SailArgs (demoStrips n) (fun _ => 0) := {
    ns_pos := Nat.le_add_left 1 n
    nc_pos := by norm_num [demoStrips]
    valid := by
      refine ⟨by simp [demoStrips], by simp [demoStrips], by simp [demoStrips], fun m hm => ?_, fun q hq => ?_⟩
      · have := List.eq_of_mem_replicate (List.mem_of_mem_take hm)
        subst this
        norm_num
      · have := List.eq_of_mem_replicate (List.mem_of_mem_take hq)
        subst this
        norm_num
    camber_len := by simp [demoStrips]
    pos := fun r hr => by
      have := get 0.5 r hr
      simp only [demoStrips]
      rw [this]
      norm_num
    twist := Or.inr ⟨Or.inl rfl, fun _ => rfl⟩
    tack_y := rfl
    head_y := rfl
    tack_z := le_rfl
    head_z := hn
    sloped := hn.ne'
    heel := by simp [demoStrips, deg2rad] }
  exact ⟨⟨⟨args, Or.inr (by simp [demoStrips, deg2rad])⟩, rfl, rfl, hn, one_pos, fun r hr => get 1 r hr, fun r hr => get 0 r hr, fun _ _ => rfl⟩,
    rfl, rfl, by simp [demoStrips], by simp [demoStrips]⟩

/-- Non-vacuity of C124: such sails of any number of strips, each with its results in a wind of 5 m/s from 60 degrees. -/
example (n : ℕ) : ∃ sail set r, StripSail (demoStrips n) (fun _ => 0) 1 0 2 1 0 ∧ n < (demoStrips n).ns ∧
    sailGeometry (demoStrips n) = .ok sail ∧ sailSet [sail] = .ok set ∧
    UniformWind ⟨60, 5, 0, .flat⟩ ⟨1 / 2, Real.sqrt 3 / 2, 0⟩ 5 0 (demoStrips n).head.z ∧
    0 ≤ (⟨1 / 2, Real.sqrt 3 / 2, 0⟩ : V3).dot (leechDirection 0 0) ∧ (⟨1 / 2, Real.sqrt 3 / 2, 0⟩ : V3).dot (sailNormal 0 0) ≠ 0 ∧
    vlm ⟨set.panels, 2, n + 1, 1.2, ⟨60, 5, 0, .flat⟩, set.te, set.le, -1⟩ = .ok r := by
  have T := demoStrips_flat n
  obtain ⟨sail, hs, -⟩ := sailGeometry_ok T.flat.ok
  obtain ⟨set, hset⟩ : ∃ set, sailSet [sail] = .ok set := by
    unfold sailSet
    rw [if_neg (by simp)]
    exact ⟨_, rfl⟩
  have w1 := demoWind_uniform (v := 5) (by norm_num) 0 (demoStrips n).head.z
  have hf : 0 ≤ (⟨1 / 2, Real.sqrt 3 / 2, 0⟩ : V3).dot (leechDirection 0 0) := by simp [V3.dot, leechDirection]
  have hn : (0 : ℝ) < n + 1 := by positivity
  obtain ⟨r, hr, -⟩ := C110_solver T.flat (by
    simp only [demoStrips]
    push_cast
    rw [sub_zero, div_self hn.ne']
    norm_num) hs hset w1.along hf (rho := 1.2) (g := -1) (by norm_num) (by norm_num)
  exact ⟨sail, set, r, T, Nat.lt_succ_self n, hs, hset, w1, hf, by simp [V3.dot, sailNormal], hr⟩

/-- Non-vacuity of C124 for the wing: wings of any number of strips of width 1 at five degrees, each with its results. -/
example (n : ℕ) : ∃ w, StripWing ⟨1, (n + 1) / 2, 5, n + 1, 2, ⟨10, 0, 0⟩, 1.225, 1⟩ 1 1 5 2 ⟨10, 0, 0⟩ ∧
    aircraft ⟨1, (n + 1) / 2, 5, n + 1, 2, ⟨10, 0, 0⟩, 1.225, 1⟩ = .ok w := by
  have hcos : 0 ≤ Real.cos (5 * (Real.pi / 180)) := by
    have := Real.pi_pos
    exact Real.cos_nonneg_of_neg_pi_div_two_le_of_le (by linarith) (by linarith)
  have hn : (0 : ℝ) < n + 1 := by positivity
  obtain ⟨w, hw, -⟩ := C109_wing ⟨1, (n + 1) / 2, 5, n + 1, 2, ⟨10, 0, 0⟩, 1.225, 1⟩ (by norm_num) (by simp only; positivity) (by norm_num)
    (Nat.succ_pos n) (by
      simp only
      push_cast
      rw [mul_div_cancel₀ _ (two_ne_zero), div_self hn.ne']
      norm_num) (by norm_num) (by norm_num) (by simp [V3.ext_iff]) rfl (by
      unfold chordDirection
      simp only [V3.dot]
      linarith)
  refine ⟨w, ⟨rfl, ?_, rfl, rfl, rfl⟩, hw⟩
  simp only
  push_cast
  ring

end PySailing.Props
