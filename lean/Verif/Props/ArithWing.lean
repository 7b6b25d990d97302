import Verif.Lemmas.ArithWingLimit
import Verif.Lemmas.RoundingFull
import Verif.Props.Arith
import Verif.Props.NearWing

/-!
# C131: a wing calculated with machine numbers
-/

namespace PySailing.Props

open PySailing PySailing.Spec Filter Topology

/-- **C131**: with exact operations the program of `Model/ArithWing.lean` is the program of `Model/Aircraft.lean`. -/
theorem C131_exact (a : AircraftInput) : exactFull.aircraft a = aircraft a := ExactFull.aircraft a

/-- **C131.** Where `Aircraft` returns with exact operations, it returns with rounded operations — from the arguments to the
coefficients —, if the operations are accurate enough and the arguments are given accurately enough, and all attributes are as
close to the exact ones as one likes, and so is `Cxyz` — unless a point of the wing lies exactly on the boundary of a vortex core
or a panel has exactly the smallest admissible area. -/
theorem C131_limit (growth : ℕ → ℝ) {a : AircraftInput} {w : Aircraft} (h : aircraft a = .ok w)
    (hcores : ∀ v ∈ w.vars, ∀ v' ∈ w.vars, OffCores v.ctrP v' ∧ OffCores v.cp v')
    (hareas : ∀ q ∈ w.panelSet.panels, panelArea q ≠ 1e-14) {ε : ℝ} (hε : 0 < ε) :
    ∃ u₀ > 0, ∀ u ≤ u₀, ∀ A, AccurateFull growth A u → ∀ a', NearWingInput u a' a →
      ∃ w', A.aircraft a' = .ok w' ∧ NearWingResult ε w' w ∧
        ∃ c c', w.Cxyz = .ok c ∧ A.wingCxyz w' = .ok c' ∧ NearV ε c' c := by
  by_contra hc
  push Not at hc
  choose u hu A hA a' ha hbad using fun n : ℕ => hc (1 / ((n : ℝ) + 1)) (by positivity)
  have hlim : Tendsto u atTop (𝓝 0) :=
    squeeze_zero (fun n => (hA n).pos.le) hu tendsto_one_div_add_atTop_nhds_zero_nat
  have R : RefinedFull atTop growth A u := ⟨.of_forall hA, hlim⟩
  have N : NearWing atTop a' a := ⟨fun n => (ha n).nc, fun n => (ha n).ns, fun n => (ha n).g, tendsto_near hlim fun n => (ha n).chord,
    tendsto_near hlim fun n => (ha n).half, tendsto_near hlim fun n => (ha n).aoa, conv_near hlim fun n => (ha n).V,
    tendsto_near hlim fun n => (ha n).rho⟩
  obtain ⟨f, hf, hconv, c, hc1, c', hc2, hc3⟩ := R.aircraft N h hcores hareas
  have hv : ∀ᶠ n in atTop, NearV ε (c' n) c := by
    filter_upwards [eventually_le hε hc3.x, eventually_le hε hc3.y, eventually_le hε hc3.z] with n n1 n2 n3
    exact ⟨n1, n2, n3⟩
  obtain ⟨n, h1, h2, h3, h4⟩ := (hf.and ((eventually_nearWing hε hconv).and (hc2.and hv))).exists
  exact hbad n _ h1 h2 _ _ hc1 h3 h4

/-- **C131**, roundings: rounding every single result with relative error `u` and adding up from left to right is an accurate
arithmetic. -/
theorem C131_rounding {u : ℝ} {rnd : ℝ → ℝ} (R : MachineRounding u rnd) {growth : ℕ → ℝ} (hg : ∀ n : ℕ, (n : ℝ) + 1 ≤ growth n)
    {solve : LinearSolver} (hs : BackwardStable growth solve (10 * u)) : AccurateFull growth (roundedFull rnd solve) (10 * u) :=
  R.accurateFull hg hs

/-- **C131**, without assumption on the solver: for every wing of C109 with panels larger than `2e-4` and strips wider than `2e-8`
the exact calculation returns, and so does every sufficiently accurate one, with attributes as close as one
likes. -/
theorem C131_all_wings (growth : ℕ → ℝ) {a : AircraftInput} (hc : 0 < a.chord) (hb : 0 < a.half) (hnc : 0 < a.nc) (hns : 0 < a.ns)
    (hbig : 2e-4 < a.chord / a.nc * (2 * a.half / a.ns)) (hstrip : 2e-8 < 2 * a.half / a.ns) (hrho : a.rho ≠ 0) (hg : a.g ≠ 0)
    (hV : a.V ≠ 0) (hz : a.V.z = 0) (hfront : 0 ≤ a.V.dot (chordDirection a.aoaDeg)) :
    ∃ w, aircraft a = .ok w ∧ ∀ ε > 0, ∃ u₀ > 0, ∀ u ≤ u₀, ∀ A, AccurateFull growth A u → ∀ a', NearWingInput u a' a →
      ∃ w', A.aircraft a' = .ok w' ∧ NearWingResult ε w' w ∧
        ∃ c c', w.Cxyz = .ok c ∧ A.wingCxyz w' = .ok c' ∧ NearV ε c' c := by
  obtain ⟨w, hw, -⟩ := C109_wing a hc hb hnc hns hbig.le hrho hg hV hz hfront
  obtain ⟨h1, h2⟩ := wing_off hw hc hb hnc hns hbig hstrip
  exact ⟨w, hw, fun ε hε => C131_limit growth hw h1 h2 hε⟩

/-- **C131**, binary digits: with `p` binary digits, sums added from left to right and a backward stable solution of the linear
system, for all sufficiently large `p`. -/
theorem C131_digits {a : AircraftInput} {w : Aircraft} (h : aircraft a = .ok w)
    (hcores : ∀ v ∈ w.vars, ∀ v' ∈ w.vars, OffCores v.ctrP v' ∧ OffCores v.cp v')
    (hareas : ∀ q ∈ w.panelSet.panels, panelArea q ≠ 1e-14) {growth : ℕ → ℝ} (hg : ∀ n : ℕ, (n : ℝ) + 1 ≤ growth n) {ε : ℝ}
    (hε : 0 < ε) :
    ∃ p₀ : ℕ, ∀ p ≥ p₀, ∀ solve, BackwardStable growth solve (10 * (1 / 2) ^ p) → ∀ a', NearWingInput (10 * (1 / 2) ^ p) a' a →
      ∃ w', (roundedFull (binaryRound p) solve).aircraft a' = .ok w' ∧ NearWingResult ε w' w := by
  obtain ⟨u₀, h0, hu⟩ := C131_limit growth h hcores hareas hε
  obtain ⟨p₀, hp⟩ := exists_pow_lt_of_lt_one (show (0 : ℝ) < u₀ / 10 by positivity) (show (1 / 2 : ℝ) < 1 by norm_num)
  refine ⟨max p₀ 7, fun p hpp solve hs a' ha => ?_⟩
  have h1 : (1 / 2 : ℝ) ^ p ≤ (1 / 2) ^ p₀ := pow_le_pow_of_le_one (by norm_num) (by norm_num) ((le_max_left _ _).trans hpp)
  obtain ⟨w', h2, h3, -⟩ := hu (10 * (1 / 2) ^ p) (by linarith) _
    ((binaryRound_machine ((le_max_right _ _).trans hpp)).accurateFull hg hs) a' ha
  exact ⟨w', h2, h3⟩

/-- `C131_all_wings`, `C131_rounding` apply: a wing of aspect ratio 10 at five degrees, calculated with many binary digits. -/
example : ∃ w, aircraft ⟨1, 5, 5, 20, 4, ⟨10, 0, 0⟩, 1.225, 1⟩ = .ok w ∧ ∃ p₀ : ℕ, ∀ p ≥ p₀, ∃ w',
    (roundedFull (binaryRound p) (roundedSolve (binaryRound p))).aircraft ⟨1, 5, 5, 20, 4, ⟨10, 0, 0⟩, 1.225, 1⟩ = .ok w' ∧
      NearWingResult 1e-6 w' w := by
  have hcos : 0 ≤ Real.cos (5 * (Real.pi / 180)) :=
    Real.cos_nonneg_of_mem_Icc ⟨by have := Real.pi_pos; linarith, by have := Real.pi_pos; linarith⟩
  obtain ⟨w, hw, h⟩ := C131_all_wings (fun n => (n : ℝ) + 1) (a := ⟨1, 5, 5, 20, 4, ⟨10, 0, 0⟩, 1.225, 1⟩) (by norm_num) (by norm_num)
    (by norm_num) (by norm_num) (by norm_num) (by norm_num) (by norm_num) (by norm_num) (by simp [V3.ext_iff]) rfl (by
      unfold chordDirection
      simp only [V3.dot]
      linarith)
  refine ⟨w, hw, ?_⟩
  obtain ⟨u₀, h0, hu⟩ := h 1e-6 (by norm_num)
  obtain ⟨p₀, hp⟩ := exists_pow_lt_of_lt_one (show (0 : ℝ) < u₀ / 10 by positivity) (show (1 / 2 : ℝ) < 1 by norm_num)
  refine ⟨max p₀ 7, fun p hpp => ?_⟩
  have h1 : (1 / 2 : ℝ) ^ p ≤ (1 / 2) ^ p₀ := pow_le_pow_of_le_one (by norm_num) (by norm_num) ((le_max_left _ _).trans hpp)
  have h7 : 7 ≤ p := (le_max_right _ _).trans hpp
  have hpos : (0 : ℝ) ≤ 10 * (1 / 2) ^ p := by positivity
  obtain ⟨w', h2, h3, -⟩ := hu (10 * (1 / 2) ^ p) (by linarith) _ (C131_rounding (binaryRound_machine h7) (fun _ => le_rfl)
      (BackwardStable.mono (fun n => by have : (0 : ℝ) ≤ n := Nat.cast_nonneg n; linarith) hpos (C128_stable_routine h7)))
    ⟨1, 5, 5, 20, 4, ⟨10, 0, 0⟩, 1.225, 1⟩
    ⟨rfl, rfl, rfl, by simpa using hpos, by simpa using hpos, by simpa using hpos, nearV_refl hpos _, by simpa using hpos⟩
  exact ⟨w', h2, h3⟩

end PySailing.Props
