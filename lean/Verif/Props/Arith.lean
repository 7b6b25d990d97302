import Verif.Lemmas.ArithExact
import Verif.Lemmas.ArithNear
import Verif.Lemmas.Rounding
import Verif.Props.NearSail

/-!
# C128: the exact model is the limit of rounded arithmetic
-/

namespace PySailing.Props

open PySailing PySailing.Spec Filter Topology

/-- **C128**: with exact operations the program of `Model/Arith.lean` is the program of `Model/Solver.lean`. -/
theorem C128_exact (a : VlmInput) (V : List V3) : exactArith.vlmWithWinds a V = vlmWithWinds a V := ExactArith.vlmWithWinds a V

/-- **C128.** Where the exact calculation returns, the calculation with rounded operations returns, if the operations are accurate
enough and corners, winds and density are given accurately enough, and its results are as close to the exact ones as one likes —
unless a point of the lattice lies exactly on the boundary of a vortex core or a panel has exactly the smallest admissible area. -/
theorem C128_limit (growth : ℕ → ℝ) {a : VlmInput} {V : List V3} {o : VlmArrays} (h : vlmWithWinds a V = .ok o)
    (hoff : ∀ vars, calculateVlmVariables a.panels a.te a.g a.nc a.ns = .ok vars → OffSwitches a vars) {ε : ℝ} (hε : 0 < ε) :
    ∃ u₀ > 0, ∀ u ≤ u₀, ∀ A, AccurateArith growth A u → ∀ a' V', NearInput u a' a → List.Forall₂ (NearV u) V' V →
      ∃ o', A.vlmWithWinds a' V' = .ok o' ∧ NearArrays ε o' o := by
  by_contra hc
  push Not at hc
  choose u hu A hA a' V' ha hV hbad using fun n : ℕ => hc (1 / ((n : ℝ) + 1)) (by positivity)
  have hlim : Tendsto u atTop (𝓝 0) :=
    squeeze_zero (fun n => (hA n).pos.le) hu tendsto_one_div_add_atTop_nhds_zero_nat
  have R : Refined atTop growth A u := ⟨.of_forall hA, hlim⟩
  obtain ⟨vars, hvars, sol, hsol, rfl⟩ := (vlmWithWinds_ok_iff _ _ _).1 h
  have off := hoff vars hvars
  have hcorner : ∀ k, ∀ n, NearPanel (u n) ((a' n).panels.getD k sparePanel) (a.panels.getD k sparePanel) := fun k n =>
    forall₂_getD (ha n).panels k _ _ (by
      have := (hA n).pos.le
      exact ⟨nearV_refl this _, nearV_refl this _, nearV_refl this _, nearV_refl this _⟩)
  obtain ⟨f, hf, hconv⟩ := R.vlmWithWinds (a0 := a) (fun n => (ha n).nc) (fun n => (ha n).ns) (fun n => (ha n).te)
    (fun n => (ha n).le) (fun n => (ha n).g) (fun n => (ha n).panels.length_eq)
    (fun k => ⟨conv_near hlim fun n => (hcorner k n).1, conv_near hlim fun n => (hcorner k n).2.1,
      conv_near hlim fun n => (hcorner k n).2.2.1, conv_near hlim fun n => (hcorner k n).2.2.2⟩)
    (tendsto_near hlim fun n => (ha n).rho) (V := V') (V0 := V)
    (fun k => conv_near hlim fun n => forall₂_getD (hV n) k _ _ (nearV_refl (hA n).pos.le _)) hvars rfl hsol off.cores off.areas
  obtain ⟨n, h1, h2⟩ := (hf.and (eventually_nearArrays hε hconv)).exists
  exact hbad n _ h1 h2

/-- **C128**, roundings: rounding every single result with relative error `u`, and solving with a small backward error, is an
accurate arithmetic. -/
theorem C128_rounding {u : ℝ} {rnd : ℝ → ℝ} (R : MachineRounding u rnd) {growth : ℕ → ℝ} {solve : LinearSolver}
    (hs : BackwardStable growth solve (10 * u)) : AccurateArith growth (roundedArith rnd solve) (10 * u) := R.accurate hs

/-- **C128**, binary digits: where the exact calculation returns, off the switches, the calculation with `p` binary digits
and a backward stable solution of the linear system returns for all sufficiently large `p`, with results as close as one likes. -/
theorem C128_digits (growth : ℕ → ℝ) {a : VlmInput} {V : List V3} {o : VlmArrays} (h : vlmWithWinds a V = .ok o)
    (hoff : ∀ vars, calculateVlmVariables a.panels a.te a.g a.nc a.ns = .ok vars → OffSwitches a vars) {ε : ℝ} (hε : 0 < ε) :
    ∃ p₀ : ℕ, ∀ p ≥ p₀, ∀ solve, BackwardStable growth solve (10 * (1 / 2) ^ p) →
      ∀ a' V', NearInput (10 * (1 / 2) ^ p) a' a → List.Forall₂ (NearV (10 * (1 / 2) ^ p)) V' V →
      ∃ o', (roundedArith (binaryRound p) solve).vlmWithWinds a' V' = .ok o' ∧ NearArrays ε o' o := by
  obtain ⟨u₀, h0, hu⟩ := C128_limit growth h hoff hε
  obtain ⟨p₀, hp⟩ := exists_pow_lt_of_lt_one (show (0 : ℝ) < u₀ / 10 by positivity) (show (1 / 2 : ℝ) < 1 by norm_num)
  refine ⟨max p₀ 7, fun p hpp solve hs a' V' ha hV => ?_⟩
  have h1 : (1 / 2 : ℝ) ^ p ≤ (1 / 2) ^ p₀ := pow_le_pow_of_le_one (by norm_num) (by norm_num) ((le_max_left _ _).trans hpp)
  exact hu (10 * (1 / 2) ^ p) (by linarith) _ ((binaryRound_machine ((le_max_right _ _).trans hpp)).accurate hs) a' V' ha hV

/-- **C128**, flat sails: for an upright flat rectangular sail in a wind of constant direction not from behind (panels larger than
`2e-4`, strips higher than `2e-8`) no assumption on the lattice is left: the exact calculation returns, and so does every
sufficiently accurate one, with results as close as one likes. -/
theorem C128_sail (growth : ℕ → ℝ) {s : SailInput} {θ : ℕ → ℝ} {chord τ : ℝ} (F : FlatSail s θ chord τ)
    (hbig : 2e-4 < chord / s.nc * ((s.head.z - s.tack.z) / s.ns)) (hstrip : 2e-8 < (s.head.z - s.tack.z) / s.ns)
    {w : WindObj} {u : V3} {M : ℝ} (hw : WindAlong w u M s.tack.z s.head.z) (hfront : 0 ≤ u.dot (leechDirection s.csys.leewayDeg τ))
    {rho g : ℝ} (hrho : rho ≠ 0) (hg : g ≠ 0) :
    ∃ r, calculateSails [s] s.nc s.ns rho g w = .ok r ∧ ∀ ε > 0, ∃ u₀ > 0, ∀ v ≤ u₀, ∀ A, AccurateArith growth A v →
      ∀ a' V', NearInput v a' r.input → List.Forall₂ (NearV v) V' r.inlet.vAppInfs →
      ∃ o', A.vlmWithWinds a' V' = .ok o' ∧ NearArrays ε o' r.out := by
  obtain ⟨sail, hs, -⟩ := sailGeometry_ok F.ok
  obtain ⟨set, hset⟩ : ∃ set, sailSet [sail] = .ok set := ⟨_, if_neg (by simp)⟩
  obtain ⟨hu1, huz, hwind⟩ := hw
  choose! W lam hW hl hM hWl using hwind
  have hsolved := F.solved hbig.le hs hset hu1 huz hW hWl hl hfront hrho hg
  have hf : List.Forall₂ (BuiltFrom s.nc s.ns) [(s, θ)] [sail] := List.Forall₂.cons ⟨F.ok, rfl, rfl, hs⟩ List.Forall₂.nil
  obtain ⟨hp, -, -⟩ := sailSet_blocks hf hset
  have off := flat_offSwitches F hbig hstrip hp g rho w W
  refine ⟨FlatSail.result set g rho s θ w W, ?_, fun ε hε => ?_⟩
  · unfold calculateSails
    rw [show [s].mapM sailGeometry = .ok [sail] by rw [List.mapM_cons, hs]; rfl]
    simp only [Bind.bind, Except.bind]
    rw [hset]
    exact hsolved
  · refine C128_limit growth (vlm_withWinds hsolved) (fun vars hvars => ?_) hε
    have h3 := ((vlm_ok_iff _ _).1 hsolved).2.2.1
    have e2 : (Except.ok vars : Py (List PanelVars)) = .ok _ := hvars.symm.trans h3
    injection e2 with e2
    rw [e2]
    exact off

/-- A backward stable routine with `p` binary digits. -/
theorem C128_stable_routine {p : ℕ} (hp : 7 ≤ p) :
    BackwardStable (fun _ => 1) (roundedSolve (binaryRound p)) (10 * (1 / 2) ^ p) := roundedSolve_stable (binaryRound_machine hp)

theorem nearInput_refl {ε : ℝ} (hε : 0 ≤ ε) (a : VlmInput) : NearInput ε a a where
  panels := List.forall₂_same.2 fun _ _ => ⟨nearV_refl hε _, nearV_refl hε _, nearV_refl hε _, nearV_refl hε _⟩
  nc := rfl
  ns := rfl
  te := rfl
  le := rfl
  g := rfl
  rho := by simpa using hε

/-- `C128_limit`, `C128_digits` apply: the sail of one panel, with many binary digits. -/
example : ∃ o, vlmWithWinds Demo.input [Demo.V] = .ok o ∧ ∃ p₀ : ℕ, ∀ p ≥ p₀, ∃ o',
    (roundedArith (binaryRound p) (roundedSolve (binaryRound p))).vlmWithWinds Demo.input [Demo.V] = .ok o' ∧
      NearArrays 1e-6 o' o := by
  obtain ⟨r, h, hV, hv⟩ := Demo.vlm_ok
  have ho := vlm_withWinds h
  rw [hV] at ho
  have ho' : vlmWithWinds Demo.input [Demo.V] = .ok r.out := ho
  obtain ⟨p₀, hp⟩ := C128_digits (fun _ => 1) ho' (ε := 1e-6) (by
    intro vars hvars
    have h3 := ((vlm_ok_iff _ _).1 h).2.2.1
    have e2 : (Except.ok vars : Py (List PanelVars)) = .ok r.vars := hvars.symm.trans h3
    injection e2 with e2
    rw [e2, hv]
    exact demo_offSwitches) (by norm_num)
  refine ⟨_, ho', max p₀ 7, fun p hpp => hp p ((le_max_left _ _).trans hpp) _ (C128_stable_routine ((le_max_right _ _).trans hpp)) _ _
    (nearInput_refl (by positivity) _) (List.forall₂_same.2 fun _ _ => nearV_refl (by positivity) _)⟩

/-- `C128_sail` applies: the flat sail of the examples, calculated with many binary digits. -/
example : ∃ r, calculateSails [demoSail 2 [0, 0] [0.5, 0.5] none none] 2 1 1.2 (-1) ⟨60, 3, 0, .flat⟩ = .ok r ∧
    ∃ p₀ : ℕ, ∀ p ≥ p₀, ∃ o', (roundedArith (binaryRound p) (roundedSolve (binaryRound p))).vlmWithWinds r.input r.inlet.vAppInfs =
      .ok o' ∧ NearArrays 1e-6 o' r.out := by
  obtain ⟨r, hr, h⟩ := C128_sail (fun _ => 1) demoSail_flat (by norm_num [demoSail]) (by norm_num [demoSail])
    (demoWind_along (v := 3) (by norm_num) _ _) (by simp [V3.dot, leechDirection, demoSail]) (rho := 1.2) (g := -1) (by norm_num)
    (by norm_num)
  refine ⟨r, hr, ?_⟩
  obtain ⟨u₀, h0, hu⟩ := h 1e-6 (by norm_num)
  obtain ⟨p₀, hp⟩ := exists_pow_lt_of_lt_one (show (0 : ℝ) < u₀ / 10 by positivity) (show (1 / 2 : ℝ) < 1 by norm_num)
  refine ⟨max p₀ 7, fun p hpp => ?_⟩
  have h1 : (1 / 2 : ℝ) ^ p ≤ (1 / 2) ^ p₀ := pow_le_pow_of_le_one (by norm_num) (by norm_num) ((le_max_left _ _).trans hpp)
  have h7 : 7 ≤ p := (le_max_right _ _).trans hpp
  exact hu (10 * (1 / 2) ^ p) (by linarith) _ (C128_rounding (binaryRound_machine h7) (C128_stable_routine h7)) _ _
    (nearInput_refl (by positivity) _) (List.forall₂_same.2 fun _ _ => nearV_refl (by positivity) _)

end PySailing.Props
