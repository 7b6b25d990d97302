import Verif.Lemmas.ArithSailSet
import Verif.Lemmas.ArithSailExact
import Verif.Lemmas.RoundingSail
import Verif.Props.Arith

/-!
# C132: sails calculated with machine numbers
-/

namespace PySailing.Props

open PySailing PySailing.Spec Filter Topology

/-- **C132**: with exact operations the program of `Model/ArithSail.lean` is the program of `Model/Sail.lean`, `Model/Wind.lean` and
`Model/Solver.lean`. -/
theorem C132_exact (ss : List SailInput) (nc ns : ℕ) (rho g : ℝ) (w : WindObj) :
    exactSail.calculateSails ss nc ns rho g w = (calculateSails ss nc ns rho g w).map fun r => (r.inlet.vAppInfs, r.out) :=
  ExactSail.calculateSails ss nc ns rho g w

/-- **C132.** Where a set of sails can be calculated with exact operations, it can be calculated with rounded operations — from
the settings of the sails and of the wind to the results of the solver —, if the operations are accurate enough and the settings
are given accurately enough, and the apparent winds and all results are as close to the exact ones as one likes — unless a panel
lies exactly on the boundary of a vortex core or has exactly the smallest admissible area, or a pressure point lies exactly at
the water level of an exponential profile. -/
theorem C132_limit (growth : ℕ → ℝ) {m : ℕ} (hm : 0 < m) {nc ns : ℕ} {ss0 : Fin m → SailInput × (ℕ → ℝ)}
    (ok : ∀ b, SailOk (ss0 b).1 (ss0 b).2) (hnc : ∀ b, (ss0 b).1.nc = nc) (hns : ∀ b, (ss0 b).1.ns = ns) {rho0 g : ℝ} {w0 : WindObj}
    {r0 : Vlm} (h : calculateSails (List.ofFn fun b => (ss0 b).1) nc ns rho0 g w0 = .ok r0)
    (hoff : OffSwitches r0.input r0.vars) (hlevel : ∀ p ∈ r0.vars, ¬ AtWaterLevel w0.profile |p.cp.z|) {ε : ℝ} (hε : 0 < ε) :
    ∃ u₀ > 0, ∀ u ≤ u₀, ∀ A, AccurateSail growth A u → ∀ (ss : Fin m → SailInput) (rho : ℝ) (w : WindObj),
      (∀ b, NearSailInput u (ss b) (ss0 b).1 ∧ InRange A (ss b)) → |rho - rho0| ≤ u → NearWindObj u w w0 →
      ∃ V o, A.calculateSails (List.ofFn ss) nc ns rho g w = .ok (V, o) ∧
        List.Forall₂ (NearV ε) V r0.inlet.vAppInfs ∧ NearArrays ε o r0.out := by
  by_contra hc
  push Not at hc
  choose u hu A hA ss rho w hss hrho hw hbad using fun n : ℕ => hc (1 / ((n : ℝ) + 1)) (by positivity)
  have hpos : ∀ n, 0 ≤ u n := fun n => (hA n).pos.le
  have hlim : Tendsto u atTop (𝓝 0) := squeeze_zero hpos hu tendsto_one_div_add_atTop_nhds_zero_nat
  have R : RefinedSail atTop growth A u := ⟨.of_forall hA, hlim⟩
  obtain ⟨V, f, h1, h2, h3⟩ := R.calculateSails hm nc ns (ss := ss)
    (fun b => tendsSail_of hlim hpos (fun n => (hss n b).1) (fun n => (hss n b).2)) ok hnc hns (tendsto_near hlim hrho)
    (w := w) ⟨fun n => (hw n).profile, tendsto_near hlim fun n => (hw n).alpha, tendsto_near hlim fun n => (hw n).speed,
      tendsto_near hlim fun n => (hw n).yacht⟩ g h hoff hlevel
  have hv : ∀ᶠ n in atTop, ∀ k : Fin r0.inlet.vAppInfs.length, NearV ε ((V n).getD k 0) (r0.inlet.vAppInfs.getD k 0) :=
    eventually_all.2 fun k => by
      filter_upwards [eventually_le hε (h2 k).x, eventually_le hε (h2 k).y, eventually_le hε (h2 k).z] with n n1 n2 n3
      exact ⟨n1, n2, n3⟩
  obtain ⟨n, k1, k2, k3⟩ := (h1.and (hv.and (eventually_nearArrays hε h3))).exists
  exact hbad n _ _ k1.1 (forall₂_of_getD 0 0 k1.2 k2) k3

/-- **C132**, roundings: rounding every single result with relative error `u`, adding up from left to right and applying rotation
matrices one after the other is an accurate arithmetic. -/
theorem C132_rounding {u : ℝ} {rnd : ℝ → ℝ} (R : MachineRounding u rnd) (h0 : rnd 0 = 0) {growth : ℕ → ℝ}
    (hg : ∀ n : ℕ, 15 * ((n : ℝ) + 1) ≤ growth n) {solve : LinearSolver} (hs : BackwardStable growth solve (10 * u)) :
    AccurateSail growth (roundedSail rnd solve) (10 * u) :=
  R.accurateSail h0 hg hs

theorem binaryRound_zero (p : ℕ) : binaryRound p 0 = 0 := by simp [binaryRound]

/-- **C132**, binary digits: with `p` binary digits and a backward stable solution of the linear system, for all sufficiently
large `p`. -/
theorem C132_digits {m : ℕ} (hm : 0 < m) {nc ns : ℕ} {ss0 : Fin m → SailInput × (ℕ → ℝ)}
    (ok : ∀ b, SailOk (ss0 b).1 (ss0 b).2) (hnc : ∀ b, (ss0 b).1.nc = nc) (hns : ∀ b, (ss0 b).1.ns = ns) {rho0 g : ℝ} {w0 : WindObj}
    {r0 : Vlm} (h : calculateSails (List.ofFn fun b => (ss0 b).1) nc ns rho0 g w0 = .ok r0)
    (hoff : OffSwitches r0.input r0.vars) (hlevel : ∀ p ∈ r0.vars, ¬ AtWaterLevel w0.profile |p.cp.z|) {growth : ℕ → ℝ}
    (hg : ∀ n : ℕ, 15 * ((n : ℝ) + 1) ≤ growth n) {ε : ℝ} (hε : 0 < ε) :
    ∃ p₀ : ℕ, ∀ p ≥ p₀, ∀ solve, BackwardStable growth solve (10 * (1 / 2) ^ p) → ∀ (ss : Fin m → SailInput) (rho : ℝ) (w : WindObj),
      (∀ b, NearSailInput (10 * (1 / 2) ^ p) (ss b) (ss0 b).1 ∧ InRange (roundedSail (binaryRound p) solve) (ss b)) →
      |rho - rho0| ≤ 10 * (1 / 2) ^ p → NearWindObj (10 * (1 / 2) ^ p) w w0 →
      ∃ V o, (roundedSail (binaryRound p) solve).calculateSails (List.ofFn ss) nc ns rho g w = .ok (V, o) ∧
        List.Forall₂ (NearV ε) V r0.inlet.vAppInfs ∧ NearArrays ε o r0.out := by
  obtain ⟨u₀, h0, hu⟩ := C132_limit growth hm ok hnc hns h hoff hlevel hε
  obtain ⟨p₀, hp⟩ := exists_pow_lt_of_lt_one (show (0 : ℝ) < u₀ / 10 by positivity) (show (1 / 2 : ℝ) < 1 by norm_num)
  refine ⟨max p₀ 7, fun p hpp solve hs ss rho w h1 h2 h3 => ?_⟩
  have h4 : (1 / 2 : ℝ) ^ p ≤ (1 / 2) ^ p₀ := pow_le_pow_of_le_one (by norm_num) (by norm_num) ((le_max_left _ _).trans hpp)
  exact hu (10 * (1 / 2) ^ p) (by linarith) _
    (C132_rounding (binaryRound_machine ((le_max_right _ _).trans hpp)) (binaryRound_zero p) hg hs) ss rho w h1 h2 h3

theorem exists_bound {σ : ℝ} : ∀ xs : List ℝ, (∀ x ∈ xs, 0 < σ * x) → ∃ δ > 0, ∀ x ∈ xs, δ ≤ σ * x
  | [], _ => ⟨1, one_pos, by simp⟩
  | x :: xs, h => by
    obtain ⟨δ, h1, h2⟩ := exists_bound xs fun y hy => h y (List.mem_cons_of_mem _ hy)
    refine ⟨min δ (σ * x), lt_min h1 (h x List.mem_cons_self), fun y hy => ?_⟩
    rcases List.mem_cons.1 hy with rfl | hy
    · exact min_le_right _ _
    · exact (min_le_left _ _).trans (h2 y hy)

/-- **C132**, for sails that are nearly flat rectangles, without assumption on the solver: with an accurate arithmetic and
settings near those of an upright flat sail in a wind of constant direction not from behind (see C126) the program returns, its
winds and results are near those of the exact calculation of the flat sail, and all computed circulations have the sign they have
there. -/
theorem C132_nearly_flat (growth : ℕ → ℝ) {s0 : SailInput} {θ0 : ℕ → ℝ} {chord τ : ℝ} (F : FlatSail s0 θ0 chord τ)
    (hbig : 2e-4 < chord / s0.nc * ((s0.head.z - s0.tack.z) / s0.ns)) (hstrip : 2e-8 < (s0.head.z - s0.tack.z) / s0.ns)
    {w0 : WindObj} {v : V3} {M : ℝ} (hw0 : WindAlong w0 v M s0.tack.z s0.head.z)
    (hfront : 0 ≤ v.dot (leechDirection s0.csys.leewayDeg τ))
    (hlevel : ∀ h, s0.tack.z < h → h < s0.head.z → ¬ AtWaterLevel w0.profile h) {rho0 g : ℝ} (hrho : rho0 ≠ 0) (hg : g ≠ 0) :
    ∃ r0, calculateSails [s0] s0.nc s0.ns rho0 g w0 = .ok r0 ∧ ∀ ε > 0, ∃ u₀ > 0, ∀ u ≤ u₀, ∀ A, AccurateSail growth A u →
      ∀ (s : SailInput) (rho : ℝ) (w : WindObj), NearSailInput u s s0 → InRange A s → |rho - rho0| ≤ u → NearWindObj u w w0 →
      ∃ V o, A.calculateSails [s] s0.nc s0.ns rho g w = .ok (V, o) ∧
        List.Forall₂ (NearV ε) V r0.inlet.vAppInfs ∧ NearArrays ε o r0.out ∧
        (0 < v.dot (sailNormal s0.csys.leewayDeg τ) → ∀ γ ∈ o.gamma, g * γ < 0) ∧
        (v.dot (sailNormal s0.csys.leewayDeg τ) < 0 → ∀ γ ∈ o.gamma, 0 < g * γ) := by
  obtain ⟨sail, hs, -⟩ := sailGeometry_ok F.ok
  obtain ⟨set, hset⟩ : ∃ set, sailSet [sail] = .ok set := ⟨_, if_neg (by simp)⟩
  have hw0' := hw0
  obtain ⟨hu1, huz, hwind⟩ := hw0'
  choose! W lam hW hl hM hWl using hwind
  have hsolved := F.solved hbig.le hs hset hu1 huz hW hWl hl hfront hrho hg
  set r0 := FlatSail.result set g rho0 s0 θ0 w0 W with hr0
  have P := F.planar hbig.le
  have hcalc : calculateSails [s0] s0.nc s0.ns rho0 g w0 = .ok r0 := by
    unfold calculateSails
    rw [show [s0].mapM sailGeometry = .ok [sail] by rw [List.mapM_cons, hs]; rfl]
    simp only [Bind.bind, Except.bind]
    rw [hset]
    exact hsolved
  have hf : List.Forall₂ (BuiltFrom s0.nc s0.ns) [(s0, θ0)] [sail] := List.Forall₂.cons ⟨F.ok, rfl, rfl, hs⟩ List.Forall₂.nil
  obtain ⟨hp, -, -⟩ := sailSet_blocks hf hset
  have hoff : OffSwitches r0.input r0.vars := flat_offSwitches F hbig hstrip hp g rho0 w0 W
  have hlev : ∀ p ∈ r0.vars, ¬ AtWaterLevel w0.profile |p.cp.z| := by
    intro p hpm
    obtain ⟨b, i, j, hb, hi, hj, rfl⟩ := PlanarBlocks.mem_vars hpm
    have hz : |(meshVars g s0.nc (FlatSail.blocks s0 θ0)[b] i j).cp.z| = FlatSail.midHeight s0 b j := by
      rw [(P.meshVars_eq g hb hi hj).2.2.1]
      simp [planePt, FlatSail.origin, leechDirection, FlatSail.midHeight]
    rw [hz]
    obtain ⟨m1, m2⟩ := F.midHeight_mem (by simpa [FlatSail.blocks] using hb) hj
    exact hlevel _ m1 m2
  obtain ⟨r0', hr0', -, hbounds⟩ := C110_solver F hbig.le hs hset hw0 hfront hrho hg
  rw [hsolved] at hr0'
  obtain rfl : r0 = r0' := Except.ok.inj hr0'
  refine ⟨r0, hcalc, fun ε hε => ?_⟩
  -- results close to numbers of one sign have that sign
  have hsign : ∃ η > 0, ∀ o, NearArrays η o r0.out → (0 < v.dot (sailNormal s0.csys.leewayDeg τ) → ∀ γ ∈ o.gamma, g * γ < 0) ∧
      (v.dot (sailNormal s0.csys.leewayDeg τ) < 0 → ∀ γ ∈ o.gamma, 0 < g * γ) := by
    have key : ∀ σ : ℝ, (∀ γ ∈ r0.out.gamma, 0 < σ * γ) → ∃ η > 0, ∀ o, NearArrays η o r0.out → ∀ γ ∈ o.gamma, 0 < σ * γ := by
      intro σ hσ
      obtain ⟨δ, d1, d2⟩ := exists_bound _ hσ
      refine ⟨δ / (2 * (|σ| + 1)), by positivity, fun o ho γ hγ => ?_⟩
      have hn := ho.gamma
      obtain ⟨k, hk, rfl⟩ := List.getElem_of_mem hγ
      obtain ⟨e1, e2⟩ := List.forall₂_iff_get.1 hn
      have h1 : |o.gamma[k] - r0.out.gamma[k]| ≤ δ / (2 * (|σ| + 1)) := e2 k hk (by rw [← e1]; exact hk)
      have h2 := d2 _ (List.getElem_mem (l := r0.out.gamma) (n := k) (by rw [← e1]; exact hk))
      have h3 : |σ * (o.gamma[k] - r0.out.gamma[k])| ≤ δ / 2 := by
        rw [abs_mul]
        calc |σ| * |o.gamma[k] - r0.out.gamma[k]| ≤ (|σ| + 1) * (δ / (2 * (|σ| + 1))) :=
              mul_le_mul (by linarith) h1 (abs_nonneg _) (by positivity)
          _ = δ / 2 := by field_simp
      have h4 := (abs_le.1 h3).1
      have e : σ * o.gamma[k] = σ * r0.out.gamma[k] + σ * (o.gamma[k] - r0.out.gamma[k]) := by ring
      rw [e]
      linarith
    rcases lt_trichotomy (v.dot (sailNormal s0.csys.leewayDeg τ)) 0 with hn | hn | hn
    · obtain ⟨η, k1, k2⟩ := key g fun γ hγ => (hbounds γ hγ).2.1 hn
      exact ⟨η, k1, fun o ho => ⟨fun h => absurd h hn.not_gt, fun _ => k2 o ho⟩⟩
    · exact ⟨1, one_pos, fun o _ => ⟨fun h => absurd h hn.not_gt, fun h => absurd h hn.not_lt⟩⟩
    · obtain ⟨η, k1, k2⟩ := key (-g) fun γ hγ => by
        have := (hbounds γ hγ).1 hn
        linarith
      exact ⟨η, k1, fun o ho => ⟨fun _ γ hγ => by
        have := k2 o ho γ hγ
        linarith, fun h => absurd h hn.not_gt⟩⟩
  obtain ⟨η, hη, hsg⟩ := hsign
  obtain ⟨u₁, p1, q1⟩ := C132_limit growth (m := 1) one_pos (ss0 := fun _ => (s0, θ0)) (fun _ => F.ok) (fun _ => rfl) (fun _ => rfl)
    (r0 := r0) (by simpa using hcalc) hoff hlev hε
  obtain ⟨u₂, p2, q2⟩ := C132_limit growth (m := 1) one_pos (ss0 := fun _ => (s0, θ0)) (fun _ => F.ok) (fun _ => rfl) (fun _ => rfl)
    (r0 := r0) (by simpa using hcalc) hoff hlev hη
  refine ⟨min u₁ u₂, lt_min p1 p2, fun u hu A hA s rho w h1 h2 h3 h4 => ?_⟩
  obtain ⟨V, o, k1, k2, k3⟩ := q1 u (hu.trans (min_le_left _ _)) A hA (fun _ => s) rho w (fun _ => ⟨h1, h2⟩) h3 h4
  obtain ⟨V', o', k1', -, k3'⟩ := q2 u (hu.trans (min_le_right _ _)) A hA (fun _ => s) rho w (fun _ => ⟨h1, h2⟩) h3 h4
  rw [k1] at k1'
  obtain ⟨rfl, rfl⟩ := Prod.mk.inj (Except.ok.inj k1')
  simp only [List.ofFn_succ, List.ofFn_zero] at k1
  exact ⟨V, o, k1, k2, k3, hsg o k3'⟩

/-- `C132_nearly_flat`, `C132_rounding` apply: a flat sail, calculated with many binary digits, has positive circulations. -/
example : ∃ r0, calculateSails [demoSail 2 [0, 0] [0.5, 0.5] none none] 2 1 1.2 (-1) ⟨60, 3, 0, .flat⟩ = .ok r0 ∧ ∃ p₀ : ℕ, ∀ p ≥ p₀,
    ∃ V o, (roundedSail (binaryRound p) (roundedSolve (binaryRound p))).calculateSails
      [demoSail 2 [0, 0] [0.5, 0.5] none none] 2 1 1.2 (-1) ⟨60, 3, 0, .flat⟩ = .ok (V, o) ∧
      List.Forall₂ (NearV 1e-6) V r0.inlet.vAppInfs ∧ NearArrays 1e-6 o r0.out ∧ ∀ γ ∈ o.gamma, 0 < γ := by
  have hn : (0 : ℝ) < V3.dot ⟨1 / 2, Real.sqrt 3 / 2, 0⟩
      (sailNormal (demoSail 2 [0, 0] [0.5, 0.5] none none).csys.leewayDeg 0) := by
    simp [V3.dot, sailNormal, demoSail]
  obtain ⟨r0, hr0, h⟩ := C132_nearly_flat (fun n => 15 * ((n : ℝ) + 1)) demoSail_flat (by norm_num [demoSail]) (by norm_num [demoSail])
    (demoWind_along (v := 3) (by norm_num) _ _) (by simp [V3.dot, leechDirection, demoSail]) (by rintro h - - ⟨c, ref, wl, h, -⟩; cases h)
    (rho0 := 1.2) (g := -1) (by norm_num) (by norm_num)
  refine ⟨r0, hr0, ?_⟩
  obtain ⟨u₀, h0, hu⟩ := h 1e-6 (by norm_num)
  obtain ⟨p₀, hp⟩ := exists_pow_lt_of_lt_one (show (0 : ℝ) < u₀ / 10 by positivity) (show (1 / 2 : ℝ) < 1 by norm_num)
  refine ⟨max p₀ 7, fun p hpp => ?_⟩
  have h1 : (1 / 2 : ℝ) ^ p ≤ (1 / 2) ^ p₀ := pow_le_pow_of_le_one (by norm_num) (by norm_num) ((le_max_left _ _).trans hpp)
  have h7 : 7 ≤ p := (le_max_right _ _).trans hpp
  have h7' : (1 / 2 : ℝ) ^ p ≤ (1 / 2) ^ 7 := pow_le_pow_of_le_one (by norm_num) (by norm_num) h7
  have hpos : (0 : ℝ) ≤ 10 * (1 / 2) ^ p := by positivity
  have z : |(0 : ℝ)| ≤ 10 * (1 / 2) ^ p := by simpa using hpos
  have hnear : ∀ xs : List ℝ, NearList (10 * (1 / 2) ^ p) xs xs := fun xs =>
    List.forall₂_same.2 fun x _ => by rw [sub_self]; exact z
  have hlit : (0.5 : ℝ) ≤ binaryRound p 0.9 := by
    have := (binaryRound_machine h7).near 0.9 (by
      rw [abs_of_pos (by norm_num), le_div_iff₀ (by positivity)]
      have : ((1 / 2 : ℝ) ^ p) ^ 2 ≤ 1 := by nlinarith [show (0 : ℝ) < (1 / 2) ^ p by positivity]
      linarith)
    rw [abs_of_pos (show (0 : ℝ) < 0.9 by norm_num)] at this
    have h2 := (abs_le.1 this).1
    nlinarith [show (0 : ℝ) < (1 / 2) ^ p by positivity]
  obtain ⟨V, o, k1, k2, k3, k4, -⟩ := hu (10 * (1 / 2) ^ p) (by linarith) _
    (C132_rounding (binaryRound_machine h7) (binaryRound_zero p) (fun _ => le_rfl)
      (BackwardStable.mono (fun n => by have : (0 : ℝ) ≤ n := Nat.cast_nonneg n; linarith) hpos (C128_stable_routine h7)))
    (demoSail 2 [0, 0] [0.5, 0.5] none none) 1.2 ⟨60, 3, 0, .flat⟩
    ⟨rfl, rfl, rfl, nearV_refl hpos _, nearV_refl hpos _, by rw [sub_self]; exact z, by rw [sub_self]; exact z, hnear _, hnear _, hnear _,
      Option.Rel.none⟩
    ⟨by
      intro x hx
      simp only [demoSail, List.mem_cons, List.not_mem_nil, or_false, or_self] at hx
      subst hx
      exact ⟨le_rfl, (binaryRound_machine h7).nonneg _ (by norm_num)⟩, by
      intro x hx
      simp only [demoSail, List.mem_cons, List.not_mem_nil, or_false, or_self] at hx
      subst hx
      exact hlit⟩ (by rw [sub_self]; exact z)
    ⟨rfl, by rw [sub_self]; exact z, by rw [sub_self]; exact z, by rw [sub_self]; exact z⟩
  exact ⟨V, o, k1, k2, k3, fun γ hγ => by
    have := k4 hn γ hγ
    linarith⟩

end PySailing.Props
