import Verif.Lemmas.Rounded
import Verif.Props.Lattice
import Verif.Props.PlaneSailBounds
import Mathlib.Analysis.Real.Pi.Bounds

/-!
# C125: rounded arithmetic
-/

namespace PySailing.Props

open PySailing PySailing.Spec

/-- The winds at the pressure points of the results `r`. -/
noncomputable abbrev windsOf (r : Vlm) : Fin r.vars.length → V3 := fun i => r.inlet.vAppInfs.getD i 0

/-- The routines `R` are accurate on the lattice of the results `r`. -/
abbrev AccurateOn (R : Routines) (r : Vlm) (η₁ η₂ η₃ : ℝ) : Prop :=
  Accurate R (fun i : Fin r.vars.length => r.vars[i]) (fun i => r.input.te.getD i false) r.input.g (windsOf r) η₁ η₂ η₃

/-- The lattice of the results `r` is stable. -/
abbrev StableOn (r : Vlm) (C : ℝ) : Prop :=
  Stable (fun i : Fin r.vars.length => r.vars[i]) (fun i => r.input.te.getD i false) r.input.g (windsOf r) C

/-- **C125.** Whatever the routines, if they are accurate up to `η₁`, `η₂`, `η₃` and their circulations pass the check of the
program, the circulations differ from the exact ones by at most `C (1e-12 + η₂ + η₃ + η₁ Σ|γ|)`. -/
theorem C125_rounded {a : VlmInput} {r : Vlm} (hr : vlm a = .ok r) {R : Routines} {η₁ η₂ η₃ C : ℝ}
    (hA : AccurateOn R r η₁ η₂ η₃) (hC : StableOn r C) {γ : List ℝ} (h : circulationsBy R a = .ok γ) :
    γ.length = r.vars.length ∧
    ∀ k < r.vars.length, |γ.getD k 0 - (List.ofFn r.sol.gamma).getD k 0| ≤
      C * (1e-12 + η₂ + η₃ + η₁ * (γ.map fun x => |x|).sum) := by
  have hn := fun i => (C42_pressure a r hr i).2.2.1
  obtain ⟨rfl, -, h1, h2, h3⟩ := (vlm_ok_iff _ _).1 hr
  obtain ⟨hw, -, hsol⟩ := (vlmCore_ok_iff _ _ _ _ _ _ _ _ _).1 h3
  unfold circulationsBy at h
  rw [h1] at h
  simp only [nanTrap, bind, Except.bind] at h
  rw [h2] at h
  simp only at h
  cases hs : solveLatticeBy R (fun i : Fin r.vars.length => r.vars[i]) (fun i => (getPanelsArea r.input.panels).getD i 0)
    (fun i => r.input.te.getD i false) r.input.g (fun i => r.inlet.vAppInfs.getD i 0) with
  | error e => rw [hs] at h; cases h
  | ok γ' =>
    rw [hs] at h
    simp only at h
    injection h with h
    subst h
    refine ⟨List.length_ofFn, fun k hk => ?_⟩
    have hflow := accurate_flow hA hn hs
    have hex := influence_mulVec_coreGamma hw.regular
    have hd := hC (γ' - coreGamma (fun i : Fin r.vars.length => r.vars[i]) (fun i => r.input.te.getD i false) r.input.g (windsOf r))
      _ (fun i => by
        have h0 := hflow i
        have e := congrFun hex i
        rw [V3.dot_add_left, latticeVelocity_dot] at h0
        rw [latticeVelocity_dot, Matrix.mulVec_sub, Pi.sub_apply, e, sub_neg_eq_add, add_comm]
        exact h0) ⟨k, hk⟩
    have hsum : ((List.ofFn γ').map fun x => |x|).sum = ∑ j, |γ' j| := by
      rw [List.map_ofFn, List.sum_ofFn]
      rfl
    rw [hsum, hsol, List.getD_eq_getElem?_getD, List.getD_eq_getElem?_getD, List.getElem?_ofFn, List.getElem?_ofFn, dif_pos hk, dif_pos hk]
    exact hd

/-- **C125.** If moreover the exact circulations are at most `B` and the errors of the coefficients are small against the
stability of the lattice, a bound known before the calculation. -/
theorem C125_a_priori {a : VlmInput} {r : Vlm} (hr : vlm a = .ok r) {R : Routines} {η₁ η₂ η₃ C B : ℝ} (h1 : 0 ≤ η₁)
    (h2 : 0 ≤ η₂) (h3 : 0 ≤ η₃) (hA : AccurateOn R r η₁ η₂ η₃) (hC0 : 0 ≤ C) (hC : StableOn r C)
    (hB : ∀ γ ∈ List.ofFn r.sol.gamma, |γ| ≤ B) (hsmall : C * η₁ * r.vars.length ≤ 1 / 2) {γ : List ℝ}
    (h : circulationsBy R a = .ok γ) : ∀ k < r.vars.length, |γ.getD k 0 - (List.ofFn r.sol.gamma).getD k 0| ≤
      2 * C * (1e-12 + η₂ + η₃ + η₁ * r.vars.length * B) := by
  obtain ⟨hlen, hk⟩ := C125_rounded hr hA hC h
  set E := C * (1e-12 + η₂ + η₃ + η₁ * (γ.map fun x => |x|).sum) with hE
  have hmem : ∀ k < r.vars.length, |(List.ofFn r.sol.gamma).getD k 0| ≤ B := by
    intro k hk
    apply hB
    rw [List.getD_eq_getElem?_getD, List.getElem?_ofFn, dif_pos hk]
    exact List.mem_ofFn.2 ⟨⟨k, hk⟩, rfl⟩
  have hsum : (γ.map fun x => |x|).sum ≤ r.vars.length * (B + E) := by
    have : ∀ x ∈ γ.map fun x => |x|, x ≤ B + E := by
      intro x hx
      obtain ⟨y, hy, rfl⟩ := List.mem_map.1 hx
      obtain ⟨k, hk', rfl⟩ := List.getElem_of_mem hy
      have e1 := hk k (hlen ▸ hk')
      have e2 := hmem k (hlen ▸ hk')
      rw [List.getD_eq_getElem?_getD, List.getElem?_eq_getElem hk', Option.getD_some] at e1
      have := abs_add_le (γ[k] - (List.ofFn r.sol.gamma).getD k 0) ((List.ofFn r.sol.gamma).getD k 0)
      rw [sub_add_cancel] at this
      linarith
    have := List.sum_le_card_nsmul _ _ this
    rw [List.length_map, hlen, nsmul_eq_mul] at this
    exact this
  have hE2 : E ≤ 2 * C * (1e-12 + η₂ + η₃ + η₁ * r.vars.length * B) := by
    have e : E ≤ C * (1e-12 + η₂ + η₃ + η₁ * (r.vars.length * (B + E))) := by
      rw [hE]
      gcongr
    have hE0 : 0 ≤ E := by
      have : 0 ≤ (γ.map fun x => |x|).sum := List.sum_nonneg fun x hx => by
        obtain ⟨y, -, rfl⟩ := List.mem_map.1 hx
        exact abs_nonneg _
      rw [hE]
      positivity
    nlinarith [mul_le_mul_of_nonneg_right hsmall hE0]
  exact fun k hk' => (hk k hk').trans hE2

/-- **C125.** Every lattice for which the exact calculation returns is stable with some constant. -/
theorem C125_stable {a : VlmInput} {r : Vlm} (hr : vlm a = .ok r) : ∃ C, 0 ≤ C ∧ StableOn r C := by
  obtain ⟨rfl, -, -, -, h3⟩ := (vlm_ok_iff _ _).1 hr
  obtain ⟨hw, -, -⟩ := (vlmCore_ok_iff _ _ _ _ _ _ _ _ _).1 h3
  exact ⟨_, Finset.sum_nonneg fun _ _ => Finset.sum_nonneg fun _ _ => abs_nonneg _, stable_of_regular hw.regular⟩

/-- **C125.** The lattice of a flat sail (those of C123) is stable with the constant `4π R / |g|`, however fine the mesh. -/
theorem C125_sail_stable {s : SailInput} {θ : ℕ → ℝ} {chord : ℝ → ℝ} {τ X : ℝ} {u : V3}
    (F : SailInWind s θ chord τ (u.dot (leechDirection s.csys.leewayDeg τ))) (hX : Overhang s chord X) {sail : SailGeom}
    (hs : sailGeometry s = .ok sail) {set : SailSet} (hset : sailSet [sail] = .ok set) {w : WindObj} {M : ℝ}
    (hw : WindAlong w u M s.tack.z s.head.z) {rho g : ℝ} (hrho : 0 < rho) (hg : g ≠ 0) {r : Vlm}
    (hr : vlm ⟨set.panels, s.nc, s.ns, rho, w, set.te, set.le, g⟩ = .ok r) : StableOn r (4 * Real.pi * reach s X / |g|) := by
  obtain ⟨F, hfit⟩ := suits F
  obtain ⟨hu1, huz, hwind⟩ := hw
  choose! W l hW hl hM hWl using hwind
  rw [F.solved hs hset hu1 huz hW hWl hl hfit hrho.ne' hg] at hr
  injection hr with hr
  subst hr
  have hf' : List.Forall₂ (BuiltFrom s.nc s.ns) [(s, θ)] [sail] := List.Forall₂.cons ⟨F.ok, rfl, rfl, hs⟩ List.Forall₂.nil
  obtain ⟨-, hte, -⟩ := sailSet_blocks hf' hset
  have hte' : set.te = trailingFlags s.nc s.ns (FlatSail.blocks s θ).length := hte
  intro (γ : Fin (PlanarBlocks.vars g s.nc s.ns (FlatSail.blocks s θ)).length → ℝ) δ hδ i
  have hδ0 := (abs_nonneg _).trans (hδ i)
  have := (F.tapered.lattice g).small (V := FlatSail.winds g rho s θ w W) (F.speeds_mem g (p := fun x => 0 < x) hl)
    (F.winds_speed g rho hu1 huz hWl) (FlatSail.decompose hu1 huz _ _).2 hfit (F.over hX) (g := g) (x := γ) hδ0 (fun k => by
      rw [← latticeVelocity_dot]
      have := hδ k
      simp only [FlatSail.result, hte'] at this
      exact this) i
  rw [PlaneSail.rowMin_eq, abs_mul] at this
  rw [div_mul_eq_mul_div, le_div_iff₀ (abs_pos.2 hg), mul_comm]
  exact this

/-- **C125**, flat sails, with everything explicit: the circulations computed by rounded routines differ from the exact ones by
at most `8π R/|g| · (1e-12 + η₂ + η₃ + η₁ · N · 4π R M sin α/|g|)`, where `N` is the number of panels. -/
theorem C125_sail {s : SailInput} {θ : ℕ → ℝ} {chord : ℝ → ℝ} {τ X : ℝ} {u : V3}
    (F : SailInWind s θ chord τ (u.dot (leechDirection s.csys.leewayDeg τ))) (hX : Overhang s chord X) {sail : SailGeom}
    (hs : sailGeometry s = .ok sail) {set : SailSet} (hset : sailSet [sail] = .ok set) {w : WindObj} {M : ℝ}
    (hw : WindAlong w u M s.tack.z s.head.z) {rho g : ℝ} (hrho : 0 < rho) (hg : g ≠ 0) {r : Vlm}
    (hr : vlm ⟨set.panels, s.nc, s.ns, rho, w, set.te, set.le, g⟩ = .ok r) {R : Routines} {η₁ η₂ η₃ : ℝ} (h1 : 0 ≤ η₁)
    (h2 : 0 ≤ η₂) (h3 : 0 ≤ η₃) (hA : AccurateOn R r η₁ η₂ η₃)
    (hsmall : 4 * Real.pi * reach s X / |g| * η₁ * r.vars.length ≤ 1 / 2) {γ : List ℝ}
    (h : circulationsBy R ⟨set.panels, s.nc, s.ns, rho, w, set.te, set.le, g⟩ = .ok γ) :
    ∀ k < r.vars.length, |γ.getD k 0 - (List.ofFn r.sol.gamma).getD k 0| ≤ 2 * (4 * Real.pi * reach s X / |g|) *
      (1e-12 + η₂ + η₃ + η₁ * r.vars.length * (4 * Real.pi * reach s X * (M * |u.dot (sailNormal s.csys.leewayDeg τ)|) / |g|)) := by
  have h0 : 0 ≤ reach s X := by
    have := (suits F).1.head_pos
    unfold reach
    positivity
  have hpi := Real.pi_pos
  exact C125_a_priori hr h1 h2 h3 hA (by positivity) (C125_sail_stable F hX hs hset hw hrho hg hr)
    (C123_bound F hX hs hset hw hrho hg hr).1 hsmall h

/-- The exact routines, with the flow through the panels rounded by `f`. -/
noncomputable def fluxRounded (f : ℝ → ℝ) : Routines := { exactRoutines with flux := fun _ v n i => f (-((v i).dot (n i))) }

theorem fluxRounded_ok {a : VlmInput} {r : Vlm} (hr : vlm a = .ok r) {f : ℝ → ℝ} (hf0 : f 0 = 0) {η : ℝ} (hf : ∀ x, |f x - x| ≤ η) :
    circulationsBy (fluxRounded f) a = .ok (List.ofFn r.sol.gamma) ∧ AccurateOn (fluxRounded f) r 0 0 η := by
  obtain ⟨rfl, -, h1, h2, h3⟩ := (vlm_ok_iff _ _).1 hr
  obtain ⟨hw, -, hsol⟩ := (vlmCore_ok_iff _ _ _ _ _ _ _ _ _).1 h3
  have hdef := (coefsDefined_iff _ _ _ _).2 hw.ctr
  have hcoef : (fluxRounded f).coefs r.vars.length (fun i => r.vars[i]) (fun i => r.input.te.getD i false) (windsOf r) r.input.g =
      .ok (fun i j => (velCoef (fun i : Fin r.vars.length => r.vars[i]) (fun i => r.input.te.getD i false) (windsOf r) r.input.g
        (r.vars[i]).ctrP j).dot (r.vars[i]).normal,
      fun i j => velCoef (fun i : Fin r.vars.length => r.vars[i]) (fun i => r.input.te.getD i false) (windsOf r) r.input.g
        (r.vars[i]).ctrP j) := by
    simp only [fluxRounded, exactRoutines, calcVelocityCoefs]
    rw [if_pos hdef]
    rfl
  constructor
  · unfold circulationsBy
    rw [h1]
    simp only [nanTrap, bind, Except.bind]
    rw [h2]
    simp only
    unfold solveLatticeBy
    rw [hcoef]
    simp only [bind, Except.bind]
    rw [influence_matrix]
    have hsolve : (fluxRounded f).solve r.vars.length (influence (fun i : Fin r.vars.length => r.vars[i]) (fun i => r.input.te.getD i false)
        (windsOf r) r.input.g) ((fluxRounded f).rhs r.vars.length (windsOf r) fun i => (r.vars[i]).normal) = .ok r.sol.gamma := by
      simp only [fluxRounded, exactRoutines, solveEq]
      rw [if_neg hw.regular, hsol]
      rfl
    rw [hsolve]
    simp only
    rw [if_neg (fun ⟨i, hi⟩ => absurd (hw.areas i) (not_le.2 hi)), if_neg]
    rintro ⟨i, hi⟩
    have e := congrFun (influence_mulVec_coreGamma hw.regular) i
    have hγ : r.sol.gamma = coreGamma (fun i : Fin r.vars.length => r.vars[i]) (fun i => r.input.te.getD i false) r.input.g (windsOf r) := by
      rw [hsol]
      rfl
    rw [← latticeVelocity_dot, ← hγ] at e
    simp only [fluxRounded, exactRoutines, calculateAppFs, calcInducedVelocity] at hi
    rw [← latticeVelocity_eq, V3.dot_add_left, e, add_neg_cancel, neg_zero, hf0, abs_zero] at hi
    norm_num at hi
  · have hone : ∀ i j : Fin r.vars.length, latticeVelocity (fun i : Fin r.vars.length => r.vars[i]) (fun i => r.input.te.getD i false) (windsOf r) r.input.g
        (Pi.single j 1) (r.vars[i]).ctrP = velCoef (fun i : Fin r.vars.length => r.vars[i]) (fun i => r.input.te.getD i false) (windsOf r)
        r.input.g (r.vars[i]).ctrP j := by
      intro i j
      rw [latticeVelocity_eq, Finset.sum_eq_single j]
      · simp
      · intro k _ hk
        rw [Pi.single_eq_of_ne hk, zero_smul]
      · simp
    refine ⟨fun c hc i j => ?_, fun c γ hc _ i => ?_, fun c γ hc _ i => ?_⟩
    · rw [hcoef] at hc
      injection hc with hc
      subst hc
      simp only
      rw [hone, sub_self]
      simp [V3.norm, V3.dot]
    · simp [fluxRounded, exactRoutines, calculateAppFs, calcInducedVelocity, V3.norm, V3.dot]
    · have := hf (-(((fluxRounded f).appFs _ (windsOf r) c.2 γ i).dot (r.vars[i]).normal))
      rw [sub_neg_eq_add] at this
      exact this

/-- **C125.** With the exact routines this is the calculation of the other properties, and they are accurate. -/
theorem C125_exact {a : VlmInput} {r : Vlm} (hr : vlm a = .ok r) :
    circulationsBy exactRoutines a = .ok (List.ofFn r.sol.gamma) ∧ AccurateOn exactRoutines r 0 0 0 :=
  fluxRounded_ok hr (f := id) rfl (by simp)

/-- Non-vacuity of C125: the sail of C120 in a wind of 5 m/s, with the flow through the panels rounded down to multiples of
`10⁻¹⁶`: the calculation returns, is accurate, and the bound is below `10⁻⁹`. -/
example : ∃ sail set r γ, sailGeometry demoTaper = .ok sail ∧ sailSet [sail] = .ok set ∧
    vlm ⟨set.panels, 1, 2, 1.2, ⟨60, 5, 0, .flat⟩, set.te, set.le, -1⟩ = .ok r ∧ 0 < r.vars.length ∧
    circulationsBy (fluxRounded fun x => ⌊x * 10 ^ 16⌋ / 10 ^ 16) ⟨set.panels, 1, 2, 1.2, ⟨60, 5, 0, .flat⟩, set.te, set.le, -1⟩ = .ok γ ∧
    AccurateOn (fluxRounded fun x => ⌊x * 10 ^ 16⌋ / 10 ^ 16) r 0 0 (1 / 10 ^ 16) ∧
    ∀ k < r.vars.length, |γ.getD k 0 - (List.ofFn r.sol.gamma).getD k 0| ≤ 1e-9 := by
  have F := demoTaper_tapered
  obtain ⟨sail, hs, -⟩ := sailGeometry_ok F.ok
  obtain ⟨set, hset⟩ : ∃ set, sailSet [sail] = .ok set := by
    unfold sailSet
    rw [if_neg (by simp)]
    exact ⟨_, rfl⟩
  have h0 : (0 : ℝ) ≤ V3.dot ⟨1 / 2, Real.sqrt 3 / 2, 0⟩ (leechDirection demoTaper.csys.leewayDeg 0) := by
    simp [V3.dot, leechDirection, demoTaper]
  have w := demoWind_along (v := 5) (by norm_num) demoTaper.tack.z demoTaper.head.z
  have F' : SailInWind demoTaper (fun _ => 0) (fun z => (5 - z) / 2) 0 _ := Or.inl ⟨F, h0⟩
  obtain ⟨r, hr, hlen, -⟩ := C120_solver F hs hset w h0 (rho := 1.2) (g := -1) (by norm_num) (by norm_num)
  rw [List.length_ofFn] at hlen
  obtain ⟨hc, hA⟩ := fluxRounded_ok hr (f := fun x => ⌊x * 10 ^ 16⌋ / 10 ^ 16) (by simp) (η := 1 / 10 ^ 16) (fun x => by
    have h1 := Int.floor_le (x * 10 ^ 16)
    have h2 := Int.lt_floor_add_one (x * 10 ^ 16)
    rw [abs_le]
    constructor
    · have : x - 1 / 10 ^ 16 ≤ ⌊x * 10 ^ 16⌋ / 10 ^ 16 := by rw [le_div_iff₀ (by norm_num), sub_mul, div_mul_cancel₀ _ (by norm_num)]; linarith
      linarith
    · have : (⌊x * 10 ^ 16⌋ : ℝ) / 10 ^ 16 ≤ x := by rw [div_le_iff₀ (by norm_num)]; exact h1
      linarith [show (0 : ℝ) ≤ 1 / 10 ^ 16 by norm_num])
  refine ⟨sail, set, r, _, hs, hset, hr, by rw [hlen]; norm_num [demoTaper], hc, hA, ?_⟩
  intro k hk
  refine (C125_sail F' demoTaper_overhang hs hset w (by norm_num) (by norm_num) hr le_rfl le_rfl (by norm_num) hA (by norm_num) hc k hk).trans ?_
  have hpi := Real.pi_lt_d2
  have hpi0 := Real.pi_pos
  have hR : reach demoTaper 1.25 ≤ 20 := by norm_num [reach, demoTaper]
  have hR0 : 0 ≤ reach demoTaper 1.25 := by norm_num [reach, demoTaper]
  have h1 : 4 * Real.pi * reach demoTaper 1.25 ≤ 4 * 3.15 * 20 := by
    have := mul_le_mul hpi.le hR hR0 (by norm_num)
    nlinarith
  norm_num
  nlinarith

end PySailing.Props
