import Verif.Props.Solver
import Verif.Props.Sail
import Verif.Lemmas.SailBlocks

/-!
# C33, C34, C35, C42, C58: the lattice of a sail set and the forces on it
-/

namespace PySailing.Props

open PySailing PySailing.Spec

/-! ## C33 -/

/-- **C33.** For any positive grid size and any number of meshed blocks with the trailing edge flags
of the mesher, `calculate_vlm_variables` never raises (it yields `nan` exactly if a panel has parallel
diagonals), and the lattice is watertight: the rear edge of each ring is the bound vortex of the next
panel downstream in the same block, rings of neighbours in spanwise direction share an edge, and
rings of the last row end a quarter chord behind the trailing edge. -/
theorem C33_watertight (g : ℝ) (nc ns : ℕ) (hnc : 0 < nc) (hns : 0 < ns)
    (blocks : List (ℕ → ℕ → V3)) (hne : blocks ≠ []) :
    ((∃ q ∈ blockPanels nc ns blocks, V3.cross (q.p3 - q.p1) (q.p4 - q.p2) = 0) ∧
      calculateVlmVariables (blockPanels nc ns blocks) (trailingFlags nc ns blocks.length) g nc ns =
        .error .nonFinite) ∨
    ∃ vars, calculateVlmVariables (blockPanels nc ns blocks) (trailingFlags nc ns blocks.length)
        g nc ns = .ok vars ∧
      vars.length = blocks.length * (nc * ns) ∧
      ∀ b i j (hb : b < blocks.length), i < nc → j < ns →
        ∃ v, vars[panelNo nc ns b i j]? = some v ∧
        (i + 1 < nc → ∃ w, vars[panelNo nc ns b (i + 1) j]? = some w ∧
          v.ring.A = w.ring.B ∧ v.ring.D = w.ring.C) ∧
        (j + 1 < ns → ∃ w, vars[panelNo nc ns b i (j + 1)]? = some w ∧
          v.ring.C = w.ring.B ∧ v.ring.D = w.ring.A) ∧
        (i + 1 = nc →
          v.ring.A = lerp (blocks[b] j i) (blocks[b] j (i + 1)) (5 / 4) ∧
          v.ring.D = lerp (blocks[b] (j + 1) i) (blocks[b] (j + 1) (i + 1)) (5 / 4)) := by
  classical
  have hcalc := calculateVlmVariables_blocks g hnc hns blocks hne
  by_cases hdeg : ∃ q ∈ blockPanels nc ns blocks, normalRaw q = 0
  · left
    exact ⟨hdeg, by rw [hcalc, if_pos hdeg]⟩
  right
  rw [if_neg hdeg] at hcalc
  refine ⟨_, hcalc, ?_, ?_⟩
  · rw [length_flatten_eq (n := nc * ns) _ (by
      intro l hl
      obtain ⟨p, -, rfl⟩ := List.mem_map.1 hl
      exact grid_length nc ns _), List.length_map]
  · intro b i j hb hi hj
    refine ⟨_, blocks_get blocks (meshVars g nc) hb hi hj, ?_, ?_, ?_⟩
    · intro h
      refine ⟨_, blocks_get blocks (meshVars g nc) hb h hj, ?_, ?_⟩ <;>
      · unfold meshVars
        rw [if_neg h.ne]
        split <;> rfl
    · intro h
      refine ⟨_, blocks_get blocks (meshVars g nc) hb hi h, ?_, ?_⟩ <;>
      · unfold meshVars
        split <;> simp [panelVars, quarterB, quarterC, panelOf, behindA, behindD]
    · intro h
      unfold meshVars
      rw [if_pos h]
      simp only [panelVars, behindA, behindD, panelOf]
      constructor <;> · ext <;> simp [lerp] <;> ring

/-- **C33**, for sail sets: the panels and flags of a `SailSet` made of any number of sails built by
`SailGeometry` with the same grid size are of this form, one block per sail above the water followed by
one block per mirrored sail. -/
theorem C33_sail_set (nc ns : ℕ) (ss : List (SailInput × (ℕ → ℝ))) (sails : List SailGeom)
    (h : List.Forall₂ (BuiltFrom nc ns) ss sails) (set : SailSet)
    (hs : sailSet sails = .ok set) :
    ∃ blocks : List (ℕ → ℕ → V3), blocks.length = 2 * sails.length ∧
      set.panels = blockPanels nc ns blocks ∧
      set.te = trailingFlags nc ns blocks.length ∧ set.le = leadingFlags nc ns blocks.length ∧
      0 < nc ∧ 0 < ns ∧ blocks ≠ [] := by
  have hl := h.length_eq
  obtain ⟨h1, h2, h3⟩ := sailSet_blocks h hs
  have hbl : (ss.map abovePoints ++ ss.map underPoints).length = 2 * ss.length := by
    simp [two_mul]
  refine ⟨_, by rw [hbl, hl], h1, by rw [hbl]; exact h2, by rw [hbl]; exact h3, ?_⟩
  cases h with
  | nil => unfold sailSet at hs; rw [if_pos rfl] at hs; cases hs
  | cons hb _ =>
    obtain ⟨hok, rfl, rfl, -⟩ := hb
    exact ⟨hok.nc_pos, hok.ns_pos, by simp⟩

/-- Two sails of two by one panels form a sail set as in `C33_sail_set`. -/
example : ∃ ss sails set, List.Forall₂ (BuiltFrom 2 1) ss sails ∧ sails.length = 2 ∧
    sailSet sails = .ok set := by
  have hok : SailOk (demoSail 2 [0.1, 0.1] [0.5, 0.25] none none) (fun _ => 0) := by
    apply demoSail_ok <;> first | exact twistOk_none _ _ _ _ | norm_num
  obtain ⟨g, hg, -⟩ := sailGeometry_ok hok
  have hb : BuiltFrom 2 1 (demoSail 2 [0.1, 0.1] [0.5, 0.25] none none, fun _ => 0) g :=
    ⟨hok, rfl, rfl, hg⟩
  have hset : ∃ set, sailSet [g, g] = .ok set := by
    unfold sailSet; rw [if_neg (by simp)]; exact ⟨_, rfl⟩
  obtain ⟨set, hs⟩ := hset
  exact ⟨[_, _], [g, g], set, .cons hb (.cons hb .nil), rfl, hs⟩

/-! ## C34 -/

/-- The vectors of the velocity that a force is computed with: apparent wind for `lift`, induced
velocity for `drag`, sum of both for `force_xyz`. -/
noncomputable def forceVelocity {K : ℕ} (name : String) (V vInd vFs : Fin K → V3) : Fin K → V3 :=
  if name = "lift" then V else if name = "drag" then vInd else vFs

/-- **C34.** With the leading edge flags of a meshed sail set, `calc_force_wrapper` never raises an
`IndexError`; the force on a panel of the first chordwise row is computed with its own circulation; the
force on every other panel with the difference to the panel directly upstream in the same block, whose
number `k - n_spanwise` is not negative. -/
theorem C34_upstream {K : ℕ} (nc ns n : ℕ) (hnc : 0 < nc) (hns : 0 < ns) (hn : 0 < n)
    (hK : K = n * (nc * ns)) (L : Fin K → PanelVars) (te : Fin K → Bool) (rho g : ℝ)
    (V : Fin K → V3) (γ : Fin K → ℝ) (name : String) :
    calcForceWrapper L te (fun i => (leadingFlags nc ns n).getD i false) ns rho g V γ name ≠
      .error .indexError ∧
    ∀ f vFs vInd, calcForceWrapper L te (fun i => (leadingFlags nc ns n).getD i false) ns rho g V γ
        name = .ok (f, vFs, vInd) →
      ∀ b i j, b < n → i < nc → j < ns → ∀ k : Fin K, k.val = panelNo nc ns b i j →
        (i = 0 → f k = rho • V3.cross (forceVelocity name V vInd vFs k) (γ k • (L k).span)) ∧
        (0 < i → ns ≤ k.val ∧ ∃ k' : Fin K, k'.val = k.val - ns ∧
          k'.val = panelNo nc ns b (i - 1) j ∧
          f k = rho • V3.cross (forceVelocity name V vInd vFs k) ((γ k - γ k') • (L k).span)) := by
  by_cases hname : name = "lift" ∨ name = "drag" ∨ name = "force_xyz"
  swap
  · have : calcForceWrapper L te (fun i => (leadingFlags nc ns n).getD i false) ns rho g V γ name =
        .error (.sysExit 0) := by unfold calcForceWrapper; rw [if_pos hname]
    rw [this]
    exact ⟨by simp, by intro f vFs vInd h; cases h⟩
  rw [calcForceWrapper_eq _ _ _ _ _ _ _ _ _ hname]
  by_cases hc : clearOfWakes L te V (fun i => (L i).cp)
  swap
  · rw [if_pos hc]
    exact ⟨by simp, by intro f vFs vInd h; cases h⟩
  rw [if_neg (by simpa using hc), if_neg (by simpa using indexOk_flags hnc hn hK)]
  refine ⟨by simp, ?_⟩
  intro f vFs vInd h b i j hb hi hj k hk
  simp only [Except.ok.injEq, Prod.mk.injEq] at h
  obtain ⟨rfl, rfl, rfl⟩ := h
  refine ⟨fun h0 => ?_, fun h0 => ?_⟩
  · subst h0
    simp only [panelForce]
    rw [gammaForForce_first hK γ hb hi hj k hk]
    rfl
  · obtain ⟨i, rfl⟩ : ∃ m, i = m + 1 := ⟨i - 1, by omega⟩
    have hk' := hk
    rw [panelNo_pred] at hk'
    have hlt : panelNo nc ns b i j < K := by have := k.isLt; omega
    refine ⟨by omega, ⟨panelNo nc ns b i j, hlt⟩, by simp only; omega, rfl, ?_⟩
    simp only [panelForce]
    rw [gammaForForce_next hK γ hb hi hj k ⟨_, hlt⟩ hk rfl]
    rfl

/-- A strip of `nc` equal panels one behind the other, with a wind along the strip. -/
noncomputable def demoStrip (k : ℕ) : PanelVars :=
  panelVars (-1) ⟨⟨k + 1, 0, 0⟩, ⟨k, 0, 0⟩, ⟨k, 0, 1⟩, ⟨k + 1, 0, 1⟩⟩
    ⟨k + 5 / 4, 0, 0⟩ ⟨k + 5 / 4, 0, 1⟩

theorem demoStrip_clear (nc : ℕ) : clearOfWakes (fun i : Fin nc => demoStrip i)
    (fun i => decide (i.val + 1 = nc)) (fun _ => ⟨1, 0, 0⟩) (fun i => (demoStrip i).cp) := by
  intro i j _
  refine ⟨fun h => by simpa using congrArg V3.x h, fun s hs => ⟨fun h => ?_, fun h => ?_⟩⟩
  · have := congrArg V3.z h
    simp [demoStrip, panelVars] at this
  · have := congrArg V3.z h
    simp [demoStrip, panelVars] at this

/-- Non-vacuity of `C34_upstream`: the force computation returns for a strip of three panels and
any circulations. -/
example (γ : Fin 3 → ℝ) : ∃ x, calcForceWrapper (fun i : Fin 3 => demoStrip i)
    (fun i => decide (i.val + 1 = 3)) (fun i => (leadingFlags 3 1 1).getD i false) 1 1.2 (-1)
    (fun _ => ⟨1, 0, 0⟩) γ "lift" = .ok x := by
  rw [calcForceWrapper_eq _ _ _ _ _ _ _ _ _ (.inl rfl),
    if_neg (by simpa using demoStrip_clear 3),
    if_neg (by simpa using indexOk_flags (nc := 3) (ns := 1) (n := 1) (by norm_num) (by norm_num) rfl)]
  exact ⟨_, rfl⟩

/-- **C34**, for `Vlm` objects of meshed sail sets. -/
theorem C34_vlm (a : VlmInput) (r : Vlm) (h : vlm a = .ok r) (n : ℕ) (hnc : 0 < a.nc)
    (hns : 0 < a.ns) (hn : 0 < n) (hlen : a.panels.length = n * (a.nc * a.ns))
    (hle : a.le = leadingFlags a.nc a.ns n) (b i j : ℕ) (hb : b < n) (hi : i < a.nc)
    (hj : j < a.ns) (k : Fin r.vars.length) (hk : k.val = panelNo a.nc a.ns b i j) :
    (i = 0 → r.sol.force k =
      a.rho • V3.cross (r.sol.vFsCp k) (r.sol.gamma k • (r.vars[k]).span)) ∧
    (0 < i → ∃ k' : Fin r.vars.length, k'.val = panelNo a.nc a.ns b (i - 1) j ∧
      r.sol.force k =
        a.rho • V3.cross (r.sol.vFsCp k) ((r.sol.gamma k - r.sol.gamma k') • (r.vars[k]).span)) := by
  obtain ⟨rfl, -, hv, -, hs⟩ := (vlm_ok_iff a r).1 h
  obtain ⟨hw, -, hsol⟩ := (vlmCore_ok_iff _ _ _ _ _ _ _ _ _).1 hs
  have hK : r.vars.length = n * (r.input.nc * r.input.ns) := by
    rw [(calculateVlmVariables_ok hv).1, hlen]
  have := (C34_upstream r.input.nc r.input.ns n hnc hns hn hK (fun i => r.vars[i])
    (fun i => r.input.te.getD i false) r.input.rho r.input.g (fun i => r.inlet.vAppInfs.getD i 0)
    r.sol.gamma "force_xyz").2 r.sol.force r.sol.vFsCp r.sol.vIndCp (by
      rw [calcForceWrapper_eq _ _ _ _ _ _ _ _ _ (by simp), if_neg (by simpa using hw.cp),
        if_neg (by simpa using indexOk_flags hnc hn hK), hsol]
      simp only [solOf, hle]
      rfl) b i j hb hi hj k hk
  refine ⟨this.1, fun h0 => ?_⟩
  obtain ⟨-, k', -, h1, h2⟩ := this.2 h0
  exact ⟨k', h1, h2⟩

/-! ## C35 -/

/-- **C35.** Whenever `Vlm` returns, panel by panel: the force is lift plus drag; the velocity it is
computed with is the apparent wind plus the induced velocity at the pressure point; lift is orthogonal
to the apparent wind, drag to the induced velocity, the force to the total velocity, and all three to
the bound vortex. -/
theorem C35_decomposition (a : VlmInput) (r : Vlm) (h : vlm a = .ok r) (i : Fin r.vars.length) :
    r.sol.force i = r.sol.lift i + r.sol.drag i ∧
    r.sol.vIndCp i = inducedBy r r.sol.gamma (r.vars[i]).cp ∧
    r.sol.vFsCp i = windAt r i + r.sol.vIndCp i ∧
    (r.sol.lift i).dot (windAt r i) = 0 ∧ (r.sol.drag i).dot (r.sol.vIndCp i) = 0 ∧
    (r.sol.force i).dot (r.sol.vFsCp i) = 0 ∧
    ∀ f ∈ [r.sol.lift i, r.sol.drag i, r.sol.force i],
      f.dot ((r.vars[i]).ring.C - (r.vars[i]).ring.B) = 0 := by
  obtain ⟨rfl, -, hv, -, hs⟩ := (vlm_ok_iff a r).1 h
  obtain ⟨-, -, hsol⟩ := (vlmCore_ok_iff _ _ _ _ _ _ _ _ _).1 hs
  obtain ⟨hl, -, hvk⟩ := calculateVlmVariables_ok hv
  obtain ⟨A, D, hAD⟩ := hvk i (by rw [← hl]; exact i.isLt)
  have hsp : (r.vars[i]).span = r.input.g • ((r.vars[i]).ring.C - (r.vars[i]).ring.B) := by
    have e := (List.getElem?_eq_some_iff.1 hAD).2
    simp only [Fin.getElem_fin, e]
    rfl
  rw [hsol]
  refine ⟨?_, rfl, rfl, ?_, ?_, ?_, ?_⟩
  · simp only [solOf, panelForce, V3.cross_add_left, smul_add]
  · simp only [solOf, panelForce, V3.dot_smul_left]
    exact mul_eq_zero_of_right _ (V3.dot_cross_left _ _)
  · simp only [solOf, panelForce, V3.dot_smul_left, V3.dot_cross_left, mul_zero]
  · simp only [solOf, panelForce, V3.dot_smul_left, V3.dot_cross_left, mul_zero]
  · have key (v : V3) (x y : ℝ) : (x • V3.cross v (y • (r.vars[i]).span)).dot
        ((r.vars[i]).ring.C - (r.vars[i]).ring.B) = 0 := by
      rw [hsp, V3.dot_smul_left, V3.cross_smul_right, V3.cross_smul_right, V3.dot_smul_left,
        V3.dot_smul_left, V3.dot_cross_right]
      ring
    intro f hf
    simp only [List.mem_cons, List.not_mem_nil, or_false] at hf
    rcases hf with rfl | rfl | rfl <;> exact key _ _ _

/-- **C35**, other names: the program is terminated (with exit status 0) exactly if the name is none
of `lift`, `drag`, `force_xyz`. -/
theorem C35_unknown_name {K : ℕ} (L : Fin K → PanelVars) (te le : Fin K → Bool) (ns : ℕ) (rho g : ℝ)
    (V : Fin K → V3) (γ : Fin K → ℝ) (name : String) :
    (∃ c, calcForceWrapper L te le ns rho g V γ name = .error (.sysExit c)) ↔
      name ≠ "lift" ∧ name ≠ "drag" ∧ name ≠ "force_xyz" := by
  by_cases hname : name = "lift" ∨ name = "drag" ∨ name = "force_xyz"
  · rw [calcForceWrapper_eq _ _ _ _ _ _ _ _ _ hname]
    constructor
    · rintro ⟨c, hc⟩
      split at hc
      · cases hc
      · split at hc <;> cases hc
    · rintro ⟨h1, h2, h3⟩
      rcases hname with h | h | h
      · exact absurd h h1
      · exact absurd h h2
      · exact absurd h h3
  · unfold calcForceWrapper
    rw [if_pos hname]
    constructor
    · intro _
      exact ⟨fun h => hname (.inl h), fun h => hname (.inr (.inl h)), fun h => hname (.inr (.inr h))⟩
    · intro _
      exact ⟨0, rfl⟩

/-- Non-vacuity: `C35_decomposition` applies to `Demo.input`. -/
example : ∃ r, vlm Demo.input = .ok r := by
  obtain ⟨r, h, -⟩ := Demo.vlm_ok
  exact ⟨r, h⟩

/-! ## C42 -/

/-- **C42.** Whenever `Vlm` returns, panel by panel: the area is positive, the force is pressure times
area along the unit normal plus a tangential vector, and the pressure coefficient is the pressure over
the (non-zero) dynamic pressure of the apparent wind. -/
theorem C42_pressure (a : VlmInput) (r : Vlm) (h : vlm a = .ok r) (i : Fin r.vars.length) :
    r.areas = a.panels.map panelArea ∧ 0 < r.areas.getD i 0 ∧ (r.vars[i]).normal.norm = 1 ∧
    (∃ t : V3, t.dot (r.vars[i]).normal = 0 ∧
      r.sol.force i = (r.sol.pressure i * r.areas.getD i 0) • (r.vars[i]).normal + t) ∧
    1 / 2 * a.rho * (windAt r i).norm ^ 2 ≠ 0 ∧
    r.sol.pCoeffs i * (1 / 2 * a.rho * (windAt r i).norm ^ 2) = r.sol.pressure i := by
  obtain ⟨rfl, har, hv, -, hs⟩ := (vlm_ok_iff a r).1 h
  obtain ⟨hw, -, hsol⟩ := (vlmCore_ok_iff _ _ _ _ _ _ _ _ _).1 hs
  obtain ⟨hl, hdiag, hvk⟩ := calculateVlmVariables_ok hv
  have hi : i.val < r.input.panels.length := by rw [← hl]; exact i.isLt
  obtain ⟨v, hv1, hn1, -⟩ := (C32_panel_points _ _ _ _ _ _ hv).2 i hi _ rfl
  have hn : (r.vars[i]).normal.norm = 1 := by
    have e := (List.getElem?_eq_some_iff.1 hv1).2
    simp only [Fin.getElem_fin, e]
    exact hn1
  have hA : 0 < (getPanelsArea r.input.panels).getD i 0 :=
    lt_of_lt_of_le (by norm_num) (hw.areas i)
  have hq : 1 / 2 * r.input.rho * (windAt r i).norm ^ 2 ≠ 0 := by
    have h1 := hw.rho i.pos
    have h2 := V3.norm_pos (hw.wind i)
    have : (windAt r i).norm ≠ 0 := h2.ne'
    positivity
  have hdd (w : V3) : w.dot w = w.norm ^ 2 := (V3.norm_sq w).symm
  rw [har]
  refine ⟨rfl, hA, hn, ?_, hq, ?_⟩
  · rw [hsol]
    simp only [solOf]
    obtain ⟨F, hF⟩ : ∃ F, F = panelForce (fun i => r.vars[i]) (fun i => r.input.le.getD i false)
      r.input.ns r.input.rho (coreGamma (fun i => r.vars[i]) (fun i => r.input.te.getD i false)
      r.input.g fun i => r.inlet.vAppInfs.getD i 0) (fun i => r.inlet.vAppInfs.getD i 0 +
      latticeVelocity (fun i => r.vars[i]) (fun i => r.input.te.getD i false)
      (fun i => r.inlet.vAppInfs.getD i 0) r.input.g (coreGamma (fun i => r.vars[i])
      (fun i => r.input.te.getD i false) r.input.g fun i => r.inlet.vAppInfs.getD i 0)
      (r.vars[i]).cp) i := ⟨_, rfl⟩
    rw [← hF, div_mul_cancel₀ _ hA.ne']
    refine ⟨F - (F.dot (r.vars[i]).normal) • (r.vars[i]).normal, ?_, by abel⟩
    rw [V3.dot_sub_left, V3.dot_smul_left, hdd, hn]
    ring
  · rw [hsol]
    simp only [solOf]
    rw [show (1 : ℝ) / 2 = 0.5 by norm_num] at hq ⊢
    rw [← hdd] at hq ⊢
    exact div_mul_cancel₀ _ hq

/-! ## C58 -/

/-- **C58.** In a strip of `nc` panels with equal bound vortices and uniform wind, the lifts add up to
`ρ V × (Γ span)` with the circulation `Γ` of the last panel, that is, the circulation that leaves the
trailing edge (Kutta-Joukowski), whatever the number of panels. -/
theorem C58_kutta_joukowski {K : ℕ} (nc ns n : ℕ) (hnc : 0 < nc) (hns : 0 < ns) (hn : 0 < n)
    (hK : K = n * (nc * ns)) (L : Fin K → PanelVars) (te : Fin K → Bool) (rho g : ℝ)
    (V : Fin K → V3) (γ : Fin K → ℝ) (lift vFs vInd : Fin K → V3)
    (h : calcForceWrapper L te (fun i => (leadingFlags nc ns n).getD i false) ns rho g V γ "lift" =
      .ok (lift, vFs, vInd))
    (b j : ℕ) (hb : b < n) (hj : j < ns) (strip : ℕ → Fin K)
    (hstrip : ∀ i, i < nc → (strip i).val = panelNo nc ns b i j) (W s : V3)
    (hV : ∀ i, i < nc → V (strip i) = W) (hs : ∀ i, i < nc → (L (strip i)).span = s) :
    ∑ i ∈ Finset.range nc, lift (strip i) = rho • V3.cross W (γ (strip (nc - 1)) • s) := by
  have key : ∀ m, m < nc → ∑ i ∈ Finset.range (m + 1), lift (strip i) =
      rho • V3.cross W (γ (strip m) • s) := by
    intro m
    induction m with
    | zero =>
      intro hm
      rw [Finset.sum_range_one]
      have := (((C34_upstream nc ns n hnc hns hn hK L te rho g V γ "lift").2 _ _ _ h b 0 j hb hm hj
        _ (hstrip 0 hm)).1 rfl)
      rw [this, hs 0 hm]
      simp [forceVelocity, hV 0 hm]
    | succ m ih =>
      intro hm
      rw [Finset.sum_range_succ, ih (by omega)]
      obtain ⟨-, k', -, hk', hf⟩ := (((C34_upstream nc ns n hnc hns hn hK L te rho g V γ "lift").2
        _ _ _ h b (m + 1) j hb hm hj _ (hstrip (m + 1) hm)).2 (by omega))
      have : k' = strip m := Fin.ext (by rw [hk', hstrip m (by omega)]; rfl)
      rw [hf, hs _ hm, this]
      simp only [forceVelocity, if_true, hV _ hm, V3.cross_smul_right, smul_smul, ← add_smul]
      congr 1
      ring
  have := key (nc - 1) (by omega)
  rwa [show nc - 1 + 1 = nc by omega] at this

/-- Non-vacuity: a strip of three panels. -/
example (γ : Fin 3 → ℝ) : ∃ (lift : Fin 3 → V3) (s : V3), s ≠ 0 ∧
    ∑ i ∈ Finset.range 3, lift (Fin.ofNat 3 i) = (1.2 : ℝ) • V3.cross ⟨1, 0, 0⟩ (γ 2 • s) := by
  have hs (k : ℕ) : (demoStrip k).span = ⟨0, 0, -1⟩ := by
    ext <;> simp [demoStrip, panelVars, quarterB, quarterC]
  have hc := calcForceWrapper_eq (fun i : Fin 3 => demoStrip i) (fun i => decide (i.val + 1 = 3))
    (fun i => (leadingFlags 3 1 1).getD i false) 1 1.2 (-1) (fun _ => ⟨1, 0, 0⟩) γ "lift" (.inl rfl)
  rw [if_neg (by simpa using demoStrip_clear 3), if_neg (by
    simpa using indexOk_flags (nc := 3) (ns := 1) (n := 1) (by norm_num) (by norm_num) rfl)] at hc
  refine ⟨_, ⟨0, 0, -1⟩, fun h => by simpa using congrArg V3.z h,
    C58_kutta_joukowski 3 1 1 (by norm_num) (by norm_num) (by norm_num) rfl _ _ _ _ _ _ _ _ _ hc 0 0
      (by norm_num) (by norm_num) _ ?_ _ _ (fun _ _ => rfl) (fun i _ => hs _)⟩
  intro i hi
  simp [panelNo, Fin.ofNat, Nat.mod_eq_of_lt hi]

end PySailing.Props
