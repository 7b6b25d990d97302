import Verif.Spec.Aircraft
import Verif.Lemmas.Mirror
import Verif.Lemmas.Csys

/-!
# Lemmas on the free wing
-/

namespace PySailing

open Spec

theorem makePanelsFromLeTePoints_grid (a b c d : V3) {nc ns : ℕ} (hnc : 0 < nc) (hns : 0 < ns)
    (pts : ℕ → ℕ → V3) (h : ∀ r k, r ≤ ns → k ≤ nc → lerp (lerp a b ((k : ℝ) / nc))
      (lerp c d ((k : ℝ) / nc)) ((r : ℝ) / ns) = pts r k) :
    (makePanelsFromLeTePoints a b c d nc ns).panels = panelGrid nc ns pts ∧
    (makePanelsFromLeTePoints a b c d nc ns).te = trailingFlags nc ns 1 ∧
    (makePanelsFromLeTePoints a b c d nc ns).le = leadingFlags nc ns 1 := by
  have hrow : ∀ r k, r ≤ ns → k ≤ nc → (NdMesh.ofRows (ns + 1) (makePointMesh (discreteSegment a b nc)
      (discreteSegment c d nc) ns)).at' k r = pts r k := by
    intro r k hr hk
    simp only [NdMesh.ofRows, makePointMesh, List.getD_eq_getElem?_getD, List.getElem?_map]
    have hz : ((discreteSegment a b nc).zip (discreteSegment c d nc))[k]? =
        some (lerp a b ((k : ℝ) / nc), lerp c d ((k : ℝ) / nc)) := by
      rw [List.getElem?_zip_eq_some]
      exact ⟨discreteSegment_getElem? a b hnc hk, discreteSegment_getElem? c d hnc hk⟩
    rw [hz]
    simp only [Option.map_some, Option.getD_some]
    rw [discreteSegment_getElem? _ _ hns hr]
    exact h r k hr hk
  have h0 : (NdMesh.ofRows (ns + 1) (makePointMesh (discreteSegment a b nc)
      (discreteSegment c d nc) ns)).n0 = nc + 1 := by
    simp [NdMesh.ofRows, makePointMesh, discreteSegment_length]
  unfold makePanelsFromLeTePoints makePanelsFromMeshSpanwise
  simp only [h0]
  refine ⟨?_, ?_, ?_⟩
  · unfold panelGrid
    show ((List.range nc).flatMap fun i => (List.range ns).map fun j => _) = _
    apply grid_congr
    intro i j hi hj
    unfold panelAt
    rw [hrow _ _ (by omega) (by omega), hrow _ _ (by omega) (by omega), hrow _ _ (by omega) (by omega),
      hrow _ _ (by omega) (by omega)]
  · unfold trailingFlags blockFlags
    simp only [List.replicate_one, List.flatten_cons, List.flatten_nil, List.append_nil]
    show ((List.range nc).flatMap fun i => (List.range ns).map fun j => _) = _
    apply grid_congr
    intro i j hi hj
    by_cases hc : i + 1 = nc <;> simp [hc]
  · unfold leadingFlags blockFlags
    simp only [List.replicate_one, List.flatten_cons, List.flatten_nil, List.append_nil]
    show ((List.range nc).flatMap fun i => (List.range ns).map fun j => _) = _
    apply grid_congr
    intro i j hi hj
    by_cases hc : i + 1 = nc
    · simp [hc]; omega
    · by_cases h0 : i = 0
      · have : 2 ≤ nc := by omega
        simp [h0, this]; omega
      · simp [h0]

theorem AircraftInput.panelSet_eq (a : AircraftInput) (hnc : 0 < a.nc) (hns : 0 < a.ns) :
    ∃ ps, a.panelSet = .ok ps ∧
      ps.panels = blockPanels a.nc a.ns [wingPoint a.chord a.half a.aoaDeg a.nc a.ns] ∧
      ps.te = trailingFlags a.nc a.ns 1 ∧ ps.le = leadingFlags a.nc a.ns 1 := by
  unfold AircraftInput.panelSet rotationMatrix
  rw [if_neg (by simp [Csys.ez, V3.ext_iff])]
  simp only [bind, Except.bind]
  obtain ⟨h1, h2, h3⟩ := makePanelsFromLeTePoints_grid
    ((rotationMatrixCore Csys.ez (deg2rad (-a.aoaDeg))).mulVec ⟨0, 0, -a.half⟩)
    ((rotationMatrixCore Csys.ez (deg2rad (-a.aoaDeg))).mulVec ⟨a.chord, 0, -a.half⟩)
    ((rotationMatrixCore Csys.ez (deg2rad (-a.aoaDeg))).mulVec ⟨0, 0, a.half⟩)
    ((rotationMatrixCore Csys.ez (deg2rad (-a.aoaDeg))).mulVec ⟨a.chord, 0, a.half⟩) hnc hns
    (wingPoint a.chord a.half a.aoaDeg a.nc a.ns) (by
      intro r k _ _
      simp only [rot_ez, deg2rad_neg, Real.cos_neg, Real.sin_neg]
      ext <;> simp [lerp, wingPoint, deg2rad] <;> ring)
  refine ⟨_, rfl, ?_, h2, h3⟩
  rw [h1]; simp [blockPanels]

/-- Without panels in one direction there are none. -/
theorem AircraftInput.panelSet_empty (a : AircraftInput) (h : a.nc = 0 ∨ a.ns = 0) :
    ∃ ps, a.panelSet = .ok ps ∧ ps.panels = [] := by
  unfold AircraftInput.panelSet rotationMatrix
  rw [if_neg (by simp [Csys.ez, V3.ext_iff])]
  simp only [bind, Except.bind]
  refine ⟨_, rfl, ?_⟩
  unfold makePanelsFromLeTePoints makePanelsFromMeshSpanwise
  rcases h with h | h
  · rw [h]
    simp [NdMesh.ofRows, makePointMesh, discreteSegment]
  · rw [h]
    simp [NdMesh.ofRows]

/-- On an evenly spaced mesh both ways to build the vortex rings agree. -/
theorem meshVars_even (g : ℝ) (nc : ℕ) (pts : ℕ → ℕ → V3)
    (h : ∀ r k, pts r (k + 2) - pts r (k + 1) = pts r (k + 1) - pts r k) (i j : ℕ) :
    meshVars g nc pts i j =
      panelVars g (panelOf pts i j) (behindA (panelOf pts i j)) (behindD (panelOf pts i j)) := by
  unfold meshVars
  split_ifs
  · rfl
  · have e1 : quarterB (panelOf pts (i + 1) j) = behindA (panelOf pts i j) := by
      unfold quarterB behindA panelOf
      simp only
      rw [show i + 1 + 1 = i + 2 from rfl, h]
    have e2 : quarterC (panelOf pts (i + 1) j) = behindD (panelOf pts i j) := by
      unfold quarterC behindD panelOf
      simp only
      rw [show i + 1 + 1 = i + 2 from rfl, h]
    rw [e1, e2]

theorem wingPoint_even (chord half aoa : ℝ) (nc ns r k : ℕ) :
    wingPoint chord half aoa nc ns r (k + 2) - wingPoint chord half aoa nc ns r (k + 1) =
      wingPoint chord half aoa nc ns r (k + 1) - wingPoint chord half aoa nc ns r k := by
  ext <;> simp [wingPoint] <;> ring

/-- On an evenly spaced mesh `Aircraft` and `Vlm` use the same vortex rings. -/
theorem aircraftVariables_eq (g : ℝ) {nc ns : ℕ} (hnc : 0 < nc) (hns : 0 < ns) (pts : ℕ → ℕ → V3)
    (h : ∀ r k, pts r (k + 2) - pts r (k + 1) = pts r (k + 1) - pts r k) :
    calculateAircraftVariables (blockPanels nc ns [pts]) g =
      calculateVlmVariables (blockPanels nc ns [pts]) (trailingFlags nc ns 1) g nc ns := by
  classical
  have := calculateVlmVariables_blocks g hnc hns [pts] (by simp)
  simp only [List.length_singleton] at this
  rw [this, calculateAircraftVariables]
  split_ifs
  · rfl
  · congr 1
    simp only [blockPanels, List.map_cons, List.map_nil, List.flatten_cons, List.flatten_nil,
      List.append_nil, panelGrid, List.map_flatMap, List.map_map]
    apply grid_congr
    intro i j _ _
    rw [meshVars_even g nc pts h]
    rfl

/-! ### Spanwise symmetry -/

/-- The mirror image of panel `k` of a symmetric wing. -/
def flipIndex (ns k : ℕ) : ℕ := panelNo 0 ns 0 (k / ns) (ns - 1 - k % ns)

theorem flipIndex_panelNo {nc ns i j : ℕ} (hj : j < ns) :
    flipIndex ns (panelNo nc ns 0 i j) = panelNo nc ns 0 i (ns - 1 - j) := by
  have e : panelNo nc ns 0 i j = ns * i + j := by unfold panelNo; ring
  unfold flipIndex
  rw [e, Nat.mul_add_div (by omega), Nat.div_eq_of_lt hj, add_zero, Nat.mul_add_mod,
    Nat.mod_eq_of_lt hj]
  unfold panelNo
  ring

theorem flipIndex_lt {nc ns k : ℕ} (hk : k < 1 * (nc * ns)) : flipIndex ns k < 1 * (nc * ns) := by
  obtain ⟨b, i, j, hb, hi, hj, rfl⟩ := panelNo_surj hk
  obtain rfl : b = 0 := by omega
  rw [flipIndex_panelNo hj]
  exact panelNo_lt hb hi (by omega)

theorem flipIndex_invol {nc ns k : ℕ} (hk : k < 1 * (nc * ns)) :
    flipIndex ns (flipIndex ns k) = k := by
  obtain ⟨b, i, j, hb, hi, hj, rfl⟩ := panelNo_surj hk
  obtain rfl : b = 0 := by omega
  rw [flipIndex_panelNo hj, flipIndex_panelNo (by omega), show ns - 1 - (ns - 1 - j) = j by omega]

/-- The mirror images as a permutation. -/
def flipPerm {K : ℕ} (nc ns : ℕ) (hK : K = 1 * (nc * ns)) : Fin K ≃ Fin K :=
  Function.Involutive.toPerm
    (fun k => ⟨flipIndex ns k, (flipIndex_lt (k.isLt.trans_eq hK)).trans_eq hK.symm⟩)
    (fun k => Fin.ext (flipIndex_invol (k.isLt.trans_eq hK)))

theorem wingPoint_mirror (chord half aoa : ℝ) (nc : ℕ) {ns : ℕ} (hns : 0 < ns) {r : ℕ} (hr : r ≤ ns)
    (k : ℕ) : wingPoint chord half aoa nc ns r k =
      mirrorMesh ns (wingPoint chord half aoa nc ns) r k := by
  have : (ns : ℝ) ≠ 0 := by positivity
  unfold mirrorMesh wingPoint mirror
  ext <;> simp
  push_cast [Nat.cast_sub hr]
  field_simp
  ring

theorem panelOf_congr {p q : ℕ → ℕ → V3} {ns : ℕ} (h : ∀ r k, r ≤ ns → p r k = q r k) {i j : ℕ}
    (hj : j < ns) : panelOf p i j = panelOf q i j := by
  unfold panelOf
  rw [h _ _ (by omega), h _ _ (by omega), h _ _ (by omega), h _ _ (by omega)]

/-- A wing that is its own mirror image, in a wind parallel to the plane of symmetry. -/
theorem transfer_flip {g : ℝ} {nc ns : ℕ} (hnc : 0 < nc) (hns : 0 < ns) {pts : ℕ → ℕ → V3}
    (hp : ∀ r k, r ≤ ns → pts r k = mirrorMesh ns pts r k) {vars : List PanelVars}
    (hv : calculateVlmVariables (blockPanels nc ns [pts]) (trailingFlags nc ns 1) g nc ns = .ok vars)
    (V : V3) (hV : V.z = 0) (hK : vars.length = 1 * (nc * ns)) :
    Transfer (fun i : Fin vars.length => vars[i]) (fun i => (trailingFlags nc ns 1).getD i false)
      (fun i => (leadingFlags nc ns 1).getD i false) ns g (fun _ => V)
      (fun i => (getPanelsArea (blockPanels nc ns [pts])).getD i 0)
      (fun i : Fin vars.length => vars[i]) (fun i => (trailingFlags nc ns 1).getD i false)
      (fun i => (leadingFlags nc ns 1).getD i false) ns g (fun _ => V)
      (fun i => (getPanelsArea (blockPanels nc ns [pts])).getD i 0)
      mirror (-1) mirror (flipPerm nc ns hK) 1 1 1 := by
  classical
  have hcases : ∀ k : Fin vars.length, ∃ i j, i < nc ∧ j < ns ∧ k.val = panelNo nc ns 0 i j := by
    intro k
    obtain ⟨b, i, j, hb, hi, hj, hk⟩ := panelNo_surj (k.isLt.trans_eq hK)
    obtain rfl : b = 0 := by omega
    exact ⟨i, j, hi, hj, hk⟩
  have hσ : ∀ (k : Fin vars.length) i j, j < ns → k.val = panelNo nc ns 0 i j →
      (flipPerm nc ns hK k).val = panelNo nc ns 0 i (ns - 1 - j) := by
    intro k i j hj hk
    show flipIndex ns k.val = _
    rw [hk, flipIndex_panelNo hj]
  have hvars : vars = ([pts].map fun pts => (List.range nc).flatMap fun i =>
      (List.range ns).map fun j => meshVars g nc pts i j).flatten := by
    have hc := calculateVlmVariables_blocks g hnc hns [pts] (by simp)
    simp only [List.length_singleton] at hc
    rw [hc] at hv
    split_ifs at hv
    injection hv with hv
    exact hv.symm
  have hget : ∀ (k : Fin vars.length) i j, i < nc → j < ns → k.val = panelNo nc ns 0 i j →
      vars[k] = meshVars g nc pts i j := by
    intro k i j hi hj hk
    have h1 := blocks_get [pts] (meshVars g nc) (b := 0) (by simp) hi hj
    rw [← hvars, ← hk, List.getElem?_eq_getElem k.isLt] at h1
    exact Option.some.inj h1
  have hpanel : ∀ i j, j < ns → panelOf pts i j = mirrorPanel (panelOf pts i (ns - 1 - j)) := by
    intro i j hj
    rw [panelOf_congr hp hj, panelOf_mirrorMesh' ns pts hj]
  have hflag : ∀ (row : ℕ → Bool) (k : Fin vars.length),
      (blockFlags nc ns 1 row).getD k false =
        (blockFlags nc ns 1 row).getD (flipPerm nc ns hK k) false := by
    intro row k
    obtain ⟨i, j, hi, hj, hk⟩ := hcases k
    rw [List.getD_eq_getElem?_getD, List.getD_eq_getElem?_getD, hσ k i j hj hk, hk,
      blockFlags_get row one_pos hi hj, blockFlags_get row one_pos hi (by omega)]
  apply transfer_mirror
  · intro k
    obtain ⟨i, j, hi, hj, hk⟩ := hcases k
    rw [hget k i j hi hj hk, hget _ i (ns - 1 - j) hi (by omega) (hσ k i j hj hk),
      ← meshVars_mirror g nc ns pts hj]
    unfold meshVars
    rw [panelOf_congr hp hj, panelOf_congr hp hj]
  · exact hflag _
  · exact hflag _
  · intro _
    ext <;> simp [mirror, hV]
  · intro k
    obtain ⟨i, j, hi, hj, hk⟩ := hcases k
    have hga : ∀ (k i j : ℕ), i < nc → j < ns → k = panelNo nc ns 0 i j →
        (getPanelsArea (blockPanels nc ns [pts])).getD k 0 = panelArea (panelOf pts i j) := by
      intro k i j hi hj hk
      have h1 := blocks_get [pts] panelOf (b := 0) (by simp) hi hj
      rw [getPanelsArea, List.getD_eq_getElem?_getD, List.getElem?_map, hk]
      have e : (blockPanels nc ns [pts])[panelNo nc ns 0 i j]? = some (panelOf pts i j) := h1
      rw [e]; rfl
    rw [hga k i j hi hj hk, hga _ i (ns - 1 - j) hi (by omega) (hσ k i j hj hk), hpanel i j hj,
      panelArea_mirror]
  · intro k hk0
    obtain ⟨i, j, hi, hj, hk⟩ := hcases k
    simp only [hk, leading_at one_pos hi hj] at hk0
    rw [case1x1_flags hnc hns one_pos hK] at hk0
    have hi0 : 1 ≤ i := by
      by_contra h0
      have : i = 0 := by omega
      subst this
      simp at hk0
      omega
    have wrap : ∀ (k : Fin vars.length) j, j < ns → k.val = panelNo nc ns 0 i j →
        (wrapIndex k ns).val = panelNo nc ns 0 (i - 1) j := by
      intro k j hj hk
      have hlt : panelNo nc ns 0 (i - 1) j < vars.length := by
        rw [hK]; exact panelNo_lt one_pos (by omega) hj
      obtain ⟨i', rfl⟩ : ∃ i', i = i' + 1 := ⟨i - 1, by omega⟩
      unfold wrapIndex
      simp only [hk, panelNo_pred, Nat.add_sub_cancel] at hlt ⊢
      rw [show panelNo nc ns 0 i' j + ns + vars.length - ns =
        panelNo nc ns 0 i' j + vars.length by omega, Nat.add_mod_right, Nat.mod_eq_of_lt hlt]
    apply Fin.ext
    rw [hσ _ (i - 1) j hj (wrap k j hj hk), wrap _ _ (by omega) (hσ k i j hj hk)]

end PySailing

namespace PySailing.Props

open PySailing PySailing.Spec

/-- What a returned `Aircraft` consists of. -/
theorem aircraft_inv {a : AircraftInput} {w : Aircraft} (h : aircraft a = .ok w) :
    w.input = a ∧ a.chord ≠ 0 ∧ 0 < a.nc ∧ 0 < a.ns ∧ 0.5 * a.rho * a.V.norm ^ 2 * a.S ≠ 0 ∧
    w.AR = 2 * a.half / a.chord ∧
    getCLCDFreeWing w.AR a.aoaDeg = .ok (w.CLTheoretical, w.CDTheoretical) ∧
    w.panelSet.panels = blockPanels a.nc a.ns [wingPoint a.chord a.half a.aoaDeg a.nc a.ns] ∧
    w.panelSet.te = trailingFlags a.nc a.ns 1 ∧ w.panelSet.le = leadingFlags a.nc a.ns 1 ∧
    calculateVlmVariables w.panelSet.panels w.panelSet.te a.g a.nc a.ns = .ok w.vars ∧
    (∃ sol, vlmCore (fun i : Fin w.vars.length => w.vars[i])
      (fun i => (getPanelsArea w.panelSet.panels).getD i 0) (fun i => w.panelSet.te.getD i false)
      (fun i => w.panelSet.le.getD i false) a.ns a.rho a.g (fun _ => a.V) = .ok sol ∧
      sol.gamma = w.gamma ∧ sol.force = w.force ∧ sol.pressure = w.pressure) ∧
    w.CL = (List.ofFn w.force).sum.z / (0.5 * a.rho * a.V.norm ^ 2 * a.S) ∧
    w.CD = (List.ofFn w.force).sum.x / (0.5 * a.rho * a.V.norm ^ 2 * a.S) ∧
    w.Cp = (List.ofFn w.pressure).sum / (0.5 * a.rho * a.V.norm ^ 2 * a.S) := by
  classical
  unfold aircraft at h
  split_ifs at h with hc
  simp only [bind, Except.bind] at h
  cases hth : getCLCDFreeWing (2 * a.half / a.chord) a.aoaDeg with
  | error e => rw [hth] at h; cases h
  | ok th =>
  rw [hth] at h
  have hpos : 0 < a.nc ∧ 0 < a.ns := by
    by_contra hn
    obtain ⟨ps, hps, he⟩ := a.panelSet_empty (by omega)
    simp only [hps, he] at h
    cases h
  obtain ⟨hnc, hns⟩ := hpos
  obtain ⟨ps, hps, hpan, hte, hle⟩ := a.panelSet_eq hnc hns
  simp only [hps] at h
  split_ifs at h with hne
  have hvv : calculateAircraftVariables ps.panels a.g =
      calculateVlmVariables ps.panels ps.te a.g a.nc a.ns := by
    rw [hpan, hte]
    exact aircraftVariables_eq a.g hnc hns _ (wingPoint_even _ _ _ _ _)
  cases hv : calculateVlmVariables ps.panels ps.te a.g a.nc a.ns with
  | error e => rw [hvv, hv] at h; cases e <;> cases h
  | ok vars =>
  rw [hvv, hv] at h
  simp only [nanTrap] at h
  cases hs : solveLattice (fun i : Fin vars.length => vars[i])
      (fun i => (getPanelsArea ps.panels).getD i 0) (fun i => ps.te.getD i false) a.g
      (fun _ => a.V) with
  | error e => rw [hs] at h; cases h
  | ok s =>
  rw [hs] at h
  simp only at h
  cases hf : calcForceWrapper (fun i : Fin vars.length => vars[i])
      (fun i => ps.te.getD i false) (fun i => ps.le.getD i false) a.ns a.rho a.g (fun _ => a.V) s.1
      "force_xyz" with
  | error e => rw [hf] at h; cases h
  | ok f =>
  rw [hf] at h
  simp only at h
  cases hp : calcPressure f.1 (fun i : Fin vars.length => (vars[i]).normal)
      (fun i => (getPanelsArea ps.panels).getD i 0) with
  | error e => rw [hp] at h; cases h
  | ok p =>
  rw [hp] at h
  simp only [getVlmCLCD] at h
  split_ifs at h with hq
  simp only at h
  injection h with h
  subst h
  refine ⟨rfl, hc, hnc, hns, hq, rfl, hth, hpan, hte, hle, hv, ?_, rfl, rfl, rfl⟩
  have hrho : a.rho ≠ 0 := by rintro h0; apply hq; rw [h0]; ring
  have hV : a.V.dot a.V ≠ 0 := by
    rintro h0; apply hq; rw [V3.norm_sq, h0]; ring
  have hpc : calcPressureCoeff p a.rho (fun _ : Fin vars.length => a.V) = .ok fun i =>
      p i / (0.5 * a.rho * a.V.dot a.V) := by
    unfold calcPressureCoeff
    rw [if_neg]
    rintro ⟨_, h0⟩
    have : (0.5 * a.rho * a.V.dot a.V : ℝ) ≠ 0 := by positivity
    exact this h0
  have hf0 := hf
  rw [calcForceWrapper_eq _ _ _ _ _ _ _ _ _ (by simp)] at hf
  have h1 := of_not_not fun hn => by rw [if_pos hn] at hf; cases hf
  rw [if_neg (not_not.2 h1)] at hf
  have h2 := of_not_not fun hn => by rw [if_pos hn] at hf; cases hf
  unfold vlmCore
  rw [hs]
  simp only [bind, Except.bind]
  rw [hf0]
  simp only [hp, hpc]
  rw [calcForceWrapper_eq _ _ _ _ _ _ _ _ "lift" (by simp),
    calcForceWrapper_eq _ _ _ _ _ _ _ _ "drag" (by simp)]
  simp only [if_neg (not_not.2 h1), if_neg (not_not.2 h2)]
  exact ⟨_, rfl, rfl, rfl, rfl⟩

end PySailing.Props
