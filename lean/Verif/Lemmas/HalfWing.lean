import Verif.Lemmas.Wing
import Verif.Lemmas.PlanarExtend

/-!
# Two blocks of panels side by side are one block
-/

namespace PySailing

open Spec

/-- A moved lattice with the panels in another order. -/
theorem transfer_renumbered {K K' : ℕ} (σ : Fin K' ≃ Fin K) {R : V3 → V3} {ε : ℝ} (h : IsIsometry R ε) (t : V3)
    {L : Fin K → PanelVars} {te le : Fin K → Bool} {ns ns' : ℕ} {g : ℝ} {V : Fin K → V3}
    {areas : Fin K → ℝ} {L' : Fin K' → PanelVars} {te' le' : Fin K' → Bool} {g' : ℝ}
    {V' : Fin K' → V3} {areas' : Fin K' → ℝ} {μ : ℝ} (hμ : 0 < μ) (hg : g ≠ 0) (hg' : g' ≠ 0)
    (hL : ∀ i, L' i = (L (σ i)).moved R ε t (g' / g))
    (hte : ∀ i, te' i = te (σ i)) (hle : ∀ i, le' i = le (σ i))
    (hV : ∀ i, V' i = μ • R (V (σ i))) (ha : ∀ i, areas' i = areas (σ i))
    (hup : ∀ i, (le' i || case1x1 le') = false → σ (wrapIndex i ns') = wrapIndex (σ i) ns)
    (hix : IndexOk le ns → IndexOk le' ns') :
    Transfer L te le ns g V areas L' te' le' ns' g' V' areas' R ε (move R t) σ ε μ (g' / g) where
  iso := h
  sign := h.sq_one
  wind_pos := hμ
  kappa := div_ne_zero hg' hg
  kernel p j := by
    rw [velCoef_eq, velCoef_eq, hL, hte, hV]
    split_ifs
    · exact vortexHorseshoeV2_move_g h t _ _ _ _ _ _ hg hμ
    · exact vortexRing_move_g h t _ _ _ _ _ hg
  ctr i := by rw [hL]; rfl
  cp i := by rw [hL]; rfl
  normal i := by rw [hL]; rfl
  span i := by rw [hL, h.sq_one, one_mul]; rfl
  wind := hV
  clear pts hc := by
    rw [← coefsDefined_iff] at hc ⊢
    intro i j hj
    rw [hte] at hj
    have := hc (σ i) (σ j) hj
    rw [hL, hV, wakeDefined_smul_wind _ _ _ hμ, wakeDefined_smul_wind _ _ _ hμ]
    exact ⟨(wakeDefined_move h t _ _ _).2 this.1, (wakeDefined_move h t _ _ _).2 this.2⟩
  area := ha
  leading := hle
  upstream := hup
  index := hix

/-- First strip of block `b` in the joined block: the second block comes first. -/
def joinShift (ns b : ℕ) : ℕ := if b = 0 then ns else 0

theorem joinShift_lt {ns b j : ℕ} (hj : j < ns) : j + joinShift ns b < 2 * ns := by
  unfold joinShift; split_ifs <;> omega

/-- Strips of the joined block. -/
noncomputable def joinStrips (ns : ℕ) : Fin 2 × Fin ns ≃ Fin 1 × Fin (2 * ns) :=
  Equiv.ofBijective (fun c => (0, ⟨c.2 + joinShift ns c.1, joinShift_lt c.2.isLt⟩)) (by
    rw [Fintype.bijective_iff_injective_and_card]
    refine ⟨?_, by simp⟩
    rintro ⟨⟨b, hb⟩, ⟨j, hj⟩⟩ ⟨⟨b', hb'⟩, ⟨j', hj'⟩⟩ h
    simp only [Prod.mk.injEq, Fin.mk.injEq, true_and, joinShift] at h ⊢
    split_ifs at h <;> constructor <;> omega)

/-- Panels of the joined block to panels of the two blocks. -/
noncomputable def joinPanels {K K' nc ns : ℕ} (hK : K = 2 * (nc * ns)) (hK' : K' = 1 * (nc * (2 * ns))) : Fin K' ≃ Fin K :=
  (PlanarBlocks.index 1 nc (2 * ns) hK').trans
    (((joinStrips ns).symm.prodCongr (Equiv.refl _)).trans (PlanarBlocks.index 2 nc ns hK).symm)

theorem joinPanels_at {K K' nc ns : ℕ} (hK : K = 2 * (nc * ns)) (hK' : K' = 1 * (nc * (2 * ns))) {b i j : ℕ} (hb : b < 2)
    (hi : i < nc) (hj : j < ns) (k' : Fin K') (hk' : k'.val = panelNo nc (2 * ns) 0 i (j + joinShift ns b)) :
    (joinPanels hK hK' k').val = panelNo nc ns b i j := by
  have e1 : PlanarBlocks.index 1 nc (2 * ns) hK' k' = ((0, ⟨j + joinShift ns b, joinShift_lt hj⟩), ⟨i, hi⟩) := by
    rw [← Equiv.eq_symm_apply]
    exact Fin.ext hk'
  have e2 : (joinStrips ns).symm (0, ⟨j + joinShift ns b, joinShift_lt hj⟩) = (⟨b, hb⟩, ⟨j, hj⟩) := by
    rw [Equiv.symm_apply_eq]; rfl
  unfold joinPanels
  simp only [Equiv.trans_apply, e1, Equiv.prodCongr_apply, Prod.map, e2, Equiv.refl_apply]
  rfl

theorem joined_surj {nc ns k : ℕ} (hk : k < 1 * (nc * (2 * ns))) :
    ∃ b i j, b < 2 ∧ i < nc ∧ j < ns ∧ k = panelNo nc (2 * ns) 0 i (j + joinShift ns b) := by
  obtain ⟨b, i, j, hb, hi, hj, rfl⟩ := panelNo_surj hk
  obtain rfl : b = 0 := by omega
  by_cases h : j < ns
  · exact ⟨1, i, j, by omega, hi, h, by simp [joinShift]⟩
  · exact ⟨0, i, j - ns, by omega, hi, by omega, by simp [joinShift]; congr 1; omega⟩

theorem wrapIndex_next {K nc ns b i j : ℕ} (k : Fin K) (hk : k.val = panelNo nc ns b (i + 1) j) :
    (wrapIndex k ns).val = panelNo nc ns b i j := by
  have hlt := k.isLt
  unfold wrapIndex
  simp only
  rw [hk, panelNo_pred] at hlt ⊢
  rw [show panelNo nc ns b i j + ns + K - ns = panelNo nc ns b i j + K by omega, Nat.add_mod_right, Nat.mod_eq_of_lt (by omega)]

theorem leading_row {K n nc ns : ℕ} (hnc : 0 < nc) (hns : 0 < ns) (hn : 0 < n) (hK : K = n * (nc * ns)) {b i j : ℕ} (hb : b < n) (hi : i < nc)
    (hj : j < ns) (k : Fin K) (hk : k.val = panelNo nc ns b i j)
    (h : ((leadingFlags nc ns n).getD k.val false || case1x1 fun i : Fin K => (leadingFlags nc ns n).getD i.val false) = false) : i ≠ 0 := by
  rintro rfl
  rw [case1x1_flags hnc hns hn hK, hk, leading_at hb hi hj] at h
  simp at h
  omega

section join

variable {nc ns : ℕ} {B : List (ℕ → ℕ → V3)} {P : ℕ → ℕ → V3} {t : V3}

theorem panelOf_join (hj : ∀ b (hb : b < B.length) r k, r ≤ ns → k ≤ nc → P (r + joinShift ns b) k = move id t (B[b] r k))
    {b i j : ℕ} (hb : b < B.length) (hi : i < nc) (hjs : j < ns) :
    panelOf P i (j + joinShift ns b) = movePanel id t (panelOf B[b] i j) := by
  unfold panelOf movePanel
  rw [hj b hb j (i + 1) (by omega) (by omega), hj b hb j i (by omega) (by omega),
    show j + joinShift ns b + 1 = (j + 1) + joinShift ns b by omega, hj b hb (j + 1) i (by omega) (by omega),
    hj b hb (j + 1) (i + 1) (by omega) (by omega)]

theorem meshVars_join (hj : ∀ b (hb : b < B.length) r k, r ≤ ns → k ≤ nc → P (r + joinShift ns b) k = move id t (B[b] r k))
    {g : ℝ} (hg : g ≠ 0) {b i j : ℕ} (hb : b < B.length) (hi : i < nc) (hjs : j < ns) :
    meshVars g nc P i (j + joinShift ns b) = (meshVars g nc B[b] i j).moved id 1 t (g / g) := by
  unfold meshVars
  split_ifs with h
  · rw [panelOf_join hj hb hi hjs, behindA_move isIsometry_id, behindD_move isIsometry_id, panelVars_move isIsometry_id t hg]
  · rw [panelOf_join hj hb hi hjs, panelOf_join hj hb (i := i + 1) (by omega) hjs, quarterB_move isIsometry_id, quarterC_move isIsometry_id,
      panelVars_move isIsometry_id t hg]

/-- The joined block is calculated like the two blocks. -/
theorem join_core (hnc : 0 < nc) (hns : 0 < ns) (hB : B.length = 2)
    (hj : ∀ b (hb : b < B.length) r k, r ≤ ns → k ≤ nc → P (r + joinShift ns b) k = move id t (B[b] r k)) {g : ℝ} (hg : g ≠ 0) {rho : ℝ}
    {V : V3} {VV : Fin (PlanarBlocks.vars g nc ns B).length → V3} (hVV : ∀ i, VV i = V)
    {sol : VlmSolution (PlanarBlocks.vars g nc ns B).length}
    (hs : vlmCore (PlanarBlocks.latOf g nc ns B) (PlanarBlocks.areaOf nc ns B _) (PlanarBlocks.teOf nc ns B _) (PlanarBlocks.leOf nc ns B _) ns rho g
      VV = .ok sol) :
    ∃ sol', vlmCore (PlanarBlocks.latOf g nc (2 * ns) [P]) (PlanarBlocks.areaOf nc (2 * ns) [P] _) (PlanarBlocks.teOf nc (2 * ns) [P] _)
      (PlanarBlocks.leOf nc (2 * ns) [P] _) (2 * ns) rho g (fun _ => V) = .ok sol' ∧
      ∀ b i j, b < 2 → i < nc → j < ns →
        (List.ofFn sol'.gamma).getD (panelNo nc (2 * ns) 0 i (j + joinShift ns b)) 0 = (List.ofFn sol.gamma).getD (panelNo nc ns b i j) 0 ∧
        (List.ofFn sol'.force).getD (panelNo nc (2 * ns) 0 i (j + joinShift ns b)) 0 = (List.ofFn sol.force).getD (panelNo nc ns b i j) 0 ∧
        (List.ofFn sol'.pressure).getD (panelNo nc (2 * ns) 0 i (j + joinShift ns b)) 0 =
          (List.ofFn sol.pressure).getD (panelNo nc ns b i j) 0 := by
  have hK : (PlanarBlocks.vars g nc ns B).length = 2 * (nc * ns) := by rw [PlanarBlocks.vars_length, hB]
  have hK' : (PlanarBlocks.vars g nc (2 * ns) [P]).length = 1 * (nc * (2 * ns)) := by rw [PlanarBlocks.vars_length]; rfl
  set σ := joinPanels hK hK' with hσ
  have hcase : ∀ k : Fin (PlanarBlocks.vars g nc (2 * ns) [P]).length, ∃ b i j, b < 2 ∧ i < nc ∧ j < ns ∧
      k.val = panelNo nc (2 * ns) 0 i (j + joinShift ns b) ∧ (σ k).val = panelNo nc ns b i j := by
    intro k
    obtain ⟨b, i, j, hb, hi, hj, hk⟩ := joined_surj (k.isLt.trans_eq hK')
    exact ⟨b, i, j, hb, hi, hj, hk, joinPanels_at hK hK' hb hi hj k hk⟩
  have T : Transfer (PlanarBlocks.latOf g nc ns B) (PlanarBlocks.teOf nc ns B _) (PlanarBlocks.leOf nc ns B _) ns g VV (PlanarBlocks.areaOf nc ns B _)
      (PlanarBlocks.latOf g nc (2 * ns) [P]) (PlanarBlocks.teOf nc (2 * ns) [P] _) (PlanarBlocks.leOf nc (2 * ns) [P] _) (2 * ns) g (fun _ => V)
      (PlanarBlocks.areaOf nc (2 * ns) [P] _) id 1 (move id t) σ 1 1 (g / g) := by
    refine transfer_renumbered σ isIsometry_id t one_pos hg hg ?_ ?_ ?_ ?_ ?_ ?_ ?_
    · intro k
      obtain ⟨b, i, j, hb, hi, hjj, hk, hσk⟩ := hcase k
      have hb' : b < B.length := by omega
      have e1 : k = PlanarBlocks.panelIx g nc (2 * ns) [P] (b := 0) (by simp) hi (joinShift_lt hjj) := Fin.ext hk
      have e2 : σ k = PlanarBlocks.panelIx g nc ns B hb' hi hjj := Fin.ext hσk
      rw [e2, e1, PlanarBlocks.latOf_panelIx, PlanarBlocks.latOf_panelIx]
      exact meshVars_join hj hg hb' hi hjj
    · intro k
      obtain ⟨b, i, j, hb, hi, hjj, hk, hσk⟩ := hcase k
      unfold PlanarBlocks.teOf
      rw [hk, hσk, List.getD_eq_getElem?_getD, List.getD_eq_getElem?_getD]
      unfold trailingFlags
      rw [blockFlags_get _ (by simp) hi (joinShift_lt hjj), blockFlags_get _ (by omega) hi hjj]
    · intro k
      obtain ⟨b, i, j, hb, hi, hjj, hk, hσk⟩ := hcase k
      unfold PlanarBlocks.leOf
      rw [hk, hσk, leading_at (by simp) hi (joinShift_lt hjj), leading_at (by omega) hi hjj]
    · intro k
      rw [hVV, one_smul]; rfl
    · intro k
      obtain ⟨b, i, j, hb, hi, hjj, hk, hσk⟩ := hcase k
      have hb' : b < B.length := by omega
      unfold PlanarBlocks.areaOf
      rw [hk, hσk]
      have h1 : (blockPanels nc (2 * ns) [P])[panelNo nc (2 * ns) 0 i (j + joinShift ns b)]? = some (panelOf P i (j + joinShift ns b)) :=
        blocks_get [P] panelOf (b := 0) (by simp) hi (joinShift_lt hjj)
      have h2 : (blockPanels nc ns B)[panelNo nc ns b i j]? = some (panelOf B[b] i j) := blocks_get B panelOf hb' hi hjj
      unfold getPanelsArea
      rw [List.getD_eq_getElem?_getD, List.getD_eq_getElem?_getD, List.getElem?_map, List.getElem?_map, h1, h2, Option.map_some, Option.map_some,
        Option.getD_some, Option.getD_some, panelOf_join hj hb' hi hjj, panelArea_move isIsometry_id]
    · intro k hk0
      obtain ⟨b, i, j, hb, hi, hjj, hk, hσk⟩ := hcase k
      have hi0 := leading_row (n := 1) hnc (by omega) (by omega) hK' (by omega) hi (joinShift_lt hjj) k hk hk0
      obtain ⟨i, rfl⟩ := Nat.exists_eq_succ_of_ne_zero hi0
      apply Fin.ext
      rw [wrapIndex_next (σ k) hσk]
      exact joinPanels_at hK hK' hb (by omega) hjj _ (wrapIndex_next k hk)
    · intro _
      exact indexOk_flags hnc (by simp) (PlanarBlocks.vars_length g nc (2 * ns) [P])
  have hs' := T.vlmCore_eq 1 rho one_ne_zero hs
  rw [one_mul] at hs'
  refine ⟨_, hs', fun b i j hb hi hjj => ?_⟩
  have hb' : b < B.length := by omega
  set k := PlanarBlocks.panelIx g nc (2 * ns) [P] (b := 0) (by simp) hi (joinShift_lt (b := b) hjj) with hk
  have hlt : panelNo nc (2 * ns) 0 i (j + joinShift ns b) < (PlanarBlocks.vars g nc (2 * ns) [P]).length := k.isLt
  have hlt2 : panelNo nc ns b i j < (PlanarBlocks.vars g nc ns B).length := (PlanarBlocks.panelIx g nc ns B hb' hi hjj).isLt
  have e2 : σ k = ⟨panelNo nc ns b i j, hlt2⟩ := Fin.ext (joinPanels_at hK hK' hb hi hjj k rfl)
  have hgg : g / g = 1 := div_self hg
  simp only [List.getD_eq_getElem?_getD, List.getElem?_ofFn, dif_pos hlt, dif_pos hlt2, Option.getD_some]
  change (1 * 1 / (g / g)) * sol.gamma (σ k) = _ ∧ ((1 * 1 ^ 2 : ℝ)) • id (sol.force (σ k)) = _ ∧ 1 * (1 * 1 ^ 2) * sol.pressure (σ k) = _
  rw [e2, hgg]
  simp

end join

end PySailing
