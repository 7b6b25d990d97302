import Verif.Lemmas.Motion
import Verif.Lemmas.SailBlocks
import Verif.Props.Similarity

/-!
# Renumbering the panels of a lattice
-/

namespace PySailing

open Spec

/-- The same lattice with the panels in another order. -/
theorem transfer_perm {K K' : ℕ} {L : Fin K → PanelVars} {te le : Fin K → Bool} {ns : ℕ} {g : ℝ}
    {V : Fin K → V3} {areas : Fin K → ℝ} {L' : Fin K' → PanelVars} {te' le' : Fin K' → Bool} {V' : Fin K' → V3}
    {areas' : Fin K' → ℝ} (σ : Fin K' ≃ Fin K) (hL : ∀ i, L' i = L (σ i)) (hte : ∀ i, te' i = te (σ i))
    (hle : ∀ i, le' i = le (σ i)) (hV : ∀ i, V' i = V (σ i)) (ha : ∀ i, areas' i = areas (σ i))
    (hup : ∀ i, (le' i || case1x1 le') = false → σ (wrapIndex i ns) = wrapIndex (σ i) ns)
    (hix : IndexOk le ns → IndexOk le' ns) :
    Transfer L te le ns g V areas L' te' le' ns g V' areas' id 1 id σ 1 1 1 where
  iso := isIsometry_id
  sign := by norm_num
  wind_pos := one_pos
  kappa := one_ne_zero
  kernel p j := by
    rw [velCoef_eq, velCoef_eq, hte j, hV j, hL j, mul_one, one_smul]
    rfl
  ctr i := by rw [hL i]; rfl
  cp i := by rw [hL i]; rfl
  normal i := by rw [hL i, one_smul]; rfl
  span i := by rw [hL i, mul_one, mul_one, one_smul]; rfl
  wind i := by rw [one_smul]; exact hV i
  clear pts hc := by
    rw [← coefsDefined_iff] at hc ⊢
    intro i j hj
    rw [hte] at hj
    rw [hL j, hV j]
    exact hc (σ i) (σ j) hj
  area := ha
  leading := hle
  upstream := hup
  index := hix

/-- The numbers of the panels when the blocks are permuted by `τ`. -/
def blockPerm {K K' n m : ℕ} (hK : K = n * m) (hK' : K' = n * m) (τ : Fin n ≃ Fin n) : Fin K' ≃ Fin K :=
  (finCongr hK').trans (finProdFinEquiv.symm.trans ((Equiv.prodCongr τ (Equiv.refl _)).trans
    (finProdFinEquiv.trans (finCongr hK.symm))))

theorem blockPerm_panelNo {K K' n nc ns : ℕ} (hK : K = n * (nc * ns)) (hK' : K' = n * (nc * ns)) (τ : Fin n ≃ Fin n)
    (k : Fin K') (b : Fin n) {i j : ℕ} (hi : i < nc) (hj : j < ns) (hk : k.val = panelNo nc ns b i j) :
    (blockPerm hK hK' τ k).val = panelNo nc ns (τ b) i j := by
  have hlt : i * ns + j < nc * ns := by
    have := Nat.mul_le_mul_right ns (Nat.succ_le_of_lt hi)
    rw [Nat.succ_mul] at this
    omega
  have e : finCongr hK' k = finProdFinEquiv (b, ⟨i * ns + j, hlt⟩) := by
    apply Fin.ext
    simp only [finCongr_apply, Fin.val_cast, hk, finProdFinEquiv_apply_val, panelNo]
    ring
  unfold blockPerm
  simp only [Equiv.trans_apply, e, Equiv.symm_apply_apply, Equiv.prodCongr_apply, Prod.map, Equiv.refl_apply]
  simp only [finCongr_apply, Fin.val_cast, finProdFinEquiv_apply_val, panelNo]
  ring

/-- The wind at the pressure points as a function of the point. -/
theorem inlet_pointwise {w : WindObj} {rho : ℝ} {cps : List V3} {i : Inlet} (h : inletConditions w rho cps = .ok i) :
    ∃ W : V3 → V3, (∀ p ∈ cps, w.trueWindAt |p.z| = .ok (W p)) ∧ i = inletOf w rho cps (cps.map W) := by
  obtain ⟨-, h2, h3⟩ := (inletConditions_ok_iff _ _ _ _).1 h
  obtain ⟨hlen, hget⟩ := mapM_ok_inv h2
  have hW : ∀ p ∈ cps, w.trueWindAt |p.z| =
      .ok (match w.trueWindAt |p.z| with | .ok v => v | .error _ => 0) := by
    intro p hp
    obtain ⟨k, hk, rfl⟩ := List.getElem_of_mem hp
    obtain ⟨b, -, hb⟩ := hget k hk
    rw [hb]
  refine ⟨fun p => match w.trueWindAt |p.z| with | .ok v => v | .error _ => 0, hW, ?_⟩
  have := mapM_ok hW
  rw [h2] at this
  rw [h3, Except.ok.inj this]
  rfl

theorem inlet_perm {w : WindObj} {rho : ℝ} {cps cps' : List V3} {i : Inlet} (h : inletConditions w rho cps = .ok i)
    (hne : cps' ≠ []) (hmem : ∀ p ∈ cps', p ∈ cps) :
    ∃ i', inletConditions w rho cps' = .ok i' ∧ ∀ k k', k < cps.length → k' < cps'.length →
      cps'[k']? = cps[k]? → i'.vAppInfs.getD k' 0 = i.vAppInfs.getD k 0 ∧
        i'.twsAtCp.getD k' 0 = i.twsAtCp.getD k 0 ∧ i'.awaInfsDeg.getD k' 0 = i.awaInfsDeg.getD k 0 := by
  obtain ⟨W, hW, rfl⟩ := inlet_pointwise h
  refine ⟨_, inletConditions_of rho hne (mapM_ok fun p hp => hW p (hmem p hp)), fun k k' hk hk' he => ?_⟩
  rw [List.getElem?_eq_getElem hk, List.getElem?_eq_getElem hk'] at he
  have he' := Option.some.inj he
  simp [inletOf, List.getD_eq_getElem?_getD, List.getElem?_eq_getElem hk, List.getElem?_eq_getElem hk', he']

end PySailing
