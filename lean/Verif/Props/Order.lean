import Verif.Lemmas.Order
import Verif.Props.Mirror

/-!
# C99: the order of the sails does not matter
-/

namespace PySailing.Props

open PySailing Spec

/-- Panel `k'` of the second solution has the results of panel `k` of the first one. -/
structure SameResults (r r' : Vlm) (k k' : ℕ) : Prop where
  panel : r'.input.panels[k']? = r.input.panels[k]?
  gamma : r'.out.gamma[k']? = r.out.gamma[k]?
  force : r'.out.force[k']? = r.out.force[k]?
  lift : r'.out.lift[k']? = r.out.lift[k]?
  drag : r'.out.drag[k']? = r.out.drag[k]?
  pressure : r'.out.pressure[k']? = r.out.pressure[k]?
  pCoeffs : r'.out.pCoeffs[k']? = r.out.pCoeffs[k]?
  vFsCp : r'.out.vFsCp[k']? = r.out.vFsCp[k]?
  vIndCp : r'.out.vIndCp[k']? = r.out.vIndCp[k]?
  vFsCtrl : r'.out.vFsCtrl[k']? = r.out.vFsCtrl[k]?
  vIndCtrl : r'.out.vIndCtrl[k']? = r.out.vIndCtrl[k]?
  present : k < r.out.force.length

/-- The panels of the meshes `f 0, f 1, …` one after the other, and their flags. -/
def Meshed (a : VlmInput) {n : ℕ} (f : Fin n → ℕ → ℕ → V3) : Prop :=
  a.panels = blockPanels a.nc a.ns (List.ofFn f) ∧ a.te = trailingFlags a.nc a.ns n ∧ a.le = leadingFlags a.nc a.ns n

/-- **C99.** The meshes may be passed to `Vlm` in any order: if it returns for one order it returns for every other
one, with the same results for every panel. -/
theorem C99_meshes (a : VlmInput) {n : ℕ} (f : Fin n → ℕ → ℕ → V3) (τ : Fin n ≃ Fin n) (hnc : 0 < a.nc) (hns : 0 < a.ns)
    (hm : Meshed a f) (r : Vlm) (h : vlm a = .ok r) :
    ∃ r', vlm { a with panels := blockPanels a.nc a.ns (List.ofFn fun b => f (τ b)) } = .ok r' ∧
      ∀ (b : Fin n) i j, i < a.nc → j < a.ns →
        SameResults r r' (panelNo a.nc a.ns (τ b) i j) (panelNo a.nc a.ns b i j) := by
  classical
  obtain ⟨hp, hte, hle⟩ := hm
  obtain ⟨hin0, har, hv, hin, hs⟩ := (vlm_ok_iff a r).1 h
  obtain ⟨-, -, hvne⟩ := vlm_inlet h
  obtain ⟨full, hfull⟩ : ∃ full, full = List.ofFn f := ⟨_, rfl⟩
  obtain ⟨full', hfull'⟩ : ∃ full', full' = List.ofFn fun b => f (τ b) := ⟨_, rfl⟩
  have hfl : full.length = n := by rw [hfull]; simp
  have hfl' : full'.length = n := by rw [hfull']; simp
  rw [← hfull] at hp
  rw [← hfull']
  have hK : r.vars.length = n * (a.nc * a.ns) := by
    rw [(calculateVlmVariables_ok hv).1, hp, blockPanels_length, hfl]
  have hn0 : 0 < n := by
    rcases Nat.eq_zero_or_pos n with h0 | h0
    · rw [h0, zero_mul] at hK
      exact absurd (List.length_eq_zero_iff.1 hK) hvne
    · exact h0
  have hbl : full ≠ [] := by rw [← List.length_pos_iff_ne_nil, hfl]; exact hn0
  have hbl' : full' ≠ [] := by rw [← List.length_pos_iff_ne_nil, hfl']; exact hn0
  have hc := calculateVlmVariables_blocks a.g hnc hns full hbl
  have hc' := calculateVlmVariables_blocks a.g hnc hns full' hbl'
  rw [hfl] at hc
  rw [hfl'] at hc'
  have hnd := (calculateVlmVariables_ok hv).2.1
  rw [hp] at hnd
  have hpan : ∀ (b : Fin n) i j, i < a.nc → j < a.ns →
      (blockPanels a.nc a.ns full)[panelNo a.nc a.ns b i j]? = some (panelOf (f b) i j) := by
    intro b i j hi hj
    have h1 := blocks_get full panelOf (b := b.val) (by rw [hfl]; exact b.isLt) hi hj
    simp only [hfull, List.getElem_ofFn] at h1 ⊢
    exact h1
  have hpan' : ∀ (b : Fin n) i j, i < a.nc → j < a.ns →
      (blockPanels a.nc a.ns full')[panelNo a.nc a.ns b i j]? = some (panelOf (f (τ b)) i j) := by
    intro b i j hi hj
    have h1 := blocks_get full' panelOf (b := b.val) (by rw [hfl']; exact b.isLt) hi hj
    simp only [hfull', List.getElem_ofFn] at h1 ⊢
    exact h1
  have hnd' : ¬ ∃ q ∈ blockPanels a.nc a.ns full', normalRaw q = 0 := by
    rintro ⟨q, hq, hz⟩
    obtain ⟨k, hk, rfl⟩ := List.getElem_of_mem hq
    rw [blockPanels_length, hfl'] at hk
    obtain ⟨b, i, j, hb, hi, hj, rfl⟩ := panelNo_surj hk
    have e1 := hpan' ⟨b, hb⟩ i j hi hj
    have e2 := hpan (τ ⟨b, hb⟩) i j hi hj
    obtain ⟨hk', e1⟩ := List.getElem?_eq_some_iff.1 e1
    simp only [] at hz e1
    rw [e1] at hz
    exact hnd _ (List.mem_of_getElem? e2) hz
  rw [if_neg hnd'] at hc'
  obtain ⟨vars', hvars'⟩ : ∃ v, v = (full'.map fun pts => (List.range a.nc).flatMap fun i =>
      (List.range a.ns).map fun j => meshVars a.g a.nc pts i j).flatten := ⟨_, rfl⟩
  rw [← hvars'] at hc'
  have hvars : r.vars = (full.map fun pts => (List.range a.nc).flatMap fun i =>
      (List.range a.ns).map fun j => meshVars a.g a.nc pts i j).flatten := by
    rw [hp, hte, hc] at hv
    split_ifs at hv
    injection hv with hv
    exact hv.symm
  have hK' : vars'.length = n * (a.nc * a.ns) := by
    rw [(calculateVlmVariables_ok hc').1, blockPanels_length, hfl']
  have hget : ∀ (b : Fin n) i j, i < a.nc → j < a.ns →
      r.vars[panelNo a.nc a.ns b i j]? = some (meshVars a.g a.nc (f b) i j) := by
    intro b i j hi hj
    have h1 := blocks_get full (meshVars a.g a.nc) (b := b.val) (by rw [hfl]; exact b.isLt) hi hj
    rw [hvars, h1]
    simp only [hfull, List.getElem_ofFn]
  have hget' : ∀ (b : Fin n) i j, i < a.nc → j < a.ns →
      vars'[panelNo a.nc a.ns b i j]? = some (meshVars a.g a.nc (f (τ b)) i j) := by
    intro b i j hi hj
    have h1 := blocks_get full' (meshVars a.g a.nc) (b := b.val) (by rw [hfl']; exact b.isLt) hi hj
    rw [hvars', h1]
    simp only [hfull', List.getElem_ofFn]
  let σ := blockPerm hK hK' τ
  have hcases : ∀ k : Fin vars'.length, ∃ (b : Fin n) (i j : ℕ), i < a.nc ∧ j < a.ns ∧
      k.val = panelNo a.nc a.ns b i j := fun k => by
    obtain ⟨b, i, j, hb, hi, hj, hk⟩ := panelNo_surj (k.isLt.trans_eq hK')
    exact ⟨⟨b, hb⟩, i, j, hi, hj, hk⟩
  have hσ : ∀ (k : Fin vars'.length) (b : Fin n) i j, i < a.nc → j < a.ns → k.val = panelNo a.nc a.ns b i j →
      (σ k).val = panelNo a.nc a.ns (τ b) i j := fun k b i j hi hj hk => blockPerm_panelNo hK hK' τ k b hi hj hk
  have hvk : ∀ k : Fin vars'.length, vars'[k.val]? = r.vars[(σ k).val]? := fun k => by
    obtain ⟨b, i, j, hi, hj, hk⟩ := hcases k
    rw [hσ k b i j hi hj hk, hk, hget' b i j hi hj, hget (τ b) i j hi hj]
  have hL : ∀ k : Fin vars'.length, vars'[k] = r.vars[σ k] := fun k => by
    have := hvk k
    rw [List.getElem?_eq_getElem k.isLt, List.getElem?_eq_getElem (σ k).isLt] at this
    exact Option.some.inj this
  have hne' : vars' ≠ [] := by
    rw [← List.length_pos_iff_ne_nil, hK']
    exact Nat.mul_pos hn0 (Nat.mul_pos hnc hns)
  obtain ⟨inlet', hin', hwind⟩ := inlet_perm (cps' := vars'.map PanelVars.cp) hin (by simpa using hne') (by
    intro p hpm
    obtain ⟨v, hvm, rfl⟩ := List.mem_map.1 hpm
    obtain ⟨k, hk, rfl⟩ := List.getElem_of_mem hvm
    refine List.mem_map.2 ⟨_, ?_, rfl⟩
    exact (hL ⟨k, hk⟩ : vars'[k] = _) ▸ List.getElem_mem _)
  have hflag : ∀ (row : ℕ → Bool) (k : Fin vars'.length),
      (blockFlags a.nc a.ns n row).getD k false = (blockFlags a.nc a.ns n row).getD (σ k) false := by
    intro row k
    obtain ⟨b, i, j, hi, hj, hk⟩ := hcases k
    rw [List.getD_eq_getElem?_getD, List.getD_eq_getElem?_getD, hσ k b i j hi hj hk, hk,
      blockFlags_get row b.isLt hi hj, blockFlags_get row (τ b).isLt hi hj]
  have T := transfer_perm (L := fun i => r.vars[i]) (te := fun i => a.te.getD i false)
    (le := fun i => a.le.getD i false) (ns := a.ns) (g := a.g)
    (V := fun i => r.inlet.vAppInfs.getD i 0) (areas := fun i => (getPanelsArea a.panels).getD i 0)
    (L' := fun i => vars'[i]) (te' := fun i => a.te.getD i false)
    (le' := fun i => a.le.getD i false) (V' := fun i => inlet'.vAppInfs.getD i 0)
    (areas' := fun i => (getPanelsArea (blockPanels a.nc a.ns full')).getD i 0) σ hL
    (by rw [hte]; exact hflag _) (by rw [hle]; exact hflag _)
    (fun k => (hwind (σ k) k (by simp) (by simp) (by
      rw [List.getElem?_map, List.getElem?_map, hvk k])).1)
    (by
      intro k
      obtain ⟨b, i, j, hi, hj, hk⟩ := hcases k
      rw [getPanelsArea, getPanelsArea, hp, List.getD_eq_getElem?_getD, List.getD_eq_getElem?_getD, List.getElem?_map,
        List.getElem?_map, hσ k b i j hi hj hk, hk, hpan' b i j hi hj, hpan (τ b) i j hi hj])
    (by
      intro k hk0
      obtain ⟨b, i, j, hi, hj, hk⟩ := hcases k
      rw [hle] at hk0
      simp only [hk, leading_at b.isLt hi hj] at hk0
      rw [case1x1_flags hnc hns hn0 hK'] at hk0
      have hi0 : 1 ≤ i := by
        by_contra h0
        have : i = 0 := by omega
        subst this
        simp at hk0
        omega
      have wrap : ∀ (K : ℕ) (_ : K = n * (a.nc * a.ns)) (k : Fin K) (b : Fin n), k.val = panelNo a.nc a.ns b i j →
          (wrapIndex k a.ns).val = panelNo a.nc a.ns b (i - 1) j := by
        intro K hK k b hk
        have hlt : panelNo a.nc a.ns b (i - 1) j < K := by
          rw [hK]; exact panelNo_lt b.isLt (by omega) hj
        obtain ⟨i', rfl⟩ : ∃ i', i = i' + 1 := ⟨i - 1, by omega⟩
        unfold wrapIndex
        simp only [hk, panelNo_pred, Nat.add_sub_cancel] at hlt ⊢
        rw [show panelNo a.nc a.ns b i' j + a.ns + K - a.ns = panelNo a.nc a.ns b i' j + K by omega, Nat.add_mod_right,
          Nat.mod_eq_of_lt hlt]
      apply Fin.ext
      rw [hσ _ b (i - 1) j (by omega) hj (wrap _ hK' k b hk), wrap _ hK (σ k) (τ b) (hσ k b i j hi hj hk)])
    (by
      intro _ k _
      have h1 : 1 * a.ns ≤ a.nc * a.ns := Nat.mul_le_mul_right _ hnc
      have h2 : 1 * (a.nc * a.ns) ≤ n * (a.nc * a.ns) := Nat.mul_le_mul_right _ hn0
      omega)
  have hcore := T.vlmCore_eq 1 a.rho one_ne_zero hs
  rw [one_mul] at hcore
  refine ⟨⟨{ a with panels := blockPanels a.nc a.ns full' }, _, vars', inlet', _⟩,
    (vlm_ok_iff _ _).2 ⟨rfl, rfl, by simp only []; rw [hte]; exact hc', hin', hcore⟩, ?_⟩
  intro b i j hi hj
  have hlt : panelNo a.nc a.ns b i j < vars'.length := by rw [hK']; exact panelNo_lt b.isLt hi hj
  have hlt2 : panelNo a.nc a.ns (τ b) i j < r.vars.length := by rw [hK]; exact panelNo_lt (τ b).isLt hi hj
  have hσv : (σ ⟨_, hlt⟩) = ⟨panelNo a.nc a.ns (τ b) i j, hlt2⟩ := Fin.ext (hσ ⟨_, hlt⟩ b i j hi hj rfl)
  have key : ∀ {α : Type} (x : Fin r.vars.length → α) (y : Fin vars'.length → α), (∀ k, y k = x (σ k)) →
      (List.ofFn y)[panelNo a.nc a.ns b i j]? = (List.ofFn x)[panelNo a.nc a.ns (τ b) i j]? := by
    intro α x y hxy
    rw [List.getElem?_ofFn, List.getElem?_ofFn, dif_pos hlt, dif_pos hlt2, hxy, hσv]
  constructor
  · rw [hin0]
    simp only []
    rw [hp, hpan' b i j hi hj, hpan (τ b) i j hi hj]
  all_goals first
    | exact key _ _ fun k => by simp
    | simp only [Vlm.out, VlmSolution.arrays, List.length_ofFn]; exact hlt2

/-- `Vlm` returns for the two meshes of the demonstration, so `C99_meshes` applies to their exchange. -/
example : ∃ r f, Meshed Demo.input2 (n := 2) f ∧ vlm Demo.input2 = .ok r ∧ f 0 ≠ f (Equiv.swap 0 1 0) := by
  obtain ⟨r, h, -⟩ := Demo.vlm_ok2
  refine ⟨r, ![Demo.pts, mirrorMesh 1 Demo.pts], ⟨by simp [List.ofFn_succ]; rfl, rfl, rfl⟩, h, ?_⟩
  intro e
  have := congrArg V3.z (congrFun (congrFun e 0) 0)
  simp [mirrorMesh, mirror, Demo.pts] at this
  norm_num at this

/-- The panels of a sail set of sails `s 0, s 1, …`. -/
theorem meshed_sails {nc ns m : ℕ} (s : Fin m → SailInput × (ℕ → ℝ)) (g : Fin m → SailGeom)
    (h : ∀ b, BuiltFrom nc ns (s b) (g b)) {set : SailSet} (hs : sailSet (List.ofFn g) = .ok set) :
    set.panels = blockPanels nc ns (List.ofFn (Fin.append (fun b => abovePoints (s b)) fun b => underPoints (s b))) ∧
    set.te = trailingFlags nc ns (m + m) ∧ set.le = leadingFlags nc ns (m + m) := by
  have hf : List.Forall₂ (BuiltFrom nc ns) (List.ofFn s) (List.ofFn g) := by
    rw [List.forall₂_iff_get]
    refine ⟨by simp, fun i h1 h2 => ?_⟩
    simpa using h _
  obtain ⟨h1, h2, h3⟩ := sailSet_blocks hf hs
  rw [List.length_ofFn, two_mul] at h2 h3
  refine ⟨?_, h2, h3⟩
  rw [h1, List.ofFn_fin_append, List.map_ofFn, List.map_ofFn]
  rfl

theorem take_sum_perm {m nc ns : ℕ} (π : Fin m ≃ Fin m) (l l' : List V3) (hl : m * (nc * ns) ≤ l.length)
    (hl' : m * (nc * ns) ≤ l'.length)
    (h : ∀ (b : Fin m) i j, i < nc → j < ns → l'[panelNo nc ns b i j]? = l[panelNo nc ns (π b) i j]?) :
    (l'.take (m * (nc * ns))).sum = (l.take (m * (nc * ns))).sum := by
  have key : ∀ l : List V3, m * (nc * ns) ≤ l.length →
      (l.take (m * (nc * ns))).sum = ∑ k : Fin (m * (nc * ns)), (l[k.val]?).getD 0 := by
    intro l hl
    rw [← List.sum_ofFn]
    congr 1
    apply List.ext_getElem
    · simp [hl]
    · intro k h1 h2
      have hk : k < l.length := by simp at h1; omega
      simp [List.getElem?_eq_getElem hk]
  rw [key l hl, key l' hl', ← Equiv.sum_comp (blockPerm rfl rfl π) fun k => (l[k.val]?).getD 0]
  apply Finset.sum_congr rfl
  intro k _
  obtain ⟨b, i, j, hb, hi, hj, hk⟩ := panelNo_surj k.isLt
  rw [blockPerm_panelNo rfl rfl π k ⟨b, hb⟩ hi hj hk, hk]
  exact congrArg (fun o => Option.getD o 0) (h ⟨b, hb⟩ i j hi hj)

/-- **C99**, for sail sets: the sails of a `SailSet` may be given in any order.  If `Vlm` returns for one order, it
returns for every other one; every panel of every sail and of its image has the same results, and the total force on
the sails is the same. -/
theorem C99_sails (nc ns m : ℕ) (s : Fin m → SailInput × (ℕ → ℝ)) (g : Fin m → SailGeom) (π : Fin m ≃ Fin m)
    (h : ∀ b, BuiltFrom nc ns (s b) (g b)) (set : SailSet) (hs : sailSet (List.ofFn g) = .ok set) (rho γ : ℝ)
    (wind : WindObj) (r : Vlm) (hr : vlm ⟨set.panels, nc, ns, rho, wind, set.te, set.le, γ⟩ = .ok r) :
    ∃ set' r', sailSet (List.ofFn fun b => g (π b)) = .ok set' ∧
      vlm ⟨set'.panels, nc, ns, rho, wind, set'.te, set'.le, γ⟩ = .ok r' ∧
      (∀ (b : Fin m) i j, i < nc → j < ns →
        SameResults r r' (panelNo nc ns (π b) i j) (panelNo nc ns b i j) ∧
        SameResults r r' (panelNo nc ns (m + π b) i j) (panelNo nc ns (m + b) i j)) ∧
      (extractAboveWater r'.out.force).2 = (extractAboveWater r.out.force).2 := by
  have hm : m ≠ 0 := by
    rintro rfl
    simp [sailSet] at hs
  have hnc : 0 < nc := by
    obtain ⟨hok, rfl, rfl, -⟩ := h ⟨0, Nat.pos_of_ne_zero hm⟩
    exact hok.nc_pos
  have hns : 0 < ns := by
    obtain ⟨hok, rfl, rfl, -⟩ := h ⟨0, Nat.pos_of_ne_zero hm⟩
    exact hok.ns_pos
  obtain ⟨set', hs'⟩ : ∃ set', sailSet (List.ofFn fun b => g (π b)) = .ok set' := by
    unfold sailSet
    rw [if_neg (by simp [hm])]
    exact ⟨_, rfl⟩
  obtain ⟨h1, h2, h3⟩ := meshed_sails s g h hs
  obtain ⟨h1', h2', h3'⟩ := meshed_sails (fun b => s (π b)) (fun b => g (π b)) (fun b => h (π b)) hs'
  let τ : Fin (m + m) ≃ Fin (m + m) := finSumFinEquiv.symm.trans ((Equiv.sumCongr π π).trans finSumFinEquiv)
  have ha : ∀ b : Fin m, τ (Fin.castAdd m b) = Fin.castAdd m (π b) := fun b => by
    simp only [τ, Equiv.trans_apply, finSumFinEquiv_symm_apply_castAdd, Equiv.sumCongr_apply, Sum.map_inl,
      finSumFinEquiv_apply_left]
  have hu : ∀ b : Fin m, τ (Fin.natAdd m b) = Fin.natAdd m (π b) := fun b => by
    simp only [τ, Equiv.trans_apply, finSumFinEquiv_symm_apply_natAdd, Equiv.sumCongr_apply, Sum.map_inr,
      finSumFinEquiv_apply_right]
  obtain ⟨r', hr', hsame⟩ := C99_meshes ⟨set.panels, nc, ns, rho, wind, set.te, set.le, γ⟩ _ τ hnc hns ⟨h1, h2, h3⟩ r hr
  have hf : (fun b => Fin.append (fun b => abovePoints (s b)) (fun b => underPoints (s b)) (τ b)) =
      Fin.append (fun b => abovePoints (s (π b))) fun b => underPoints (s (π b)) := by
    funext b
    refine Fin.addCases (fun b => ?_) (fun b => ?_) b
    · rw [ha, Fin.append_left, Fin.append_left]
    · rw [hu, Fin.append_right, Fin.append_right]
  simp only [hf] at hr'
  rw [← h1', h2.trans h2'.symm, h3.trans h3'.symm] at hr'
  have hA : ∀ (b : Fin m) i j, i < nc → j < ns →
      SameResults r r' (panelNo nc ns (π b) i j) (panelNo nc ns b i j) := fun b i j hi hj => by
    have := hsame (Fin.castAdd m b) i j hi hj
    rw [ha] at this
    exact this
  refine ⟨set', r', hs', hr', fun b i j hi hj => ⟨hA b i j hi hj, ?_⟩, ?_⟩
  · have := hsame (Fin.natAdd m b) i j hi hj
    rw [hu] at this
    exact this
  · have hlen : ∀ {set : SailSet} {r : Vlm} {s : Fin m → SailInput × (ℕ → ℝ)}, set.panels = blockPanels nc ns (List.ofFn
        (Fin.append (fun b => abovePoints (s b)) fun b => underPoints (s b))) →
        vlm ⟨set.panels, nc, ns, rho, wind, set.te, set.le, γ⟩ = .ok r →
        r.out.force.length = (m + m) * (nc * ns) := by
      intro set r s h1 hr
      have := (calculateVlmVariables_ok ((vlm_ok_iff _ r).1 hr).2.2.1).1
      simp only [] at this
      simp only [Vlm.out, VlmSolution.arrays, List.length_ofFn]
      rw [this, h1, blockPanels_length, List.length_ofFn]
    have e1 := hlen h1 hr
    have e2 := hlen h1' hr'
    have e3 : (m + m) * (nc * ns) / 2 = m * (nc * ns) := by
      rw [add_mul]; omega
    simp only [extractAboveWater, e1, e2, e3]
    refine take_sum_perm π _ _ (by rw [e1, add_mul]; omega) (by rw [e2, add_mul]; omega) fun b i j hi hj => ?_
    exact (hA b i j hi hj).force

/-- Two different sails form a sail set as in `C99_sails`. -/
example : ∃ (s : Fin 2 → SailInput × (ℕ → ℝ)) (g : Fin 2 → SailGeom) (set : SailSet),
    (∀ b, BuiltFrom 2 1 (s b) (g b)) ∧ sailSet (List.ofFn g) = .ok set ∧ (s 0).1 ≠ (s 1).1 := by
  have hok : SailOk (demoSail 2 [0.1, 0.1] [0.5, 0.25] none none) (fun _ => 0) := by
    apply demoSail_ok <;> first | exact twistOk_none _ _ _ _ | norm_num
  have hok' : SailOk (demoSail 2 [0.1, 0.2] [0.5, 0.5] none none) (fun _ => 0) := by
    apply demoSail_ok <;> first | exact twistOk_none _ _ _ _ | norm_num
  obtain ⟨g, hg, -⟩ := sailGeometry_ok hok
  obtain ⟨g', hg', -⟩ := sailGeometry_ok hok'
  refine ⟨![(demoSail 2 [0.1, 0.1] [0.5, 0.25] none none, fun _ => 0),
    (demoSail 2 [0.1, 0.2] [0.5, 0.5] none none, fun _ => 0)], ![g, g'], _, ?_, by unfold sailSet; rw [if_neg (by simp)], ?_⟩
  · intro b
    fin_cases b
    · exact ⟨hok, rfl, rfl, hg⟩
    · exact ⟨hok', rfl, rfl, hg'⟩
  · intro e
    have := congrArg SailInput.camber e
    simp [demoSail] at this
    norm_num at this

end PySailing.Props
