import Verif.Props.Order
import Verif.Props.NearSail

/-!
# C129: the same sail twice
-/

namespace PySailing.Props

open PySailing Spec

/-- Two control points with the same normal that coincide. -/
theorem influence_same_row {K : ℕ} {L : Fin K → PanelVars} {te : Fin K → Bool} {g : ℝ} {V : Fin K → V3}
    {i k : Fin K} (hik : i ≠ k) (hc : (L i).ctrP = (L k).ctrP) (hn : (L i).normal = (L k).normal) :
    (influence L te V g).det = 0 :=
  Matrix.det_zero_of_row_eq hik (by funext j; simp only [influence, Matrix.of_apply, hc, hn])

/-- **C129.** If two of the panels passed to `Vlm` are the same, it does not return: the matrix of the linear system has two
equal rows. -/
theorem C129_same_panel (a : VlmInput) {i k : ℕ} (hik : i ≠ k) {q : Panel} (hi : a.panels[i]? = some q) (hk : a.panels[k]? = some q) :
    ∀ r, vlm a ≠ .ok r := by
  classical
  intro r h
  obtain ⟨-, -, hv, -, hs⟩ := (vlm_ok_iff a r).1 h
  obtain ⟨hl, -, hrow⟩ := calculateVlmVariables_ok hv
  obtain ⟨hi', ei⟩ := List.getElem?_eq_some_iff.1 hi
  obtain ⟨hk', ek⟩ := List.getElem?_eq_some_iff.1 hk
  obtain ⟨A, D, h1⟩ := hrow i hi'
  obtain ⟨A', D', h2⟩ := hrow k hk'
  rw [ei] at h1
  rw [ek] at h2
  obtain ⟨hi2, e1⟩ := List.getElem?_eq_some_iff.1 h1
  obtain ⟨hk2, e2⟩ := List.getElem?_eq_some_iff.1 h2
  exact ((vlmCore_ok_iff _ _ _ _ _ _ _ _ _).1 hs).1.regular
    (influence_same_row (i := ⟨i, hi2⟩) (k := ⟨k, hk2⟩) (fun e => hik (Fin.mk.inj e))
      (by simp only [Fin.getElem_fin, e1, e2]; rfl) (by simp only [Fin.getElem_fin, e1, e2]; rfl))

/-- **C129**, the exception: if `Vlm` returns for the meshes `f 0, f 1, …`, then for any list of these meshes in which one of them
occurs twice it ends with numpy's `LinAlgError`. -/
theorem C129_meshes (a : VlmInput) {n n' : ℕ} (f : Fin n → ℕ → ℕ → V3) (τ : Fin n' → Fin n) (hnc : 0 < a.nc) (hns : 0 < a.ns)
    (hm : Meshed a f) (r : Vlm) (h : vlm a = .ok r) {b₁ b₂ : Fin n'} (hb : b₁ ≠ b₂) (hτ : τ b₁ = τ b₂) :
    vlm { a with panels := blockPanels a.nc a.ns (List.ofFn fun b => f (τ b)), te := trailingFlags a.nc a.ns n',
                 le := leadingFlags a.nc a.ns n' } = .error .linAlgError := by
  classical
  obtain ⟨hp, hte, hle⟩ := hm
  obtain ⟨hin0, har, hv, hin, hs⟩ := (vlm_ok_iff a r).1 h
  obtain ⟨full, hfull⟩ : ∃ full, full = List.ofFn f := ⟨_, rfl⟩
  obtain ⟨full', hfull'⟩ : ∃ full', full' = List.ofFn fun b => f (τ b) := ⟨_, rfl⟩
  have hfl : full.length = n := by rw [hfull]; simp
  have hfl' : full'.length = n' := by rw [hfull']; simp
  rw [← hfull] at hp
  rw [← hfull']
  have hn0' : 0 < n' := b₁.pos
  have hn0 : 0 < n := (τ b₁).pos
  have hK : r.vars.length = n * (a.nc * a.ns) := by
    rw [(calculateVlmVariables_ok hv).1, hp, blockPanels_length, hfl]
  have hbl : full ≠ [] := by rw [← List.length_pos_iff_ne_nil, hfl]; exact hn0
  have hbl' : full' ≠ [] := by rw [← List.length_pos_iff_ne_nil, hfl']; exact hn0'
  have hc := calculateVlmVariables_blocks a.g hnc hns full hbl
  have hc' := calculateVlmVariables_blocks a.g hnc hns full' hbl'
  rw [hfl] at hc
  rw [hfl'] at hc'
  have hnd := (calculateVlmVariables_ok hv).2.1
  rw [hp] at hnd
  have hpan : ∀ (b : Fin n) i j, i < a.nc → j < a.ns →
      (blockPanels a.nc a.ns full)[panelNo a.nc a.ns b i j]? = some (panelOf (f b) i j) := by
    intro b i j hi hj
    have h1 := blocks_get full panelOf (b := b.val) (by rw [hfl]; exact b.isLt) hi hj
    simp only [hfull, List.getElem_ofFn] at h1 ⊢
    exact h1
  have hpan' : ∀ (b : Fin n') i j, i < a.nc → j < a.ns →
      (blockPanels a.nc a.ns full')[panelNo a.nc a.ns b i j]? = some (panelOf (f (τ b)) i j) := by
    intro b i j hi hj
    have h1 := blocks_get full' panelOf (b := b.val) (by rw [hfl']; exact b.isLt) hi hj
    simp only [hfull', List.getElem_ofFn] at h1 ⊢
    exact h1
  have hnd' : ¬ ∃ q ∈ blockPanels a.nc a.ns full', normalRaw q = 0 := by
    rintro ⟨q, hq, hz⟩
    obtain ⟨k, hk, rfl⟩ := List.getElem_of_mem hq
    rw [blockPanels_length, hfl'] at hk
    obtain ⟨b, i, j, hb, hi, hj, rfl⟩ := panelNo_surj hk
    have e1 := hpan' ⟨b, hb⟩ i j hi hj
    have e2 := hpan (τ ⟨b, hb⟩) i j hi hj
    obtain ⟨hk', e1⟩ := List.getElem?_eq_some_iff.1 e1
    simp only [] at hz e1
    rw [e1] at hz
    exact hnd _ (List.mem_of_getElem? e2) hz
  rw [if_neg hnd'] at hc'
  obtain ⟨vars', hvars'⟩ : ∃ v, v = (full'.map fun pts => (List.range a.nc).flatMap fun i =>
      (List.range a.ns).map fun j => meshVars a.g a.nc pts i j).flatten := ⟨_, rfl⟩
  rw [← hvars'] at hc'
  have hvars : r.vars = (full.map fun pts => (List.range a.nc).flatMap fun i =>
      (List.range a.ns).map fun j => meshVars a.g a.nc pts i j).flatten := by
    rw [hp, hte, hc] at hv
    split_ifs at hv
    injection hv with hv
    exact hv.symm
  have hK' : vars'.length = n' * (a.nc * a.ns) := by
    rw [(calculateVlmVariables_ok hc').1, blockPanels_length, hfl']
  have hget : ∀ (b : Fin n) i j, i < a.nc → j < a.ns →
      r.vars[panelNo a.nc a.ns b i j]? = some (meshVars a.g a.nc (f b) i j) := by
    intro b i j hi hj
    have h1 := blocks_get full (meshVars a.g a.nc) (b := b.val) (by rw [hfl]; exact b.isLt) hi hj
    rw [hvars, h1]
    simp only [hfull, List.getElem_ofFn]
  have hget' : ∀ (b : Fin n') i j, i < a.nc → j < a.ns →
      vars'[panelNo a.nc a.ns b i j]? = some (meshVars a.g a.nc (f (τ b)) i j) := by
    intro b i j hi hj
    have h1 := blocks_get full' (meshVars a.g a.nc) (b := b.val) (by rw [hfl']; exact b.isLt) hi hj
    rw [hvars', h1]
    simp only [hfull', List.getElem_ofFn]
  have hcases : ∀ k : Fin vars'.length, ∃ (b : Fin n') (i j : ℕ), i < a.nc ∧ j < a.ns ∧
      k.val = panelNo a.nc a.ns b i j := fun k => by
    obtain ⟨b, i, j, hb, hi, hj, hk⟩ := panelNo_surj (k.isLt.trans_eq hK')
    exact ⟨⟨b, hb⟩, i, j, hi, hj, hk⟩
  have hne' : vars' ≠ [] := by
    rw [← List.length_pos_iff_ne_nil, hK']
    exact Nat.mul_pos hn0' (Nat.mul_pos hnc hns)
  have hmem : ∀ k : Fin vars'.length, ∃ k₀ : Fin r.vars.length, vars'[k.val]? = r.vars[k₀.val]? ∧
      (trailingFlags a.nc a.ns n').getD k false = (trailingFlags a.nc a.ns n).getD k₀ false := fun k => by
    obtain ⟨b, i, j, hi, hj, hk⟩ := hcases k
    refine ⟨⟨panelNo a.nc a.ns (τ b) i j, by rw [hK]; exact panelNo_lt (τ b).isLt hi hj⟩, ?_, ?_⟩
    · rw [hk, hget' b i j hi hj, hget (τ b) i j hi hj]
    · unfold trailingFlags
      rw [List.getD_eq_getElem?_getD, List.getD_eq_getElem?_getD, hk, blockFlags_get _ b.isLt hi hj, blockFlags_get _ (τ b).isLt hi hj]
  obtain ⟨inlet', hin', hwind⟩ := inlet_perm (cps' := vars'.map PanelVars.cp) hin (by simpa using hne') (by
    intro p hpm
    obtain ⟨v, hvm, rfl⟩ := List.mem_map.1 hpm
    obtain ⟨k, hk, rfl⟩ := List.getElem_of_mem hvm
    obtain ⟨k₀, e, -⟩ := hmem ⟨k, hk⟩
    rw [List.getElem?_eq_getElem hk, List.getElem?_eq_getElem k₀.isLt] at e
    exact List.mem_map.2 ⟨_, (Option.some.inj e) ▸ List.getElem_mem _, rfl⟩)
  have hdef : coefsDefined (fun i : Fin r.vars.length => r.vars[i]) (fun i => a.te.getD i false)
      (fun i => r.inlet.vAppInfs.getD i 0) (fun i => r.vars[i].ctrP) := by
    exact (coefsDefined_iff _ _ _ _).2 ((vlmCore_ok_iff _ _ _ _ _ _ _ _ _).1 hs).1.ctr
  have hdef' : coefsDefined (fun i : Fin vars'.length => vars'[i]) (fun i => (trailingFlags a.nc a.ns n').getD i false)
      (fun i => inlet'.vAppInfs.getD i 0) (fun i => vars'[i].ctrP) := by
    intro i j hj
    obtain ⟨i₀, ei, -⟩ := hmem i
    obtain ⟨j₀, ej, ej2⟩ := hmem j
    have hw := (hwind j₀ j (by simp) (by simp) (by rw [List.getElem?_map, List.getElem?_map, ej])).1
    rw [List.getElem?_eq_getElem i.isLt, List.getElem?_eq_getElem i₀.isLt] at ei
    rw [List.getElem?_eq_getElem j.isLt, List.getElem?_eq_getElem j₀.isLt] at ej
    have e1 := Option.some.inj ei
    have e2 := Option.some.inj ej
    simp only [Fin.getElem_fin, e1, e2, hw]
    exact hdef i₀ j₀ (by simp only [hte]; rw [← ej2]; exact hj)
  have hlt : ∀ b : Fin n', panelNo a.nc a.ns b 0 0 < vars'.length := fun b => by rw [hK']; exact panelNo_lt b.isLt hnc hns
  have hgv : ∀ b : Fin n', vars'[panelNo a.nc a.ns b 0 0]'(hlt b) = meshVars a.g a.nc (f (τ b)) 0 0 := fun b => by
    have := hget' b 0 0 hnc hns
    rw [List.getElem?_eq_getElem (hlt b)] at this
    exact Option.some.inj this
  have hneq : (⟨panelNo a.nc a.ns b₁ 0 0, hlt b₁⟩ : Fin vars'.length) ≠ ⟨panelNo a.nc a.ns b₂ 0 0, hlt b₂⟩ := by
    intro e
    have e := Fin.mk.inj e
    unfold panelNo at e
    have hpos : 0 < a.nc * a.ns := Nat.mul_pos hnc hns
    apply hb
    apply Fin.ext
    have : (b₁ : ℕ) * (a.nc * a.ns) = b₂ * (a.nc * a.ns) := by linear_combination e
    exact Nat.eq_of_mul_eq_mul_right hpos this
  unfold vlm
  simp only []
  rw [hc', show nanTrap (Except.ok vars' : Py (List PanelVars)) = .ok vars' from rfl]
  simp only [bind, Except.bind]
  rw [hin', show nanTrap (Except.ok inlet' : Py Inlet) = .ok inlet' from rfl]
  simp only []
  unfold vlmSolve vlmCore
  simp only []
  rw [solveLattice_eq, if_neg (not_not.2 ((coefsDefined_iff _ _ _ _).1 hdef')),
    if_pos (influence_same_row hneq (by simp only [Fin.getElem_fin, hgv, hτ]) (by simp only [Fin.getElem_fin, hgv, hτ]))]
  rfl

/-- **C129**, sails: if the calculation for the sails `s 0, s 1, …` returns, then for any list of these sails in which one of them
occurs twice it ends with `LinAlgError`. -/
theorem C129_sails (nc ns m m' : ℕ) (s : Fin m → SailInput × (ℕ → ℝ)) (τ : Fin m' → Fin m)
    (h : ∀ b, SailOk (s b).1 (s b).2 ∧ (s b).1.nc = nc ∧ (s b).1.ns = ns) (rho γ : ℝ) (wind : WindObj) (r : Vlm)
    (hr : calculateSails (List.ofFn fun b => (s b).1) nc ns rho γ wind = .ok r) {b₁ b₂ : Fin m'} (hb : b₁ ≠ b₂) (hτ : τ b₁ = τ b₂) :
    calculateSails (List.ofFn fun b => (s (τ b)).1) nc ns rho γ wind = .error .linAlgError := by
  have hg : ∀ b, ∃ g, BuiltFrom nc ns (s b) g := fun b => by
    obtain ⟨g, hg, -⟩ := sailGeometry_ok (h b).1
    exact ⟨g, (h b).1, (h b).2.1, (h b).2.2, hg⟩
  choose g hg using hg
  have hnc : 0 < nc := by
    obtain ⟨hok, rfl, rfl⟩ := h (τ b₁)
    exact hok.nc_pos
  have hns : 0 < ns := by
    obtain ⟨hok, rfl, rfl⟩ := h (τ b₁)
    exact hok.ns_pos
  have hm : ∀ {k : ℕ} (σ : Fin k → Fin m), (List.ofFn fun b => (s (σ b)).1).mapM sailGeometry = .ok (List.ofFn fun b => g (σ b)) := by
    intro k σ
    have e : (List.ofFn fun b => (s (σ b)).1) = (List.ofFn σ).map fun b => (s b).1 := by rw [List.map_ofFn]; rfl
    have e' : (List.ofFn fun b => g (σ b)) = (List.ofFn σ).map g := by rw [List.map_ofFn]; rfl
    rw [e, e']
    induction List.ofFn σ with
    | nil => rfl
    | cons b l ih =>
      rw [List.map_cons, List.mapM_cons, (hg b).2.2.2, ih]
      rfl
  have hset : ∀ {k : ℕ} (σ : Fin k → Fin m), 0 < k → ∃ set, sailSet (List.ofFn fun b => g (σ b)) = .ok set := fun σ hk => by
    unfold sailSet
    rw [if_neg (by simp; omega)]
    exact ⟨_, rfl⟩
  obtain ⟨set, hs⟩ := hset id (τ b₁).pos
  obtain ⟨set', hs'⟩ := hset τ b₁.pos
  obtain ⟨h1, h2, h3⟩ := meshed_sails s g hg hs
  obtain ⟨h1', h2', h3'⟩ := meshed_sails (fun b => s (τ b)) (fun b => g (τ b)) (fun b => hg (τ b)) hs'
  have hm1 := hm id
  unfold calculateSails at hr ⊢
  rw [hm τ]
  simp only [id] at hm1 hs
  rw [hm1] at hr
  simp only [bind, Except.bind, hs] at hr
  simp only [bind, Except.bind, hs']
  let τ' : Fin (m' + m') → Fin (m + m) := Fin.addCases (fun b => Fin.castAdd m (τ b)) fun b => Fin.natAdd m (τ b)
  have hf : (fun b => Fin.append (fun b => abovePoints (s b)) (fun b => underPoints (s b)) (τ' b)) =
      Fin.append (fun b => abovePoints (s (τ b))) fun b => underPoints (s (τ b)) := by
    funext b
    refine Fin.addCases (fun b => ?_) (fun b => ?_) b
    · rw [Fin.append_left]
      simp only [τ', Fin.addCases_left, Fin.append_left]
    · rw [Fin.append_right]
      simp only [τ', Fin.addCases_right, Fin.append_right]
  have key := C129_meshes ⟨set.panels, nc, ns, rho, wind, set.te, set.le, γ⟩ _ τ' hnc hns ⟨h1, h2, h3⟩ r hr
    (b₁ := Fin.castAdd m' b₁) (b₂ := Fin.castAdd m' b₂) (fun e => hb (Fin.castAdd_injective m' m' e))
    (by simp only [τ', Fin.addCases_left, hτ])
  simp only [hf] at key
  rw [← h1', ← h2', ← h3'] at key
  exact key

theorem mapM_sublist {α β : Type} {f : α → Py β} {l l' : List α} (h : l'.Sublist l) :
    ∀ {r : List β}, l.mapM f = .ok r → ∃ r', l'.mapM f = .ok r' ∧ r'.Sublist r := by
  induction h with
  | slnil => exact fun hr => ⟨_, hr, List.Sublist.refl _⟩
  | cons a h ih =>
    intro r hr
    rw [List.mapM_cons] at hr
    simp only [bind, Except.bind] at hr
    split at hr
    · cases hr
    · split at hr
      · cases hr
      · rename_i l₂ v hv x e2
        injection hr with hr
        subst hr
        obtain ⟨r', e, hsub⟩ := ih e2
        exact ⟨r', e, hsub.cons _⟩
  | cons_cons a h ih =>
    intro r hr
    rw [List.mapM_cons] at hr
    simp only [bind, Except.bind] at hr
    split at hr
    · cases hr
    · rename_i v hv
      split at hr
      · cases hr
      · rename_i x e2
        injection hr with hr
        subst hr
        obtain ⟨r', e, hsub⟩ := ih e2
        refine ⟨v :: r', ?_, hsub.cons_cons _⟩
        rw [List.mapM_cons, hv, e]
        rfl

/-- **C129**, without assuming that the calculation returns for other lists of sails: if a sail with at least one panel occurs
twice in a list of sails, the calculation for the list never returns, whatever the other sails are. -/
theorem C129_never (ss : List SailInput) (nc ns : ℕ) (rho γ : ℝ) (wind : WindObj) (s : SailInput) (g : SailGeom)
    (hs : sailGeometry s = .ok g) (hg : g.panelsAbove ≠ []) (h2 : [s, s].Sublist ss) :
    ∀ r, calculateSails ss nc ns rho γ wind ≠ .ok r := by
  intro r hr
  unfold calculateSails at hr
  rcases hm : ss.mapM sailGeometry with _ | gs
  · rw [hm] at hr
    cases hr
  rw [hm] at hr
  simp only [bind, Except.bind] at hr
  rcases hset : sailSet gs with _ | set
  · rw [hset] at hr
    cases hr
  rw [hset] at hr
  simp only [] at hr
  obtain ⟨g2, e, hsub⟩ := mapM_sublist h2 hm
  have e' : [s, s].mapM sailGeometry = .ok [g, g] := by
    simp only [List.mapM_cons, hs, List.mapM_nil]
    rfl
  rw [e'] at e
  obtain rfl := Except.ok.inj e
  obtain ⟨q, l, hq⟩ := List.exists_cons_of_ne_nil hg
  have hqq : [q, q].Sublist set.panels := by
    have hp : set.panels = (gs.map SailGeom.panelsAbove).flatten ++ (gs.map SailGeom.panelsUnder).flatten := by
      unfold sailSet at hset
      split_ifs at hset
      obtain rfl := Except.ok.inj hset
      rfl
    rw [hp]
    refine List.Sublist.trans ?_ (List.sublist_append_left _ _)
    refine List.Sublist.trans ?_ (hsub.map SailGeom.panelsAbove).flatten
    simp only [List.map_cons, List.map_nil, hq, List.flatten_cons, List.flatten_nil, List.append_nil, List.cons_append]
    refine List.Sublist.cons_cons _ ?_
    exact List.singleton_sublist.2 (List.mem_append_right _ List.mem_cons_self)
  have hnd : ¬ set.panels.Nodup := fun hnd => List.nodup_iff_sublist.1 hnd q hqq
  rw [List.nodup_iff_getElem?_ne_getElem?] at hnd
  push Not at hnd
  obtain ⟨i, k, hik, hk, heq⟩ := hnd
  exact C129_same_panel _ hik.ne (q := set.panels[k]) (heq.trans (List.getElem?_eq_getElem hk)) (List.getElem?_eq_getElem hk) r hr

/-- **C129**, orientation 0: with `gamma_orientation = 0` (the circulations of C36 would have to be infinite) no calculation
returns. -/
theorem C129_zero_orientation (a : VlmInput) (hg : a.g = 0) : ∀ r, vlm a ≠ .ok r := by
  intro r h
  obtain ⟨-, -, hv, hin, hs⟩ := (vlm_ok_iff a r).1 h
  have hcp0 := ((inletConditions_ok_iff _ _ _ _).1 hin).1
  have hpos : 0 < r.vars.length := by
    rw [List.length_pos_iff_ne_nil]
    rintro e
    rw [e] at hcp0
    exact hcp0 rfl
  have wp := ((vlmCore_ok_iff _ _ _ _ _ _ _ _ _).1 hs).1
  refine wp.regular (Matrix.det_eq_zero_of_row_eq_zero ⟨0, hpos⟩ fun j => ?_)
  have hz : ∀ γ p, latticeVelocity (fun i : Fin r.vars.length => r.vars[i]) (fun i => a.te.getD i false)
      (fun i => r.inlet.vAppInfs.getD i 0) a.g γ p = 0 := by
    intro γ p
    unfold latticeVelocity
    refine Finset.sum_eq_zero fun j _ => ?_
    rw [hg]
    split_ifs
    · simp [vortexHorseshoeV2, vortexLine, vortexInfiniteLine]
    · simp [vortexRing, vortexLine]
  unfold influence
  rw [hz]
  simp

/-- Non-vacuity: the calculation for a flat sail returns, the calculation for a pair of such sails ends with `LinAlgError`. -/
example : (∃ r, calculateSails [demoSail 2 [0, 0] [0.5, 0.5] none none] 2 1 1.2 (-1) ⟨60, 3, 0, .flat⟩ = .ok r) ∧
    calculateSails [demoSail 2 [0, 0] [0.5, 0.5] none none, demoSail 2 [0, 0] [0.5, 0.5] none none] 2 1 1.2 (-1) ⟨60, 3, 0, .flat⟩ =
      .error .linAlgError := by
  obtain ⟨r0, -, h1, -⟩ := C126_nearly_flat demoSail_flat (by norm_num [demoSail]) (by norm_num [demoSail])
    (demoWind_along (v := 3) (by norm_num) _ _) (by simp [V3.dot, leechDirection, demoSail]) (by rintro h - - ⟨c, ref, wl, h, -⟩; cases h)
    (rho0 := 1.2) (g := -1) (by norm_num) (by norm_num) _ demo_cambered (fun _ => 1.2) tendsto_const_nhds (fun _ => ⟨60, 3, 0, .flat⟩)
    ⟨fun _ => rfl, tendsto_const_nhds, tendsto_const_nhds, tendsto_const_nhds⟩
  have h1 : calculateSails [demoSail 2 [0, 0] [0.5, 0.5] none none] 2 1 1.2 (-1) ⟨60, 3, 0, .flat⟩ = .ok r0 := h1
  refine ⟨⟨r0, h1⟩, ?_⟩
  exact C129_sails 2 1 1 2 (fun _ => (demoSail 2 [0, 0] [0.5, 0.5] none none, fun _ => 0)) (fun _ => 0)
    (fun _ => ⟨demoSail_flat.ok, rfl, rfl⟩) 1.2 (-1) ⟨60, 3, 0, .flat⟩ r0 h1 (b₁ := 0) (b₂ := 1) (by decide) rfl

end PySailing.Props
