import Verif.Lemmas.Symmetry
import Verif.Lemmas.LatticeVars

/-!
# Moving, mirroring and rescaling a lattice
-/

namespace PySailing

open Spec

/-! ### Kernels -/

section kernels

variable {R : V3 → V3} {ε : ℝ}

theorem vortexLine_move_g (h : IsIsometry R ε) (t p p1 p2 : V3) {g g' : ℝ} (hg : g ≠ 0) :
    vortexLine (move R t p) (move R t p1) (move R t p2) g' =
      (ε * (g' / g)) • R (vortexLine p p1 p2 g) := by
  rw [vortexLine_move h, vortexLine_gamma, vortexLine_gamma p p1 p2 g, h.map_smul, h.map_smul]
  simp only [smul_smul]
  congr 1
  field_simp

theorem vortexInfiniteLine_move_g (h : IsIsometry R ε) (t P A V : V3) {g g' μ : ℝ} (hg : g ≠ 0)
    (hμ : 0 < μ) :
    vortexInfiniteLine (move R t P) (move R t A) (μ • R V) g' =
      (ε * (g' / g)) • R (vortexInfiniteLine P A V g) := by
  rw [vortexInfiniteLine_smul_wind _ _ _ _ hμ, vortexInfiniteLine_move h, vortexInfiniteLine_gamma,
    vortexInfiniteLine_gamma P A V g, h.map_smul, h.map_smul]
  simp only [smul_smul]
  congr 1
  field_simp

theorem vortexRing_move_g (h : IsIsometry R ε) (t p A B C D : V3) {g g' : ℝ} (hg : g ≠ 0) :
    vortexRing (move R t p) (move R t A) (move R t B) (move R t C) (move R t D) g' =
      (ε * (g' / g)) • R (vortexRing p A B C D g) := by
  unfold vortexRing
  simp only [vortexLine_move_g h t _ _ _ hg, h.map_add, smul_add]

theorem vortexHorseshoeV2_move_g (h : IsIsometry R ε) (t p A B C D V : V3) {g g' μ : ℝ}
    (hg : g ≠ 0) (hμ : 0 < μ) :
    vortexHorseshoeV2 (move R t p) (move R t A) (move R t B) (move R t C) (move R t D) (μ • R V) g' =
      (ε * (g' / g)) • R (vortexHorseshoeV2 p A B C D V g) := by
  unfold vortexHorseshoeV2
  have hg1 : (-1 * g) ≠ 0 := by simpa using hg
  rw [vortexInfiniteLine_move_g h t p A V (g := -1 * g) hg1 hμ,
    vortexInfiniteLine_move_g h t p D V hg hμ]
  simp only [vortexLine_move_g h t _ _ _ hg, h.map_add, smul_add]
  rw [show -1 * g' / (-1 * g) = g' / g by field_simp]

theorem vortexRing_reverse (p A B C D : V3) (g : ℝ) :
    vortexRing p D C B A g = -vortexRing p A B C D g := by
  unfold vortexRing
  rw [vortexLine_swap p C D, vortexLine_swap p B C, vortexLine_swap p A B, vortexLine_swap p D A]
  abel

theorem vortexHorseshoeV2_reverse (p A B C D V : V3) (g : ℝ) :
    vortexHorseshoeV2 p D C B A V g = -vortexHorseshoeV2 p A B C D V g := by
  unfold vortexHorseshoeV2
  rw [vortexLine_swap p C D, vortexLine_swap p B C, vortexLine_swap p A B,
    vortexInfiniteLine_gamma p A V g, vortexInfiniteLine_gamma p D V (-1 * g),
    vortexInfiniteLine_gamma p D V g, vortexInfiniteLine_gamma p A V (-1 * g)]
  simp only [neg_mul, one_mul, neg_smul]
  abel

end kernels

/-! ### Moved panel variables -/

/-- Variables of a moved panel (and of a rescaled circulation unit). -/
noncomputable def PanelVars.moved (R : V3 → V3) (ε : ℝ) (t : V3) (κ : ℝ) (v : PanelVars) :
    PanelVars where
  normal := ε • R v.normal
  ctrP := move R t v.ctrP
  cp := move R t v.cp
  ring := ⟨move R t v.ring.A, move R t v.ring.B, move R t v.ring.C, move R t v.ring.D⟩
  span := κ • R v.span
  leMid := move R t v.leMid
  teMid := move R t v.teMid

section panels

variable {R : V3 → V3} {ε : ℝ} (h : IsIsometry R ε) (t : V3)

include h

theorem move_affine (a b : V3) (c : ℝ) :
    move R t a + c • (move R t b - move R t a) = move R t (a + c • (b - a)) := by
  rw [h.move_sub, ← h.map_smul]
  unfold move
  rw [h.map_add]; abel

theorem move_affine' (a b c d : V3) (s : ℝ) :
    move R t a + s • (move R t b - move R t c) = move R t (a + s • (b - c)) := by
  rw [h.move_sub, ← h.map_smul]
  unfold move
  rw [h.map_add]; abel

theorem move_mid (a b : V3) :
    (1 / 2 : ℝ) • (move R t a + move R t b) = move R t ((1 / 2 : ℝ) • (a + b)) := by
  unfold move
  rw [h.map_smul, h.map_add]
  ext <;> simp <;> ring

theorem normalRaw_move (q : Panel) :
    normalRaw (movePanel R t q) = ε • R (normalRaw q) := by
  unfold normalRaw movePanel
  rw [h.move_sub, h.move_sub, h.cross]

theorem normal_move (q : Panel) :
    (1 / (normalRaw (movePanel R t q)).norm) • normalRaw (movePanel R t q) =
      ε • R ((1 / (normalRaw q).norm) • normalRaw q) := by
  rw [normalRaw_move h, V3.norm_smul, h.abs_one, one_mul, h.norm, h.map_smul, smul_comm]

theorem quarterB_move (q : Panel) : quarterB (movePanel R t q) = move R t (quarterB q) :=
  move_affine h t q.p2 q.p1 _

theorem quarterC_move (q : Panel) : quarterC (movePanel R t q) = move R t (quarterC q) :=
  move_affine h t q.p3 q.p4 _

theorem behindA_move (q : Panel) : behindA (movePanel R t q) = move R t (behindA q) :=
  move_affine' h t q.p1 q.p1 q.p2 0 _

theorem behindD_move (q : Panel) : behindD (movePanel R t q) = move R t (behindD q) :=
  move_affine' h t q.p4 q.p4 q.p3 0 _

theorem panelVars_move {g g' : ℝ} (hg : g ≠ 0) (q : Panel) (A D : V3) :
    panelVars g' (movePanel R t q) (move R t A) (move R t D) =
      (panelVars g q A D).moved R ε t (g' / g) := by
  unfold panelVars PanelVars.moved
  simp only [normal_move h, quarterB_move h, quarterC_move h]
  have e1 : (1 / 2 : ℝ) • ((movePanel R t q).p2 + (movePanel R t q).p3) =
    move R t ((1 / 2 : ℝ) • (q.p2 + q.p3)) := move_mid h t _ _
  have e2 : (1 / 2 : ℝ) • ((movePanel R t q).p1 + (movePanel R t q).p4) =
    move R t ((1 / 2 : ℝ) • (q.p1 + q.p4)) := move_mid h t _ _
  rw [e1, e2, move_affine h, move_affine h, h.move_sub,
    show (g' / g) • R (g • (quarterC q - quarterB q)) = g' • R (quarterC q - quarterB q) by
      rw [h.map_smul, smul_smul, div_mul_cancel₀ _ hg]]

theorem calculateVlmVariables_move {g g' : ℝ} (hg : g ≠ 0) (panels : List Panel) (te : List Bool)
    (nc ns : ℕ) :
    calculateVlmVariables (panels.map (movePanel R t)) te g' nc ns =
      (calculateVlmVariables panels te g nc ns).map
        (List.map (PanelVars.moved R ε t (g' / g))) :=
  calculateVlmVariables_map (Φ := move R t) (fun q A D => panelVars_move h t hg q A D)
    (behindA_move h t) (behindD_move h t) (quarterB_move h t) (quarterC_move h t)
    (fun q => by rw [normalRaw_move h, smul_eq_zero, h.eq_zero_iff]; simp [h.ne_zero]) panels te nc ns

theorem panelArea_move (q : Panel) : panelArea (movePanel R t q) = panelArea q := by
  unfold panelArea movePanel
  simp only [h.move_sub, h.cross_norm]

end panels

/-! ### The transfer for a moved lattice -/

theorem case1x1_congr {K K' : ℕ} (σ : Fin K' ≃ Fin K) (le : Fin K → Bool) :
    case1x1 (fun i => le (σ i)) = case1x1 le := by
  unfold case1x1
  congr 1
  rw [Bool.eq_iff_iff, List.any_eq_true, List.any_eq_true]
  constructor
  · rintro ⟨i, -, hi⟩
    exact ⟨σ i, List.mem_finRange _, hi⟩
  · rintro ⟨i, -, hi⟩
    exact ⟨σ.symm i, List.mem_finRange _, by rw [σ.apply_symm_apply]; exact hi⟩

theorem transfer_moved {K K' : ℕ} (hK : K' = K) {R : V3 → V3} {ε : ℝ} (h : IsIsometry R ε) (t : V3)
    {L : Fin K → PanelVars} {te le : Fin K → Bool} {ns : ℕ} {g : ℝ} {V : Fin K → V3}
    {areas : Fin K → ℝ} {L' : Fin K' → PanelVars} {te' le' : Fin K' → Bool} {g' : ℝ}
    {V' : Fin K' → V3} {areas' : Fin K' → ℝ} {μ : ℝ} (hμ : 0 < μ) (hg : g ≠ 0) (hg' : g' ≠ 0)
    (hL : ∀ i, L' i = (L (finCongr hK i)).moved R ε t (g' / g))
    (hte : ∀ i, te' i = te (finCongr hK i)) (hle : ∀ i, le' i = le (finCongr hK i))
    (hV : ∀ i, V' i = μ • R (V (finCongr hK i))) (ha : ∀ i, areas' i = areas (finCongr hK i)) :
    Transfer L te le ns g V areas L' te' le' ns g' V' areas' R ε (move R t) (finCongr hK) ε μ
      (g' / g) where
  iso := h
  sign := h.sq_one
  wind_pos := hμ
  kappa := div_ne_zero hg' hg
  kernel p j := by
    rw [velCoef_eq, velCoef_eq, hL, hte, hV]
    split_ifs
    · exact vortexHorseshoeV2_move_g h t _ _ _ _ _ _ hg hμ
    · exact vortexRing_move_g h t _ _ _ _ _ hg
  ctr i := by rw [hL]; rfl
  cp i := by rw [hL]; rfl
  normal i := by rw [hL]; rfl
  span i := by rw [hL, h.sq_one, one_mul]; rfl
  wind := hV
  clear pts hc := by
    rw [← coefsDefined_iff] at hc ⊢
    intro i j hj
    rw [hte] at hj
    have := hc (finCongr hK i) (finCongr hK j) hj
    rw [hL, hV, wakeDefined_smul_wind _ _ _ hμ, wakeDefined_smul_wind _ _ _ hμ]
    exact ⟨(wakeDefined_move h t _ _ _).2 this.1, (wakeDefined_move h t _ _ _).2 this.2⟩
  area := ha
  leading := hle
  upstream i _ := by subst hK; rfl
  index hi := by
    intro i hl
    have e : le' = fun i => le (finCongr hK i) := funext hle
    rw [e, case1x1_congr] at hl
    have := hi (finCongr hK i) hl
    simpa [hK] using this

end PySailing

namespace PySailing

open Spec

/-! ### Arrays -/

theorem ofFn_finCongr {α β : Type} {K K' : ℕ} (h : K' = K) (f : Fin K → α) (φ : α → β) :
    List.ofFn (fun i => φ (f (finCongr h i))) = (List.ofFn f).map φ := by
  subst h
  rw [List.map_ofFn]; rfl

theorem transform_arrays {K K' : ℕ} (h : K' = K) (sol : VlmSolution K) (R : V3 → V3)
    (s μ κ c : ℝ) :
    (sol.transform R (finCongr h) s μ κ c).arrays =
      mapAll sol.arrays (fun x => (s * μ / κ) * x) (fun v => μ • R v)
        (fun v => (c * μ ^ 2) • R v) (fun x => s * (c * μ ^ 2) * x) (fun x => s * x) := by
  subst h
  unfold VlmSolution.transform VlmSolution.arrays mapAll
  simp only [List.map_ofFn]
  rfl

theorem vlm_ok_iff (a : VlmInput) (r : Vlm) : vlm a = .ok r ↔
    r.input = a ∧ r.areas = getPanelsArea a.panels ∧
    calculateVlmVariables a.panels a.te a.g a.nc a.ns = .ok r.vars ∧
    inletConditions a.wind a.rho (r.vars.map PanelVars.cp) = .ok r.inlet ∧
    vlmSolve a r.vars r.inlet.vAppInfs = .ok r.sol := by
  have htrap {α : Type} (x : Py α) (y : α) : nanTrap x = .ok y ↔ x = .ok y := by
    unfold nanTrap
    split
    · simp
    · rfl
  unfold vlm
  constructor
  · intro h
    cases h1 : nanTrap (calculateVlmVariables a.panels a.te a.g a.nc a.ns) with
    | error e => rw [h1] at h; cases h
    | ok vars =>
    rw [h1] at h
    simp only [bind, Except.bind] at h
    cases h2 : nanTrap (inletConditions a.wind a.rho (vars.map PanelVars.cp)) with
    | error e => rw [h2] at h; cases h
    | ok inlet =>
    rw [h2] at h
    simp only at h
    cases h3 : vlmSolve a vars inlet.vAppInfs with
    | error e => rw [h3] at h; cases h
    | ok sol =>
    rw [h3] at h
    injection h with h
    subst h
    exact ⟨rfl, rfl, (htrap _ _).1 h1, (htrap _ _).1 h2, h3⟩
  · rintro ⟨h0, h1, h2, h3, h4⟩
    rw [(htrap _ _).2 h2]
    simp only [bind, Except.bind]
    rw [(htrap _ _).2 h3]
    simp only
    rw [h4]
    obtain ⟨i, ar, v, n, s⟩ := r
    simp only at h0 h1
    subst h0 h1
    rfl

theorem vlmWithWinds_ok_iff (a : VlmInput) (V : List V3) (o : VlmArrays) :
    vlmWithWinds a V = .ok o ↔ ∃ vars, calculateVlmVariables a.panels a.te a.g a.nc a.ns = .ok vars ∧
      ∃ sol, vlmSolve a vars V = .ok sol ∧ o = sol.arrays := by
  have htrap {α : Type} (x : Py α) (y : α) : nanTrap x = .ok y ↔ x = .ok y := by
    unfold nanTrap
    split
    · simp
    · rfl
  unfold vlmWithWinds
  constructor
  · intro h
    cases h1 : nanTrap (calculateVlmVariables a.panels a.te a.g a.nc a.ns) with
    | error e => rw [h1] at h; cases h
    | ok vars =>
    rw [h1] at h
    simp only [bind, Except.bind] at h
    cases h3 : vlmSolve a vars V with
    | error e => rw [h3] at h; cases h
    | ok sol =>
    rw [h3] at h
    injection h with h
    exact ⟨vars, (htrap _ _).1 h1, sol, h3, h.symm⟩
  · rintro ⟨vars, h1, sol, h2, rfl⟩
    rw [(htrap _ _).2 h1]
    simp only [bind, Except.bind]
    rw [h2]

theorem vlm_withWinds {a : VlmInput} {r : Vlm} (h : vlm a = .ok r) :
    vlmWithWinds a r.inlet.vAppInfs = .ok r.out := by
  rw [vlm_ok_iff] at h
  rw [vlmWithWinds_ok_iff]
  exact ⟨r.vars, h.2.2.1, r.sol, h.2.2.2.2, rfl⟩

theorem getD_map_smul (V : List V3) {R : V3 → V3} {ε : ℝ} (h : IsIsometry R ε) (μ : ℝ) (i : ℕ) :
    (V.map fun v => μ • R v).getD i 0 = μ • R (V.getD i 0) := by
  rw [List.getD_eq_getElem?_getD, List.getD_eq_getElem?_getD, List.getElem?_map]
  cases V[i]? with
  | none => simp [h.map_zero]
  | some v => simp

/-- The general transformation law for the solver on panel arrays. -/
theorem vlmSolve_moved {R : V3 → V3} {ε : ℝ} (h : IsIsometry R ε) (t : V3) (a : VlmInput)
    (V : List V3) {μ c g' : ℝ} (hμ : 0 < μ) (hc : c ≠ 0) (hg : a.g ≠ 0) (hg' : g' ≠ 0)
    {vars vars' : List PanelVars} (hvars : vars' = vars.map (PanelVars.moved R ε t (g' / a.g)))
    {sol : VlmSolution vars.length} (hs : vlmSolve a vars V = .ok sol) (w : WindObj) :
    ∃ sol' : VlmSolution vars'.length,
      vlmSolve { a with panels := a.panels.map (movePanel R t), rho := c * a.rho, g := g', wind := w }
        vars' (V.map fun v => μ • R v) = .ok sol' ∧
      sol'.arrays = mapAll sol.arrays (fun x => (ε * μ * (a.g / g')) * x)
        (fun v => μ • R v) (fun v => (c * μ ^ 2) • R v) (fun x => ε * (c * μ ^ 2) * x)
        (fun x => ε * x) := by
  subst hvars
  have hl : (vars.map (PanelVars.moved R ε t (g' / a.g))).length = vars.length :=
    List.length_map _
  have T := transfer_moved hl h t (L := fun i => vars[i]) (te := fun i => a.te.getD i false)
    (le := fun i => a.le.getD i false) (ns := a.ns) (g := a.g) (V := fun i => V.getD i 0)
    (areas := fun i => (getPanelsArea a.panels).getD i 0)
    (L' := fun i => (vars.map (PanelVars.moved R ε t (g' / a.g)))[i])
    (te' := fun i => a.te.getD i false) (le' := fun i => a.le.getD i false) (g' := g')
    (V' := fun i => (V.map fun v => μ • R v).getD i 0)
    (areas' := fun i => (getPanelsArea (a.panels.map (movePanel R t))).getD i 0) hμ hg hg'
    (fun i => by simp) (fun i => rfl) (fun i => rfl)
    (fun i => getD_map_smul V h μ i) (fun i => by
      have : getPanelsArea (a.panels.map (movePanel R t)) = getPanelsArea a.panels := by
        unfold getPanelsArea
        rw [List.map_map]
        exact List.map_congr_left fun q _ => panelArea_move h t q
      rw [this]; rfl)
  refine ⟨_, T.vlmCore_eq c a.rho hc hs, ?_⟩
  rw [transform_arrays]
  congr 1
  funext x
  field_simp

end PySailing

namespace PySailing

open Spec

theorem vlmWithWinds_moved {R : V3 → V3} {ε : ℝ} (h : IsIsometry R ε) (t : V3) (a : VlmInput)
    (V : List V3) {μ c g' : ℝ} (hμ : 0 < μ) (hc : c ≠ 0) (hg : a.g ≠ 0) (hg' : g' ≠ 0)
    {o : VlmArrays} (ho : vlmWithWinds a V = .ok o) (w : WindObj) :
    vlmWithWinds
        { a with panels := a.panels.map (movePanel R t), rho := c * a.rho, g := g', wind := w }
        (V.map fun v => μ • R v) =
      .ok (mapAll o (fun x => (ε * μ * (a.g / g')) * x)
        (fun v => μ • R v) (fun v => (c * μ ^ 2) • R v) (fun x => ε * (c * μ ^ 2) * x)
        (fun x => ε * x)) := by
  obtain ⟨vars, hv, sol, hs, rfl⟩ := (vlmWithWinds_ok_iff a V o).1 ho
  obtain ⟨sol', hs', he⟩ := vlmSolve_moved h t a V hμ hc hg hg' rfl hs w
  refine (vlmWithWinds_ok_iff _ _ _).2 ⟨_, ?_, sol', hs', he.symm⟩
  simp only
  rw [calculateVlmVariables_move h t hg, hv]
  rfl

theorem vlm_moved {R : V3 → V3} {ε : ℝ} (h : IsIsometry R ε) (t : V3) (a : VlmInput) {r : Vlm}
    {μ c g' : ℝ} (hμ : 0 < μ) (hc : c ≠ 0) (hg : a.g ≠ 0) (hg' : g' ≠ 0)
    (hr : vlm a = .ok r) {w : WindObj} {inlet : Inlet}
    (hi : inletConditions w (c * a.rho) (r.inlet.cpPoints.map (move R t)) = .ok inlet)
    (hV : inlet.vAppInfs = r.inlet.vAppInfs.map fun v => μ • R v) :
    ∃ r' : Vlm, vlm
        { a with panels := a.panels.map (movePanel R t), rho := c * a.rho, g := g', wind := w } =
        .ok r' ∧
      r'.inlet = inlet ∧ r'.areas = r.areas ∧
      r'.vars = r.vars.map (PanelVars.moved R ε t (g' / a.g)) ∧
      r'.out = mapAll r.out (fun x => (ε * μ * (a.g / g')) * x)
        (fun v => μ • R v) (fun v => (c * μ ^ 2) • R v) (fun x => ε * (c * μ ^ 2) * x)
        (fun x => ε * x) := by
  obtain ⟨-, har, hv, hin, hs⟩ := (vlm_ok_iff a r).1 hr
  obtain ⟨sol', hs', he⟩ := vlmSolve_moved h t a r.inlet.vAppInfs hμ hc hg hg' rfl hs w
  have hcp : r.inlet.cpPoints = r.vars.map PanelVars.cp := by
    unfold inletConditions at hin
    cases htws : (r.vars.map PanelVars.cp).mapM fun p => a.wind.trueWindAt |p.z| with
    | error e => rw [htws] at hin; cases hin
    | ok tws =>
      rw [htws] at hin
      simp only [bind, Except.bind] at hin
      split at hin
      · cases hin
      · injection hin with hin
        rw [← hin]
  have harea : getPanelsArea (a.panels.map (movePanel R t)) = getPanelsArea a.panels := by
    unfold getPanelsArea
    rw [List.map_map]
    exact List.map_congr_left fun q _ => panelArea_move h t q
  refine ⟨⟨_, _, _, inlet, sol'⟩, (vlm_ok_iff _ _).2 ⟨rfl, rfl, ?_, ?_, ?_⟩, rfl, ?_, rfl, he⟩
  · simp only
    rw [calculateVlmVariables_move h t hg, hv]
    rfl
  · simp only [List.map_map]
    rw [hcp, List.map_map] at hi
    exact hi
  · simp only
    rw [hV]
    exact hs'
  · rw [har]; exact harea

/-- The apparent wind at the pressure points. -/
theorem inletConditions_ok_iff (w : WindObj) (rho : ℝ) (cps : List V3) (i : Inlet) :
    inletConditions w rho cps = .ok i ↔ cps ≠ [] ∧
      (cps.mapM fun p => w.trueWindAt |p.z|) = .ok i.twsAtCp ∧
      i = ⟨rho, w, cps, i.twsAtCp, i.twsAtCp.map V3.norm, i.twsAtCp.map w.appInfs,
        (i.twsAtCp.map w.appInfs).map V3.norm,
        (i.twsAtCp.map w.appInfs).map fun v => rad2deg (arctan2 v.y v.x)⟩ := by
  unfold inletConditions
  cases htws : cps.mapM fun p => w.trueWindAt |p.z| with
  | error e => simp [bind, Except.bind]
  | ok tws =>
    have hlen : tws.length = cps.length := (mapM_ok_inv htws).1
    simp only [bind, Except.bind]
    by_cases h0 : tws = []
    · rw [if_pos h0]
      subst h0
      have : cps = [] := by simpa using hlen.symm
      simp [this]
    · rw [if_neg h0]
      have : cps ≠ [] := by rintro rfl; simp at hlen; exact h0 hlen
      constructor
      · intro h
        injection h with h
        subst h
        exact ⟨this, rfl, rfl⟩
      · rintro ⟨-, h1, h2⟩
        injection h1 with h1
        rw [h2, h1]

/-- The inlet conditions for given true winds. -/
noncomputable def inletOf (w : WindObj) (rho : ℝ) (cps tws : List V3) : Inlet :=
  ⟨rho, w, cps, tws, tws.map V3.norm, tws.map w.appInfs, (tws.map w.appInfs).map V3.norm,
    (tws.map w.appInfs).map fun v => rad2deg (arctan2 v.y v.x)⟩

theorem inletConditions_of {w : WindObj} {cps tws : List V3} (rho : ℝ) (h0 : cps ≠ [])
    (h : (cps.mapM fun p => w.trueWindAt |p.z|) = .ok tws) :
    inletConditions w rho cps = .ok (inletOf w rho cps tws) :=
  (inletConditions_ok_iff _ _ _ _).2 ⟨h0, h, rfl⟩

/-- Wind and boat speed multiplied by a factor. -/
theorem trueWindAt_scaled (w : WindObj) (μ h : ℝ) :
    ({ w with twsRef := μ * w.twsRef, vYacht := μ * w.vYacht } : WindObj).trueWindAt h =
      (w.trueWindAt h).map (fun v => μ • v) := by
  have hl (p : WindProfile) (s : ℝ) : (⟨w.alphaDeg, μ * w.twsRef, μ * w.vYacht, p⟩ :
      WindObj).lengthToXyz (μ * s) = μ • w.lengthToXyz s := by
    ext <;> simp [WindObj.lengthToXyz, WindObj.alpha] <;> ring
  unfold WindObj.trueWindAt
  cases w.profile with
  | flat => simp only [hl]; rfl
  | log a b =>
    cases a <;> cases b <;> try rfl
    simp only [bind, Except.bind]
    cases WindObj.logFactor _ _ h with
    | error e => rfl
    | ok f => simp only [mul_assoc, hl]; rfl
  | exp a b c =>
    cases a <;> cases b <;> cases c <;> try rfl
    simp only [bind, Except.bind]
    cases WindObj.expFactor _ _ _ h with
    | error e => rfl
    | ok f => simp only [mul_assoc, hl]; rfl

end PySailing
