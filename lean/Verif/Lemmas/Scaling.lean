import Verif.Spec.Scaling
import Verif.Lemmas.Motion
import Verif.Lemmas.Wind
import Verif.Lemmas.Coefs

/-!
# Enlarging a lattice
-/

namespace PySailing

open Spec

/-! ### Kernels -/

theorem inSegmentCore_iff (p p1 p2 : V3) : inSegmentCore p p1 p2 ↔ coreTest p p1 p2 := Iff.rfl

theorem vortexLine_sameCore {s : ℝ} (hs : 0 < s) {p p1 p2 : V3} (γ : ℝ) (h : sameCore s p p1 p2) :
    vortexLine (s • p) (s • p1) (s • p2) γ = (1 / s) • vortexLine p p1 p2 γ := by
  by_cases hc : coreTest p p1 p2
  · rw [vortexLine_core γ hc, vortexLine_core γ (h.2 hc), smul_zero]
  · exact vortexLine_scale γ hs hc (mt h.1 hc)

theorem vortexInfiniteLine_size {s : ℝ} (hs : 0 < s) (P A V : V3) (γ : ℝ) :
    vortexInfiniteLine (s • P) (s • A) V γ = (1 / s) • vortexInfiniteLine P A V γ := by
  unfold vortexInfiniteLine
  simp only
  rw [← smul_sub, V3.norm_smul, abs_of_pos hs, V3.dot_smul_right, V3.cross_smul_right]
  simp only [smul_smul]
  congr 1
  rw [show s * (P - A).norm * (s * (P - A).norm - s * ((1 / V.norm) • V).dot (P - A))
      = (s * s) * ((P - A).norm * ((P - A).norm - ((1 / V.norm) • V).dot (P - A))) by ring]
  rw [one_div_mul_eq_div, ← div_div, one_div, one_div, one_div]
  field_simp

variable {K : ℕ}

/-- Variables of an enlarged panel. -/
noncomputable def PanelVars.scaled (s : ℝ) (v : PanelVars) : PanelVars where
  normal := v.normal
  ctrP := s • v.ctrP
  cp := s • v.cp
  ring := ⟨s • v.ring.A, s • v.ring.B, s • v.ring.C, s • v.ring.D⟩
  span := s • v.span
  leMid := s • v.leMid
  teMid := s • v.teMid

theorem velCoef_scaled {s : ℝ} (hs : 0 < s) (L : Fin K → PanelVars) (te : Fin K → Bool)
    (V : Fin K → V3) (g : ℝ) (p : V3) (j : Fin K)
    (h : sameCore s p (L j).ring.A (L j).ring.B ∧ sameCore s p (L j).ring.B (L j).ring.C ∧
      sameCore s p (L j).ring.C (L j).ring.D ∧ sameCore s p (L j).ring.D (L j).ring.A) :
    velCoef (fun i => (L i).scaled s) te V g (s • p) j = (1 / s) • velCoef L te V g p j := by
  obtain ⟨h1, h2, h3, h4⟩ := h
  rw [velCoef_eq, velCoef_eq]
  unfold PanelVars.scaled vortexHorseshoeV2 vortexRing
  simp only [vortexLine_sameCore hs _ h1, vortexLine_sameCore hs _ h2, vortexLine_sameCore hs _ h3,
    vortexLine_sameCore hs _ h4, vortexInfiniteLine_size hs]
  split_ifs <;> simp only [smul_add]

theorem latticeVelocity_scaled {s : ℝ} (hs : 0 < s) (L : Fin K → PanelVars) (te : Fin K → Bool)
    (V : Fin K → V3) (g : ℝ) (p : V3) (γ : Fin K → ℝ)
    (h : ∀ j, sameCore s p (L j).ring.A (L j).ring.B ∧ sameCore s p (L j).ring.B (L j).ring.C ∧
      sameCore s p (L j).ring.C (L j).ring.D ∧ sameCore s p (L j).ring.D (L j).ring.A) :
    latticeVelocity (fun i => (L i).scaled s) te V g (fun i => s * γ i) (s • p) =
      latticeVelocity L te V g γ p := by
  rw [latticeVelocity_eq, latticeVelocity_eq]
  refine Finset.sum_congr rfl fun j _ => ?_
  rw [velCoef_scaled hs L te V g p j (h j), smul_smul]
  congr 1
  field_simp

theorem clearOfWakes_scaled {s : ℝ} (hs : 0 < s) {L : Fin K → PanelVars} {te : Fin K → Bool}
    {V : Fin K → V3} {pts : Fin K → V3} (h : clearOfWakes L te V pts) :
    clearOfWakes (fun i => (L i).scaled s) te V (fun i => s • pts i) := by
  intro i j hj
  obtain ⟨h1, h2⟩ := h i j hj
  refine ⟨h1, fun t ht => ?_⟩
  obtain ⟨ha, hd⟩ := h2 (t / s) (div_nonneg ht hs.le)
  have key (X : V3) (hX : pts i ≠ X + (t / s) • V j) : s • pts i ≠ s • X + t • V j := by
    intro he
    apply hX
    have := congrArg (fun v : V3 => (1 / s) • v) he
    simp only [smul_add, smul_smul] at this
    rw [one_div_mul_cancel hs.ne', one_smul, one_smul, one_div_mul_eq_div] at this
    exact this
  exact ⟨key _ ha, key _ hd⟩

theorem panelForce_scaled (s : ℝ) (L : Fin K → PanelVars) (le : Fin K → Bool) (ns : ℕ) (rho : ℝ) (γ : Fin K → ℝ) (W : Fin K → V3) (i : Fin K) :
    panelForce (fun i => (L i).scaled s) le ns rho (fun i => s * γ i) W i =
      (s ^ 2) • panelForce L le ns rho γ W i := by
  have e : gammaForForce le (fun i => s * γ i) ns i = s * gammaForForce le γ ns i := by
    unfold gammaForForce
    split_ifs
    · rfl
    · ring
  unfold panelForce
  rw [e]
  change rho • V3.cross (W i) ((s * gammaForForce le γ ns i) • (s • (L i).span)) = _
  simp only [V3.cross_smul_right, smul_smul]
  congr 1
  ring

section core

variable {s : ℝ} (hs : 0 < s) {L : Fin K → PanelVars} {areas : Fin K → ℝ} (te le : Fin K → Bool)
  (ns : ℕ) (rho g : ℝ) (V : Fin K → V3) (hi : SizesIrrelevant s L areas)

include hs hi

theorem influence_scaled : influence (fun i => (L i).scaled s) te V g = (1 / s) • influence L te V g := by
  funext i j
  rw [Matrix.smul_apply, influence_eq, influence_eq]
  change (velCoef _ te V g (s • (L i).ctrP) j).dot (L i).normal = _
  rw [velCoef_scaled hs L te V g _ j (hi.core i j _ (by simp)), V3.dot_smul_left, smul_eq_mul]

theorem coreGamma_scaled (h : (influence L te V g).det ≠ 0) :
    (influence (fun i => (L i).scaled s) te V g).det ≠ 0 ∧
    coreGamma (fun i => (L i).scaled s) te g V = fun i => s * coreGamma L te g V i := by
  have hd : (influence (fun i => (L i).scaled s) te V g).det ≠ 0 := by
    rw [influence_scaled hs te g V hi, Matrix.det_smul]
    exact mul_ne_zero (pow_ne_zero _ (one_div_ne_zero hs.ne')) h
  refine ⟨hd, ?_⟩
  symm
  apply coreGamma_unique hd
  funext i
  rw [← latticeVelocity_dot]
  change (latticeVelocity _ te V g _ (s • (L i).ctrP)).dot (L i).normal = _
  rw [latticeVelocity_scaled hs L te V g _ _ (fun j => hi.core i j _ (by simp)), latticeVelocity_dot,
    influence_mulVec_coreGamma h]
  rfl

/-- The results of the enlarged lattice: circulations are multiplied by the factor, forces by its square,
everything else stays. -/
theorem vlmCore_scaled {sol : VlmSolution K} (h : vlmCore L areas te le ns rho g V = .ok sol) :
    vlmCore (fun i => (L i).scaled s) (fun i => s ^ 2 * areas i) te le ns rho g V =
      .ok { sol with
        gamma := fun i => s * sol.gamma i
        force := fun i => (s ^ 2) • sol.force i
        lift := fun i => (s ^ 2) • sol.lift i
        drag := fun i => (s ^ 2) • sol.drag i } := by
  rw [vlmCore_ok_iff] at h ⊢
  obtain ⟨hw, hx, rfl⟩ := h
  obtain ⟨hd, hg⟩ := coreGamma_scaled hs te g V hi hw.regular
  refine ⟨⟨clearOfWakes_scaled hs hw.ctr, clearOfWakes_scaled hs hw.cp, hd, hi.areas, hw.rho, hw.wind⟩,
    hx, ?_⟩
  rw [hg]
  have hctr (i : Fin K) : latticeVelocity (fun i => (L i).scaled s) te V g
      (fun i => s * coreGamma L te g V i) ((L i).scaled s).ctrP =
      latticeVelocity L te V g (coreGamma L te g V) (L i).ctrP :=
    latticeVelocity_scaled hs L te V g _ _ (fun j => hi.core i j _ (by simp))
  have hcp (i : Fin K) : latticeVelocity (fun i => (L i).scaled s) te V g
      (fun i => s * coreGamma L te g V i) ((L i).scaled s).cp =
      latticeVelocity L te V g (coreGamma L te g V) (L i).cp :=
    latticeVelocity_scaled hs L te V g _ _ (fun j => hi.core i j _ (by simp))
  have hF (W : Fin K → V3) : panelForce (fun i => (L i).scaled s) le ns rho
      (fun i => s * coreGamma L te g V i) W =
      fun i => (s ^ 2) • panelForce L le ns rho (coreGamma L te g V) W i :=
    funext fun i => panelForce_scaled s L le ns rho _ W i
  unfold solOf
  simp only [hctr, hcp, hF]
  have hp (f n : V3) (A : ℝ) : ((s ^ 2) • f).dot n / (s ^ 2 * A) = f.dot n / A := by
    rw [V3.dot_smul_left, mul_div_mul_left _ _ (pow_ne_zero 2 hs.ne')]
  congr 1
  · funext i; exact (hp _ _ _).symm
  · funext i
    change _ = (((s ^ 2) • _ : V3).dot (L i).normal) / (s ^ 2 * areas i) / _
    rw [hp]

end core

/-! ### Panels -/

section panels

variable {s : ℝ} (hs : 0 < s)

theorem normalRaw_scaled (q : Panel) : normalRaw (scalePanel s q) = (s ^ 2) • normalRaw q := by
  unfold normalRaw scalePanel
  simp only [← smul_sub]
  rw [V3.cross_smul_left, V3.cross_smul_right, smul_smul, sq]

include hs

theorem panelVars_scaled (g : ℝ) (q : Panel) (A D : V3) :
    panelVars g (scalePanel s q) (s • A) (s • D) = (panelVars g q A D).scaled s := by
  have hn : (1 / (normalRaw (scalePanel s q)).norm) • normalRaw (scalePanel s q) =
      (1 / (normalRaw q).norm) • normalRaw q := by
    have h2 : (0 : ℝ) < s ^ 2 := pow_pos hs 2
    rw [normalRaw_scaled, V3.norm_smul, abs_of_pos h2, smul_smul]
    congr 1
    rw [← div_div, div_mul_eq_mul_div, one_div_mul_cancel h2.ne']
  unfold panelVars PanelVars.scaled
  simp only [hn]
  congr 1 <;> (ext <;> simp [scalePanel, quarterB, quarterC] <;> ring)

theorem calculateVlmVariables_scaled (g : ℝ) (panels : List Panel) (te : List Bool) (nc ns : ℕ) :
    calculateVlmVariables (panels.map (scalePanel s)) te g nc ns =
      (calculateVlmVariables panels te g nc ns).map (List.map (PanelVars.scaled s)) :=
  calculateVlmVariables_map (Φ := fun p => s • p) (fun q A D => panelVars_scaled hs g q A D)
    (fun q => by ext <;> simp [behindA, scalePanel] <;> ring)
    (fun q => by ext <;> simp [behindD, scalePanel] <;> ring)
    (fun q => by ext <;> simp [quarterB, scalePanel] <;> ring)
    (fun q => by ext <;> simp [quarterC, scalePanel] <;> ring)
    (fun q => by rw [normalRaw_scaled, smul_eq_zero]; simp [hs.ne']) panels te nc ns

theorem panelArea_scaled (q : Panel) : panelArea (scalePanel s q) = s ^ 2 * panelArea q := by
  have hc (a b : V3) : (V3.cross (s • a) (s • b)).norm = s ^ 2 * (V3.cross a b).norm := by
    rw [V3.cross_smul_left, V3.cross_smul_right, smul_smul, V3.norm_smul, abs_of_pos (by positivity), sq]
  unfold panelArea scalePanel
  simp only [← smul_sub, hc]
  ring

/-! ### Wind -/

theorem expFactor_heights (c ref wl h : ℝ) :
    WindObj.expFactor c (s * ref) (s * wl) (s * h) = WindObj.expFactor c ref wl h := by
  have e : s * h - s * wl = s * (h - wl) := by ring
  unfold WindObj.expFactor
  by_cases h0 : ref = 0
  · have h1 : s * ref = 0 := by rw [h0, mul_zero]
    rw [if_pos h0, if_pos h1, e]
    simp only [ne_eq, mul_eq_zero, hs.ne', false_or]
  · have h1 : ¬ s * ref = 0 := mul_ne_zero hs.ne' h0
    rw [if_neg h0, if_neg h1, e, mul_div_mul_left _ _ hs.ne']

theorem trueWindAt_heights (w : WindObj) (h : ℝ) :
    (scaleHeights s w).trueWindAt (s * h) = w.trueWindAt h := by
  obtain ⟨al, tws, vy, pr⟩ := w
  have hd (a b : ℝ) : s * a / (s * b) = a / b := mul_div_mul_left _ _ hs.ne'
  cases pr with
  | flat => rfl
  | log r ref =>
    cases r with
    | none => rfl
    | some r =>
      cases ref with
      | none => rfl
      | some ref =>
        simp only [scaleHeights, WindObj.trueWindAt, Option.map_some, WindObj.logFactor, hd,
          mul_eq_zero, hs.ne', false_or]
        rfl
  | exp c ref wl =>
    cases c with
    | none => cases ref <;> rfl
    | some c =>
      cases ref with
      | none => rfl
      | some ref =>
        cases wl with
        | none => rfl
        | some wl =>
          simp only [scaleHeights, WindObj.trueWindAt, Option.map_some, expFactor_heights hs]
          rfl

end panels

end PySailing

namespace PySailing

open Spec

/-! ### Section coefficients -/

theorem stripColumn_map {α β : Type} (f : α → β) (nc ns : ℕ) (xs : List α) (j : ℕ) :
    stripColumn nc ns (xs.map f) j = (stripColumn nc ns xs j).map (List.map f) := by
  unfold stripColumn
  rw [List.length_map]
  split
  · rfl
  · simp only [idx_map]
    induction List.range nc with
    | nil => rfl
    | cons m l ih =>
      rw [List.mapM_cons, List.mapM_cons, ih]
      cases idx xs (m * ns + j) with
      | error e => rfl
      | ok x =>
        simp only [Except.map, bind, Except.bind]
        cases List.mapM (fun m => idx xs (m * ns + j)) l with
        | error e => rfl
        | ok ys => rfl

theorem sectionC_size {c : ℝ} (hc : c ≠ 0) (nc ns : ℕ) (x a : List ℝ) (j : ℕ) :
    sectionC nc ns x (a.map (c * ·)) j = sectionC nc ns x a j := by
  unfold sectionC
  rw [stripColumn_map]
  cases stripColumn nc ns x j with
  | error e => rfl
  | ok xs =>
    simp only [bind, Except.bind]
    cases stripColumn nc ns a j with
    | error e => rfl
    | ok as =>
      have hsum (l : List ℝ) : (l.map (c * ·)).sum = c * l.sum := by
        simpa using List.sum_map_mul_left l id c
      have h1 := hsum as
      have h2 : (List.zipWith (· * ·) xs (as.map (c * ·))).sum = c * (List.zipWith (· * ·) xs as).sum := by
        rw [List.zipWith_map_right]
        induction xs generalizing as with
        | nil => simp
        | cons x xs ih =>
          cases as with
          | nil => simp
          | cons a as =>
            simp only [List.zipWith_cons_cons, List.sum_cons]
            rw [ih as (hsum as)]; ring
      simp only [Except.map, h1, h2]
      by_cases h0 : as.sum = 0
      · rw [if_pos h0, if_pos (by rw [h0, mul_zero])]
      · rw [if_neg h0, if_neg (mul_ne_zero hc h0), mul_div_mul_left _ _ hc]

theorem sailC_size {c : ℝ} (hc : 0 < c) (nc ns : ℕ) (rho : ℝ) (F V : List V3) (A : List ℝ) :
    sailC nc ns rho (F.map (c • ·)) V (A.map (c * ·)) = sailC nc ns rho F V A := by
  unfold sailC
  have : ((F.map (c • ·)).zip V).zip (A.map (c * ·)) =
      ((F.zip V).zip A).map fun x => ((c • x.1.1, x.1.2), c * x.2) := by
    rw [List.zip_map_left, List.zip_map]
    rfl
  rw [this, mapM_comp]
  have e : (fun x : (V3 × V3) × ℝ => panelC rho ((c • x.1.1, x.1.2), c * x.2)) = panelC rho := by
    funext x
    unfold panelC
    simp only [V3.norm_smul, abs_of_pos hc]
    rw [show 0.5 * rho * x.1.2.norm ^ 2 * (c * x.2) = c * (0.5 * rho * x.1.2.norm ^ 2 * x.2) by ring]
    by_cases h0 : 0.5 * rho * x.1.2.norm ^ 2 * x.2 = 0
    · rw [if_pos h0, if_pos (by rw [h0, mul_zero])]
    · rw [if_neg h0, if_neg (mul_ne_zero hc.ne' h0), mul_div_mul_left _ _ hc.ne']
  rw [e]
  cases ((F.zip V).zip A).mapM (panelC rho) with
  | error e => rfl
  | ok xs =>
    simp only [bind, Except.bind]
    congr 1
    funext j
    exact sectionC_size hc.ne' nc ns xs A j

theorem getC_size {c : ℝ} (hc : 0 < c) (K : ℕ) (A : List ℝ) (F V : List V3) (ns nc : ℕ) (rho : ℝ) :
    getC K (A.map (c * ·)) (F.map (c • ·)) V ns nc rho = getC K A F V ns nc rho := by
  unfold getC
  split
  · rfl
  simp only [npSplit_map, bind, Except.bind]
  cases npSplit V _ with
  | error e => rfl
  | ok Vs =>
    cases npSplit F _ with
    | error e => rfl
    | ok Fs =>
      simp only [Except.map]
      cases npSplit A _ with
      | error e => rfl
      | ok As =>
        simp only
        congr 1
        funext i
        rw [idx_map, idx_map]
        cases idx Fs i with
        | error e => rfl
        | ok f =>
          simp only [Except.map]
          cases idx Vs i with
          | error e => rfl
          | ok v =>
            simp only
            cases idx As i with
            | error e => rfl
            | ok a => exact sailC_size hc nc ns rho f v a

/-! ### Arrays -/

theorem vlmSolve_scaled {s : ℝ} (hs : 0 < s) (a : VlmInput) (V : List V3) (w : WindObj)
    {vars vars' : List PanelVars} (hvars : vars' = vars.map (PanelVars.scaled s))
    (hl : vars.length = a.panels.length)
    (hi : SizesIrrelevant s (fun i : Fin vars.length => vars[i])
      (fun i => (getPanelsArea a.panels).getD i 0))
    {sol : VlmSolution vars.length} (hsol : vlmSolve a vars V = .ok sol) :
    ∃ sol' : VlmSolution vars'.length,
      vlmSolve { a with panels := a.panels.map (scalePanel s), wind := w } vars' V = .ok sol' ∧
      sol'.arrays = mapAll sol.arrays (s * ·) id ((s ^ 2) • ·) id id := by
  obtain ⟨K, hK⟩ : ∃ K, K = vars'.length := ⟨_, rfl⟩
  have hK' : vars'.length = vars.length := by rw [hvars, List.length_map]
  have h := vlmCore_scaled hs (fun i : Fin vars.length => a.te.getD i false)
    (fun i => a.le.getD i false) a.ns a.rho a.g (fun i => V.getD i 0) hi hsol
  have hA (i : ℕ) (hlt : i < vars.length) : (getPanelsArea (a.panels.map (scalePanel s))).getD i 0 =
      s ^ 2 * (getPanelsArea a.panels).getD i 0 := by
    unfold getPanelsArea
    rw [List.map_map, List.getD_eq_getElem?_getD, List.getD_eq_getElem?_getD, List.getElem?_map,
      List.getElem?_map, List.getElem?_eq_getElem (by omega)]
    simp [panelArea_scaled hs]
  have key : ∀ (n : ℕ) (hn : n = vars.length) (L' : Fin n → PanelVars),
      (∀ i : Fin n, L' i = (vars[i.val]'(by omega)).scaled s) →
      ∃ sol' : VlmSolution n, vlmCore L'
        (fun i => (getPanelsArea (a.panels.map (scalePanel s))).getD i 0)
        (fun i => a.te.getD i false) (fun i => a.le.getD i false) a.ns a.rho a.g
        (fun i => V.getD i 0) = .ok sol' ∧
      sol'.arrays = mapAll sol.arrays (s * ·) id ((s ^ 2) • ·) id id := by
    rintro n rfl L' hL'
    have e1 : L' = fun i => (vars[i]).scaled s := funext hL'
    have e2 : (fun i : Fin vars.length => (getPanelsArea (a.panels.map (scalePanel s))).getD i 0) =
        fun i : Fin vars.length => s ^ 2 * (getPanelsArea a.panels).getD i 0 :=
      funext fun i => hA i i.isLt
    rw [e1, e2]
    refine ⟨_, h, ?_⟩
    unfold VlmSolution.arrays mapAll
    simp only [List.map_ofFn, List.map_id]
    rfl
  exact key _ hK' _ (fun i => by simp [hvars])

theorem inletConditions_scaled {s : ℝ} (hs : 0 < s) (w : WindObj) (rho : ℝ) (cps : List V3) {i : Inlet}
    (h : inletConditions w rho cps = .ok i) :
    ∃ i', inletConditions (scaleHeights s w) rho (cps.map (s • ·)) = .ok i' ∧ i'.vAppInfs = i.vAppInfs ∧
      i'.twsAtCp = i.twsAtCp ∧ i'.awaInfsDeg = i.awaInfsDeg := by
  obtain ⟨h1, h2, h3⟩ := (inletConditions_ok_iff _ _ _ _).1 h
  have h2' : ((cps.map (s • ·)).mapM fun p => (scaleHeights s w).trueWindAt |p.z|) = .ok i.twsAtCp := by
    rw [mapM_comp, ← h2]
    congr 1
    funext p
    rw [V3.smul_z, abs_mul, abs_of_pos hs, trueWindAt_heights hs]
  refine ⟨_, (inletConditions_ok_iff _ _ _ ⟨rho, scaleHeights s w, cps.map (s • ·), i.twsAtCp,
      i.twsAtCp.map V3.norm, i.twsAtCp.map (scaleHeights s w).appInfs,
      (i.twsAtCp.map (scaleHeights s w).appInfs).map V3.norm,
      (i.twsAtCp.map (scaleHeights s w).appInfs).map fun v => rad2deg (arctan2 v.y v.x)⟩).2
    ⟨by simpa using h1, h2', rfl⟩, ?_, rfl, ?_⟩
  · rw [h3]; rfl
  · rw [h3]; rfl

end PySailing
