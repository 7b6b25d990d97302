import Verif.Lemmas.Arith
import Verif.Props.Continuity

/-!
# Limits of the rounded `Vlm`
-/

namespace PySailing

open Spec Filter Topology

variable {T : Type} {l : Filter T}

/-! ## The loops of `calculate_vlm_variables` -/

theorem mapM_map_rel {α β β' ε : Type} (f : α → Except ε β) (f' : α → Except ε β') (F : β → β') (l : List α)
    (h : ∀ a ∈ l, f' a = (f a).map F) : l.mapM f' = (l.mapM f).map (List.map F) := by
  induction l with
  | nil => rfl
  | cons a l ih =>
    rw [List.mapM_cons, List.mapM_cons, h a List.mem_cons_self, ih fun b hb => h b (List.mem_cons_of_mem _ hb)]
    cases f a with
    | error e => rfl
    | ok b =>
      cases l.mapM f with
      | error e => rfl
      | ok bs => rfl

theorem variablesAt_map {α α' β β' : Type} {own : α → β} {inner : α → α → β} {own' : α' → β'} {inner' : α' → α' → β'}
    {f : α → α'} {F : β → β'} (h1 : ∀ q, own' (f q) = F (own q)) (h2 : ∀ q n, inner' (f q) (f n) = F (inner q n)) (nc ns : ℕ)
    (grid : List α) (te : List Bool) (k : ℕ) :
    variablesAt own' inner' nc ns (grid.map f) te k = (variablesAt own inner nc ns grid te k).map F := by
  unfold variablesAt
  rw [idx_map]
  cases idx grid k with
  | error e => rfl
  | ok q =>
    simp only [Except.map, Bind.bind, Except.bind]
    by_cases hk : nc * ns ≤ k
    · simp only [hk, if_true]
    · simp only [hk, if_false]
      cases idx te k with
      | error e => rfl
      | ok t =>
        cases t
        · simp only [Bool.false_eq_true, if_false]
          rw [idx_map]
          cases idx grid (k + ns) with
          | error e => rfl
          | ok n => simp only [Except.map, h2]
        · simp only [if_true, h1]

theorem variablesOf_map {α α' β β' : Type} {own : α → β} {inner : α → α → β} {bad : α → Prop} {own' : α' → β'}
    {inner' : α' → α' → β'} {bad' : α' → Prop} {f : α → α'} {F : β → β'} (h1 : ∀ q, own' (f q) = F (own q))
    (h2 : ∀ q n, inner' (f q) (f n) = F (inner q n)) (panels : List α) (h3 : (∃ q ∈ panels, bad' (f q)) ↔ ∃ q ∈ panels, bad q)
    (te : List Bool) (nc ns : ℕ) :
    variablesOf own' inner' bad' (panels.map f) te nc ns = (variablesOf own inner bad panels te nc ns).map (List.map F) := by
  unfold variablesOf
  by_cases h0 : nc * ns = 0
  · simp [h0, Except.map]
  simp only [h0, if_false, List.length_map, arraySplit_map]
  have hex : (∃ q ∈ panels.map f, bad' q) ↔ ∃ q ∈ panels, bad q := by
    rw [← h3]
    simp only [List.mem_map, exists_exists_and_eq_and]
  cases arraySplit panels (panels.length / (nc * ns)) with
  | error e => rfl
  | ok chunks =>
    cases arraySplit te (panels.length / (nc * ns)) with
    | error e => rfl
    | ok teChunks =>
      simp only [Except.map, Bind.bind, Except.bind]
      have hz : (chunks.map (List.map f)).zip teChunks = (chunks.zip teChunks).map fun c => (c.1.map f, c.2) := by
        rw [List.zip_map_left]; rfl
      rw [hz, mapM_comp]
      have := mapM_map_rel
        (fun c : List α × List Bool => (List.range c.1.length).mapM (variablesAt own inner nc ns c.1 c.2))
        (fun c : List α × List Bool => (List.range (c.1.map f).length).mapM (variablesAt own' inner' nc ns (c.1.map f) c.2))
        (List.map F) (chunks.zip teChunks) (fun c _ => by
          rw [List.length_map]
          exact mapM_map_rel _ _ F _ fun k _ => variablesAt_map h1 h2 nc ns c.1 c.2 k)
      rw [this]
      cases (chunks.zip teChunks).mapM fun c : List α × List Bool =>
        (List.range c.1.length).mapM (variablesAt own inner nc ns c.1 c.2) with
      | error e => rfl
      | ok vars =>
        simp only [Except.map]
        by_cases hl : panels.length / (nc * ns) * (nc * ns) ≠ panels.length
        · rw [if_pos hl, if_pos hl]
        · rw [if_neg hl, if_neg hl]
          by_cases he : ∃ q ∈ panels, bad q
          · rw [if_pos he, if_pos (hex.2 he)]
          · rw [if_neg he, if_neg (mt hex.1 he)]
            simp only [List.map_flatten]

theorem calculateVlmVariables_variablesOf (panels : List Panel) (te : List Bool) (g : ℝ) (nc ns : ℕ) :
    calculateVlmVariables panels te g nc ns = variablesOf (fun q => panelVars g q (behindA q) (behindD q))
      (fun q n => panelVars g q (quarterB n) (quarterC n)) (fun q => normalRaw q = 0) panels te nc ns := rfl

/-- A panel that is read nowhere. -/
def sparePanel : Panel := ⟨⟨1, 0, 0⟩, ⟨0, 0, 0⟩, ⟨0, 1, 0⟩, ⟨1, 1, 0⟩⟩

theorem sparePanel_normal : normalRaw sparePanel ≠ 0 := by
  simp [normalRaw, sparePanel, V3.cross, V3.ext_iff]
  norm_num

theorem range_map_getD {α : Type} (xs : List α) (d : α) : (List.range xs.length).map (fun i => xs.getD i d) = xs := by
  apply List.ext_getElem
  · simp
  · intro i h1 h2
    simp [List.getD_eq_getElem?_getD, List.getElem?_eq_getElem h2]

/-- The row with number `o.1`, whose ring ends at the panel with number `o.2`. -/
def rowOf {β : Type} (own : Panel → β) (inner : Panel → Panel → β) (panels : List Panel) (o : ℕ × Option ℕ) : β :=
  match o.2 with
  | none => own (panels.getD o.1 sparePanel)
  | some n => inner (panels.getD o.1 sparePanel) (panels.getD n sparePanel)

theorem variablesOf_rows {β : Type} (own : Panel → β) (inner : Panel → Panel → β) (bad : Panel → Prop) (panels : List Panel)
    (h : ∀ q ∈ panels, ¬ bad q) (te : List Bool) (nc ns : ℕ) : variablesOf own inner bad panels te nc ns =
      (variablesOf (fun i : ℕ => (i, none)) (fun i n => (i, some n)) (fun _ => False) (List.range panels.length) te nc ns).map
        (List.map (rowOf own inner panels)) := by
  have := variablesOf_map (own := fun i : ℕ => (i, (none : Option ℕ))) (inner := fun i n => (i, some n)) (bad := fun _ => False)
    (own' := own) (inner' := inner) (bad' := bad) (f := fun i => panels.getD i sparePanel) (F := rowOf own inner panels)
    (fun _ => rfl) (fun _ _ => rfl) (List.range panels.length) (by
      constructor
      · rintro ⟨q, hq, hb⟩
        rw [List.mem_range] at hq
        rw [List.getD_eq_getElem?_getD, List.getElem?_eq_getElem hq, Option.getD_some] at hb
        exact absurd hb (h _ (List.getElem_mem hq))
      · rintro ⟨q, -, hb⟩
        exact hb.elim) te nc ns
  rwa [range_map_getD] at this

/-! ## `Vlm` -/

namespace Arith

variable (A : Arith) {K : ℕ}

/-- What `vlmCore` returns. -/
noncomputable def solOf (L : Fin K → PanelVars) (areas : Fin K → ℝ) (te le : Fin K → Bool) (ns : ℕ) (rho g : ℝ) (V : Fin K → V3)
    (γ : Fin K → ℝ) : VlmSolution K :=
  let v1 := A.calculateAppFs V (fun i j => A.velCoef L te V g (L i).ctrP j) γ
  let v2 := A.calculateAppFs V (fun i j => A.velCoef L te V g (L i).cp j) γ
  let force := A.panelForce L le ns rho γ v2.2
  let pressure := fun i => A.div (A.dot (force i) (L i).normal) (areas i)
  ⟨γ, v1.1, v1.2, force, v2.2, v2.1, pressure,
    fun i => A.div (pressure i) (A.mul (A.mul (A.lit 0.5) rho) (A.dot (V i) (V i))),
    A.panelForce L le ns rho γ V, A.panelForce L le ns rho γ v2.1⟩

theorem vlmCore_of {L : Fin K → PanelVars} {areas : Fin K → ℝ} {te le : Fin K → Bool} {ns : ℕ} {rho g : ℝ} {V : Fin K → V3}
    {γ : Fin K → ℝ} (h1 : A.coefsDefined L te V fun i => (L i).ctrP) (h2 : A.coefsDefined L te V fun i => (L i).cp)
    (h3 : A.solve K (fun i j => A.dot (A.velCoef L te V g (L i).ctrP j) (L i).normal) (A.calculateRHS V fun i => (L i).normal) = .ok γ)
    (h4 : ∀ i, A.lit 1e-14 ≤ areas i)
    (h5 : ∀ i, |-A.dot ((A.solOf L areas te le ns rho g V γ).vFsCtrl i) (L i).normal| ≤ A.lit 1e-12)
    (h6 : ¬ ∃ i, (le i || case1x1 le) = false ∧ ¬ wrapOk i ns) (h7 : ∀ i, areas i ≠ 0)
    (h8 : ∀ i, A.mul (A.mul (A.lit 0.5) rho) (A.dot (V i) (V i)) ≠ 0) :
    A.vlmCore L areas te le ns rho g V = .ok (A.solOf L areas te le ns rho g V γ) := by
  have e1 : A.isNoFluxBCSatisfied (A.calculateAppFs V (fun i j => A.velCoef L te V g (L i).ctrP j) γ).2 areas
      (fun i => (L i).normal) = .ok true := by
    unfold isNoFluxBCSatisfied
    rw [if_neg, if_neg]
    · push Not
      exact h5
    · push Not
      exact h4
  have e2 : ∀ name, (name = "lift" ∨ name = "drag" ∨ name = "force_xyz") → A.calcForceWrapper L te le ns rho g V γ name =
      .ok (A.panelForce L le ns rho γ (if name = "lift" then V else if name = "drag" then
        (A.calculateAppFs V (fun i j => A.velCoef L te V g (L i).cp j) γ).1 else
        (A.calculateAppFs V (fun i j => A.velCoef L te V g (L i).cp j) γ).2),
        (A.calculateAppFs V (fun i j => A.velCoef L te V g (L i).cp j) γ).2,
        (A.calculateAppFs V (fun i j => A.velCoef L te V g (L i).cp j) γ).1) := by
    intro name hn
    unfold calcForceWrapper calcVelocityCoefs
    rw [if_neg (not_not.2 hn), if_pos h2]
    simp only [Bind.bind, Except.bind]
    exact if_neg h6
  have e3 : ∀ f : Fin K → V3, A.calcPressure f (fun i => (L i).normal) areas = .ok fun i => A.div (A.dot (f i) (L i).normal) (areas i) :=
    fun f => if_neg (by push Not; exact h7)
  have e4 : ∀ p : Fin K → ℝ, A.calcPressureCoeff p rho V =
      .ok fun i => A.div (p i) (A.mul (A.mul (A.lit 0.5) rho) (A.dot (V i) (V i))) := fun p => if_neg (by push Not; exact h8)
  unfold vlmCore solveLattice calcVelocityCoefs
  rw [if_pos h1]
  simp only [nanTrap, Bind.bind, Except.bind, h3, e1, if_true]
  rw [e2 "force_xyz" (by simp), e2 "lift" (by simp), e2 "drag" (by simp)]
  simp only [e3, e4]
  simp [solOf]

end Arith

namespace Spec.Refined

variable {growth : ℕ → ℝ} {A : T → Arith} {u : T → ℝ} {K : ℕ}

theorem panelForce (R : Refined l growth A u) {L : T → Fin K → PanelVars} {L0 : Fin K → PanelVars}
    (hL : ∀ i, ConvPanel l (fun t => L t i) (L0 i)) (le : Fin K → Bool) (ns : ℕ) {rho : T → ℝ} {rho0 : ℝ}
    (hr : Tendsto rho l (𝓝 rho0)) {γ : T → Fin K → ℝ} {γ0 : Fin K → ℝ} (hγ : ∀ i, Tendsto (fun t => γ t i) l (𝓝 (γ0 i)))
    {V : T → Fin K → V3} {V0 : Fin K → V3} (hV : ∀ i, Conv l (fun t => V t i) (V0 i)) (i : Fin K) :
    Conv l (fun t => (A t).panelForce (L t) le ns (rho t) (γ t) (V t) i) (panelForce L0 le ns rho0 γ0 V0 i) := by
  unfold PySailing.panelForce Arith.panelForce
  refine R.vmul hr (R.cross (hV i) (R.vmul ?_ (hL i).span))
  unfold gammaForForce Arith.gammaForForce
  split_ifs
  · exact hγ i
  · exact R.sub (hγ i) (hγ _)

theorem core (R : Refined l growth A u) {L : T → Fin K → PanelVars} {L0 : Fin K → PanelVars}
    (hL : ∀ i, ConvPanel l (fun t => L t i) (L0 i)) {areas : T → Fin K → ℝ} {areas0 : Fin K → ℝ}
    (ha : ∀ i, Tendsto (fun t => areas t i) l (𝓝 (areas0 i))) (te le : Fin K → Bool) (ns : ℕ) {rho : T → ℝ} {rho0 : ℝ}
    (hr : Tendsto rho l (𝓝 rho0)) (g : ℝ) {V : T → Fin K → V3} {V0 : Fin K → V3} (hV : ∀ i, Conv l (fun t => V t i) (V0 i))
    {s : VlmSolution K} (h : vlmCore L0 areas0 te le ns rho0 g V0 = .ok s) (ha0 : ∀ i, areas0 i ≠ 1e-14)
    (hc : ∀ i j, OffCores (L0 i).ctrP (L0 j) ∧ OffCores (L0 i).cp (L0 j)) :
    ∃ f : T → VlmSolution K, (∀ᶠ t in l, (A t).vlmCore (L t) (areas t) te le ns (rho t) g (V t) = .ok (f t)) ∧ ConvSol l f s := by
  obtain ⟨wp, ix, rfl⟩ := (vlmCore_ok_iff _ _ _ _ _ _ _ _ _).1 h
  have hctr : ∀ i, Conv l (fun t => (L t i).ctrP) (L0 i).ctrP := fun i => (hL i).ctrP
  have hcp : ∀ i, Conv l (fun t => (L t i).cp) (L0 i).cp := fun i => (hL i).cp
  have w1 := (coefsDefined_iff _ _ _ _).2 wp.ctr
  have w2 := (coefsDefined_iff _ _ _ _).2 wp.cp
  have v1 : ∀ i j, Conv l (fun t => (A t).velCoef (L t) te (V t) g (L t i).ctrP j) (PySailing.velCoef L0 te V0 g (L0 i).ctrP j) :=
    fun i j => R.velCoef hL te hV g (hctr i) j (hc i j).1 (w1 i j)
  have v2 : ∀ i j, Conv l (fun t => (A t).velCoef (L t) te (V t) g (L t i).cp j) (PySailing.velCoef L0 te V0 g (L0 i).cp j) :=
    fun i j => R.velCoef hL te hV g (hcp i) j (hc i j).2 (w2 i j)
  have hM : Tendsto (fun t => (fun i j => (A t).dot ((A t).velCoef (L t) te (V t) g (L t i).ctrP j) (L t i).normal :
      Matrix (Fin K) (Fin K) ℝ)) l (𝓝 (influence L0 te V0 g)) := by
    refine tendsto_pi_nhds.2 fun i => tendsto_pi_nhds.2 fun j => ?_
    simp only [influence_eq]
    exact R.dot (v1 i j) (hL i).normal
  have hb : ∀ i, Tendsto (fun t => (A t).calculateRHS (V t) (fun i => (L t i).normal) i) l (𝓝 (-((V0 i).dot (L0 i).normal))) :=
    fun i => (R.dot (hV i) (hL i).normal).neg
  obtain ⟨γ, hret, hγ'⟩ := R.solve hM hb wp.regular
  have hγ : ∀ i, Tendsto (fun t => γ t i) l (𝓝 (coreGamma L0 te g V0 i)) := hγ'
  have l1 : ∀ i, Conv l (fun t => (A t).calcInducedVelocity (fun i j => (A t).velCoef (L t) te (V t) g (L t i).ctrP j) (γ t) i)
      (latticeVelocity L0 te V0 g (coreGamma L0 te g V0) (L0 i).ctrP) := fun i => by
    rw [latticeVelocity_eq]
    exact R.induced hγ (c0 := fun i j => PySailing.velCoef L0 te V0 g (L0 i).ctrP j) v1 i
  have l2 : ∀ i, Conv l (fun t => (A t).calcInducedVelocity (fun i j => (A t).velCoef (L t) te (V t) g (L t i).cp j) (γ t) i)
      (latticeVelocity L0 te V0 g (coreGamma L0 te g V0) (L0 i).cp) := fun i => by
    rw [latticeVelocity_eq]
    exact R.induced hγ (c0 := fun i j => PySailing.velCoef L0 te V0 g (L0 i).cp j) v2 i
  have f1 := R.panelForce hL le ns hr hγ (fun i => R.vadd (hV i) (l2 i))
  have hane : ∀ i, areas0 i ≠ 0 := fun i e => by have := wp.areas i; rw [e] at this; norm_num at this
  have hp : ∀ i, Tendsto (fun t => ((A t).solOf (L t) (areas t) te le ns (rho t) g (V t) (γ t)).pressure i) l
      (𝓝 ((PySailing.solOf L0 areas0 te le ns rho0 g V0 (coreGamma L0 te g V0)).pressure i)) := fun i =>
    R.div (R.dot (f1 i) (hL i).normal) (ha i) (hane i)
  have hdyn : ∀ i, Tendsto (fun t => (A t).mul ((A t).mul ((A t).lit 0.5) (rho t)) ((A t).dot (V t i) (V t i))) l
      (𝓝 (0.5 * rho0 * (V0 i).dot (V0 i))) := fun i => R.mul (R.mul (R.lit _) hr) (R.dot (hV i) (hV i))
  have hdyn0 : ∀ i, 0.5 * rho0 * (V0 i).dot (V0 i) ≠ 0 := fun i => by
    have h1 := wp.rho i.pos
    have h2 := (V3.dot_self_pos (wp.wind i)).ne'
    positivity
  refine ⟨fun t => (A t).solOf (L t) (areas t) te le ns (rho t) g (V t) (γ t), ?_, ?_⟩
  · have e1 := R.coefs hL te hV hctr (fun i j => (hc i j).1) w1
    have e2 := R.coefs hL te hV hcp (fun i j => (hc i j).2) w2
    have e4 : ∀ᶠ t in l, ∀ i, (A t).lit 1e-14 ≤ areas t i := eventually_all.2 fun i =>
      ((R.lit 1e-14).eventually_lt (ha i) (lt_of_le_of_ne (wp.areas i) (ha0 i).symm)).mono fun _ h => h.le
    have e7 : ∀ᶠ t in l, ∀ i, areas t i ≠ 0 := eventually_all.2 fun i => (ha i).eventually_ne (hane i)
    have e8 : ∀ᶠ t in l, ∀ i, (A t).mul ((A t).mul ((A t).lit 0.5) (rho t)) ((A t).dot (V t i) (V t i)) ≠ 0 :=
      eventually_all.2 fun i => (hdyn i).eventually_ne (hdyn0 i)
    have e5 : ∀ᶠ t in l, ∀ i, |-(A t).dot (((A t).solOf (L t) (areas t) te le ns (rho t) g (V t) (γ t)).vFsCtrl i) (L t i).normal| ≤
        (A t).lit 1e-12 := eventually_all.2 fun i => by
      have h1 := (R.dot (R.vadd (hV i) (l1 i)) (hL i).normal).neg.abs
      have h2 : (V0 i + latticeVelocity L0 te V0 g (coreGamma L0 te g V0) (L0 i).ctrP).dot (L0 i).normal = 0 := by
        have hA := congrFun (Matrix.mulVec_mulVec (fun i => -((V0 i).dot (L0 i).normal)) (influence L0 te V0 g)
          (influence L0 te V0 g)⁻¹) i
        rw [Matrix.mul_nonsing_inv _ (isUnit_iff_ne_zero.2 wp.regular), Matrix.one_mulVec] at hA
        rw [V3.dot_add_left, latticeVelocity_dot]
        have hA' : (influence L0 te V0 g).mulVec (coreGamma L0 te g V0) i = -((V0 i).dot (L0 i).normal) := hA
        rw [hA']
        ring
      rw [h2, neg_zero, abs_zero] at h1
      exact (h1.eventually_lt (R.lit 1e-12) (by norm_num)).mono fun _ h => h.le
    filter_upwards [e1, e2, hret, e4, e5, e7, e8] with t t1 t2 t3 t4 t5 t7 t8
    refine (A t).vlmCore_of t1 t2 t3 t4 t5 ?_ t7 t8
    rintro ⟨i, hi, hw⟩
    rw [wrapOk_iff] at hw
    exact hw (ix i hi)
  · exact {
      gamma := hγ
      vIndCtrl := l1
      vFsCtrl := fun i => R.vadd (hV i) (l1 i)
      force := f1
      vFsCp := fun i => R.vadd (hV i) (l2 i)
      vIndCp := l2
      pressure := hp
      pCoeffs := fun i => R.div (hp i) (hdyn i) (hdyn0 i)
      lift := R.panelForce hL le ns hr hγ hV
      drag := R.panelForce hL le ns hr hγ l2 }

/-- The corners of the panels `q t` tend to those of `q0`. -/
structure _root_.PySailing.Spec.ConvCorners (l : Filter T) (q : T → Panel) (q0 : Panel) : Prop where
  p1 : Conv l (fun t => (q t).p1) q0.p1
  p2 : Conv l (fun t => (q t).p2) q0.p2
  p3 : Conv l (fun t => (q t).p3) q0.p3
  p4 : Conv l (fun t => (q t).p4) q0.p4

theorem normalRaw (R : Refined l growth A u) {q : T → Panel} {q0 : Panel} (h : ConvCorners l q q0) :
    Conv l (fun t => (A t).normalRaw (q t)) (normalRaw q0) := R.cross (R.vsub h.p3 h.p1) (R.vsub h.p4 h.p2)

theorem quarterB (R : Refined l growth A u) {q : T → Panel} {q0 : Panel} (h : ConvCorners l q q0) :
    Conv l (fun t => (A t).quarterB (q t)) (quarterB q0) :=
  R.vadd h.p2 (R.vdiv (R.vsub h.p1 h.p2) (R.lit 4) (by norm_num))

theorem quarterC (R : Refined l growth A u) {q : T → Panel} {q0 : Panel} (h : ConvCorners l q q0) :
    Conv l (fun t => (A t).quarterC (q t)) (quarterC q0) :=
  R.vadd h.p3 (R.vdiv (R.vsub h.p4 h.p3) (R.lit 4) (by norm_num))

theorem behindA (R : Refined l growth A u) {q : T → Panel} {q0 : Panel} (h : ConvCorners l q q0) :
    Conv l (fun t => (A t).behindA (q t)) (behindA q0) :=
  R.vadd h.p1 (R.vdiv (R.vsub h.p1 h.p2) (R.lit 4) (by norm_num))

theorem behindD (R : Refined l growth A u) {q : T → Panel} {q0 : Panel} (h : ConvCorners l q q0) :
    Conv l (fun t => (A t).behindD (q t)) (behindD q0) :=
  R.vadd h.p4 (R.vdiv (R.vsub h.p4 h.p3) (R.lit 4) (by norm_num))

theorem panelVars (R : Refined l growth A u) {q : T → Panel} {q0 : Panel} (h : ConvCorners l q q0)
    (hn : PySailing.normalRaw q0 ≠ 0) {a d : T → V3} {a0 d0 : V3} (ha : Conv l a a0) (hd : Conv l d d0) (g : ℝ) :
    ConvPanel l (fun t => (A t).panelVars g (q t) (a t) (d t)) (panelVars g q0 a0 d0) := by
  have hle := R.vdiv (R.vadd h.p2 h.p3) (R.lit 2) (by norm_num)
  have hte := R.vdiv (R.vadd h.p1 h.p4) (R.lit 2) (by norm_num)
  exact {
    normal := R.vdiv (R.normalRaw h) (R.norm (R.normalRaw h)) (V3.norm_pos hn).ne'
    ctrP := R.vadd hle (R.vmul (R.lit _) (R.vsub hte hle))
    cp := R.vadd hle (R.vmul (R.lit _) (R.vsub hte hle))
    A := ha
    B := R.quarterB h
    C := R.quarterC h
    D := hd
    span := R.vmul tendsto_const_nhds (R.vsub (R.quarterC h) (R.quarterB h)) }

theorem panelArea (R : Refined l growth A u) {q : T → Panel} {q0 : Panel} (h : ConvCorners l q q0) :
    Tendsto (fun t => (A t).panelArea (q t)) l (𝓝 (panelArea q0)) :=
  R.add (R.add tendsto_const_nhds (R.mul (R.lit _) (R.norm (R.cross (R.vsub h.p2 h.p1) (R.vsub h.p3 h.p2)))))
    (R.mul (R.lit _) (R.norm (R.cross (R.vsub h.p3 h.p2) (R.vsub h.p4 h.p3))))

/-- Rounded results for converging inputs tend to the exact results. -/
theorem vlmWithWinds (R : Refined l growth A u) {a : T → VlmInput} {a0 : VlmInput} (hnc : ∀ t, (a t).nc = a0.nc)
    (hns : ∀ t, (a t).ns = a0.ns) (hte : ∀ t, (a t).te = a0.te) (hle : ∀ t, (a t).le = a0.le) (hg : ∀ t, (a t).g = a0.g)
    (hlen : ∀ t, (a t).panels.length = a0.panels.length)
    (hpan : ∀ k, ConvCorners l (fun t => (a t).panels.getD k sparePanel) (a0.panels.getD k sparePanel))
    (hrho : Tendsto (fun t => (a t).rho) l (𝓝 a0.rho)) {V : T → List V3} {V0 : List V3}
    (hV : ∀ k, Conv l (fun t => (V t).getD k 0) (V0.getD k 0)) {vars : List PanelVars}
    (hvars : calculateVlmVariables a0.panels a0.te a0.g a0.nc a0.ns = .ok vars) {K : ℕ} (hK : vars.length = K) {s : VlmSolution K}
    (h : vlmCore (fun i : Fin K => vars[i]'(by rw [hK]; exact i.isLt)) (fun i => (getPanelsArea a0.panels).getD i 0)
        (fun i => a0.te.getD i false) (fun i => a0.le.getD i false) a0.ns a0.rho a0.g (fun i => V0.getD i 0) = .ok s)
    (hcores : ∀ v ∈ vars, ∀ v' ∈ vars, OffCores v.ctrP v' ∧ OffCores v.cp v')
    (hareas : ∀ q ∈ a0.panels, PySailing.panelArea q ≠ 1e-14) :
    ∃ f : T → VlmSolution K, (∀ᶠ t in l, (A t).vlmWithWinds (a t) (V t) = .ok (f t).arrays) ∧ ConvSol l f s := by
  obtain ⟨h1, h2, -⟩ := calculateVlmVariables_ok hvars
  rw [calculateVlmVariables_variablesOf, variablesOf_rows _ _ _ _ h2] at hvars
  cases hJ : variablesOf (fun i : ℕ => (i, none)) (fun i n => (i, some n)) (fun _ => False) (List.range a0.panels.length)
      a0.te a0.nc a0.ns with
  | error e => rw [hJ] at hvars; cases hvars
  | ok J =>
  rw [hJ] at hvars
  injection hvars with hvars
  subst hvars
  rw [List.length_map] at hK
  have hn0 : ∀ k, PySailing.normalRaw (a0.panels.getD k sparePanel) ≠ 0 := by
    intro k
    by_cases hk : k < a0.panels.length
    · rw [List.getD_eq_getElem?_getD, List.getElem?_eq_getElem hk, Option.getD_some]
      exact h2 _ (List.getElem_mem hk)
    · rw [List.getD_eq_getElem?_getD, List.getElem?_eq_none (not_lt.1 hk), Option.getD_none]
      exact sparePanel_normal
  have hrow : ∀ o : ℕ × Option ℕ, ConvPanel l (fun t => rowOf
      (fun q => (A t).panelVars a0.g q ((A t).behindA q) ((A t).behindD q))
      (fun q n => (A t).panelVars a0.g q ((A t).quarterB n) ((A t).quarterC n)) (a t).panels o)
      (rowOf (fun q => PySailing.panelVars a0.g q (PySailing.behindA q) (PySailing.behindD q))
        (fun q n => PySailing.panelVars a0.g q (PySailing.quarterB n) (PySailing.quarterC n)) a0.panels o) := by
    rintro ⟨k, o⟩
    cases o with
    | none => exact R.panelVars (hpan k) (hn0 k) (R.behindA (hpan k)) (R.behindD (hpan k)) a0.g
    | some n => exact R.panelVars (hpan k) (hn0 k) (R.quarterB (hpan n)) (R.quarterC (hpan n)) a0.g
  have harea : ∀ k : Fin K, Tendsto (fun t => ((a t).panels.map (A t).panelArea).getD k 0) l
      (𝓝 ((getPanelsArea a0.panels).getD k 0)) := by
    intro k
    have hk : k.val < a0.panels.length := by rw [← h1, List.length_map, hK]; exact k.isLt
    have e : ∀ (f : Panel → ℝ) (ps : List Panel), ps.length = a0.panels.length →
        (ps.map f).getD k 0 = f (ps.getD k sparePanel) := fun f ps hp => by
      have hk' : k.val < ps.length := by rw [hp]; exact hk
      rw [List.getD_eq_getElem?_getD, List.getElem?_map, List.getD_eq_getElem?_getD, List.getElem?_eq_getElem hk']
      rfl
    unfold getPanelsArea
    rw [e _ _ rfl]
    simp only [fun t => e (A t).panelArea (a t).panels (hlen t)]
    exact R.panelArea (hpan k)
  obtain ⟨f, hf, hfc⟩ := R.core (L := fun t (i : Fin K) => rowOf
      (fun q => (A t).panelVars a0.g q ((A t).behindA q) ((A t).behindD q))
      (fun q n => (A t).panelVars a0.g q ((A t).quarterB n) ((A t).quarterC n)) (a t).panels (J[i]'(by rw [hK]; exact i.isLt)))
    (L0 := fun i : Fin K => rowOf (fun q => PySailing.panelVars a0.g q (PySailing.behindA q) (PySailing.behindD q))
        (fun q n => PySailing.panelVars a0.g q (PySailing.quarterB n) (PySailing.quarterC n)) a0.panels
        (J[i]'(by rw [hK]; exact i.isLt)))
    (fun i => hrow _) harea (fun i => a0.te.getD i false) (fun i => a0.le.getD i false) a0.ns hrho a0.g (fun i => hV i)
    (s := s) (by simpa only [Fin.getElem_fin, List.getElem_map] using h) (by
      intro k
      have hk : k.val < a0.panels.length := by rw [← h1, List.length_map, hK]; exact k.isLt
      rw [getPanelsArea, List.getD_eq_getElem?_getD, List.getElem?_map, List.getElem?_eq_getElem hk]
      exact hareas _ (List.getElem_mem hk))
    (fun i j => hcores _ (List.mem_map.2 ⟨_, List.getElem_mem _, rfl⟩) _ (List.mem_map.2 ⟨_, List.getElem_mem _, rfl⟩))
  refine ⟨f, ?_, hfc⟩
  have hbad : ∀ᶠ t in l, ∀ k : Fin a0.panels.length, (A t).norm ((A t).normalRaw ((a t).panels.getD k sparePanel)) ≠ 0 :=
    eventually_all.2 fun k => (R.norm (R.normalRaw (hpan k))).eventually_ne (V3.norm_pos (hn0 k)).ne'
  filter_upwards [hf, hbad] with t t1 t2
  unfold Arith.vlmWithWinds Arith.calculateVlmVariables
  rw [hg t, hnc t, hns t, hte t, hle t, variablesOf_rows _ _ _ _ (by
    intro q hq
    obtain ⟨k, hk, rfl⟩ := List.getElem_of_mem hq
    have := t2 ⟨k, by rw [← hlen t]; exact hk⟩
    rw [List.getD_eq_getElem?_getD, List.getElem?_eq_getElem hk, Option.getD_some] at this
    exact this), hlen t, hJ]
  simp only [Except.map, nanTrap, Bind.bind, Except.bind]
  subst hK
  have key : ∀ (n : ℕ) (vs : List PanelVars) (hn : vs.length = n) (s : VlmSolution n)
      (h : (A t).vlmCore (fun i : Fin n => vs[i]'(by rw [hn]; exact i.isLt)) (fun i => ((a t).panels.map (A t).panelArea).getD i 0)
        (fun i => a0.te.getD i false) (fun i => a0.le.getD i false) a0.ns (a t).rho a0.g (fun i => (V t).getD i 0) = .ok s),
      ∃ s', (A t).vlmCore (fun i : Fin vs.length => vs[i]) (fun i => ((a t).panels.map (A t).panelArea).getD i 0)
        (fun i => a0.te.getD i false) (fun i => a0.le.getD i false) a0.ns (a t).rho a0.g (fun i => (V t).getD i 0) = .ok s' ∧
        s'.arrays = s.arrays := by
    intro n vs hn s h
    subst hn
    exact ⟨s, h, rfl⟩
  obtain ⟨s', k1, k2⟩ := key J.length (J.map (rowOf (fun q => (A t).panelVars a0.g q ((A t).behindA q) ((A t).behindD q))
      (fun q n => (A t).panelVars a0.g q ((A t).quarterB n) ((A t).quarterC n)) (a t).panels)) (by rw [List.length_map]) (f t)
    (by simp only [Fin.getElem_fin, List.getElem_map]; exact t1)
  rw [k1, ← k2]

end Spec.Refined

end PySailing
