import Verif.Lemmas.ArithWingCore

/-!
# The limit of rounded wings (C131)
-/

namespace PySailing

open Spec Filter Topology

variable {T : Type} {l : Filter T}

namespace Spec.RefinedFull

variable {growth : ℕ → ℝ} {A : T → FullArith} {u : T → ℝ}

theorem getCLCDFreeWing (R : RefinedFull l growth A u) {AR aoa : T → ℝ} {AR0 aoa0 : ℝ} {th0 : ℝ × ℝ}
    (h0 : PySailing.getCLCDFreeWing AR0 aoa0 = .ok th0) (hA : Tendsto AR l (𝓝 AR0)) (ha : Tendsto aoa l (𝓝 aoa0)) :
    ∃ th : T → ℝ × ℝ, (∀ᶠ t in l, (A t).getCLCDFreeWing (AR t) (aoa t) = .ok (th t)) ∧ Tendsto (fun t => (th t).1) l (𝓝 th0.1) ∧
      Tendsto (fun t => (th t).2) l (𝓝 th0.2) := by
  classical
  have B := R.base
  unfold PySailing.getCLCDFreeWing at h0
  simp only at h0
  split_ifs at h0 with h1 h2
  have ha0 : Tendsto (fun t => (A t).mul ((A t).lit 2) ((A t).lit Real.pi)) l (𝓝 (2 * Real.pi)) := B.mul (B.lit _) (B.lit _)
  have hq : Tendsto (fun t => (A t).mul ((A t).mul ((A t).lit Real.pi) (AR t)) ((A t).lit 0.8)) l (𝓝 (Real.pi * AR0 * 0.8)) :=
    B.mul (B.mul (B.lit _) hA) (B.lit _)
  have hd := B.add (B.lit 1) (B.div ha0 hq h1)
  have hCL := B.mul (B.div ha0 hd h2) (R.deg2rad ha)
  injection h0 with h0
  subst h0
  refine ⟨fun t => (_, _), ?_, hCL, B.div (B.mul hCL hCL) hq h1⟩
  filter_upwards [hq.eventually_ne h1, hd.eventually_ne h2] with t t1 t2
  unfold FullArith.getCLCDFreeWing
  simp only
  rw [if_neg t1, if_neg t2]

theorem vsum (R : RefinedFull l growth A u) {x : T → List V3} {x0 : List V3} (hl : ∀ᶠ t in l, (x t).length = x0.length)
    (h : ∀ k, Conv l (fun t => (x t).getD k 0) (x0.getD k 0)) : Conv l (fun t => (A t).vsum (x t)) x0.sum := by
  have e : ∀ (f : V3 → ℝ) (_ : f 0 = 0) (y : List V3) (k : ℕ), (y.map f).getD k 0 = f (y.getD k 0) := fun f hf y k => by
    simp only [List.getD_eq_getElem?_getD, List.getElem?_map]
    cases y[k]? <;> simp [hf]
  have s : x0.sum = ⟨(x0.map V3.x).sum, (x0.map V3.y).sum, (x0.map V3.z).sum⟩ := (ExactFull.vsum x0).symm
  rw [s]
  refine ⟨R.sum (by simpa only [List.length_map] using hl) fun k => ?_, R.sum (by simpa only [List.length_map] using hl) fun k => ?_,
    R.sum (by simpa only [List.length_map] using hl) fun k => ?_⟩
  · simp only [e V3.x rfl]
    exact (h k).x
  · simp only [e V3.y rfl]
    exact (h k).y
  · simp only [e V3.z rfl]
    exact (h k).z

theorem dynamicForce (R : RefinedFull l growth A u) {a : T → AircraftInput} {a0 : AircraftInput} (N : NearWing l a a0) :
    Tendsto (fun t => (A t).dynamicForce (a t).V (a t).rho ((A t).wingArea (a t))) l (𝓝 (0.5 * a0.rho * a0.V.norm ^ 2 * a0.S)) := by
  have B := R.base
  rw [sq]
  exact B.mul (B.mul (B.mul (B.lit _) N.rho) (B.mul (B.norm N.V) (B.norm N.V))) (B.mul (B.mul (B.lit _) N.half) N.chord)

theorem ofFn_getD {α : Type} {n : ℕ} (f : Fin n → α) (k : ℕ) (d : α) :
    (List.ofFn f).getD k d = if h : k < n then f ⟨k, h⟩ else d := by
  split_ifs with h
  · rw [List.getD_eq_getElem?_getD, List.getElem?_eq_getElem (by simpa using h), List.getElem_ofFn]
    rfl
  · rw [List.getD_eq_getElem?_getD, List.getElem?_eq_none (by simpa using h)]
    rfl

theorem choice_of {α : Type} (d : α) {P : T → α → Prop} (h : ∀ᶠ t in l, ∃ x, P t x) : ∃ f : T → α, ∀ᶠ t in l, P t (f t) := by
  have : ∀ t, ∃ x, (∃ y, P t y) → P t x := fun t => by
    by_cases hc : ∃ y, P t y
    · exact ⟨hc.choose, fun _ => hc.choose_spec⟩
    · exact ⟨d, fun h => absurd h hc⟩
  choose f hf using this
  exact ⟨f, h.mono hf⟩

/-- The panels of rounded wings. -/
theorem panelSet (R : RefinedFull l growth A u) {a : T → AircraftInput} {a0 : AircraftInput} (N : NearWing l a a0) {ps0 : PanelSet}
    (h0 : a0.panelSet = .ok ps0) :
    ∃ ps : T → PanelSet, (∀ᶠ t in l, (A t).panelSet (a t) = .ok (ps t)) ∧
      (∀ t, (ps t).te = ps0.te ∧ (ps t).le = ps0.le ∧ (ps t).panels.length = ps0.panels.length) ∧
      ∀ k, ConvCorners l (fun t => (ps t).panels.getD k sparePanel) (ps0.panels.getD k sparePanel) := by
  have hez : (Csys.ez : V3) ≠ 0 := by simp [Csys.ez, V3.ext_iff]
  obtain ⟨M, hM, cM⟩ := R.rotationMatrix (conv_const Csys.ez) hez (R.deg2rad N.aoa.neg)
  unfold AircraftInput.panelSet PySailing.rotationMatrix at h0
  rw [if_neg hez] at h0
  injection h0 with h0
  subst h0
  have z := tendsto_const_nhds (x := (0 : ℝ)) (f := l)
  obtain ⟨h1, h2⟩ := R.makePanelsFromLeTePoints (R.mulVec cM (v := fun t => ⟨0, 0, -(a t).half⟩) (v0 := ⟨0, 0, -a0.half⟩) ⟨z, z, N.half.neg⟩)
    (R.mulVec cM (v := fun t => ⟨(a t).chord, 0, -(a t).half⟩) (v0 := ⟨a0.chord, 0, -a0.half⟩) ⟨N.chord, z, N.half.neg⟩)
    (R.mulVec cM (v := fun t => ⟨0, 0, (a t).half⟩) (v0 := ⟨0, 0, a0.half⟩) ⟨z, z, N.half⟩)
    (R.mulVec cM (v := fun t => ⟨(a t).chord, 0, (a t).half⟩) (v0 := ⟨a0.chord, 0, a0.half⟩) ⟨N.chord, z, N.half⟩) a0.nc a0.ns
  refine ⟨_, ?_, h1, h2⟩
  filter_upwards [hM] with t ht
  unfold FullArith.panelSet
  rw [ht, N.nc t, N.ns t]
  rfl

/-- **C131** for any filter: results of rounded wings tend to those of the exact wing. -/
theorem aircraft (R : RefinedFull l growth A u) {a : T → AircraftInput} {a0 : AircraftInput} (N : NearWing l a a0) {w0 : Aircraft}
    (h : PySailing.aircraft a0 = .ok w0) (hcores : ∀ v ∈ w0.vars, ∀ v' ∈ w0.vars, OffCores v.ctrP v' ∧ OffCores v.cp v')
    (hareas : ∀ q ∈ w0.panelSet.panels, PySailing.panelArea q ≠ 1e-14) :
    ∃ w : T → Aircraft, (∀ᶠ t in l, (A t).aircraft (a t) = .ok (w t)) ∧ ConvWing l w w0 ∧ ∃ c0, w0.Cxyz = .ok c0 ∧
      ∃ c : T → V3, (∀ᶠ t in l, (A t).wingCxyz (w t) = .ok (c t)) ∧ Conv l c c0 := by
  classical
  have B := R.base
  obtain ⟨hin, hc0, hnc, hns, hq0, hAR, hth, hpan, hte, hle, hv, ⟨sol, hsol, eg, ef, ep⟩, eCL, eCD, eCp⟩ := Props.aircraft_inv h
  obtain ⟨ps0, hps0, e1, e2, e3⟩ := a0.panelSet_eq hnc hns
  have hset : w0.panelSet = ps0 := by
    cases hw : w0.panelSet
    cases ps0
    simp_all
  rw [hset] at hsol hareas hv
  have hvv : calculateAircraftVariables ps0.panels a0.g = .ok w0.vars := by
    rw [← hv, e1, e2]
    exact aircraftVariables_eq a0.g hnc hns _ (wingPoint_even _ _ _ _ _)
  unfold calculateAircraftVariables at hvv
  split_ifs at hvv with hbad
  push Not at hbad
  injection hvv with hvars
  have hlen0 : w0.vars.length = ps0.panels.length := by rw [← hvars, List.length_map]
  obtain ⟨ps, hps, hsame, hconv⟩ := R.panelSet N hps0
  have hn0 : ∀ k, PySailing.normalRaw (ps0.panels.getD k sparePanel) ≠ 0 := by
    intro k
    by_cases hk : k < ps0.panels.length
    · rw [List.getD_eq_getElem?_getD, List.getElem?_eq_getElem hk, Option.getD_some]
      exact hbad _ (List.getElem_mem hk)
    · rw [List.getD_eq_getElem?_getD, List.getElem?_eq_none (not_lt.1 hk), Option.getD_none]
      exact sparePanel_normal
  have hgetD : ∀ {β : Type} (f : Panel → β) (d : β) (qs : List Panel), qs.length = ps0.panels.length → ∀ k : Fin w0.vars.length,
      (qs.map f).getD k d = f (qs.getD k sparePanel) := fun f d qs hp k => by
    have hk' : k.val < qs.length := by rw [hp, ← hlen0]; exact k.isLt
    rw [List.getD_eq_getElem?_getD, List.getElem?_map, List.getD_eq_getElem?_getD, List.getElem?_eq_getElem hk']
    rfl
  obtain ⟨f, hf, hfc⟩ := B.core (K := w0.vars.length)
    (L := fun t i => (A t).panelVars a0.g ((ps t).panels.getD i sparePanel) ((A t).behindA ((ps t).panels.getD i sparePanel))
      ((A t).behindD ((ps t).panels.getD i sparePanel)))
    (L0 := fun i => w0.vars[i]) (fun i => by
      have e : w0.vars[i] = PySailing.panelVars a0.g (ps0.panels.getD i sparePanel) (PySailing.behindA (ps0.panels.getD i sparePanel))
          (PySailing.behindD (ps0.panels.getD i sparePanel)) := by
        have hk : i.val < ps0.panels.length := by rw [← hlen0]; exact i.isLt
        simp only [← hvars, Fin.getElem_fin, List.getElem_map, List.getD_eq_getElem?_getD, List.getElem?_eq_getElem hk, Option.getD_some]
      rw [e]
      exact B.panelVars (hconv i) (hn0 i) (B.behindA (hconv i)) (B.behindD (hconv i)) a0.g)
    (areas := fun t i => ((ps t).panels.map (A t).panelArea).getD i 0)
    (areas0 := fun i => (getPanelsArea ps0.panels).getD i 0) (fun i => by
      unfold getPanelsArea
      rw [hgetD _ _ _ rfl i]
      simp only [fun t => hgetD (A t).panelArea 0 (ps t).panels (hsame t).2.2 i]
      exact B.panelArea (hconv i))
    (fun i => ps0.te.getD i false) (fun i => ps0.le.getD i false) a0.ns N.rho a0.g (V := fun t _ => (a t).V) (V0 := fun _ => a0.V)
    (fun _ => N.V) hsol (fun i => by
      unfold getPanelsArea
      rw [hgetD _ _ _ rfl i, List.getD_eq_getElem?_getD, List.getElem?_eq_getElem (by rw [← hlen0]; exact i.isLt)]
      exact hareas _ (List.getElem_mem _))
    (fun i j => hcores _ (List.getElem_mem _) _ (List.getElem_mem _))
  have hARc : Tendsto (fun t => (A t).div ((A t).mul ((A t).lit 2) (a t).half) (a t).chord) l (𝓝 w0.AR) := by
    rw [hAR]
    exact B.div (B.mul (B.lit _) N.half) N.chord hc0
  obtain ⟨th, ht1, ht2, ht3⟩ := R.getCLCDFreeWing hth hARc N.aoa
  have hqc := R.dynamicForce N
  have hnev : ∀ᶠ t in l, ∀ k : Fin ps0.panels.length, (A t).norm ((A t).normalRaw ((ps t).panels.getD k sparePanel)) ≠ 0 :=
    eventually_all.2 fun k => (B.norm (B.normalRaw (hconv k))).eventually_ne (V3.norm_pos (hn0 k)).ne'
  have hne0 : ps0.panels ≠ [] := by
    intro e
    have := congrArg List.length e
    rw [e1, blockPanels_length] at this
    simp at this
    omega
  have hall : ∀ᶠ t in l, ∃ w, (A t).aircraft (a t) = .ok w ∧ w.input = a t ∧ w.panelSet = ps t ∧
      List.ofFn w.gamma = List.ofFn (f t).gamma ∧
      List.ofFn w.force = List.ofFn (f t).force ∧ List.ofFn w.pressure = List.ofFn (f t).pressure ∧
      w.AR = (A t).div ((A t).mul ((A t).lit 2) (a t).half) (a t).chord ∧ w.CLTheoretical = (th t).1 ∧ w.CDTheoretical = (th t).2 ∧
      w.CL = (A t).div ((A t).vsum (List.ofFn (f t).force)).z ((A t).dynamicForce (a t).V (a t).rho ((A t).wingArea (a t))) ∧
      w.CD = (A t).div ((A t).vsum (List.ofFn (f t).force)).x ((A t).dynamicForce (a t).V (a t).rho ((A t).wingArea (a t))) ∧
      w.Cp = (A t).div ((A t).sum (List.ofFn (f t).pressure)) ((A t).dynamicForce (a t).V (a t).rho ((A t).wingArea (a t))) := by
    filter_upwards [hf, hps, ht1, hqc.eventually_ne hq0, N.chord.eventually_ne hc0, hnev] with t t1 t2 t3 t4 t5 t6
    have hlt : ((ps t).panels.map fun q => (A t).panelVars (a t).g q ((A t).behindA q) ((A t).behindD q)).length = w0.vars.length := by
      rw [List.length_map, (hsame t).2.2, hlen0]
    refine (A t).aircraft_of t5 t3 t2 (fun e => hne0 (List.eq_nil_of_length_eq_zero (by rw [← (hsame t).2.2, e]; rfl)))
      (vars := (ps t).panels.map fun q => (A t).panelVars (a t).g q ((A t).behindA q) ((A t).behindD q)) ?_
      hlt ?_ t4
    · refine if_neg ?_
      rintro ⟨q, hq, e⟩
      obtain ⟨k, hk, rfl⟩ := List.getElem_of_mem hq
      have := t6 ⟨k, by rw [← (hsame t).2.2]; exact hk⟩
      rw [List.getD_eq_getElem?_getD, List.getElem?_eq_getElem hk, Option.getD_some] at this
      exact this e
    · rw [← t1]
      simp only [(hsame t).1, (hsame t).2.1, N.ns t, N.g t, Fin.getElem_fin, List.getElem_map]
      congr 1
      funext i
      have hk : i.val < (ps t).panels.length := by rw [(hsame t).2.2, ← hlen0]; exact i.isLt
      simp only [List.getD_eq_getElem?_getD, List.getElem?_eq_getElem hk, Option.getD_some]
  obtain ⟨w, hw⟩ := choice_of w0 hall
  have conv' : ∀ {F : T → Fin w0.vars.length → ℝ} {F0 : Fin w0.vars.length → ℝ}, (∀ i, Tendsto (fun t => F t i) l (𝓝 (F0 i))) →
      ∀ k, Tendsto (fun t => (List.ofFn (F t)).getD k 0) l (𝓝 ((List.ofFn F0).getD k 0)) := fun hF k => by
    simp only [ofFn_getD]
    split_ifs
    · exact hF _
    · exact tendsto_const_nhds
  have cF : ∀ k, Conv l (fun t => (List.ofFn (f t).force).getD k 0) ((List.ofFn sol.force).getD k 0) := fun k => by
    simp only [ofFn_getD]
    split_ifs
    · exact hfc.force _
    · exact conv_const 0
  have cs := R.vsum (x := fun t => List.ofFn (f t).force) (.of_forall fun t => by simp) cF
  have cp := R.sum (x := fun t => List.ofFn (f t).pressure) (.of_forall fun t => by simp) (conv' hfc.pressure)
  rw [ef] at cF cs
  rw [ep] at cp
  refine ⟨w, hw.mono fun t ht => ht.1, ?_, (1 / (0.5 * a0.rho * a0.V.norm ^ 2 * a0.S)) • (List.ofFn w0.force).sum, ?_,
    fun t => (A t).vdiv ((A t).vsum (List.ofFn (f t).force)) ((A t).dynamicForce (a t).V (a t).rho ((A t).wingArea (a t))), ?_,
    B.vdiv cs hqc hq0⟩
  · exact {
      lengths := hw.mono fun t ht => by rw [ht.2.2.2.1, ← eg, List.length_ofFn, List.length_ofFn]
      gamma := fun k => by
        rw [← eg]
        exact (conv' hfc.gamma k).congr' (hw.mono fun t ht => by simp only [ht.2.2.2.1])
      force := fun k => (cF k).congr' (hw.mono fun t ht => by simp only [ht.2.2.2.2.1])
      pressure := fun k => by
        rw [← ep]
        exact (conv' hfc.pressure k).congr' (hw.mono fun t ht => by simp only [ht.2.2.2.2.2.1])
      AR := hARc.congr' (hw.mono fun t ht => ht.2.2.2.2.2.2.1.symm)
      CLTheoretical := ht2.congr' (hw.mono fun t ht => ht.2.2.2.2.2.2.2.1.symm)
      CDTheoretical := ht3.congr' (hw.mono fun t ht => ht.2.2.2.2.2.2.2.2.1.symm)
      CL := by
        rw [eCL]
        exact (B.div cs.z hqc hq0).congr' (hw.mono fun t ht => ht.2.2.2.2.2.2.2.2.2.1.symm)
      CD := by
        rw [eCD]
        exact (B.div cs.x hqc hq0).congr' (hw.mono fun t ht => ht.2.2.2.2.2.2.2.2.2.2.1.symm)
      Cp := by
        rw [eCp]
        exact (B.div cp hqc hq0).congr' (hw.mono fun t ht => ht.2.2.2.2.2.2.2.2.2.2.2.symm) }
  · unfold Aircraft.Cxyz getVlmCxyz
    simp only [hin]
    exact if_neg hq0
  · filter_upwards [hw, hqc.eventually_ne hq0] with t ht tq
    unfold FullArith.wingCxyz
    simp only [ht.2.1, ht.2.2.2.2.1]
    exact if_neg tq

end Spec.RefinedFull

theorem eventually_le {g : T → ℝ} {g0 ε : ℝ} (hε : 0 < ε) (hg : Tendsto g l (𝓝 g0)) : ∀ᶠ t in l, |g t - g0| ≤ ε :=
  ((Metric.tendsto_nhds.1 hg) ε hε).mono fun t ht => by rw [Real.dist_eq] at ht; exact ht.le

theorem forall₂_of_getD {α β : Type} {P : α → β → Prop} (d : α) (d' : β) {xs : List α} {ys : List β} (hl : xs.length = ys.length)
    (h : ∀ k : Fin ys.length, P (xs.getD k d) (ys.getD k d')) : List.Forall₂ P xs ys := by
  rw [List.forall₂_iff_get]
  refine ⟨hl, fun i h1 h2 => ?_⟩
  have := h ⟨i, h2⟩
  simpa [List.getD_eq_getElem?_getD, List.getElem?_eq_getElem h1, List.getElem?_eq_getElem h2] using this

theorem eventually_nearWing {ε : ℝ} (hε : 0 < ε) {w : T → Aircraft} {w0 : Aircraft} (h : ConvWing l w w0) :
    ∀ᶠ t in l, NearWingResult ε (w t) w0 := by
  have h1 : ∀ᶠ t in l, ∀ k : Fin (List.ofFn w0.gamma).length,
      |(List.ofFn (w t).gamma).getD k 0 - (List.ofFn w0.gamma).getD k 0| ≤ ε := eventually_all.2 fun k => eventually_le hε (h.gamma k)
  have h2 : ∀ᶠ t in l, ∀ k : Fin (List.ofFn w0.force).length,
      NearV ε ((List.ofFn (w t).force).getD k 0) ((List.ofFn w0.force).getD k 0) := eventually_all.2 fun k => by
    filter_upwards [eventually_le hε (h.force k).x, eventually_le hε (h.force k).y, eventually_le hε (h.force k).z] with t t1 t2 t3
    exact ⟨t1, t2, t3⟩
  have h3 : ∀ᶠ t in l, ∀ k : Fin (List.ofFn w0.pressure).length,
      |(List.ofFn (w t).pressure).getD k 0 - (List.ofFn w0.pressure).getD k 0| ≤ ε :=
    eventually_all.2 fun k => eventually_le hε (h.pressure k)
  filter_upwards [h1, h2, h3, h.lengths, eventually_le hε h.AR, eventually_le hε h.CLTheoretical, eventually_le hε h.CDTheoretical,
    eventually_le hε h.CL, eventually_le hε h.CD, eventually_le hε h.Cp] with t t1 t2 t3 t4 t5 t6 t7 t8 t9 t10
  have hl : (w t).vars.length = w0.vars.length := by simpa using t4
  exact ⟨forall₂_of_getD 0 0 (by simpa using hl) t1, forall₂_of_getD 0 0 (by simpa using hl) t2,
    forall₂_of_getD 0 0 (by simpa using hl) t3, t5, t6, t7, t8, t9, t10⟩

end PySailing
