import Verif.Lemmas.Main
import Verif.Props.Plotter
import Verif.Props.Rotations
import Verif.Props.Sail

/-!
# The outputs of a run do not raise

Every array of a solved lattice has the length the output functions expect, so that the only thing that
can go wrong in them is a division by zero.
-/

namespace PySailing

open Spec Props

theorem npSplit_okOf {α : Type} {xs : List α} {g n : ℕ} (hg : 0 < g) (hx : xs.length = g * n) :
    ∃ cs, npSplit xs g = .ok cs ∧ (∀ b ∈ cs, b.length = n) ∧ cs.length = g := by
  obtain ⟨cs, hcs, h1, h2⟩ := arraySplit_okOf hg hx
  have hfl := (arraySplit_ok hx hcs).1
  refine ⟨cs, ?_, h1, h2⟩
  rw [← hfl, ← h2]
  exact npSplit_flatten cs (by rw [← List.length_pos_iff]; omega) h1

theorem mapM_all_ok {α β : Type} {f : α → Py β} : ∀ {l : List α}, (∀ a ∈ l, ∃ b, f a = .ok b) →
    ∃ r, l.mapM f = .ok r
  | [], _ => ⟨[], rfl⟩
  | a :: l, h => by
    obtain ⟨b, hb⟩ := h a (by simp)
    obtain ⟨r, hr⟩ := mapM_all_ok (l := l) fun m hm => h m (by simp [hm])
    refine ⟨b :: r, ?_⟩
    rw [List.mapM_cons, hb]
    simp only [bind, Except.bind, hr]
    rfl

theorem stripColumn_ok {α : Type} {nc ns : ℕ} {xs : List α} (hx : xs.length = nc * ns) {j : ℕ} (hj : j < ns) :
    ∃ l, stripColumn nc ns xs j = .ok l := by
  unfold stripColumn
  rw [if_neg (by simpa using hx)]
  have : ∀ m ∈ List.range nc, ∃ b, idx xs (m * ns + j) = .ok b := by
    intro m hm
    have hm' := List.mem_range.1 hm
    have : m * ns + j < xs.length := by
      rw [hx]
      calc m * ns + j < m * ns + ns := by omega
        _ = (m + 1) * ns := by ring
        _ ≤ nc * ns := Nat.mul_le_mul_right _ hm'
    exact ⟨_, idx_lt this⟩
  exact mapM_all_ok this

theorem panelC_okOrNan (rho : ℝ) (x : (V3 × V3) × ℝ) : OkOrNan (panelC rho x) := by
  unfold panelC
  simp only
  split_ifs
  · exact Or.inr rfl
  · exact Or.inl ⟨_, rfl⟩

theorem sectionC_okOrNan {nc ns : ℕ} {c a : List ℝ} (hc : c.length = nc * ns) (ha : a.length = nc * ns)
    {j : ℕ} (hj : j < ns) : OkOrNan (sectionC nc ns c a j) := by
  obtain ⟨l1, h1⟩ := stripColumn_ok hc hj
  obtain ⟨l2, h2⟩ := stripColumn_ok ha hj
  unfold sectionC
  simp only [h1, h2, bind, Except.bind]
  split_ifs
  · exact Or.inr rfl
  · exact Or.inl ⟨_, rfl⟩

theorem sailC_okOrNan {nc ns : ℕ} {rho : ℝ} {f w : List V3} {a : List ℝ} (hf : f.length = nc * ns)
    (hw : w.length = nc * ns) (ha : a.length = nc * ns) :
    OkOrNan (sailC nc ns rho f w a) ∧ ∀ l, sailC nc ns rho f w a = .ok l → l.length = ns := by
  unfold sailC
  constructor
  · refine OkOrNan.bind (.mapM fun x _ => panelC_okOrNan _ _) fun c hc => .mapM fun j hj => ?_
    refine sectionC_okOrNan ?_ ha (List.mem_range.1 hj)
    rw [(mapM_ok_inv hc).1]; simp [hf, hw, ha]
  · intro l hl
    simp only [bind, Except.bind] at hl
    split at hl
    · cases hl
    rw [(mapM_ok_inv hl).1, List.length_range]

theorem getC_okOrNan {k nc ns : ℕ} (hk : 0 < k) (hp : 0 < nc * ns) {areas : List ℝ} {force wind : List V3}
    (ha : areas.length = 2 * k * (nc * ns)) (hf : force.length = 2 * k * (nc * ns))
    (hw : wind.length = 2 * k * (nc * ns)) (rho : ℝ) :
    OkOrNan (getC (2 * k * (nc * ns)) areas force wind ns nc rho) ∧
      ∀ l, getC (2 * k * (nc * ns)) areas force wind ns nc rho = .ok l →
        l.length = k ∧ ∀ x ∈ l, x.length = ns := by
  have h0 : ns * nc * 2 ≠ 0 := by rw [Nat.mul_comm ns nc]; omega
  have hkk : 2 * k * (nc * ns) / (ns * nc * 2) = k := by
    rw [show 2 * k * (nc * ns) = k * (ns * nc * 2) by ring]
    exact Nat.mul_div_cancel _ (by omega)
  obtain ⟨ws, h1, h1b, h1l⟩ := npSplit_okOf (g := 2 * k) (by omega) hw
  obtain ⟨fs, h2, h2b, h2l⟩ := npSplit_okOf (g := 2 * k) (by omega) hf
  obtain ⟨as, h3, h3b, h3l⟩ := npSplit_okOf (g := 2 * k) (by omega) ha
  have hbody : ∀ i, i < k → ∃ f w a, f.length = nc * ns ∧ w.length = nc * ns ∧ a.length = nc * ns ∧
      (do let f ← idx fs i
          let w ← idx ws i
          let a ← idx as i
          sailC nc ns rho f w a) = sailC nc ns rho f w a := by
    intro i hi
    have e1 : i < fs.length := by omega
    have e2 : i < ws.length := by omega
    have e3 : i < as.length := by omega
    refine ⟨fs[i], ws[i], as[i], h2b _ (List.getElem_mem _), h1b _ (List.getElem_mem _),
      h3b _ (List.getElem_mem _), ?_⟩
    rw [idx_lt e1, idx_lt e2, idx_lt e3]; rfl
  unfold getC
  rw [if_neg h0]
  simp only [hkk, h1, h2, h3, bind, Except.bind] at hbody ⊢
  constructor
  · refine OkOrNan.mapM fun i hi => ?_
    obtain ⟨f, w, a, hf', hw', ha', e⟩ := hbody i (List.mem_range.1 hi)
    rw [e]
    exact (sailC_okOrNan hf' hw' ha').1
  · intro l hl
    obtain ⟨hll, hli⟩ := mapM_ok_inv hl
    rw [List.length_range] at hll
    refine ⟨hll, fun x hx => ?_⟩
    obtain ⟨i, hi, rfl⟩ := List.getElem_of_mem hx
    obtain ⟨b, hb1, hb2⟩ := hli i (by rw [List.length_range]; omega)
    rw [List.getElem?_eq_getElem hi] at hb1
    injection hb1 with hb1
    rw [List.getElem_range] at hb2
    obtain ⟨f, w, a, hf', hw', ha', e⟩ := hbody i (by omega)
    rw [e] at hb2
    rw [hb1]
    exact (sailC_okOrNan hf' hw' ha').2 _ hb2

theorem normalisedC_okOrNan (s c : List ℝ) : OkOrNan (normalisedC s c) := by
  unfold normalisedC
  simp only
  split_ifs
  · exact Or.inr rfl
  · exact Or.inr rfl
  · exact Or.inl ⟨_, rfl⟩

theorem normalisedC_length {s c l : List ℝ} (h : normalisedC s c = .ok l) : l.length = c.length := by
  unfold normalisedC at h
  simp only at h
  split_ifs at h
  injection h with h
  rw [← h, List.length_map]

theorem coeffPlotSail_okOrNan {nc ns : ℕ} {areas : List ℝ} {cps : List V3} {cl cd : List ℝ}
    (ha : areas.length = nc * ns) (hc : cps.length = nc * ns) (hl : cl.length = ns) (hd : cd.length = ns) :
    OkOrNan (coeffPlotSail nc ns areas cps cl cd) ∧ ∀ x, coeffPlotSail nc ns areas cps cl cd = .ok x →
      x.1.length = ns ∧ x.2.1.length = ns ∧ x.2.2.length = ns := by
  unfold coeffPlotSail
  constructor
  · refine OkOrNan.bind (.mapM fun j hj => ?_) fun sa _ => OkOrNan.bind (.mapM fun j hj => ?_) fun z _ =>
      OkOrNan.bind (normalisedC_okOrNan _ _) fun l _ => OkOrNan.bind (normalisedC_okOrNan _ _) fun d _ => .ok _
    · obtain ⟨l, hl⟩ := stripColumn_ok ha (List.mem_range.1 hj)
      rw [hl]; exact .ok _
    · obtain ⟨l, hl⟩ := stripColumn_ok (xs := cps.map V3.z) (by rw [List.length_map, hc]) (List.mem_range.1 hj)
      rw [hl]; exact .ok _
  · intro x hx
    simp only [bind, Except.bind] at hx
    split at hx
    · cases hx
    split at hx
    · cases hx
    rename_i z hz
    split at hx
    · cases hx
    rename_i l hll
    split at hx
    · cases hx
    rename_i d hdd
    injection hx with hx
    subst hx
    exact ⟨by rw [(mapM_ok_inv hz).1, List.length_range], by rw [normalisedC_length hll, hl],
      by rw [normalisedC_length hdd, hd]⟩

/-- Section coefficients of a solved lattice of `k` sails and their images: numbers or `nan`, and one row
of `ns` numbers per sail. -/
theorem coeffPlotData_okOrNan {a : VlmInput} {r : Vlm} (h : vlm a = .ok r) {k : ℕ} (hk : 0 < k)
    (hp : 0 < a.nc * a.ns) (hlen : a.panels.length = 2 * k * (a.nc * a.ns)) :
    OkOrNan (coeffPlotData r a.nc a.ns) ∧ ∀ d, coeffPlotData r a.nc a.ns = .ok d →
      d.meanCpZ.length = k ∧ d.lift.length = k ∧ d.drag.length = k ∧
      (∀ x ∈ d.meanCpZ, x.length = a.ns) ∧ (∀ x ∈ d.lift, x.length = a.ns) ∧ ∀ x ∈ d.drag, x.length = a.ns := by
  obtain ⟨hin, hv, har, hw, -⟩ := vlm_lengths h
  have hL := getC_okOrNan (areas := r.areas) (force := r.out.lift) (wind := r.inlet.vAppInfs) hk hp
    (by rw [har, hlen]) (by simp [Vlm.out, VlmSolution.arrays, hv, hlen]) (by rw [hw, hlen]) a.rho
  have hD := getC_okOrNan (areas := r.areas) (force := r.out.drag) (wind := r.inlet.vAppInfs) hk hp
    (by rw [har, hlen]) (by simp [Vlm.out, VlmSolution.arrays, hv, hlen]) (by rw [hw, hlen]) a.rho
  rw [← hlen] at hL hD
  have h0 : a.ns * a.nc * 2 ≠ 0 := by rw [Nat.mul_comm a.ns a.nc]; omega
  have hkk : a.panels.length / (a.ns * a.nc * 2) = k := by
    rw [hlen, show 2 * k * (a.nc * a.ns) = k * (a.ns * a.nc * 2) by ring]
    exact Nat.mul_div_cancel _ (by omega)
  obtain ⟨as, h1, h1b, h1l⟩ := npSplit_okOf (xs := r.areas) (g := 2 * k) (by omega) (by rw [har, hlen])
  obtain ⟨ps, h2, h2b, h2l⟩ := npSplit_okOf (xs := r.vars.map PanelVars.cp) (g := 2 * k) (by omega)
    (by rw [List.length_map, hv, hlen])
  unfold coeffPlotData Vlm.sectionLift Vlm.sectionDrag
  rw [hin]
  have hbody : ∀ cl cd : List (List ℝ), cl.length = k → (∀ x ∈ cl, x.length = a.ns) → cd.length = k →
      (∀ x ∈ cd, x.length = a.ns) → ∀ i, i < k →
      ∃ A P l d, A.length = a.nc * a.ns ∧ P.length = a.nc * a.ns ∧ l.length = a.ns ∧ d.length = a.ns ∧
      (do let A ← idx as i
          let p ← idx ps i
          let l ← idx cl i
          let d ← idx cd i
          coeffPlotSail a.nc a.ns A p l d) = coeffPlotSail a.nc a.ns A P l d := by
    intro cl cd e1 e2 e3 e4 i hi
    have f1 : i < as.length := by omega
    have f2 : i < ps.length := by omega
    have f3 : i < cl.length := by omega
    have f4 : i < cd.length := by omega
    refine ⟨as[i], ps[i], cl[i], cd[i], h1b _ (List.getElem_mem _), h2b _ (List.getElem_mem _),
      e2 _ (List.getElem_mem _), e4 _ (List.getElem_mem _), ?_⟩
    rw [idx_lt f1, idx_lt f2, idx_lt f3, idx_lt f4]; rfl
  constructor
  · refine OkOrNan.bind hL.1 fun cl hcl => OkOrNan.bind hD.1 fun cd hcd => ?_
    rw [if_neg h0]
    simp only [hkk, h1, h2]
    refine OkOrNan.bind (.ok _) fun _ e => OkOrNan.bind (.ok _) fun _ e' => OkOrNan.bind (.mapM fun i hi => ?_)
      fun _ _ => .ok _
    injection e with e
    injection e' with e'
    subst e e'
    obtain ⟨A, P, l, d, g1, g2, g3, g4, e⟩ := hbody cl cd (hL.2 cl hcl).1 (hL.2 cl hcl).2 (hD.2 cd hcd).1
      (hD.2 cd hcd).2 i (List.mem_range.1 hi)
    rw [e]
    exact (coeffPlotSail_okOrNan g1 g2 g3 g4).1
  · intro D hDD
    simp only [bind, Except.bind, hkk, h1, h2, if_neg h0] at hDD
    split at hDD
    · cases hDD
    rename_i cl hcl
    split at hDD
    · cases hDD
    rename_i cd hcd
    split at hDD
    · cases hDD
    rename_i rows hrows
    injection hDD with hDD
    subst hDD
    obtain ⟨hll, hli⟩ := mapM_ok_inv hrows
    rw [List.length_range] at hll
    have hrow : ∀ x ∈ rows, x.1.length = a.ns ∧ x.2.1.length = a.ns ∧ x.2.2.length = a.ns := by
      intro x hx
      obtain ⟨i, hi, rfl⟩ := List.getElem_of_mem hx
      obtain ⟨b, hb1, hb2⟩ := hli i (by rw [List.length_range]; omega)
      rw [List.getElem?_eq_getElem hi] at hb1
      injection hb1 with hb1
      rw [List.getElem_range] at hb2
      obtain ⟨A, P, l, d, g1, g2, g3, g4, e⟩ := hbody cl cd (hL.2 cl hcl).1 (hL.2 cl hcl).2 (hD.2 cd hcd).1
        (hD.2 cd hcd).2 i (by omega)
      simp only [bind, Except.bind] at e
      rw [e] at hb2
      rw [hb1]
      exact (coeffPlotSail_okOrNan g1 g2 g3 g4).2 _ hb2
    refine ⟨by simp [hll], by simp [hll], by simp [hll], ?_, ?_, ?_⟩
    · intro x hx
      obtain ⟨y, hy, rfl⟩ := List.mem_map.1 hx
      exact (hrow y hy).1
    · intro x hx
      obtain ⟨y, hy, rfl⟩ := List.mem_map.1 hx
      exact (hrow y hy).2.1
    · intro x hx
      obtain ⟨y, hy, rfl⟩ := List.mem_map.1 hx
      exact (hrow y hy).2.2

/-- One or two rows of equally many numbers can be plotted. -/
theorem plotSectionCoeff_drawn {x y : List (List ℝ)} {n : ℕ} (h2 : y.length ≤ 2) (hl : x.length = y.length)
    (hx : ∀ v ∈ x, v.length = n) (hy : ∀ v ∈ y, v.length = n) {name : String}
    (hname : name = "lift" ∨ name = "drag") {colors : List String} (hc : colors.length = 2) :
    ∃ f, plotSectionCoeff x y name colors = .ok f := by
  unfold plotSectionCoeff
  rw [if_neg (not_not.2 hname)]
  have hb : ∀ i, i < y.length → ∃ b : String × String × String × List ℝ × List ℝ, (do
      let xs ← idx x i
      let ys ← idx y i
      let lb ← idx ["jib", "main"] i
      let mk ← idx ["o", "^"] i
      let co ← idx colors i
      if xs.length ≠ ys.length then .error .valueError else .ok (lb, mk, co, xs, ys) : Py _) = .ok b := by
    intro i hi
    have f1 : i < x.length := by omega
    have f3 : i < ["jib", "main"].length := by simp; omega
    have f4 : i < ["o", "^"].length := by simp; omega
    have f5 : i < colors.length := by omega
    rw [idx_lt f1, idx_lt hi, idx_lt f3, idx_lt f4, idx_lt f5]
    simp only [bind, Except.bind]
    rw [if_neg (by rw [hx _ (List.getElem_mem _), hy _ (List.getElem_mem _)]; simp)]
    exact ⟨_, rfl⟩
  obtain ⟨r, hr⟩ := mapM_all_ok (l := List.range y.length) fun i hi => hb i (List.mem_range.1 hi)
  simp only [bind, Except.bind] at hr ⊢
  rw [hr]
  exact ⟨_, rfl⟩

theorem sectionPlotStep_ok {d : Py CoeffPlotData} {x : CoeffPlotData → List (List ℝ)} {name : String}
    {colors : List String} (hd : OkOrNan d)
    (h : ∀ D, d = .ok D → ∃ f, plotSectionCoeff (x D) D.meanCpZ name colors = .ok f) :
    ∃ e, sectionPlotStep d x name colors = .ok e := by
  unfold sectionPlotStep
  rcases hd with ⟨D, rfl⟩ | rfl
  · obtain ⟨f, hf⟩ := h D rfl
    exact ⟨.sectionPlot name (some f), by simp only [nanAsNone, bind, Except.bind, hf, Except.map]⟩
  · exact ⟨.sectionPlot name none, rfl⟩

theorem normalize_okOrNan (v : V3) : OkOrNan (normalize v) := by
  unfold normalize
  split_ifs
  · exact Or.inr rfl
  · exact Or.inl ⟨_, rfl⟩

theorem displayCeClr_okOrNan {res : FlowResults} (h : OkOrNan res.centreOfEffort) (hull : Hull) :
    OkOrNan (displayCeClr res hull) := by
  unfold displayCeClr
  refine OkOrNan.bind ?_ fun _ _ => OkOrNan.bind h fun _ _ => OkOrNan.bind (normalize_okOrNan _) fun _ _ => .ok _
  unfold npMean
  split_ifs
  · exact Or.inr rfl
  · exact Or.inl ⟨_, rfl⟩

theorem determineVector_okOrNan (F : V3) (d : ℝ) (c : V3) : OkOrNan (determineVector F d c) := by
  unfold determineVector
  split_ifs
  · exact Or.inr rfl
  · exact Or.inl ⟨_, rfl⟩

theorem cpGirthsAbove_ok {g : List ℝ} {sails : List SailGeom} {m : ℕ} (hn : sails ≠ [])
    (hl : g.length = 2 * (sails.length * m)) : ∃ x, cpGirthsAbove g sails = .ok x := by
  have hpos : 0 < sails.length := List.length_pos_iff.2 hn
  obtain ⟨cs, hcs, -⟩ := npSplit_okOf (xs := g) (g := 2 * sails.length) (n := m) (by omega) (by rw [hl]; ring)
  unfold cpGirthsAbove
  simp only [hcs, bind, Except.bind]
  rw [if_neg hpos.ne']
  exact ⟨_, rfl⟩

/-- The result sheets of a solved lattice: numbers or `nan`. -/
theorem saveResults_okOrNan {r : Vlm} {sails : List SailGeom} {m : ℕ} (hn : sails ≠ []) (hm : 0 < m)
    (hv : r.vars.length = 2 * (sails.length * m)) (csys csys0 : Csys) (o : FlowObject)
    (hw : OkOrNan (windIntegral r.inlet.winds csys0)) : OkOrNan (saveResults r csys o sails csys0) := by
  have hpos : 0 < sails.length := List.length_pos_iff.2 hn
  obtain ⟨h1, h2⟩ := cpGirthsAll_okOrNan (cps := r.vars.map PanelVars.cp) hn hm csys (by rw [List.length_map, hv])
  unfold saveResults
  refine OkOrNan.bind hw fun ic _ => OkOrNan.bind h1 fun g hg => ?_
  obtain ⟨l1, l2⟩ := h2 g hg
  obtain ⟨x, hx⟩ := cpGirthsAbove_ok (m := m) hn l1
  obtain ⟨cs, hcs, -⟩ := arraySplit_okOf (xs := g.2) (g := 2 * sails.length) (n := m) (by omega) (by rw [l2]; ring)
  rw [hx]
  refine OkOrNan.bind (.ok _) fun _ _ => ?_
  rw [hcs]
  exact OkOrNan.bind (.ok _) fun _ _ => .ok _

/-- The picture of a solved lattice of one or two sails: drawn, or with `nan` arrows. -/
theorem displayScene_okOrNan {a : VlmInput} {r : Vlm} (h : vlm a = .ok r) {n : ℕ} (hn : n = 1 ∨ n = 2)
    (hlen : a.panels.length = 2 * n * (a.nc * a.ns)) (hz : ∃ v ∈ r.vars, v.leMid.z ≠ 0 ∨ v.teMid.z ≠ 0)
    {res : FlowResults} (hi : res.vInd = r.out.vIndCp) (hc : OkOrNan res.centreOfEffort) (hull : Hull)
    (si so : Bool) : OkOrNan (displayScene r res hull si so) := by
  unfold displayScene
  obtain ⟨p, hp⟩ := C68_drawn h (if so then "gamma_magnitude" else "p_coeffs") hz
  obtain ⟨ar, har, -⟩ := (C56_vlm h (n := n) (by omega) hlen p.water si).1 hn
  simp only [hp]
  refine OkOrNan.bind (.ok _) fun p' e => ?_
  injection e with e
  subst e
  rw [hi, (vlm_lengths h).1, har]
  exact OkOrNan.bind (.ok _) fun _ _ => OkOrNan.bind (displayCeClr_okOrNan hc hull) fun _ _ => .ok _

/-- If the geometry is built and the flow computed, everything before the first output succeeds. -/
theorem prepare_of {spline : SplineFn} {c : Config} {main jib : SailConf} {base : ℝ} {set : SailSet} {r : Vlm}
    (h1 : mainSailInit c.main = .ok main) (h2 : jibSailInit c.jib = .ok jib) (h3 : windPostInit c.wind = .ok ())
    (h4 : sailPostInit c.rig (some main) (some jib) = .ok ())
    (h5 : sailSetOf spline c.solver c.rig (some main) (some jib) ⟨c.heelDeg, c.leewayDeg, c.vRef⟩ = .ok set)
    (h6 : c.rig.base = some base) (h7 : vlm (c.vlmInput set (windGetProfile c.wind)) = .ok r) :
    ∃ p, prepare spline c = .ok p ∧ p.csys = ⟨c.heelDeg, c.leewayDeg, c.vRef⟩ ∧ p.set = set ∧ p.vlm = r := by
  have hcs := C59_csys_constructor_total c.heelDeg c.leewayDeg c.vRef
  obtain ⟨hull, hh, -⟩ := C57_hull c.rig.sheer base ⟨c.heelDeg, c.leewayDeg, c.vRef⟩ c.clrUpright
  obtain ⟨hn, -, hl, -⟩ := sailSetOf_shape h5
  have hne : set.sails ≠ [] := by
    intro e; rw [e] at hn; simp at hn
  have hsh := vlm_shaped h7 hne (m := c.solver.nc * c.solver.ns) hl
  obtain ⟨res, hr, -⟩ := inviscidFlow_ok hsh.nonempty ⟨c.heelDeg, c.leewayDeg, c.vRef⟩ _ hsh.force hsh.cp
  unfold prepare prepareGeometry
  simp only [h1, h2, hcs, h3, h4, h5, h6, need, hh, h7, hr, bind, Except.bind]
  exact ⟨_, rfl, rfl, rfl, rfl⟩

end PySailing
