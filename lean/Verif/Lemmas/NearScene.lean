import Verif.Spec.NearScene
import Verif.Lemmas.NearFigures
import Verif.Lemmas.NearBook
import Verif.Lemmas.Plotter

/-!
# Nearby data give nearby pictures
-/

namespace PySailing

open Spec Filter Topology

variable {T : Type} {l : Filter T} {α β : Type}

theorem PyConv.stays {a : T → α} {a0 : α} (h : Stays l a a0) (f : α → Py β) :
    PyConv l (Stays l) (fun t => f (a t)) (f a0) := by
  intro b0 hb
  exact ⟨fun _ => b0, h.mono fun t ht => by beta_reduce; rw [ht]; exact hb, .of_forall fun _ => rfl⟩

namespace Spec.TendList

variable {R : (T → α) → α → Prop}

theorem with_mem {xs : T → List α} {xs0 : List α} (h : TendList l R xs xs0) :
    TendList l (fun a a0 => R a a0 ∧ a0 ∈ xs0) xs xs0 := by
  obtain ⟨zs, h1, h2, h3⟩ := h
  exact ⟨zs, h1, h2, fun z hz => ⟨h3 z hz, by rw [h1]; exact List.mem_map_of_mem hz⟩⟩

theorem const (xs : List α) (h : ∀ x ∈ xs, R (fun _ => x) x) : TendList l R (fun _ => xs) xs :=
  ⟨xs.map fun x => (fun _ => x, x), by simp [Function.comp_def], .of_forall fun t => by simp [Function.comp_def], fun z hz => by
    obtain ⟨x, hx, rfl⟩ := List.mem_map.1 hz
    exact h x hx⟩

end Spec.TendList

theorem foldl_tendsto {g : ℝ → ℝ → ℝ} (hg : Continuous fun x : ℝ × ℝ => g x.1 x.2) (zs : List ((T → ℝ) × ℝ))
    (h : ∀ z ∈ zs, Tends l z.1 z.2) {x : T → ℝ} {x0 : ℝ} (hx : Tends l x x0) :
    Tends l (fun t => (zs.map fun z => z.1 t).foldl g (x t)) ((zs.map Prod.snd).foldl g x0) := by
  induction zs generalizing x x0 with
  | nil => exact hx
  | cons z zs ih =>
    simp only [List.map_cons, List.foldl_cons]
    refine ih (fun y hy => h y (by simp [hy])) ?_
    exact (hg.tendsto (x0, z.2)).comp (Tendsto.prodMk_nhds hx (h z (by simp)))

theorem pyMax_conv {xs : T → List ℝ} {xs0 : List ℝ} (h : TendList l (Tends l) xs xs0) :
    PyConv l (Tends l) (fun t => pyMax (xs t)) (pyMax xs0) := by
  obtain ⟨zs, h1, h2, h3⟩ := h
  subst h1
  refine PyConv.congr' (x := fun t => pyMax (zs.map fun z => z.1 t)) ?_ (h2.mono fun t ht => by rw [ht])
  cases zs with
  | nil => exact PyConv.error
  | cons z zs => exact PyConv.ok (foldl_tendsto (by fun_prop) zs (fun y hy => h3 y (by simp [hy])) (h3 z (by simp)))

theorem pyMin_conv {xs : T → List ℝ} {xs0 : List ℝ} (h : TendList l (Tends l) xs xs0) :
    PyConv l (Tends l) (fun t => pyMin (xs t)) (pyMin xs0) := by
  obtain ⟨zs, h1, h2, h3⟩ := h
  subst h1
  refine PyConv.congr' (x := fun t => pyMin (zs.map fun z => z.1 t)) ?_ (h2.mono fun t ht => by rw [ht])
  cases zs with
  | nil => exact PyConv.error
  | cons z zs => exact PyConv.ok (foldl_tendsto (by fun_prop) zs (fun y hy => h3 y (by simp [hy])) (h3 z (by simp)))

theorem ceil_stays {x : T → ℝ} {x0 : ℝ} (h : Tendsto x l (𝓝 x0)) (h0 : ∀ n : ℤ, x0 ≠ n) : ∀ᶠ t in l, ⌈x t⌉ = ⌈x0⌉ := by
  have h1 : (⌈x0⌉ : ℝ) - 1 < x0 := by linarith [Int.ceil_lt_add_one x0]
  have h2 : x0 < ⌈x0⌉ := lt_of_le_of_ne (Int.le_ceil x0) (h0 _)
  filter_upwards [h.eventually_const_lt h1, h.eventually_lt_const h2] with t t1 t2
  exact Int.ceil_eq_iff.2 ⟨t1, t2.le⟩

theorem waterSize_conv {le te : T → List V3} {le0 te0 : List V3} (hle : TendList l (Conv l) le le0) (hte : TendList l (Conv l) te te0)
    (hm : ∀ a b, pyMax (le0.map fun p => |p.z|) = .ok a → pyMax (te0.map fun p => |p.z|) = .ok b → ∀ n : ℤ, max a b ≠ n) :
    PyConv l (Stays l) (fun t => waterSize (le t) (te t)) (waterSize le0 te0) := by
  unfold waterSize
  have ha : ∀ (a : T → V3) (a0 : V3), Conv l a a0 → Tends l (fun t => |(a t).z|) |a0.z| := fun a a0 h => h.z.abs
  have c1 := pyMax_conv (hle.map (f := fun _ p => |p.z|) (f0 := fun p => |p.z|) ha)
  have c2 := pyMax_conv (hte.map (f := fun _ p => |p.z|) (f0 := fun p => |p.z|) ha)
  intro w0 hw0
  cases e1 : pyMax (le0.map fun p => |p.z|) with
  | error e => rw [e1] at hw0; cases hw0
  | ok a0 =>
    cases e2 : pyMax (te0.map fun p => |p.z|) with
    | error e => rw [e1, e2] at hw0; cases hw0
    | ok b0 =>
      rw [e1, e2] at hw0
      obtain ⟨a, a1, a2⟩ := c1 a0 e1
      obtain ⟨b, b1, b2⟩ := c2 b0 e2
      refine ⟨fun t => w0, ?_, .of_forall fun _ => rfl⟩
      filter_upwards [a1, b1, ceil_stays (a2.max b2) (hm a0 b0 e1 e2)] with t t1 t2 t3
      rw [t1, t2, ← hw0]
      show Except.ok ⌊(1.1 : ℝ) * (⌈max (a t) (b t)⌉ : ℤ)⌋ = Except.ok ⌊(1.1 : ℝ) * (⌈max a0 b0⌉ : ℤ)⌋
      rw [t3]

theorem displayPanels_conv {r : T → Vlm} {r0 : Vlm} (hpan : TendList l (ConvPanel l) (fun t => (r t).input.panels) r0.input.panels)
    (hC : TendList l (Tends l) (fun t => (r t).out.pCoeffs) r0.out.pCoeffs)
    (hle : TendList l (Conv l) (fun t => (r t).vars.map PanelVars.leMid) (r0.vars.map PanelVars.leMid))
    (hte : TendList l (Conv l) (fun t => (r t).vars.map PanelVars.teMid) (r0.vars.map PanelVars.teMid))
    (hm : ∀ a b, pyMax ((r0.vars.map PanelVars.leMid).map fun p => |p.z|) = .ok a →
      pyMax ((r0.vars.map PanelVars.teMid).map fun p => |p.z|) = .ok b → ∀ n : ℤ, max a b ≠ n) :
    PyConv l (NearPanelPlot l) (fun t => displayPanels (r t) "p_coeffs") (displayPanels r0 "p_coeffs") := by
  have e : ∀ r : Vlm, colourData r "p_coeffs" = r.out.pCoeffs := fun r => by simp [colourData]
  unfold displayPanels
  simp only [e]
  refine PyConv.bind (pyMin_conv hC) fun lo lo0 hlo => PyConv.bind (pyMax_conv hC) fun hi hi0 hhi =>
    PyConv.bind (waterSize_conv hle hte hm) fun w w0 hw => PyConv.bind (PyConv.stays hw axisLimits) fun x x0 hx => PyConv.ok ?_
  exact ⟨(hpan.zip hC).mono fun a a0 ha => ⟨ha.1.p1, ha.1.p2, ha.1.p3, ha.1.p4, ha.2⟩, hlo, hhi, hw,
    hx.mono fun t ht => by beta_reduce; rw [ht], hx.mono fun t ht => by beta_reduce; rw [ht], hx.mono fun t ht => by beta_reduce; rw [ht]⟩

/-! ## Winds -/

theorem sliceStep_natural (f : α → β) (xs : List α) (n : ℕ) : sliceStep (xs.map f) n = (sliceStep xs n).map f := by
  unfold sliceStep
  rw [List.length_map, List.map_filterMap]
  refine List.filterMap_congr fun i _ => ?_
  split_ifs
  · rw [List.getElem?_map]
  · rfl

theorem sliceStep_mem {xs : List α} {n : ℕ} {x : α} (h : x ∈ sliceStep xs n) : x ∈ xs := by
  unfold sliceStep at h
  obtain ⟨i, -, hi⟩ := List.mem_filterMap.1 h
  split_ifs at hi
  exact List.mem_of_getElem? hi

theorem firstRows_conv {R : (T → α) → α → Prop} {xs : T → List α} {xs0 : List α} (h : TendList l R xs xs0) (nc k : ℕ) :
    PyConv l (TendList l R) (fun t => firstRows (xs t) nc k) (firstRows xs0 nc k) := by
  unfold firstRows
  refine PyConv.bind (h.npSplit (nc * k)) fun a a0 ha => PyConv.ok (TendList.flatten ?_)
  obtain ⟨zs, h1, h2, h3⟩ := ha
  subst h1
  refine ⟨sliceStep zs nc, sliceStep_natural _ _ _, h2.mono fun t ht => ?_, fun z hz => h3 z (sliceStep_mem hz)⟩
  beta_reduce
  rw [ht, sliceStep_natural]

/-- The states of the drawing loop tend. -/
structure NearLoop (l : Filter T) (s : T → WindLoop) (s0 : WindLoop) : Prop where
  x : Tends l (fun t => (s t).shiftX) s0.shiftX
  y : Tends l (fun t => (s t).shiftY) s0.shiftY
  counter : Stays l (fun t => (s t).counter) s0.counter

/-- Points off the water surface tend. -/
def OffConv (l : Filter T) (p : T → V3) (p0 : V3) : Prop := Conv l p p0 ∧ p0.z ≠ 0

theorem windStart_conv (colors : List String) {cps : T → List V3} {cps0 : List V3} (hc : TendList l (OffConv l) cps cps0) (ns : ℕ)
    (color : String) {st : T → WindLoop} {st0 : WindLoop} (hs : NearLoop l st st0) (i : ℕ) :
    PyConv l (fun a a0 => NearLoop l (fun t => (a t).1) a0.1 ∧ Stays l (fun t => (a t).2) a0.2)
      (fun t => windStart colors (cps t) ns color (st t) i) (windStart colors cps0 ns color st0 i) := by
  unfold windStart
  by_cases hr : color = "red"
  · simp only [if_pos hr]
    have hk : Stays l (fun t => if i % ns = 0 ∧ i ≠ 0 then (st t).counter + 1 else (st t).counter)
        (if i % ns = 0 ∧ i ≠ 0 then st0.counter + 1 else st0.counter) := hs.counter.mono fun t (ht : (st t).counter = _) => by beta_reduce; rw [ht]
    exact PyConv.bind (PyConv.stays hk (idx colors)) fun d d0 hd => PyConv.bind (hc.idx i) fun p p0 hp =>
      PyConv.ok ⟨⟨hp.1.x, hp.1.y, hk⟩, hd⟩
  · simp only [if_neg hr]
    exact PyConv.ok ⟨hs, .of_forall fun _ => rfl⟩

theorem windStep_conv (colors : List String) {cps : T → List V3} {cps0 : List V3} (hc : TendList l (OffConv l) cps cps0) (ns : ℕ)
    {wind : T → List V3} {wind0 : List V3} (hw : TendList l (Conv l) wind wind0)
    (color : String) {st : T → WindLoop} {st0 : WindLoop} (hs : NearLoop l st st0) (i : ℕ) :
    PyConv l (fun a a0 => NearLoop l (fun t => (a t).1) a0.1 ∧ NearArrow l (fun t => (a t).2) a0.2)
      (fun t => windStep colors (cps t) ns (wind t) color (st t) i) (windStep colors cps0 ns wind0 color st0 i) := by
  unfold windStep
  refine PyConv.bind (windStart_conv colors hc ns color hs i) fun s s0 h1 => PyConv.bind (hw.idx i) fun v v0 h2 =>
    PyConv.bind (hc.idx i) fun p p0 h3 => PyConv.ok ⟨h1.1, ⟨h1.1.x, h1.1.y, h3.1.z⟩, ⟨h1.1.x.add h2.x, h1.1.y.add h2.y, h3.1.z⟩, h1.2, ?_⟩
  rcases lt_or_gt_of_ne h3.2 with h0 | h0
  · filter_upwards [h3.1.z.eventually_lt_const h0] with t ht
    rw [if_neg (not_lt.2 ht.le), if_neg (not_lt.2 h0.le)]
  · filter_upwards [h3.1.z.eventually_const_lt h0] with t ht
    rw [if_pos ht, if_pos h0]

theorem windLoop_conv (colors : List String) {cps : T → List V3} {cps0 : List V3} (hc : TendList l (OffConv l) cps cps0) (ns : ℕ)
    {wind : T → List V3} {wind0 : List V3} (hw : TendList l (Conv l) wind wind0)
    (color : String) (is : List ℕ) {st : T → WindLoop} {st0 : WindLoop} (hs : NearLoop l st st0) :
    PyConv l (fun a a0 => NearLoop l (fun t => (a t).1) a0.1 ∧ TendList l (NearArrow l) (fun t => (a t).2) a0.2)
      (fun t => windLoop colors (cps t) ns (wind t) color (st t) is) (windLoop colors cps0 ns wind0 color st0 is) := by
  induction is generalizing st st0 with
  | nil => exact PyConv.ok ⟨hs, TendList.nil⟩
  | cons i is ih =>
    simp only [windLoop]
    exact PyConv.bind (windStep_conv colors hc ns hw color hs i) fun a a0 ha => PyConv.bind (ih ha.1) fun b b0 hb =>
      PyConv.ok ⟨hb.1, TendList.cons ha.2 hb.2⟩

theorem windLoops_conv (colors : List String) {cps : T → List V3} {cps0 : List V3} (hc : TendList l (OffConv l) cps cps0) (ns n : ℕ)
    (ws : List ((T → List V3) × List V3 × String)) (hw : ∀ w ∈ ws, TendList l (Conv l) w.1 w.2.1)
    {st : T → WindLoop} {st0 : WindLoop} (hs : NearLoop l st st0) :
    PyConv l (TendList l (NearArrow l)) (fun t => windLoops colors (cps t) ns n (st t) (ws.map fun w => (w.1 t, w.2.2)))
      (windLoops colors cps0 ns n st0 (ws.map fun w => (w.2.1, w.2.2))) := by
  induction ws generalizing st st0 with
  | nil => exact PyConv.ok TendList.nil
  | cons w ws ih =>
    simp only [List.map_cons, windLoops]
    exact PyConv.bind (windLoop_conv colors hc ns (hw w (by simp)) w.2.2 (List.range n) hs) fun a a0 ha =>
      PyConv.bind (ih (fun v hv => hw v (by simp [hv])) ha.1) fun b b0 hb => PyConv.ok (ha.2.append hb)

theorem drawWinds_conv {cps : T → List V3} {cps0 : List V3} (hc : TendList l (OffConv l) cps cps0) (ns k : ℕ)
    (ws : List ((T → List V3) × List V3 × String)) (hw : ∀ w ∈ ws, TendList l (Conv l) w.1 w.2.1)
    {x y : T → ℝ} {x0 y0 : ℝ} (hx : Tends l x x0) (hy : Tends l y y0) :
    PyConv l (TendList l (NearArrow l)) (fun t => drawWinds (ws.map fun w => (w.1 t, w.2.2)) (cps t) ns k (x t) (y t))
      (drawWinds (ws.map fun w => (w.2.1, w.2.2)) cps0 ns k x0 y0) := by
  unfold drawWinds
  refine PyConv.bind (R := fun _ _ => True) ?_ fun _ _ _ => ?_
  · unfold assertShapes
    intro u hu
    split_ifs at hu with h
    refine ⟨fun _ => (), ?_, trivial⟩
    have : ∀ᶠ t in l, ∀ w ∈ ws, (w.1 t).length = w.2.1.length := by
      clear h hu
      induction ws with
      | nil => simp
      | cons w ws ih =>
        filter_upwards [(hw w (by simp)).lengths, ih fun v hv => hw v (by simp [hv])] with t t1 t2
        intro v hv
        rcases List.mem_cons.1 hv with rfl | hv
        · exact t1
        · exact t2 v hv
    filter_upwards [this] with t ht
    rw [if_pos]
    simp only [List.all_map, List.all_eq_true, Function.comp_apply, decide_eq_true_eq] at h ⊢
    exact fun w hm => (ht w hm).trans (h w hm)
  · split_ifs
    · exact windLoops_conv _ hc ns _ ws hw ⟨hx, hy, .of_forall fun _ => rfl⟩
    · exact PyConv.error

theorem displayWinds_conv (n : ℕ) (water : ℤ) {i : T → Inlet} {i0 : Inlet} (ind : T → List V3) (ind0 : List V3)
    (hc : TendList l (OffConv l) (fun t => (i t).cpPoints) i0.cpPoints)
    (ht : TendList l (Conv l) (fun t => (i t).twsAtCp) i0.twsAtCp) (ha : TendList l (Conv l) (fun t => (i t).vAppInfs) i0.vAppInfs)
    (hd : TendList l (Tends l) (fun t => (i t).awaInfsDeg) i0.awaInfsDeg) (ns nc : ℕ) :
    PyConv l (TendList l (NearArrow l)) (fun t => displayWinds n water (i t) (ind t) ns nc false)
      (displayWinds n water i0 ind0 ns nc false) := by
  unfold displayWinds
  by_cases h0 : ns * nc = 0
  · simp only [if_pos h0]; exact PyConv.error
  simp only [if_neg h0]
  have hmean : Tendsto (fun t => (i t).awaInfsDeg.sum / ((i t).awaInfsDeg.length : ℝ)) l (𝓝 (i0.awaInfsDeg.sum / (i0.awaInfsDeg.length : ℝ))) :=
    (hd.sum.div_const _).congr' (hd.lengths.mono fun t ht => by beta_reduce; rw [ht])
  have hr := deg2rad_tendsto hmean
  unfold windsToDraw
  simp only [Bool.false_eq_true, if_false, bind_assoc]
  refine PyConv.bind (firstRows_conv ht _ _) fun a a0 h1 => PyConv.bind (firstRows_conv ha _ _) fun b b0 h2 => ?_
  refine PyConv.bind (R := fun w w0 => w = (fun t => [(a t, "green"), (b t, "blue")]) ∧ w0 = [(a0, "green"), (b0, "blue")]) (PyConv.ok ⟨rfl, rfl⟩)
    fun w w0 hw => PyConv.bind (firstRows_conv hc _ _) fun c c0 h3 => ?_
  obtain ⟨rfl, rfl⟩ := hw
  exact drawWinds_conv h3 _ _ [(a, a0, "green"), (b, b0, "blue")] (by
      intro w hw
      simp only [List.mem_cons, List.not_mem_nil, or_false] at hw
      rcases hw with rfl | rfl
      · exact h1
      · exact h2)
    (((Real.continuous_cos.tendsto _).comp hr).const_mul _) (((Real.continuous_sin.tendsto _).comp hr).const_mul _)

/-! ## Force and hull -/

theorem normalize_conv {x : T → V3} {x0 : V3} (h : Conv l x x0) : PyConv l (Conv l) (fun t => normalize (x t)) (normalize x0) := by
  intro a0 h0
  unfold normalize at h0
  split_ifs at h0 with hn
  cases h0
  refine ⟨fun t => (1 / (x t).norm) • x t, ?_, Conv.smul (tendsto_const_nhds.div h.norm hn) h⟩
  filter_upwards [h.norm.eventually_ne hn] with t ht
  rw [normalize, if_neg ht]

theorem determineVector_conv {F : T → V3} {F0 : V3} (hF : Conv l F F0) {d : T → ℝ} {d0 : ℝ} (hd : Tendsto d l (𝓝 d0)) {M : T → V3} {M0 : V3}
    (hM : Conv l M M0) : PyConv l (Conv l) (fun t => determineVector (F t) (d t) (M t)) (determineVector F0 d0 M0) := by
  intro a0 h0
  unfold determineVector at h0
  split_ifs at h0 with hn
  cases h0
  refine ⟨fun t => (1 / (F t).dot (F t)) • (V3.cross (F t) (M t) + d t • F t), ?_,
    Conv.smul (tendsto_const_nhds.div (hF.dot hF) hn) ((hF.cross hM).add (Conv.smul hd hF))⟩
  filter_upwards [(hF.dot hF).eventually_ne hn] with t ht
  rw [determineVector, if_neg ht]

theorem npMean_conv {xs : T → List ℝ} {xs0 : List ℝ} (h : TendList l (Tends l) xs xs0) :
    PyConv l (Tends l) (fun t => npMean (xs t)) (npMean xs0) := by
  intro a0 h0
  unfold npMean at h0
  split_ifs at h0 with hn
  cases h0
  refine ⟨fun t => (xs t).sum / (xs t).length, ?_, (h.sum.div_const _).congr' (h.lengths.mono fun t ht => by beta_reduce; rw [ht])⟩
  filter_upwards [h.lengths] with t ht
  rw [npMean, if_neg]
  intro e
  rw [e] at ht
  exact hn (List.length_eq_zero_iff.1 ht.symm)

theorem displayCeClr_conv {res : T → FlowResults} {res0 : FlowResults} {hull : T → Hull} {hull0 : Hull}
    (hv : TendList l (Tends l) (fun t => (res t).vFsLength) res0.vFsLength)
    (hce : PyConv l (Conv l) (fun t => (res t).centreOfEffort) res0.centreOfEffort)
    (hF : Conv l (fun t => (res t).forceTotal) res0.forceTotal) (hclr : Conv l (fun t => (hull t).clr) hull0.clr) :
    PyConv l (NearForcePlot l) (fun t => displayCeClr (res t) (hull t)) (displayCeClr res0 hull0) := by
  unfold displayCeClr
  refine PyConv.bind (npMean_conv hv) fun m m0 hm => PyConv.bind hce fun ce ce0 h1 => PyConv.bind (normalize_conv hF) fun u u0 hu => PyConv.ok ?_
  have hs : Tendsto (fun t => 0.8 * m t) l (𝓝 (0.8 * m0)) := hm.const_mul _
  have hf : Conv l (fun t => (0.8 * m t) • u t) ((0.8 * m0) • u0) := Conv.smul hs hu
  exact ⟨hs, hclr, h1, hf, TendList.cons ⟨h1, h1.add hf, .of_forall fun _ => rfl, .of_forall fun _ => rfl⟩ <| TendList.cons
    ⟨hclr, hclr.add ⟨hf.x.neg, hf.y.neg, hf.z.neg⟩, .of_forall fun _ => rfl, .of_forall fun _ => rfl⟩ TendList.nil⟩

theorem deckLine_conv {xs ys : T → List ℝ} {xs0 ys0 : List ℝ} (hx : TendList l (Tends l) xs xs0) (hy : TendList l (Tends l) ys ys0)
    {z : T → ℝ} {z0 : ℝ} (hz : Tendsto z l (𝓝 z0)) (h0 : z0 ≠ 0) :
    TendList l (OffConv l) (fun t => deckLine (xs t) (ys t) (z t)) (deckLine xs0 ys0 z0) := by
  have e : ∀ (xs ys : List ℝ) (z : ℝ), deckLine xs ys z = (xs.zip ys).map fun a => (⟨a.1, a.2, z⟩ : V3) := fun xs ys z => by
    rw [deckLine, List.zip_eq_zipWith, List.map_zipWith]
  simp only [e]
  exact (hx.zip hy).map fun a a0 ha => ⟨⟨ha.1, ha.2, hz⟩, h0⟩

theorem withMirror_conv {c : T → Csys} {c0 : Csys} (hl : Tendsto (fun t => (c t).leewayDeg) l (𝓝 c0.leewayDeg))
    (hh : Tendsto (fun t => (c t).heelDeg) l (𝓝 c0.heelDeg)) {p : T → V3} {p0 : V3} (hp : OffConv l p p0) :
    Conv l (fun t => (c t).rotatePointWithMirror (p t)) (c0.rotatePointWithMirror p0) := by
  unfold Csys.rotatePointWithMirror
  refine leeway_conv hl ?_
  rcases lt_or_gt_of_ne hp.2 with h0 | h0
  · rw [if_neg (not_lt.2 h0.le)]
    refine (reverseHeeling_conv hh hp.1).congr' ((hp.1.z.eventually_lt_const h0).mono fun t ht => ?_)
    rw [if_neg (not_lt.2 ht.le)]
  · rw [if_pos h0]
    refine (heeling_conv hh hp.1).congr' ((hp.1.z.eventually_const_lt h0).mono fun t ht => ?_)
    rw [if_pos ht]

theorem hullGeometry_conv {sheer base : T → ℝ} {sheer0 base0 : ℝ} (hs : Tendsto sheer l (𝓝 sheer0)) (h0 : sheer0 ≠ 0)
    (hb : Tendsto base l (𝓝 base0)) {c : T → Csys} {c0 : Csys} (hl : Tendsto (fun t => (c t).leewayDeg) l (𝓝 c0.leewayDeg))
    (hh : Tendsto (fun t => (c t).heelDeg) l (𝓝 c0.heelDeg)) {clr : T → V3} {clr0 : V3} (hc : Conv l clr clr0) :
    PyConv l (fun h h0 => TendList l (fun h h0 => TendList l (Conv l) (fun t => (h t).1) h0.1 ∧ Stays l (fun t => (h t).2) h0.2)
        (fun t => displayHull (h t)) (displayHull h0) ∧ Conv l (fun t => (h t).clr) h0.clr)
      (fun t => hullGeometry (sheer t) (base t) (c t) (clr t)) (hullGeometry sheer0 base0 c0 clr0) := by
  unfold hullGeometry
  refine PyConv.bind (R := fun a a0 => a = fun _ => a0) ?_ fun a a0 ha => ?_
  · intro a0 h
    exact ⟨fun _ => a0, .of_forall fun _ => h, rfl⟩
  subst ha
  refine PyConv.ok ⟨?_, leeway_conv hl (heeling_conv hh hc)⟩
  have cx : ∀ xs : List ℝ, TendList l (Tends l) (fun t => xs.map fun x => -1.1 * base t + base t * 3 * x)
      (xs.map fun x => -1.1 * base0 + base0 * 3 * x) := fun xs =>
    (TendList.const (R := fun a a0 => a = fun _ => a0) xs fun _ _ => rfl).map fun a a0 ha => by
      subst ha
      exact (hb.const_mul _).add ((hb.mul_const _).mul_const _)
  have cy : ∀ xs : List ℝ, TendList l (Tends l) (fun t => xs.map fun x => base t * 3 * x) (xs.map fun x => base0 * 3 * x) := fun xs =>
    (TendList.const (R := fun a a0 => a = fun _ => a0) xs fun _ _ => rfl).map fun a a0 ha => by
      subst ha
      exact (hb.mul_const _).mul_const _
  have c0' : TendList l (Tends l) (fun _ => List.replicate 51 (0 : ℝ)) (List.replicate 51 0) :=
    TendList.const _ fun _ _ => tendsto_const_nhds
  have up : ∀ {xs ys : T → List ℝ} {xs0 ys0 : List ℝ}, TendList l (Tends l) xs xs0 → TendList l (Tends l) ys ys0 →
      ∀ {z : T → ℝ} {z0 : ℝ}, Tendsto z l (𝓝 z0) → z0 ≠ 0 →
      TendList l (Conv l) (fun t => (deckLine (xs t) (ys t) (z t)).map (c t).rotatePointWithMirror)
        ((deckLine xs0 ys0 z0).map c0.rotatePointWithMirror) := fun hx hy _ _ hz hz0 =>
    (deckLine_conv hx hy hz hz0).map fun a a0 ha => withMirror_conv hl hh ha
  have hs' : Tendsto (fun t => -1 * sheer t) l (𝓝 (-1 * sheer0)) := hs.const_mul _
  have h0' : -1 * sheer0 ≠ 0 := by simpa using h0
  unfold displayHull
  exact .cons ⟨up (cx _) c0' hs h0, .of_forall fun _ => rfl⟩ <| .cons ⟨up (cx _) (cy _) hs h0, .of_forall fun _ => rfl⟩ <|
    .cons ⟨up (cx _) (cy _) hs h0, .of_forall fun _ => rfl⟩ <| .cons ⟨up (cx _) (cy _) hs' h0', .of_forall fun _ => rfl⟩ <|
    .cons ⟨up (cx _) (cy _) hs' h0', .of_forall fun _ => rfl⟩ .nil

end PySailing
