import Verif.Lemmas.PyConv
import Verif.Lemmas.Continuity

/-!
# Figures of results that tend to given results
-/

namespace PySailing

open Spec Filter Topology

variable {T : Type} {l : Filter T} {α β : Type}

theorem PyConv.guard {S : (T → β) → β → Prop} {d : T → ℝ} {d0 : ℝ} [∀ t, Decidable (d t = 0)] [Decidable (d0 = 0)]
    (hd : Tendsto d l (𝓝 d0)) {e e' : PyErr} {f : T → Py β} {f0 : Py β} (hf : d0 ≠ 0 → PyConv l S f f0) :
    PyConv l S (fun t => if d t = 0 then .error e else f t) (if d0 = 0 then .error e' else f0) := by
  by_cases h : d0 = 0
  · rw [if_pos h]; exact PyConv.error
  · rw [if_neg h]
    refine (hf h).congr' ?_
    filter_upwards [hd.eventually_ne h] with t ht
    rw [if_neg ht]

theorem panelC_conv {rho : T → ℝ} {rho0 : ℝ} (hr : Tendsto rho l (𝓝 rho0)) {x : T → (V3 × V3) × ℝ} {x0 : (V3 × V3) × ℝ}
    (h1 : Conv l (fun t => (x t).1.1) x0.1.1) (h2 : Conv l (fun t => (x t).1.2) x0.1.2) (h3 : Tends l (fun t => (x t).2) x0.2) :
    PyConv l (Tends l) (fun t => panelC (rho t) (x t)) (panelC rho0 x0) := by
  have hd : Tendsto (fun t => 0.5 * rho t * (x t).1.2.norm ^ 2 * (x t).2) l (𝓝 (0.5 * rho0 * x0.1.2.norm ^ 2 * x0.2)) :=
    ((hr.const_mul _).mul (h2.norm.pow 2)).mul h3
  unfold panelC
  exact PyConv.guard hd fun h => PyConv.ok (h1.norm.div hd h)

theorem zipMul_conv {xs ys : T → List ℝ} {xs0 ys0 : List ℝ} (hx : TendList l (Tends l) xs xs0) (hy : TendList l (Tends l) ys ys0) :
    Tendsto (fun t => (List.zipWith (· * ·) (xs t) (ys t)).sum) l (𝓝 (List.zipWith (· * ·) xs0 ys0).sum) := by
  have e : ∀ a b : List ℝ, List.zipWith (· * ·) a b = (a.zip b).map fun z => z.1 * z.2 := fun a b => by
    rw [List.zip, List.map_zipWith]
  simp only [e]
  exact TendList.sum ((hx.zip hy).map fun z z0 h => Tendsto.mul h.1 h.2)

theorem sectionC_conv (nc ns : ℕ) {c a : T → List ℝ} {c0 a0 : List ℝ} (hc : TendList l (Tends l) c c0)
    (ha : TendList l (Tends l) a a0) (j : ℕ) :
    PyConv l (Tends l) (fun t => sectionC nc ns (c t) (a t) j) (sectionC nc ns c0 a0 j) := by
  unfold sectionC
  refine PyConv.bind (hc.stripColumn nc ns j) fun cs cs0 hcs => PyConv.bind (ha.stripColumn nc ns j) fun as as0 has => ?_
  exact PyConv.guard has.sum fun h => PyConv.ok ((zipMul_conv hcs has).div has.sum h)

theorem sailC_conv (nc ns : ℕ) {rho : T → ℝ} {rho0 : ℝ} (hr : Tendsto rho l (𝓝 rho0)) {f w : T → List V3} {f0 w0 : List V3}
    {a : T → List ℝ} {a0 : List ℝ} (hf : TendList l (Conv l) f f0) (hw : TendList l (Conv l) w w0) (ha : TendList l (Tends l) a a0) :
    PyConv l (TendList l (Tends l)) (fun t => sailC nc ns (rho t) (f t) (w t) (a t)) (sailC nc ns rho0 f0 w0 a0) := by
  unfold sailC
  refine PyConv.bind (((hf.zip hw).zip ha).mapM fun x x0 h => panelC_conv hr h.1.1 h.1.2 h.2) fun c c0 hc => ?_
  exact TendList.rangeM ns fun j _ => sectionC_conv nc ns hc ha j

theorem getC_conv (K ns nc : ℕ) {rho : T → ℝ} {rho0 : ℝ} (hr : Tendsto rho l (𝓝 rho0)) {f w : T → List V3} {f0 w0 : List V3}
    {a : T → List ℝ} {a0 : List ℝ} (hf : TendList l (Conv l) f f0) (hw : TendList l (Conv l) w w0) (ha : TendList l (Tends l) a a0) :
    PyConv l (TendList l (TendList l (Tends l))) (fun t => getC K (a t) (f t) (w t) ns nc (rho t)) (getC K a0 f0 w0 ns nc rho0) := by
  unfold getC
  by_cases h : ns * nc * 2 = 0
  · simp only [if_pos h]; exact PyConv.error
  simp only [if_neg h]
  refine PyConv.bind (hw.npSplit _) fun ws ws0 hws => PyConv.bind (hf.npSplit _) fun fs fs0 hfs =>
    PyConv.bind (ha.npSplit _) fun as as0 has => TendList.rangeM _ fun i _ => ?_
  exact PyConv.bind (hfs.idx i) fun x x0 hx => PyConv.bind (hws.idx i) fun y y0 hy => PyConv.bind (has.idx i) fun z z0 hz =>
    sailC_conv nc ns hr hx hy hz

theorem normalisedC_conv {s c : T → List ℝ} {s0 c0 : List ℝ} (hs : TendList l (Tends l) s s0) (hc : TendList l (Tends l) c c0) :
    PyConv l (TendList l (Tends l)) (fun t => normalisedC (s t) (c t)) (normalisedC s0 c0) := by
  unfold normalisedC
  refine PyConv.guard hs.sum fun h => ?_
  have hC := (zipMul_conv hs hc).div hs.sum h
  refine PyConv.guard hC fun h' => PyConv.ok ?_
  exact hc.map (f := fun t x => x / ((List.zipWith (· * ·) (s t) (c t)).sum / (s t).sum))
    (f0 := fun x => x / ((List.zipWith (· * ·) s0 c0).sum / s0.sum)) fun y y0 hy => Tendsto.div hy hC h'

/-- Three lists of numbers tend to three lists. -/
def NearTriple (l : Filter T) (x : T → List ℝ × List ℝ × List ℝ) (x0 : List ℝ × List ℝ × List ℝ) : Prop :=
  TendList l (Tends l) (fun t => (x t).1) x0.1 ∧ TendList l (Tends l) (fun t => (x t).2.1) x0.2.1 ∧
    TendList l (Tends l) (fun t => (x t).2.2) x0.2.2

theorem coeffPlotSail_conv (nc ns : ℕ) {a : T → List ℝ} {a0 : List ℝ} (ha : TendList l (Tends l) a a0) {p : T → List V3}
    {p0 : List V3} (hp : TendList l (Conv l) p p0) {cl cd : T → List ℝ} {cl0 cd0 : List ℝ} (hl : TendList l (Tends l) cl cl0)
    (hd : TendList l (Tends l) cd cd0) :
    PyConv l (NearTriple l) (fun t => coeffPlotSail nc ns (a t) (p t) (cl t) (cd t)) (coeffPlotSail nc ns a0 p0 cl0 cd0) := by
  unfold coeffPlotSail
  refine PyConv.bind (TendList.rangeM ns fun j _ => PyConv.bind (ha.stripColumn nc ns j) fun as as0 has => PyConv.ok (R := Tends l) has.sum)
    fun s s0 hs => ?_
  refine PyConv.bind (TendList.rangeM ns fun j _ => PyConv.bind ((hp.map (S := Tends l) (f := fun _ => V3.z) fun a a0 h => h.z).stripColumn nc ns j)
    fun zs zs0 hzs => PyConv.ok (R := Tends l) (hzs.sum.div_const _)) fun z z0 hz => ?_
  exact PyConv.bind (normalisedC_conv hs hl) fun l1 l0 hl1 => PyConv.bind (normalisedC_conv hs hd) fun d1 d0 hd1 =>
    PyConv.ok ⟨hz, hl1, hd1⟩

/-- The data of the section plots tend to given data. -/
structure NearPlotData (l : Filter T) (d : T → CoeffPlotData) (d0 : CoeffPlotData) : Prop where
  z : TendList l (TendList l (Tends l)) (fun t => (d t).meanCpZ) d0.meanCpZ
  lift : TendList l (TendList l (Tends l)) (fun t => (d t).lift) d0.lift
  drag : TendList l (TendList l (Tends l)) (fun t => (d t).drag) d0.drag

/-- The data of a solution from which the figures are made tend to those of a solution. -/
structure NearVlm (l : Filter T) (r : T → Vlm) (r0 : Vlm) : Prop where
  panels : ∀ᶠ t in l, (r t).input.panels.length = r0.input.panels.length
  ns : ∀ᶠ t in l, (r t).input.ns = r0.input.ns
  nc : ∀ᶠ t in l, (r t).input.nc = r0.input.nc
  rho : Tendsto (fun t => (r t).input.rho) l (𝓝 r0.input.rho)
  areas : TendList l (Tends l) (fun t => (r t).areas) r0.areas
  cps : TendList l (Conv l) (fun t => (r t).vars.map PanelVars.cp) (r0.vars.map PanelVars.cp)
  app : TendList l (Conv l) (fun t => (r t).inlet.vAppInfs) r0.inlet.vAppInfs
  lift : TendList l (Conv l) (fun t => (r t).out.lift) r0.out.lift
  drag : TendList l (Conv l) (fun t => (r t).out.drag) r0.out.drag

theorem coeffPlotData_conv {r : T → Vlm} {r0 : Vlm} (N : NearVlm l r r0) (nc ns : ℕ) :
    PyConv l (NearPlotData l) (fun t => coeffPlotData (r t) nc ns) (coeffPlotData r0 nc ns) := by
  have e1 : ∀ᶠ t in l, getC r0.input.panels.length (r t).areas (r t).out.lift (r t).inlet.vAppInfs r0.input.ns r0.input.nc
      (r t).input.rho = (r t).sectionLift := by
    filter_upwards [N.panels, N.ns, N.nc] with t t1 t2 t3
    unfold Vlm.sectionLift
    rw [t1, t2, t3]
  have e2 : ∀ᶠ t in l, getC r0.input.panels.length (r t).areas (r t).out.drag (r t).inlet.vAppInfs r0.input.ns r0.input.nc
      (r t).input.rho = (r t).sectionDrag := by
    filter_upwards [N.panels, N.ns, N.nc] with t t1 t2 t3
    unfold Vlm.sectionDrag
    rw [t1, t2, t3]
  unfold coeffPlotData
  refine PyConv.bind ((getC_conv _ _ _ N.rho N.lift N.app N.areas).congr' e1) fun cl cl0 hcl => ?_
  refine PyConv.bind ((getC_conv _ _ _ N.rho N.drag N.app N.areas).congr' e2) fun cd cd0 hcd => ?_
  by_cases h : ns * nc * 2 = 0
  · simp only [if_pos h]; exact PyConv.error
  simp only [if_neg h]
  refine PyConv.congr' (x := fun t => do
    let k := r0.input.panels.length / (ns * nc * 2)
    let sailAreas ← npSplit (r t).areas (2 * k)
    let sailCps ← npSplit ((r t).vars.map PanelVars.cp) (2 * k)
    let rows ← (List.range k).mapM fun i => do
      let a ← idx sailAreas i
      let p ← idx sailCps i
      let l ← idx (cl t) i
      let d ← idx (cd t) i
      coeffPlotSail nc ns a p l d
    .ok ⟨rows.map (·.1), rows.map (·.2.1), rows.map (·.2.2)⟩) ?_ (N.panels.mono fun t ht => by rw [ht])
  refine PyConv.bind (N.areas.npSplit _) fun as as0 has => PyConv.bind (N.cps.npSplit _) fun ps ps0 hps => ?_
  refine PyConv.bind (TendList.rangeM (S := NearTriple l) _ fun i _ => ?_) fun rows rows0 hrows => PyConv.ok ?_
  · exact PyConv.bind (has.idx i) fun a a0 ha => PyConv.bind (hps.idx i) fun p p0 hp => PyConv.bind (hcl.idx i) fun x x0 hx =>
      PyConv.bind (hcd.idx i) fun y y0 hy => coeffPlotSail_conv nc ns ha hp hx hy
  · exact ⟨hrows.map (f := fun _ => Prod.fst) fun a a0 h => h.1, hrows.map (f := fun _ x => x.2.1) fun a a0 h => h.2.1,
      hrows.map (f := fun _ x => x.2.2) fun a a0 h => h.2.2⟩

theorem plotSectionCoeff_conv {x y : T → List (List ℝ)} {x0 y0 : List (List ℝ)} (hx : TendList l (TendList l (Tends l)) x x0)
    (hy : TendList l (TendList l (Tends l)) y y0) (name : String) (colors : List String) :
    PyConv l (NearFigure l) (fun t => plotSectionCoeff (x t) (y t) name colors) (plotSectionCoeff x0 y0 name colors) := by
  unfold plotSectionCoeff
  by_cases h : ¬ (name = "lift" ∨ name = "drag")
  · simp only [if_pos h]; exact PyConv.error
  simp only [if_neg h]
  have const : ∀ (xs : List String) (i : ℕ), PyConv l (fun a a0 => ∀ᶠ t in l, a t = a0) (fun _ => idx xs i) (idx xs i) := by
    intro xs i a ha
    exact ⟨fun _ => a, .of_forall fun _ => ha, .of_forall fun _ => rfl⟩
  refine PyConv.bind (R := TendList l (fun s s0 => (∀ᶠ t in l, (s t).1 = s0.1 ∧ (s t).2.1 = s0.2.1 ∧ (s t).2.2.1 = s0.2.2.1) ∧
    TendList l (Tends l) (fun t => (s t).2.2.2.1) s0.2.2.2.1 ∧ TendList l (Tends l) (fun t => (s t).2.2.2.2) s0.2.2.2.2)) ?_
    fun s s0 hs => PyConv.ok ⟨.of_forall fun _ => rfl, .of_forall fun _ => rfl, hs⟩
  refine PyConv.congr' (TendList.rangeM y0.length fun i _ => PyConv.bind (hx.idx i) fun xs xs0 hxs => PyConv.bind (hy.idx i)
    fun ys ys0 hys => PyConv.bind (const ["jib", "main"] i) fun a a0 ha => PyConv.bind (const ["o", "^"] i) fun b b0 hb =>
      PyConv.bind (const colors i) fun c c0 hc => ?_) (hy.lengths.mono fun t ht => by rw [ht])
  by_cases hl : xs0.length = ys0.length
  · rw [if_neg (by simpa using hl)]
    refine PyConv.congr' (x := fun t => .ok (a t, b t, c t, xs t, ys t)) (PyConv.ok ⟨?_, hxs, hys⟩) ?_
    · filter_upwards [ha, hb, hc] with t t1 t2 t3
      exact ⟨t1, t2, t3⟩
    · filter_upwards [hxs.lengths, hys.lengths] with t t1 t2
      rw [if_neg (by rw [t1, t2]; simpa using hl)]
  · rw [if_pos hl]; exact PyConv.error

/-- Panels tend to a panel. -/
structure ConvPanel (l : Filter T) (q : T → Panel) (q0 : Panel) : Prop where
  p1 : Conv l (fun t => (q t).p1) q0.p1
  p2 : Conv l (fun t => (q t).p2) q0.p2
  p3 : Conv l (fun t => (q t).p3) q0.p3
  p4 : Conv l (fun t => (q t).p4) q0.p4

theorem plotCp_conv {mesh : T → List Panel} {mesh0 : List Panel} (hm : TendList l (ConvPanel l) mesh mesh0) {ps : T → List ℝ}
    {ps0 : List ℝ} (hp : TendList l (Tends l) ps ps0) :
    PyConv l (NearMap l) (fun t => plotCp (mesh t) (ps t)) (plotCp mesh0 ps0) := by
  unfold plotCp
  by_cases h : mesh0.length = ps0.length
  · rw [if_pos h]
    refine PyConv.congr' (PyConv.ok ((hm.map (f := fun _ => sideView) (S := fun (q : T → List (ℝ × ℝ)) q0 => TendList l
      (fun (u : T → ℝ × ℝ) u0 => Tends l (fun t => (u t).1) u0.1 ∧ Tends l (fun t => (u t).2) u0.2) q q0) fun q q0 hq => ?_).zip hp)) ?_
    · exact .cons ⟨hq.p1.x, hq.p1.z⟩ (.cons ⟨hq.p2.x, hq.p2.z⟩ (.cons ⟨hq.p3.x, hq.p3.z⟩ (.cons ⟨hq.p4.x, hq.p4.z⟩
        (.cons ⟨hq.p1.x, hq.p1.z⟩ .nil))))
    · filter_upwards [hm.lengths, hp.lengths] with t t1 t2
      rw [if_pos (by rw [t1, t2]; exact h)]
  · rw [if_neg h]; exact PyConv.error

theorem panelArea_conv {q : T → Panel} {q0 : Panel} (h : ConvPanel l q q0) :
    Tendsto (fun t => panelArea (q t)) l (𝓝 (panelArea q0)) := by
  unfold panelArea
  exact (tendsto_const_nhds.add ((((h.p2.sub h.p1).cross (h.p3.sub h.p2)).norm).const_mul 0.5)).add
    ((((h.p3.sub h.p2).cross (h.p4.sub h.p3)).norm).const_mul 0.5)

theorem blockPanels_tend (nc ns : ℕ) {B : T → List (ℕ → ℕ → V3)} {B0 : List (ℕ → ℕ → V3)}
    (h : TendList l (fun (f : T → ℕ → ℕ → V3) f0 => ∀ r ≤ ns, ∀ k, Conv l (fun t => f t r k) (f0 r k)) B B0) :
    TendList l (ConvPanel l) (fun t => blockPanels nc ns (B t)) (blockPanels nc ns B0) := by
  unfold blockPanels panelGrid
  refine TendList.flatten (h.map fun f f0 hf => ?_)
  simp only [List.flatMap]
  refine TendList.flatten (TendList.range nc fun i _ => TendList.range ns fun j hj => ?_)
  exact ⟨hf j (by omega) _, hf j (by omega) _, hf (j + 1) (by omega) _, hf (j + 1) (by omega) _⟩

end PySailing
