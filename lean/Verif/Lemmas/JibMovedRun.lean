import Verif.Lemmas.JibMoved
import Verif.Props.NearRun
import Verif.Props.Plotter
import Verif.Props.Main

/-!
# Lemmas: a run with the jib at another place along the yacht
-/

namespace PySailing

open Spec Props

theorem arm_along (v p w : V3) (hw : w.z = 0) : armFrom v (p + w) = armFrom v p + w := by
  have hz : (p + w).z = p.z := by simp [hw]
  unfold armFrom
  rw [hz]
  split_ifs <;> abel

theorem armCross_along (v p w f : V3) (hw : w.z = 0) :
    V3.cross (armFrom v (p + w)) f = V3.cross (armFrom v p) f + V3.cross w f := by
  rw [arm_along v p w hw]
  ext <;> simp [V3.cross] <;> ring

theorem leeway_add (c : Csys) (p q : V3) : c.leeway.mulVec (p + q) = c.leeway.mulVec p + c.leeway.mulVec q := by
  simp only [Csys.leeway_mulVec]
  ext <;> simp <;> ring

/-- The results of the flow when the sail moves along the water. -/
theorem inviscidFlow_along {sails sails' : List SailGeom} {m : ℕ} {csys : Csys} {r r' : Vlm} {w : V3} (hw : w.z = 0)
    (hs : Shaped sails m r.flowArrays) (hs' : Shaped sails' m r'.flowArrays) (hlen : sails'.length = sails.length)
    (ho : r'.out = r.out) (hv : r'.vars.map PanelVars.cp = (r.vars.map PanelVars.cp).map (· + w)) {res res' : FlowResults}
    (h : inviscidFlow sails csys r.flowArrays = .ok res) (h' : inviscidFlow sails' csys r'.flowArrays = .ok res') :
    ResultsAlong w res res' ∧
    (∀ k, k < sails.length * m → V3.cross (armFrom csys.vRef (row r'.flowArrays.cp k)) (row r'.flowArrays.force k) =
      V3.cross (armFrom csys.vRef (row r.flowArrays.cp k)) (row r.flowArrays.force k) + V3.cross w (row r.flowArrays.force k)) := by
  have hf : r'.flowArrays.force = r.flowArrays.force := congrArg VlmArrays.force ho
  have hcp : r'.flowArrays.cp = r.flowArrays.cp.map (· + w) := hv
  obtain ⟨x, e, f1, f2, f3, f4, f5, f6, -, f8, f9, f10, -, -⟩ := inviscidFlow_ok hs.nonempty csys _ hs.force hs.cp
  rw [h] at e
  obtain rfl := Except.ok.inj e
  obtain ⟨x, e, g1, g2, g3, g4, g5, g6, -, g8, g9, g10, -, -⟩ := inviscidFlow_ok hs'.nonempty csys _ hs'.force hs'.cp
  rw [h'] at e
  obtain rfl := Except.ok.inj e
  obtain ⟨a1, a2, a3, a4, a5, a6, a7, -, -, -⟩ := inviscidFlow_fields h
  obtain ⟨b1, b2, b3, b4, b5, b6, b7, -, -, -⟩ := inviscidFlow_fields h'
  have key : ∀ k, k < r.flowArrays.force.length → V3.cross (armFrom csys.vRef (row r'.flowArrays.cp k)) (row r'.flowArrays.force k) =
      V3.cross (armFrom csys.vRef (row r.flowArrays.cp k)) (row r.flowArrays.force k) + V3.cross w (row r.flowArrays.force k) := by
    intro k hk
    rw [hf, hcp, row_map (by rw [hs.cp]; exact hk), armCross_along _ _ _ _ hw]
  have hlt : ∀ k, k < sails.length * m → k < r.flowArrays.force.length := fun k hk => by rw [hs.force]; omega
  have hT : res'.forceTotal = res.forceTotal := by rw [f3, g3, hlen, hf]
  have hMT : res'.momentTotal = res.momentTotal + V3.cross w res.forceTotal := by
    rw [f6, g6, hlen, f3, cross_sum_right, ← Finset.sum_add_distrib]
    exact Finset.sum_congr rfl fun k hk => key k (hlt k (Finset.mem_range.1 hk))
  have ef : ∀ {α : Type} (F : VlmArrays → α), F r'.out = F r.out := fun F => by rw [ho]
  refine ⟨?_, fun k hk => key k (hlt k hk)⟩
  exact {
    csys := by rw [f1, g1]
    gamma := by rw [a1, b1]; exact ef VlmArrays.gamma
    pressure := by rw [a2, b2]; exact ef VlmArrays.pressure
    vInd := by rw [a3, b3]; exact ef VlmArrays.vIndCp
    vIndLength := by rw [a4, b4]; exact congrArg (List.map V3.norm) (ef VlmArrays.vIndCp)
    vFs := by rw [a5, b5]; exact ef VlmArrays.vFsCp
    vFsLength := by rw [a6, b6]; exact congrArg (List.map V3.norm) (ef VlmArrays.vFsCp)
    awa := by rw [a7, b7]; exact congrArg (List.map _) (ef VlmArrays.vFsCp)
    force := by rw [f2, g2, hf]
    forceCl := by rw [f8, g8, hf]
    forceTotal := hT
    forceClTotal := by rw [f9, g9, hT]
    moment := by
      have hl : res'.moment.length = res.moment.length := by rw [f4, g4, hf]
      refine List.ext_getElem (by rw [hl]; simp [f4, f2]) fun k h1 h2 => ?_
      have hk : k < r.flowArrays.force.length := by rw [← f4, ← hl]; exact h1
      have e1 := f5 k hk
      have e2 := g5 k (by rw [hf]; exact hk)
      rw [key k hk, ← e1, ← f2] at e2
      simp only [row, List.getD_eq_getElem?_getD] at e2
      rw [List.getElem?_eq_getElem h1, List.getElem?_eq_getElem (by rw [← hl]; exact h1),
        List.getElem?_eq_getElem (by rw [f2]; exact hk)] at e2
      rw [List.getElem_zipWith]
      exact e2
    momentTotal := hMT
    momentClTotal := by rw [f10, g10, hMT, leeway_add, f1]
    lengths := by rw [f4, f2] }

theorem wellFormed_mastAt {c : Config} (h : WellFormed c) (a : ℝ) : WellFormed (withMastAt a c) :=
  { h with
    jib := fun e => ⟨{ (h.jib e).1 with }, (h.jib e).2⟩
    main := fun e => ⟨{ (h.main e).1 with }, (h.main e).2⟩ }

/-- The sails of a run with a jib alone, and with the mast at another place. -/
theorem jibSet_along {c : Config} (h : WellFormed c) (hj : c.rig.sailsDef = "jib") (a : ℝ) {set : SailSet}
    (hset : sailSetOf fitpackSpline c.solver c.rig (some (mainData c)) (some (jibData c)) ⟨c.heelDeg, c.leewayDeg, c.vRef⟩ = .ok set) :
    ∃ set' g g', sailSetOf fitpackSpline c.solver (withMastAt a c).rig (some (mainData c)) (some (jibData c))
        ⟨c.heelDeg, c.leewayDeg, c.vRef⟩ = .ok set' ∧
      set.sails = [g] ∧ set'.sails = [g'] ∧ g.name = "jib" ∧ g'.name = "jib" ∧ g'.tackMounting.z = g.tackMounting.z ∧
      set'.panels = set.panels.map (movePanel id (jibTravelOverWater a c)) ∧ set'.te = set.te ∧ set'.le = set.le ∧
      set'.zeroMesh = set.zeroMesh.map (movePanel id ⟨jibTravel a c, 0, 0⟩) := by
  obtain ⟨hr, gi, ch, tw, ca, di, hs⟩ := h.jib (by rw [hj]; decide)
  obtain ⟨si, θ, g, g', e1, e2, b1, b2, hcs, n1, n2⟩ := sailJib_along fitpackSpline c.solver (Or.inr rfl)
    (by simpa [twistModes] using h.mode) h.ns_pos h.nc_pos c.rig ⟨c.heelDeg, c.leewayDeg, c.vRef⟩ h.heel hr hs a
  have key : ∀ {rig : RigConf} {g : SailGeom} {set : SailSet}, rig.sailsDef = "jib" →
      sailJib fitpackSpline c.solver rig (some (jibData c)) ⟨c.heelDeg, c.leewayDeg, c.vRef⟩ = .ok g → sailSet [g] = .ok set →
      sailSetOf fitpackSpline c.solver rig (some (mainData c)) (some (jibData c)) ⟨c.heelDeg, c.leewayDeg, c.vRef⟩ = .ok set := by
    intro rig g set hd hg hset
    unfold sailSetOf selectedJib selectedMain
    rw [if_pos (Or.inl hd), if_neg (by rw [hd]; decide), hg]
    exact hset
  have k1 := key hj e1 rfl
  rw [hset] at k1
  obtain rfl := Except.ok.inj k1
  have k2 := key (rig := (withMastAt a c).rig) hj e2 rfl
  have F1 : List.Forall₂ (BuiltFrom c.solver.nc c.solver.ns) [(si, θ)] [g] := .cons b1 .nil
  have F2 : List.Forall₂ (BuiltFrom c.solver.nc c.solver.ns) [(si.along (jibTravel a c), θ)] [g'] := .cons b2 .nil
  obtain ⟨p1, t1, l1⟩ := sailSet_blocks F1 (set := _) rfl
  obtain ⟨p2, t2, l2⟩ := sailSet_blocks F2 (set := _) rfl
  have z1 := zeroMesh_blocks F1 (set := _) rfl
  have z2 := zeroMesh_blocks F2 (set := _) rfl
  have hab : abovePoints (si.along (jibTravel a c), θ) = fun r k => abovePoints (si, θ) r k + jibTravelOverWater a c := by
    funext r k
    have := above_along (jibTravel a c) si θ r k
    rw [hcs] at this
    exact this
  have hun : underPoints (si.along (jibTravel a c), θ) = fun r k => underPoints (si, θ) r k + jibTravelOverWater a c := by
    funext r k
    have := under_along (jibTravel a c) si θ r k
    rw [hcs] at this
    exact this
  have hup : uprightPoints (si.along (jibTravel a c)) = fun r k => uprightPoints si r k + ⟨jibTravel a c, 0, 0⟩ := by
    funext r k
    exact sailPoint_along _ _ _ _ _ _ _ _ _ _
  have hui : uprightImagePoints (si.along (jibTravel a c)) = fun r k => uprightImagePoints si r k + ⟨jibTravel a c, 0, 0⟩ := by
    funext r k
    have := sailPoint_along (jibTravel a c) (mirror si.head) (mirror si.tack) si.nc si.ns si.chords.reverse si.distance si.camber.reverse r k
    rw [← mirror_along, ← mirror_along] at this
    exact this
  obtain ⟨ok1, -, -, hg1⟩ := b1
  obtain ⟨ok2, -, -, hg2⟩ := b2
  obtain ⟨x, hx, -, -, -, tk1, -⟩ := sailGeometry_ok ok1
  rw [hg1] at hx
  obtain rfl := Except.ok.inj hx
  obtain ⟨x, hx, -, -, -, tk2, -⟩ := sailGeometry_ok ok2
  rw [hg2] at hx
  obtain rfl := Except.ok.inj hx
  refine ⟨_, g, g', k2, rfl, rfl, n1, n2, by rw [tk1, tk2]; simp [SailInput.along], ?_, by rw [t1, t2]; rfl, by rw [l1, l2]; rfl, ?_⟩
  · rw [p1, p2]
    simp only [blockPanels, List.map_cons, List.map_nil, List.cons_append, List.nil_append, List.flatten_cons, List.flatten_nil,
      List.append_nil, hab, hun, panelGrid_move, List.map_append]
  · rw [z1, z2]
    simp only [blockPanels, List.map_cons, List.map_nil, List.cons_append, List.nil_append, List.flatten_cons, List.flatten_nil,
      List.append_nil, hup, hui, panelGrid_move, List.map_append]

/-- Two runs with a jib alone. -/
structure RunAlong (a : ℝ) (c : Config) (p p' : Prepared) (g g' : SailGeom) (res res' : FlowResults) : Prop where
  run : prepare fitpackSpline (withMastAt a c) = .ok p'
  csys0 : p.csys = ⟨c.heelDeg, c.leewayDeg, c.vRef⟩
  csys : p'.csys = p.csys
  sails : p.set.sails = [g]
  sails' : p'.set.sails = [g']
  name : g.name = "jib"
  name' : g'.name = "jib"
  tack : g'.tackMounting.z = g.tackMounting.z
  shaped : Shaped p.set.sails (c.solver.nc * c.solver.ns) p.vlm.flowArrays
  shaped' : Shaped p'.set.sails (c.solver.nc * c.solver.ns) p'.vlm.flowArrays
  zeroMesh : p'.set.zeroMesh = p.set.zeroMesh.map (movePanel id ⟨jibTravel a c, 0, 0⟩)
  out : p'.vlm.out = p.vlm.out
  areas : p'.vlm.areas = p.vlm.areas
  inlet : p'.vlm.inlet = { p.vlm.inlet with cpPoints := p.vlm.inlet.cpPoints.map (· + jibTravelOverWater a c) }
  points : p'.vlm.vars.map PanelVars.cp = (p.vlm.vars.map PanelVars.cp).map (· + jibTravelOverWater a c)
  input : p'.vlm.input = { p.vlm.input with panels := p.vlm.input.panels.map (movePanel id (jibTravelOverWater a c)) }
  clr : p'.hull.clr = p.hull.clr
  flow : inviscidFlow p.set.sails p.csys p.vlm.flowArrays = .ok res
  flow' : inviscidFlow p'.set.sails p'.csys p'.vlm.flowArrays = .ok res'
  keel : p.flow = (FlowObject.new res).estimateKeel p.hull.clr
  keel' : p'.flow = (FlowObject.new res').estimateKeel p'.hull.clr

theorem travel_z (a : ℝ) (c : Config) : (jibTravelOverWater a c).z = 0 := rfl

theorem prepare_along {c : Config} (h : WellFormed c) (hj : c.rig.sailsDef = "jib") (a : ℝ) {p : Prepared}
    (hp : prepare fitpackSpline c = .ok p) : ∃ p' g g' res res', RunAlong a c p p' g g' res res' := by
  obtain ⟨hcs, hset, hclr, hv, res, hres, hflow⟩ := prepare_data h hp
  obtain ⟨set', g, g', k1, k2, k3, k4, k5, k6, k7, k8, k9, k10⟩ := jibSet_along h hj a hset
  obtain ⟨r', hr', ho, ha, hi, hcp⟩ := vlm_along _ (jibTravelOverWater a c) rfl (by simp [Config.vlmInput]) hv
  have h' := wellFormed_mastAt h a
  have hr'' : vlm ((withMastAt a c).vlmInput set' (windGetProfile (withMastAt a c).wind)) = .ok r' := by
    rw [← hr']
    refine congrArg vlm ?_
    unfold Config.vlmInput
    rw [k7, k8, k9]
    rfl
  obtain ⟨base, hb⟩ := Option.ne_none_iff_exists'.1 h'.base
  obtain ⟨p', hp', c1, c2, c3⟩ := prepare_of (c := withMastAt a c) (main := mainData c) (jib := jibData c)
    (withTwist_default h'.main_twist 12 5) (withTwist_default h'.jib_twist 15 7) (windPostInit_ok h'.wind) (wellFormed_validation h')
    k1 hb hr''
  obtain ⟨hcs', hset', hclr', hv', res', hres', hflow'⟩ := prepare_data h' hp'
  obtain ⟨-, -, hl, -⟩ := sailSetOf_shape hset
  obtain ⟨-, -, hl', -⟩ := sailSetOf_shape hset'
  subst c2 c3
  refine ⟨p', g, g', res, res', ?_⟩
  have i1 := ((vlm_ok_iff _ _).1 hv).1
  have i2 := ((vlm_ok_iff _ _).1 hr').1
  exact {
    run := hp'
    csys0 := hcs
    csys := by rw [hcs, hcs']; rfl
    sails := k2
    sails' := k3
    name := k4
    name' := k5
    tack := k6
    shaped := vlm_shaped hv (by rw [k2]; simp) hl
    shaped' := vlm_shaped hv' (by rw [k3]; simp) hl'
    zeroMesh := k10
    out := ho
    areas := ha
    inlet := hi
    points := hcp
    input := by rw [i1, i2]
    clr := by rw [hclr, hclr', hcs, hcs']; rfl
    flow := hres
    flow' := hres'
    keel := hflow
    keel' := hflow' }

end PySailing
