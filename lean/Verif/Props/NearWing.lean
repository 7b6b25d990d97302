import Verif.Lemmas.NearWing
import Verif.Lemmas.OffSwitches
import Verif.Lemmas.PlanarWing
import Verif.Props.Continuity
import Verif.Props.FlatWing

/-!
# C127: a wing depends continuously on its arguments
-/

namespace PySailing.Props

open PySailing PySailing.Spec Filter Topology

variable {T : Type} {l : Filter T}

/-- **C127.** If chord, span, angle of attack, free stream and density tend to those of a wing for which `Aircraft` returns, then
`Aircraft` returns for all arguments near enough, and all its attributes tend to those of that wing — unless a point of it lies
exactly on the boundary of a vortex core or its panels have exactly the smallest admissible area. -/
theorem C127_wing (a : T → AircraftInput) (a0 : AircraftInput) (N : NearWing l a a0) (w0 : Aircraft) (h : aircraft a0 = .ok w0)
    (hcores : ∀ v ∈ w0.vars, ∀ v' ∈ w0.vars, OffCores v.ctrP v' ∧ OffCores v.cp v')
    (hareas : ∀ q ∈ w0.panelSet.panels, panelArea q ≠ 1e-14) :
    ∃ w : T → Aircraft, (∀ᶠ t in l, aircraft (a t) = .ok (w t)) ∧ ConvWing l w w0 := by
  classical
  obtain ⟨-, hc0, hnc, hns, hq0, hAR, hth, hpan, hte, hle, hv, ⟨sol, hsol, eg, ef, ep⟩, eCL, eCD, eCp⟩ := aircraft_inv h
  let f : T → Fin 1 → ℕ → ℕ → V3 := fun t _ => wingPoint (a t).chord (a t).half (a t).aoaDeg a0.nc a0.ns
  let f0 : Fin 1 → ℕ → ℕ → V3 := fun _ => wingPoint a0.chord a0.half a0.aoaDeg a0.nc a0.ns
  have hlist : ∀ F : Fin 1 → ℕ → ℕ → V3, List.ofFn F = [F 0] := fun F => by simp
  let w' : WindObj := ⟨0, 0, 0, .flat⟩
  let Vs : T → List V3 := fun t => List.replicate w0.vars.length (a t).V
  let V0 : List V3 := List.replicate w0.vars.length a0.V
  have hrep : ∀ (n : ℕ) (v : V3), (fun i : Fin n => (List.replicate n v).getD i 0) = fun _ => v := fun n v => by
    funext i
    rw [List.getD_eq_getElem?_getD, List.getElem?_replicate, if_pos i.isLt]
    rfl
  have hVconv : ∀ k, Conv l (fun t => (Vs t).getD k 0) (V0.getD k 0) := fun k => by
    simp only [Vs, V0, List.getD_eq_getElem?_getD, List.getElem?_replicate]
    split_ifs
    · exact N.V
    · exact conv_const 0
  have hpan' : w0.panelSet.panels = (meshInput a0.nc a0.ns f0 a0.rho a0.g w').panels := by
    rw [hpan]; simp only [meshInput, hlist]; rfl
  have hvars0 : calculateVlmVariables (blockPanels a0.nc a0.ns (List.ofFn f0)) (trailingFlags a0.nc a0.ns 1) a0.g a0.nc a0.ns =
      .ok w0.vars := by
    rw [hpan, hte] at hv
    rw [hlist]
    exact hv
  have h0 : vlmWithWinds (meshInput a0.nc a0.ns f0 a0.rho a0.g w') V0 = .ok sol.arrays := by
    refine (vlmWithWinds_ok_iff _ _ _).2 ⟨w0.vars, hvars0, sol, ?_, rfl⟩
    unfold vlmSolve
    simp only [V0]
    rw [hrep]
    rw [hpan', hte, hle] at hsol
    exact hsol
  obtain ⟨out, h1, h2⟩ := C100_continuous a0.nc a0.ns 1 hnc hns f f0 (fun _ r k => wingPoint_conv N r k) (fun t => (a t).rho) a0.rho
    N.rho Vs V0 hVconv a0.g w' sol.arrays h0 (fun vars hv' => by
      rw [hvars0] at hv'
      injection hv' with e
      subst e
      exact ⟨hcores, by rw [← hpan']; exact hareas⟩)
  have hARc : Tendsto (fun t => 2 * (a t).half / (a t).chord) l (𝓝 w0.AR) := by
    rw [hAR]
    exact (N.half.const_mul 2).div N.chord hc0
  obtain ⟨th, ht1, ht2, ht3⟩ := theory_conv hth hARc N.aoa
  have hqc : Tendsto (fun t => 0.5 * (a t).rho * (a t).V.norm ^ 2 * (a t).S) l (𝓝 (0.5 * a0.rho * a0.V.norm ^ 2 * a0.S)) :=
    ((N.rho.const_mul _).mul (N.V.norm.pow 2)).mul ((N.half.const_mul 2).mul N.chord)
  have hall : ∀ᶠ t in l, ∃ w, aircraft (a t) = .ok w ∧ List.ofFn w.gamma = (out t).gamma ∧ List.ofFn w.force = (out t).force ∧
      List.ofFn w.pressure = (out t).pressure := by
    filter_upwards [h1, ht1, hqc.eventually_ne hq0, N.chord.eventually_ne hc0] with t t1 t2 t3 t4
    obtain ⟨vars, e1, sol', e2, e3⟩ := (vlmWithWinds_ok_iff _ _ _).1 t1
    have hlen : vars.length = w0.vars.length := by
      have := (calculateVlmVariables_ok e1).1
      have := (calculateVlmVariables_ok hvars0).1
      simp_all [meshInput, blockPanels_length]
    have hb : blockPanels a0.nc a0.ns (List.ofFn (f t)) = blockPanels (a t).nc (a t).ns
        [wingPoint (a t).chord (a t).half (a t).aoaDeg (a t).nc (a t).ns] := by
      rw [hlist, N.nc t, N.ns t]
    simp only [meshInput] at e1 e2
    unfold vlmSolve at e2
    simp only [Vs] at e2
    rw [← hlen, hrep, hb, ← N.g t, ← N.ns t, ← N.nc t] at e2
    rw [hb, ← N.g t, ← N.ns t, ← N.nc t] at e1
    obtain ⟨w, g1, g2, g3, g4⟩ := aircraft_of t4 (by rw [N.nc t]; exact hnc) (by rw [N.ns t]; exact hns) t3 t2 e1 e2
    refine ⟨w, g1, ?_, ?_, ?_⟩
    · rw [g2, e3]; rfl
    · rw [g3, e3]; rfl
    · rw [g4, e3]; rfl
  have : ∀ t, ∃ w, (∃ w', aircraft (a t) = .ok w' ∧ List.ofFn w'.gamma = (out t).gamma ∧ List.ofFn w'.force = (out t).force ∧
      List.ofFn w'.pressure = (out t).pressure) → aircraft (a t) = .ok w ∧ List.ofFn w.gamma = (out t).gamma ∧
      List.ofFn w.force = (out t).force ∧ List.ofFn w.pressure = (out t).pressure := fun t => by
    by_cases hcase : ∃ w', aircraft (a t) = .ok w' ∧ List.ofFn w'.gamma = (out t).gamma ∧ List.ofFn w'.force = (out t).force ∧
      List.ofFn w'.pressure = (out t).pressure
    · exact ⟨hcase.choose, fun _ => hcase.choose_spec⟩
    · exact ⟨w0, fun h => absurd h hcase⟩
  choose w hw using this
  have hok : ∀ᶠ t in l, aircraft (a t) = .ok (w t) ∧ List.ofFn (w t).gamma = (out t).gamma ∧
      List.ofFn (w t).force = (out t).force ∧ List.ofFn (w t).pressure = (out t).pressure := hall.mono hw
  have o1 : sol.arrays.gamma = List.ofFn w0.gamma := by rw [← eg]; rfl
  have o2 : sol.arrays.force = List.ofFn w0.force := by rw [← ef]; rfl
  have o3 : sol.arrays.pressure = List.ofFn w0.pressure := by rw [← ep]; rfl
  have cf : ∀ k, Conv l (fun t => (List.ofFn (w t).force).getD k 0) ((List.ofFn w0.force).getD k 0) := fun k => by
    rw [← o2]
    exact (h2.force k).congr' (hok.mono fun t ht => by rw [ht.2.2.1])
  have cp : ∀ k, Tendsto (fun t => (List.ofFn (w t).pressure).getD k 0) l (𝓝 ((List.ofFn w0.pressure).getD k 0)) := fun k => by
    rw [← o3]
    exact (h2.pressure k).congr' (hok.mono fun t ht => by simp only [ht.2.2.2])
  have lf : ∀ᶠ t in l, (List.ofFn (w t).force).length = (List.ofFn w0.force).length := by
    filter_upwards [hok, h2.lengths] with t t1 t2
    rw [t1.2.2.1, ← o2]; exact t2.2.1
  have lp : ∀ᶠ t in l, (List.ofFn (w t).pressure).length = (List.ofFn w0.pressure).length := by
    filter_upwards [hok, h2.lengths] with t t1 t2
    rw [t1.2.2.2, ← o3]; exact t2.2.2.1
  have sx : Tendsto (fun t => (List.ofFn (w t).force).sum.x) l (𝓝 (List.ofFn w0.force).sum.x) := by
    simp only [(v3_sum_x _).1]
    refine sum_conv (by simpa only [List.length_map] using lf) fun k => ?_
    simp only [(getD_map_x _ _).1]
    exact (cf k).x
  have sz : Tendsto (fun t => (List.ofFn (w t).force).sum.z) l (𝓝 (List.ofFn w0.force).sum.z) := by
    simp only [(v3_sum_x _).2]
    refine sum_conv (by simpa only [List.length_map] using lf) fun k => ?_
    simp only [(getD_map_x _ _).2]
    exact (cf k).z
  have inv := hok.mono fun t ht => aircraft_inv ht.1
  refine ⟨w, hok.mono fun t ht => ht.1, ?_⟩
  exact {
    lengths := by
      filter_upwards [hok, h2.lengths] with t t1 t2
      rw [t1.2.1, ← o1]; exact t2.1
    gamma := fun k => by
      rw [← o1]
      exact (h2.gamma k).congr' (hok.mono fun t ht => by simp only [ht.2.1])
    force := cf
    pressure := cp
    AR := hARc.congr' (inv.mono fun t ht => ht.2.2.2.2.2.1.symm)
    CLTheoretical := ht2.congr' (by
      filter_upwards [inv, ht1] with t t1 t2
      have := t1.2.2.2.2.2.2.1
      rw [t1.2.2.2.2.2.1, t2] at this
      injection this with this
      rw [this])
    CDTheoretical := ht3.congr' (by
      filter_upwards [inv, ht1] with t t1 t2
      have := t1.2.2.2.2.2.2.1
      rw [t1.2.2.2.2.2.1, t2] at this
      injection this with this
      rw [this])
    CL := by
      rw [eCL]
      exact (sz.div hqc hq0).congr' (inv.mono fun t ht => ht.2.2.2.2.2.2.2.2.2.2.2.2.1.symm)
    CD := by
      rw [eCD]
      exact (sx.div hqc hq0).congr' (inv.mono fun t ht => ht.2.2.2.2.2.2.2.2.2.2.2.2.2.1.symm)
    Cp := by
      rw [eCp]
      exact ((sum_conv lp cp).div hqc hq0).congr' (inv.mono fun t ht => ht.2.2.2.2.2.2.2.2.2.2.2.2.2.2.symm) }

/-- No point of a wing of C109 with panels larger than `2e-4` and strips wider than `2e-8` lies on the boundary of a vortex core. -/
theorem wing_off {a0 : AircraftInput} {w0 : Aircraft} (hw0 : aircraft a0 = .ok w0) (hc : 0 < a0.chord) (hb : 0 < a0.half)
    (hnc : 0 < a0.nc) (hns : 0 < a0.ns) (hbig : 2e-4 < a0.chord / a0.nc * (2 * a0.half / a0.ns)) (hstrip : 2e-8 < 2 * a0.half / a0.ns) :
    (∀ v ∈ w0.vars, ∀ v' ∈ w0.vars, OffCores v.ctrP v' ∧ OffCores v.cp v') ∧ ∀ q ∈ w0.panelSet.panels, panelArea q ≠ 1e-14 := by
  obtain ⟨-, -, -, -, -, -, -, hpan, hte, -, hv, -⟩ := aircraft_inv hw0
  have P := a0.planar hc hb hnc hns hbig.le
  have hvars : w0.vars = PlanarBlocks.vars a0.g a0.nc a0.ns [wingPoint a0.chord a0.half a0.aoaDeg a0.nc a0.ns] := by
    have := P.varsOk a0.g hnc hns (by simp)
    rw [hpan, hte] at hv
    exact Except.ok.inj (hv.symm.trans this)
  have hnsR : (0 : ℝ) < a0.ns := by exact_mod_cast hns
  have hw : ∀ b j, b < [wingPoint a0.chord a0.half a0.aoaDeg a0.nc a0.ns].length → j < a0.ns →
      a0.half * (2 * (((j + 1 : ℕ) : ℝ) / a0.ns) - 1) - a0.half * (2 * ((j : ℝ) / a0.ns) - 1) = 2 * a0.half / a0.ns := by
    intro b j _ _
    push_cast
    field_simp
    ring
  have hδ := P.pos
  refine ⟨by rw [hvars]; exact P.offCores hw hstrip hbig a0.g, ?_⟩
  intro q hq
  rw [hpan] at hq
  obtain ⟨k, hk⟩ := List.mem_iff_getElem?.1 hq
  have hlt : k < [wingPoint a0.chord a0.half a0.aoaDeg a0.nc a0.ns].length * (a0.nc * a0.ns) := by
    rw [← blockPanels_length]
    exact (List.getElem?_eq_some_iff.1 hk).1
  obtain ⟨b, i, j, hb', hi, hj, rfl⟩ := panelNo_surj hlt
  have e1 : (blockPanels a0.nc a0.ns [wingPoint a0.chord a0.half a0.aoaDeg a0.nc a0.ns])[panelNo a0.nc a0.ns b i j]? =
      some (panelOf [wingPoint a0.chord a0.half a0.aoaDeg a0.nc a0.ns][b] i j) := blocks_get _ panelOf hb' hi hj
  rw [e1] at hk
  injection hk with hk
  rw [← hk, P.panelOf_eq hb' hi hj, PlanarBlocks.panelArea_rect P.frame (by nlinarith) (P.lt b j hb' hj), hw b j hb' hj,
    show ((i : ℝ) + 1) * (a0.chord / a0.nc) - i * (a0.chord / a0.nc) = a0.chord / a0.nc by ring]
  intro e
  rw [e] at hbig
  norm_num at hbig

/-- **C127**, without assumption on the solver: every wing of C109 with panels larger than `2e-4` and strips wider than `2e-8`
depends continuously on chord, span, angle of attack, free stream and density; in particular it can also be calculated in a slight
sideslip and all circulations keep their sign. -/
theorem C127_all_wings (a : T → AircraftInput) (a0 : AircraftInput) (N : NearWing l a a0) (hc : 0 < a0.chord) (hb : 0 < a0.half)
    (hnc : 0 < a0.nc) (hns : 0 < a0.ns) (hbig : 2e-4 < a0.chord / a0.nc * (2 * a0.half / a0.ns)) (hstrip : 2e-8 < 2 * a0.half / a0.ns)
    (hrho : a0.rho ≠ 0) (hg : a0.g ≠ 0) (hV : a0.V ≠ 0) (hz : a0.V.z = 0) (hfront : 0 ≤ a0.V.dot (chordDirection a0.aoaDeg)) :
    ∃ (w0 : Aircraft) (w : T → Aircraft), aircraft a0 = .ok w0 ∧ (∀ᶠ t in l, aircraft (a t) = .ok (w t)) ∧ ConvWing l w w0 ∧
      (0 < a0.V.dot (wingNormal a0.aoaDeg) → ∀ᶠ t in l, ∀ γ ∈ List.ofFn (w t).gamma, a0.g * γ < 0) ∧
      (a0.V.dot (wingNormal a0.aoaDeg) < 0 → ∀ᶠ t in l, ∀ γ ∈ List.ofFn (w t).gamma, 0 < a0.g * γ) := by
  obtain ⟨w0, hw0, -, hγ⟩ := C109_wing a0 hc hb hnc hns hbig.le hrho hg hV hz hfront
  obtain ⟨hcores, hareas⟩ := wing_off hw0 hc hb hnc hns hbig hstrip
  obtain ⟨w, h1, h2⟩ := C127_wing a a0 N w0 hw0 hcores hareas
  have hsign : ∀ σ : ℝ, (∀ γ ∈ List.ofFn w0.gamma, 0 < σ * γ) → ∀ᶠ t in l, ∀ γ ∈ List.ofFn (w t).gamma, 0 < σ * γ := by
    intro σ hσ
    have hev : ∀ᶠ t in l, ∀ k : Fin (List.ofFn w0.gamma).length, 0 < σ * (List.ofFn (w t).gamma).getD k 0 := by
      rw [eventually_all]
      intro k
      have hk : 0 < σ * (List.ofFn w0.gamma).getD k 0 := by
        rw [List.getD_eq_getElem?_getD, List.getElem?_eq_getElem k.isLt, Option.getD_some]
        exact hσ _ (List.getElem_mem _)
      exact ((h2.gamma k).const_mul σ).eventually_const_lt hk
    filter_upwards [hev, h2.lengths] with t t1 t2 γ hγ
    obtain ⟨k, hk, rfl⟩ := List.getElem_of_mem hγ
    have := t1 ⟨k, by rw [← t2]; exact hk⟩
    rw [List.getD_eq_getElem?_getD, List.getElem?_eq_getElem hk, Option.getD_some] at this
    exact this
  refine ⟨w0, w, hw0, h1, h2, fun hn => ?_, fun hn => ?_⟩
  · refine (hsign (-a0.g) fun γ h => ?_).mono fun t ht γ h => ?_
    · have := (hγ γ h).1 hn
      linarith
    · have := ht γ h
      linarith
  · exact hsign a0.g fun γ h => (hγ γ h).2.1 hn

/-- Non-vacuity: a wing of aspect ratio 10 at five degrees, in a free stream that gets a sidewash. -/
example : ∀ᶠ t in 𝓝 (0 : ℝ), ∃ w, aircraft ⟨1, 5, 5, 20, 4, ⟨10, 0, t⟩, 1.225, 1⟩ = .ok w := by
  have hcos : 0 ≤ Real.cos (5 * (Real.pi / 180)) :=
    Real.cos_nonneg_of_mem_Icc ⟨by have := Real.pi_pos; linarith, by have := Real.pi_pos; linarith⟩
  obtain ⟨w0, w, -, h, -⟩ := C127_all_wings (l := 𝓝 (0 : ℝ)) (fun t => ⟨1, 5, 5, 20, 4, ⟨10, 0, t⟩, 1.225, 1⟩)
    ⟨1, 5, 5, 20, 4, ⟨10, 0, 0⟩, 1.225, 1⟩ ⟨fun _ => rfl, fun _ => rfl, fun _ => rfl, tendsto_const_nhds, tendsto_const_nhds,
      tendsto_const_nhds, ⟨tendsto_const_nhds, tendsto_const_nhds, tendsto_id⟩, tendsto_const_nhds⟩ (by norm_num) (by norm_num)
    (by norm_num) (by norm_num) (by norm_num) (by norm_num) (by norm_num) (by norm_num) (by simp [V3.ext_iff]) rfl (by
      unfold chordDirection
      simp only [V3.dot]
      linarith)
  exact h.mono fun t ht => ⟨_, ht⟩

end PySailing.Props
