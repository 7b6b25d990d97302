import Verif.Spec.Main
import Verif.Lemmas.Outputs
import Verif.Props.Runner
import Verif.Props.Rotations
import Verif.Demo.Run

/-!
# Properties of the command line program (C71-C76)
-/

namespace PySailing.Props

open Spec

/-! ## C71 -/

/-- **C71.** Whatever the configuration, a run writes its outputs in a fixed order and stops at the first
failure: what exists afterwards is an initial part of the list workbook, copy of the case file, picture,
pressure map, lift plot, drag plot, and the program ends without exception exactly if the list is
complete. -/
theorem C71_order (spline : SplineFn) (c : Config) :
    ∃ n ≤ 6, (run spline c).1.map outputKind = outputOrder.take n ∧ ((run spline c).2 = .ok () ↔ n = 6) := by
  unfold run
  cases hp : prepare spline c with
  | error e => exact ⟨0, by omega, rfl, by simp⟩
  | ok p =>
    have hsec : ∀ (d : Py CoeffPlotData) (x : CoeffPlotData → List (List ℝ)) (name : String)
        (colors : List String) (e : Effect), sectionPlotStep d x name colors = .ok e →
        outputKind e = name := by
      intro d x name colors e he
      unfold sectionPlotStep at he
      cases d with
      | error err =>
        cases err <;> simp [nanAsNone, bind, Except.bind] at he
        subst he; rfl
      | ok D =>
        simp only [nanAsNone, bind, Except.bind] at he
        cases hf : plotSectionCoeff (x D) D.meanCpZ name colors with
        | error e => rw [hf] at he; cases he
        | ok f => rw [hf] at he; cases he; rfl
    have hmap : ∀ {α : Type} (x : Py α) (f : α → Effect) (k : String), (∀ a, outputKind (f a) = k) →
        ∀ e, x.map f = .ok e → outputKind e = k := by
      intro α x f k hk e he
      cases x with
      | error _ => cases he
      | ok a => cases he; exact hk a
    have h := emit_kinds outputKind (outputSteps c p) outputOrder (by
      unfold outputSteps outputOrder
      refine .cons (hmap _ _ _ fun _ => rfl) (.cons ?_ (.cons (hmap _ _ _ fun _ => rfl)
        (.cons (hmap _ _ _ fun _ => rfl) (.cons (hsec _ _ _ _) (.cons (hsec _ _ _ _) .nil)))))
      intro e he; cases he; rfl)
    refine ⟨_, ?_, h.1, h.2⟩
    exact emit_length_le _

/-- Default twist: an array completed by it is complete exactly if the user gave usable arrays. -/
theorem withTwist_complete {c c' : SailConf} {a b : ℝ} (h : c.withTwist a b = .ok c') :
    ArraysComplete c' ↔ UsableArrays c := by
  obtain ⟨tw, gi, ch, ca, di⟩ := c
  cases tw with
  | some tw =>
    cases h
    constructor
    · rintro ⟨g, t, m, d, h1, h2, h3, h4, h5, h6, h7⟩
      exact ⟨g, m, d, h1, h3, h4, h6, h7, fun t' ht' => by rw [ht'] at h2; cases h2; exact h5⟩
    · rintro ⟨g, m, d, h1, h3, h4, h6, h7, h8⟩
      exact ⟨g, tw, m, d, h1, rfl, h3, h4, h8 tw rfl, h6, h7⟩
  | none =>
    cases gi with
    | none => cases h
    | some gi =>
      cases h
      constructor
      · rintro ⟨g, t, m, d, h1, h2, h3, h4, h5, h6, h7⟩
        exact ⟨g, m, d, h1, h3, h4, h6, h7, fun t' ht' => by cases ht'⟩
      · rintro ⟨g, m, d, h1, h3, h4, h6, h7, h8⟩
        cases h1
        exact ⟨gi, _, m, d, rfl, rfl, h3, h4, by simp, h6, h7⟩

theorem withTwist_ok {c : SailConf} (h : c.twist ≠ none ∨ c.girths ≠ none) (a b : ℝ) :
    ∃ c', c.withTwist a b = .ok c' := by
  unfold SailConf.withTwist
  cases ht : c.twist with
  | some t => exact ⟨c, rfl⟩
  | none =>
    cases hg : c.girths with
    | some g => exact ⟨_, rfl⟩
    | none => simp [ht, hg] at h

/-- **C71**, rejected input: if the wind data are incomplete in a way the program recognises, or the data
of a selected sail are missing or of different lengths, the run ends with exit status 0 and nothing is
written. -/
theorem C71_rejected (spline : SplineFn) (c : Config) (hmain : c.main.twist ≠ none ∨ c.main.girths ≠ none)
    (hjib : c.jib.twist ≠ none ∨ c.jib.girths ≠ none)
    (hdef : c.rig.sailsDef ∈ ["jib", "main", "jib_and_main"])
    (h : WindIncomplete c.wind ∨ ¬ UsableSails c) : run spline c = ([], .error (.sysExit 0)) := by
  obtain ⟨m, hm⟩ := withTwist_ok hmain 12 5
  obtain ⟨j, hj⟩ := withTwist_ok hjib 15 7
  have hcs := C59_csys_constructor_total c.heelDeg c.leewayDeg c.vRef
  have hs : windPostInit c.wind = .error (.sysExit 0) ∨
      windPostInit c.wind = .ok () ∧ sailPostInit c.rig (some m) (some j) = .error (.sysExit 0) := by
    by_cases hw : WindIncomplete c.wind
    · left
      unfold windPostInit
      rcases hw with hw | hw | hw
      · rw [if_pos hw]
      · rw [if_neg (by rintro ⟨h1, -⟩; rw [h1] at hw; exact absurd hw.1 (by decide)),
          if_neg (by rintro ⟨h1, -⟩; rw [h1] at hw; exact absurd hw.1 (by decide)), if_pos hw]
      · rw [if_neg (by rintro ⟨h1, -⟩; rw [h1] at hw; exact absurd hw.1 (by decide)), if_pos hw]
    · right
      constructor
      · simp only [WindIncomplete, not_or] at hw
        unfold windPostInit
        rw [if_neg hw.1, if_neg hw.2.2, if_neg hw.2.1]
      · have hu := h.resolve_left hw
        have hJ : JibComplete c.rig j ↔ (c.rig.base ≠ none ∧ c.rig.height ≠ none ∧ c.rig.jibLuff ≠ none ∧
            UsableArrays c.jib) := by
          unfold JibComplete
          rw [withTwist_complete hj]
          simp only [Option.ne_none_iff_exists']
          tauto
        have hM : MainComplete c.rig m ↔ (c.rig.mainLuff ≠ none ∧ UsableArrays c.main) := by
          unfold MainComplete
          rw [withTwist_complete hm]
          simp only [Option.ne_none_iff_exists']
        obtain ⟨v1, v2, v3⟩ := C53_validation_partial c.rig
        unfold UsableSails at hu
        rw [← hJ, ← hM] at hu
        simp only [List.mem_cons, List.not_mem_nil, or_false] at hdef
        rcases hdef with hd | hd | hd
        · refine (v1 hd (some m) j).2 fun hc => hu ⟨fun _ => hc, ?_⟩
          rw [hd]; rintro (h' | h') <;> exact absurd h' (by decide)
        · refine (v2 hd (some j) m).2 fun hc => hu ⟨?_, fun _ => hc⟩
          rw [hd]; rintro (h' | h') <;> exact absurd h' (by decide)
        · exact (v3 hd j m).2 fun hc => hu ⟨fun _ => hc.1, fun _ => hc.2⟩
  have : prepare spline c = .error (.sysExit 0) := by
    unfold prepare prepareGeometry mainSailInit jibSailInit
    rcases hs with hs | ⟨hs1, hs2⟩
    · simp only [hm, hj, hcs, hs, bind, Except.bind]
    · simp only [hm, hj, hcs, hs1, hs2, bind, Except.bind]
  unfold run
  rw [this]

/-- Non-vacuity of `C71_rejected`: a flat profile without reference height, and a main sail whose camber
array is too short. -/
example (spline : SplineFn) : run spline { Demo.config with wind := ⟨90, 1, 1, "flat", some 1, none, none, none⟩ } =
      ([], .error (.sysExit 0)) ∧
    run spline { Demo.config with main := { demoConf with camber := some [0] } } = ([], .error (.sysExit 0)) := by
  have hd : (Demo.config.rig.sailsDef) ∈ ["jib", "main", "jib_and_main"] := by simp [Demo.config, demoRig]
  constructor
  · exact C71_rejected spline _ (by simp [Demo.config, demoConf]) (by simp [Demo.config, demoConf]) hd
      (Or.inl (Or.inr (Or.inl ⟨rfl, Or.inr rfl⟩)))
  · refine C71_rejected spline _ (by simp [demoConf]) (by simp [Demo.config, demoConf]) hd (Or.inr ?_)
    intro h
    obtain ⟨-, g, m, d, h1, h2, -, h4, -⟩ := h.2 (Or.inl rfl)
    cases h1; cases h2; simp at h4

/-! ## C72 -/

theorem windIntegral_ok {w : WindConditions} {z : ℝ} {v : V3}
    (hok : (windGetProfile w).trueWindAt z = .ok v) (hr : ReferenceAboveWater w) (csys : Csys) :
    ∃ rows, windIntegral (windGetProfile w) csys = .ok rows := by
  obtain ⟨al, tws, sog, prof, ec, rh, wl, ro⟩ := w
  unfold windGetProfile at hok ⊢
  by_cases he : prof = "exponential"
  · simp only [he, if_true] at hok ⊢
    cases ec with
    | none => simp [WindObj.trueWindAt] at hok
    | some ec =>
    cases rh with
    | none => simp [WindObj.trueWindAt] at hok
    | some rh =>
    cases wl with
    | none => simp [WindObj.trueWindAt] at hok
    | some wl =>
    obtain ⟨h1, h2⟩ := hr he rh wl rfl rfl
    have hb : 0 < (rh - wl) / rh := div_pos (by linarith) h1
    have hf : ∃ f, expFactorFloat ec rh wl rh = .ok f := by
      unfold expFactorFloat
      simp only
      rw [if_neg h1.ne']
      by_cases h0 : ec = 0
      · rw [if_pos h0]; exact ⟨_, rfl⟩
      · rw [if_neg h0, if_neg (fun h => by linarith [h.1]), if_neg (fun h => by linarith [h.1])]
        exact ⟨_, rfl⟩
    obtain ⟨f, hf⟩ := hf
    unfold windIntegral
    simp only [hf, bind, Except.bind]
    exact ⟨_, rfl⟩
  · simp only [he, if_false]
    by_cases hfl : prof = "flat"
    · simp only [hfl, if_true]; exact ⟨_, rfl⟩
    · simp only [hfl, if_false]; exact ⟨_, rfl⟩

/-- What is known about the arrays of a prepared run. -/
theorem prepared_shape {spline : SplineFn} {c : Config} {p : Prepared} (h : prepare spline c = .ok p) :
    (p.set.sails.length = 1 ∨ p.set.sails.length = 2) ∧ 0 < c.solver.nc * c.solver.ns ∧
    p.set.panels.length = 2 * (p.set.sails.length * (c.solver.nc * c.solver.ns)) ∧
    p.set.zeroMesh.length = p.set.panels.length := by
  obtain ⟨main, jib, base, -, -, -, -, -, hset, -, -, hv, -⟩ := prepare_ok h
  obtain ⟨hn, -, h1, h2⟩ := sailSetOf_shape hset
  have hl : ∀ l : List SailGeom, l.length = (l.map SailGeom.name).length := fun l => by simp
  refine ⟨?_, ?_, h1, h2⟩
  · rcases hn with ⟨-, e⟩ | ⟨-, e⟩ | ⟨-, e⟩ <;> rw [hl, e] <;> simp
  · rcases Nat.eq_zero_or_pos (c.solver.nc * c.solver.ns) with h0 | h0
    · exfalso
      obtain ⟨-, -, hne⟩ := vlm_inlet hv
      obtain ⟨-, hvl, -⟩ := vlm_lengths hv
      have : p.vlm.vars.length = 0 := by
        rw [hvl]; show p.set.panels.length = 0
        rw [h1, h0]; simp
      exact hne (List.eq_nil_of_length_eq_zero this)
    · exact h0

/-- **C72.** Once the flow has been computed, every output is produced and the program ends normally:
whatever the configuration, if everything before the first output succeeds, some panel edge is off the
water plane, and an exponential profile has its reference height above its water level, then the run
writes all six outputs. -/
theorem C72_completes_partial (spline : SplineFn) (c : Config) (p : Prepared) (h : prepare spline c = .ok p)
    (hz : ∃ v ∈ p.vlm.vars, v.leMid.z ≠ 0 ∨ v.teMid.z ≠ 0) (hw : ReferenceAboveWater c.wind) :
    (run spline c).2 = .ok () ∧ (run spline c).1.map outputKind = outputOrder := by
  obtain ⟨hn, hpos, hlen, hzm⟩ := prepared_shape h
  obtain ⟨main, jib, base, -, -, -, -, -, hset, -, -, hv, res, hres, hflow⟩ := prepare_ok h
  have hne : p.set.sails ≠ [] := by
    intro e; rw [e] at hn; simp at hn
  obtain ⟨-, hvl, -⟩ := vlm_lengths hv
  have hlen' : (c.vlmInput p.set (windGetProfile c.wind)).panels.length =
      2 * p.set.sails.length * ((c.vlmInput p.set (windGetProfile c.wind)).nc *
        (c.vlmInput p.set (windGetProfile c.wind)).ns) := by
    show p.set.panels.length = 2 * p.set.sails.length * (c.solver.nc * c.solver.ns)
    rw [hlen]; ring
  -- wind sheet
  obtain ⟨hin, hcp, hvne⟩ := vlm_inlet hv
  obtain ⟨-, ht, hi3⟩ := (inletConditions_ok_iff _ _ _ _).1 hin
  have hwinds : p.vlm.inlet.winds = windGetProfile c.wind := by
    rw [hi3]; rfl
  obtain ⟨v0, hv0⟩ : ∃ v, v ∈ p.vlm.inlet.cpPoints := by
    rw [hcp]
    obtain ⟨v, hv⟩ := List.exists_mem_of_ne_nil _ hvne
    exact ⟨_, List.mem_map_of_mem hv⟩
  have htw : ∃ w, (windGetProfile c.wind).trueWindAt |v0.z| = .ok w := by
    obtain ⟨i, hi, rfl⟩ := List.getElem_of_mem hv0
    obtain ⟨b, -, hb⟩ := (mapM_ok_inv ht).2 i hi
    exact ⟨b, hb⟩
  obtain ⟨w0, hw0⟩ := htw
  obtain ⟨ic, hic⟩ := windIntegral_ok hw0 hw p.csys
  -- the six steps
  have s1 := saveResults_okOrNan hne hpos (r := p.vlm) (by rw [hvl]; exact hlen) p.csys p.csys p.flow
    (Or.inl ⟨ic, by rw [hwinds, hic]⟩)
  have hfres : p.flow.res = res := by rw [hflow]; rfl
  obtain ⟨-, -, hvi, -⟩ := inviscidFlow_fields hres
  have hce : OkOrNan p.flow.res.centreOfEffort := by
    have hsh := vlm_shaped hv hne (m := c.solver.nc * c.solver.ns) hlen
    obtain ⟨res', hr', -, -, -, -, -, -, hc, -⟩ := inviscidFlow_ok hsh.nonempty p.csys _ hsh.force hsh.cp
    rw [hres] at hr'
    injection hr' with e
    rw [hfres, e, hc]
    exact determineVector_okOrNan _ _ _
  have s3 := displayScene_okOrNan hv hn hlen' hz (res := p.flow.res) (by rw [hfres]; exact hvi) hce p.hull false false
  have s4 : ∃ m, plotCp p.set.zeroMesh p.vlm.out.pCoeffs = .ok m := by
    refine ⟨_, if_pos ?_⟩
    rw [hzm]
    simp [Vlm.out, VlmSolution.arrays, hvl]
    rfl
  obtain ⟨s5a, s5b⟩ := coeffPlotData_okOrNan hv (by omega) hpos hlen'
  have hk2 : p.set.sails.length ≤ 2 := by omega
  obtain ⟨o1, e1⟩ := nanAsNone_ok s1
  obtain ⟨o3, e3⟩ := nanAsNone_ok s3
  obtain ⟨m, e4⟩ := s4
  obtain ⟨o5, e5⟩ := sectionPlotStep_ok (x := fun d => d.drag) (name := "lift") (colors := ["blue", "green"]) s5a
    fun D hD => by
      obtain ⟨a1, a2, a3, a4, a5, a6⟩ := s5b D hD
      exact plotSectionCoeff_drawn (by omega) (by omega) a6 a4 (Or.inl rfl) rfl
  obtain ⟨o6, e6⟩ := sectionPlotStep_ok (x := fun d => d.lift) (name := "drag") (colors := ["teal", "purple"]) s5a
    fun D hD => by
      obtain ⟨a1, a2, a3, a4, a5, a6⟩ := s5b D hD
      exact plotSectionCoeff_drawn (by omega) (by omega) a5 a4 (Or.inr rfl) rfl
  have hall : outputSteps c p = [Effect.workbook o1, .caseCopy, .picture o3, .cpMap m, o5, o6].map .ok := by
    unfold outputSteps
    rw [e1, e3, e4]
    have e5' : sectionPlotStep (coeffPlotData p.vlm c.solver.nc c.solver.ns) (fun d => d.drag) "lift"
      ["blue", "green"] = .ok o5 := e5
    have e6' : sectionPlotStep (coeffPlotData p.vlm c.solver.nc c.solver.ns) (fun d => d.lift) "drag"
      ["teal", "purple"] = .ok o6 := e6
    rw [e5', e6']
    rfl
  have hrun : (run spline c).2 = .ok () := by
    unfold run
    rw [h]
    simp only [hall, emit_all_ok]
  obtain ⟨n, -, h1, h2⟩ := C71_order spline c
  rw [h2.1 hrun] at h1
  exact ⟨hrun, h1⟩

theorem demo_offWater : ∃ v ∈ [Demo.vars (-1), (Demo.vars (-1)).mirrored], v.leMid.z ≠ 0 ∨ v.teMid.z ≠ 0 :=
  ⟨_, List.mem_cons_self, Or.inl (by simp [Demo.vars])⟩

/-- Non-vacuity of `C72_completes_partial`: a main sail of one panel. -/
example (spline : SplineFn) : (run spline Demo.config).2 = .ok () ∧
    (run spline Demo.config).1.map outputKind = outputOrder := by
  obtain ⟨p, hp, -, -, hv, -⟩ := Demo.prepared spline
  refine C72_completes_partial spline _ p hp (by rw [hv]; exact demo_offWater) ?_
  intro h; simp [Demo.config] at h

/-- The same configuration with `foretriangle_base = None`, which a main sail does not need. -/
noncomputable def noBase : Config := { Demo.config with rig := { Demo.config.rig with base := none } }

/-- The validation of the sails accepts a main sail without foretriangle base, but the hull drawn in the
picture needs it: the run ends with `TypeError` before anything is computed or written. -/
theorem C72_refuted_base (spline : SplineFn) :
    sailPostInit noBase.rig (some noBase.main) (some noBase.jib) = .ok () ∧
    run spline noBase = ([], .error .typeError) := by
  have hs : sailPostInit noBase.rig (some demoConf) (some demoConf) = .ok () :=
    ((C53_validation_partial noBase.rig).2.1 rfl (some demoConf) demoConf).1 ⟨⟨_, rfl⟩, demoConf_complete⟩
  refine ⟨hs, ?_⟩
  obtain ⟨set, hset, -⟩ := Demo.set_exists spline
  have hset' : sailSetOf spline noBase.solver noBase.rig (some demoConf) (some demoConf) ⟨0, 0, 0⟩ = .ok set := hset
  have hcs := C59_csys_constructor_total 0 0 0
  have : prepare spline noBase = .error .typeError := by
    unfold prepare prepareGeometry
    have h1 : mainSailInit noBase.main = .ok demoConf := rfl
    have h2 : jibSailInit noBase.jib = .ok demoConf := rfl
    have h3 : windPostInit noBase.wind = .ok () := by simp [windPostInit, noBase, Demo.config]
    have h4 : csysInit noBase.heelDeg noBase.leewayDeg noBase.vRef = .ok ⟨0, 0, 0⟩ := hcs
    have h5 : noBase.rig.base = none := rfl
    simp only [h1, h2, h3, h4, hs, hset', h5, need, bind, Except.bind]
  unfold run
  rw [this]

/-- An exponential profile whose reference height is below its water level: at the height of the sail
the wind is defined. -/
noncomputable def lowReference : Config :=
  { Demo.config with wind := ⟨90, 1, 1, "exponential", some (1 / 2), some (1 / 2), some 1, none⟩ }

/-- With the reference height below the water level the flow is computed, but the sheet with the wind at
the reference height cannot be written: the run ends with `TypeError` (the power is a complex number) and
none of the results appear. -/
theorem C72_refuted_reference (spline : SplineFn) :
    (∃ p, prepare spline lowReference = .ok p ∧ ∃ v ∈ p.vlm.vars, v.leMid.z ≠ 0 ∨ v.teMid.z ≠ 0) ∧
    run spline lowReference = ([], .error .typeError) := by
  have h1 : (windGetProfile lowReference.wind).trueWindAt |3 / 2| = .ok ⟨0, 1, 0⟩ := by
    have hb : ((3 / 2 : ℝ) - 1) / (1 / 2) = 1 := by norm_num
    have hab : |(3 / 2 : ℝ)| = 3 / 2 := abs_of_pos (by norm_num)
    have h90 : deg2rad 90 = Real.pi / 2 := by simp [deg2rad]; ring
    simp only [windGetProfile, lowReference, if_true, WindObj.trueWindAt, WindObj.expFactor, hab, hb]
    norm_num [bind, Except.bind, WindObj.lengthToXyz, WindObj.alpha, h90]
  obtain ⟨p, hp, hc, hw, hv⟩ := Demo.prepared_wind spline lowReference.wind
    (by simp [windPostInit, lowReference]) h1 (by simp [windGetProfile, lowReference])
  refine ⟨⟨p, hp, by rw [hv]; exact demo_offWater⟩, ?_⟩
  have hint : ¬ ∃ n : ℤ, (1 / 2 : ℝ) = n := by
    rintro ⟨n, hn⟩
    have : (2 * n : ℤ) = 1 := by
      have : (2 * n : ℝ) = 1 := by rw [← hn]; norm_num
      exact_mod_cast this
    omega
  have hwi : windIntegral p.vlm.inlet.winds p.csys = .error .typeError := by
    rw [hw]
    have hb : ((1 / 2 : ℝ) - 1) / (1 / 2) < 0 := by norm_num
    simp only [windGetProfile, lowReference, if_true, windIntegral, expFactorFloat]
    rw [if_neg (by norm_num), if_neg (by norm_num), if_pos ⟨hb, hint⟩]
    rfl
  have hs : saveResults p.vlm p.csys p.flow p.set.sails p.csys = .error .typeError := by
    unfold saveResults
    rw [hwi]; rfl
  have hr : run spline lowReference = emit (outputSteps lowReference p) := by
    unfold run
    rw [show prepare spline lowReference = .ok p from hp]
  rw [hr]
  unfold outputSteps
  rw [hs]
  rfl

/-! ## Well-formed configurations -/

theorem withTwist_default {c : SailConf} (h : c.twist ≠ none ∨ c.girths ≠ none) (a b : ℝ) :
    c.withTwist a b = .ok (withDefaultTwist a b c) := by
  obtain ⟨tw, gi, ch, ca, di⟩ := c
  cases tw with
  | some tw => rfl
  | none =>
    cases gi with
    | some g => rfl
    | none => simp at h

theorem goodSail_complete {c : SailConf} {kind : String} {gi ch tw ca di : List ℝ} (h : GoodSail kind c gi ch tw ca di) :
    ArraysComplete c :=
  ⟨gi, tw, ca, di, h.girths_eq, h.twist_eq, h.camber_eq, h.distance_eq, h.twist_len, h.camber_len, h.distance_len⟩

theorem windPostInit_ok {w : WindConditions} (h : ¬ WindIncomplete w) : windPostInit w = .ok () := by
  simp only [WindIncomplete, not_or] at h
  unfold windPostInit
  rw [if_neg h.1, if_neg h.2.2, if_neg h.2.1]

theorem wellFormed_validation {c : Config} (h : WellFormed c) :
    sailPostInit c.rig (some (mainData c)) (some (jibData c)) = .ok () := by
  obtain ⟨v1, v2, v3⟩ := C53_validation_partial c.rig
  have J : c.rig.sailsDef ≠ "main" → JibComplete c.rig (jibData c) := fun hd => by
    obtain ⟨hr, gi, ch, tw, ca, di, hg⟩ := h.jib hd
    obtain ⟨l, hl, -⟩ := hr.luff
    obtain ⟨b, hb, -⟩ := hr.base
    obtain ⟨ht, hh, -⟩ := hr.height
    exact ⟨⟨b, ht, l, hb, hh, hl⟩, goodSail_complete hg⟩
  have M : c.rig.sailsDef ≠ "jib" → MainComplete c.rig (mainData c) := fun hd => by
    obtain ⟨hr, gi, ch, tw, ca, di, hg⟩ := h.main hd
    obtain ⟨l, hl, -⟩ := hr.luff
    exact ⟨⟨l, hl⟩, goodSail_complete hg⟩
  have hd := h.sails
  simp only [List.mem_cons, List.not_mem_nil, or_false] at hd
  rcases hd with hd | hd | hd
  · exact (v1 hd _ _).1 (J (by rw [hd]; decide))
  · exact (v2 hd _ _).1 (M (by rw [hd]; decide))
  · exact (v3 hd _ _).1 ⟨J (by rw [hd]; decide), M (by rw [hd]; decide)⟩

theorem heel_eq (heelDeg leewayDeg : ℝ) (v p : V3) :
    (⟨heelDeg, leewayDeg, v⟩ : Csys).leeway.mulVec ((⟨heelDeg, leewayDeg, v⟩ : Csys).heeling.mulVec p) =
      afloat heelDeg leewayDeg p := by
  rw [Csys.leeway_mulVec, Csys.heeling_mulVec]
  ext <;> simp [afloat, rodrigues, V3.dot] <;> ring

/-- Every point of a sail lies where the specification puts it. -/
theorem abovePoints_afloat {heelDeg leewayDeg : ℝ} {v : V3} {s : SailInput × (ℕ → ℝ)} (h : SailOk s.1 s.2)
    (hc : s.1.csys = ⟨heelDeg, leewayDeg, v⟩) {r : ℕ} (hr : r ≤ s.1.ns) (k : ℕ) :
    abovePoints s r k = afloatPoint heelDeg leewayDeg s r k := by
  have h0 := h.above_luff (Nat.zero_le _)
  have h1 := h.above_luff le_rfl
  have hn := h.ns_ne
  unfold abovePoints SailInput.aboveTwisted afloatPoint
  rw [h.abovePt_eq (Nat.zero_le _), h.abovePt_eq le_rfl, h.abovePt_eq hr, hc, heel_eq, heel_eq, heel_eq, h0, h1,
    show lerp s.1.tack s.1.head (((0 : ℕ) : ℝ) / s.1.ns) = s.1.tack by ext <;> simp [lerp],
    show lerp s.1.tack s.1.head ((s.1.ns : ℝ) / s.1.ns) = s.1.head by rw [div_self hn]; ext <;> simp [lerp]]

/-- The luff stays where the heeled yacht has it. -/
theorem abovePoints_luff_z {s : SailInput × (ℕ → ℝ)} (h : SailOk s.1 s.2) {r : ℕ} (hr : r ≤ s.1.ns) :
    (abovePoints s r 0).z = Real.cos (deg2rad s.1.csys.heelDeg) * (lerp s.1.tack s.1.head ((r : ℝ) / s.1.ns)).z := by
  have hne : s.1.abovePt s.1.ns 0 - s.1.abovePt 0 0 ≠ 0 := by
    rcases h.above_axis with h' | h' <;> intro e <;> rw [e] at h' <;> simp at h'
  have : abovePoints s r 0 = s.1.abovePt r 0 := by
    unfold abovePoints SailInput.aboveTwisted
    rw [h.above_line hr, rotateAboutLine_on_line hne]
  rw [this, h.abovePt_eq hr, h.above_luff hr, Csys.leeway_mulVec, Csys.heeling_mulVec]
  simp [lerp, h.tack_y, h.head_y]

/-- The sail set of a well-formed configuration. -/
theorem wellFormed_set {c : Config} (h : WellFormed c) :
    ∃ ss set, sailSetOf fitpackSpline c.solver c.rig (some (mainData c)) (some (jibData c))
        ⟨c.heelDeg, c.leewayDeg, c.vRef⟩ = .ok set ∧
      List.Forall₂ (BuiltFrom c.solver.nc c.solver.ns) ss set.sails ∧
      set.panels = blockPanels c.solver.nc c.solver.ns (ss.map abovePoints ++ ss.map underPoints) ∧
      (∀ x ∈ ss, x.1.csys = ⟨c.heelDeg, c.leewayDeg, c.vRef⟩) ∧ ss ≠ [] ∧
      (c.rig.sailsDef = "jib" → ∃ sj, ss = [sj] ∧
        DesignedJib c.solver c.rig ⟨c.heelDeg, c.leewayDeg, c.vRef⟩ (jibData c) sj) ∧
      (c.rig.sailsDef = "main" → ∃ sm, ss = [sm] ∧
        DesignedMain c.solver c.rig ⟨c.heelDeg, c.leewayDeg, c.vRef⟩ (mainData c) sm) ∧
      (c.rig.sailsDef = "jib_and_main" → ∃ sj sm, ss = [sj, sm] ∧
        DesignedJib c.solver c.rig ⟨c.heelDeg, c.leewayDeg, c.vRef⟩ (jibData c) sj ∧
        DesignedMain c.solver c.rig ⟨c.heelDeg, c.leewayDeg, c.vRef⟩ (mainData c) sm) := by
  obtain ⟨ss, set, hset, hb, hcs, -, hne, -, d1, d2, d3⟩ := sailSetOf_ok fitpackSpline c.solver c.rig
    ⟨c.heelDeg, c.leewayDeg, c.vRef⟩ (Or.inr rfl) (by simpa [twistModes] using h.mode) h.ns_pos h.nc_pos h.heel
    (mainData c) (jibData c) h.sails h.jib h.main
  refine ⟨ss, set, hset, hb, (sailSet_blocks hb (sailSetOf_sails hset)).1, hcs, ?_, d1, d2, d3⟩
  intro e
  rw [e] at hb
  exact hne (List.forall₂_nil_left_iff.1 hb)

/-- **C72**, well-formed configurations: the geometry is built and handed to the solver; if the solver
returns, all six outputs are written and the program ends normally; if it fails, nothing is written and the
program ends with the error of the solver.  Partial: the foretriangle base has to be given even for a main
sail alone, and the reference height of an exponential profile has to be above its water level; without
these the property fails, see `C72_refuted_base` and `C72_refuted_reference`. -/
theorem C72_wellformed_partial (c : Config) (h : WellFormed c)
    (hw : ReferenceAboveWater c.wind) :
    ∃ set, sailSetOf fitpackSpline c.solver c.rig (some (mainData c)) (some (jibData c))
        ⟨c.heelDeg, c.leewayDeg, c.vRef⟩ = .ok set ∧
      ((∃ r, vlm (c.vlmInput set (windGetProfile c.wind)) = .ok r) →
        (run fitpackSpline c).2 = .ok () ∧ (run fitpackSpline c).1.map outputKind = outputOrder) ∧
      (∀ e, vlm (c.vlmInput set (windGetProfile c.wind)) = .error e → run fitpackSpline c = ([], .error e)) := by
  obtain ⟨ss, set, hset, hb, hp, hcs, hne, -⟩ := wellFormed_set h
  obtain ⟨base, hbase⟩ := Option.ne_none_iff_exists'.1 h.base
  have h1 : mainSailInit c.main = .ok (mainData c) := withTwist_default h.main_twist 12 5
  have h2 : jibSailInit c.jib = .ok (jibData c) := withTwist_default h.jib_twist 15 7
  have h3 := windPostInit_ok h.wind
  have h4 := wellFormed_validation h
  refine ⟨set, hset, ?_, ?_⟩
  · rintro ⟨r, hr⟩
    obtain ⟨p, hpp, -, -, hpr⟩ := prepare_of h1 h2 h3 h4 hset hbase hr
    refine C72_completes_partial fitpackSpline c p hpp ?_ hw
    rw [hpr]
    obtain ⟨s0, hs0⟩ := List.exists_cons_of_ne_nil hne
    obtain ⟨rest, hs0⟩ := hs0
    rw [hs0] at hb
    obtain ⟨g, gs, hbf, -, -⟩ := List.forall₂_cons_left_iff.1 hb
    obtain ⟨hok, e1, e2, -⟩ := hbf
    have hb0 : 0 < ((ss.map abovePoints) ++ ss.map underPoints).length := by simp [hs0]
    have hget := blockPanels_get (nc := c.solver.nc) (ns := c.solver.ns) (b := 0) (i := 0) (j := 0)
      (blocks := ss.map abovePoints ++ ss.map underPoints) hb0 h.nc_pos h.ns_pos
    rw [← hp] at hget
    have hpn : panelNo c.solver.nc c.solver.ns 0 0 0 = 0 := by simp [panelNo]
    rw [hpn] at hget
    obtain ⟨hlt, hget⟩ := List.getElem?_eq_some_iff.1 hget
    obtain ⟨-, -, hcalc, -⟩ := (vlm_ok_iff _ _).1 hr
    obtain ⟨-, hpts⟩ := C32_panel_points _ _ _ _ _ _ hcalc
    obtain ⟨v, hv, -, -, -, -, hle, -⟩ := hpts 0 hlt _ rfl
    refine ⟨v, List.mem_of_getElem? hv, Or.inl ?_⟩
    have hget' : set.panels[0] = panelOf (abovePoints s0) 0 0 := by
      rw [hget]
      simp [hs0]
    rw [hle, show (c.vlmInput set (windGetProfile c.wind)).panels[0]'hlt = set.panels[0] from rfl, hget']
    have hns : 1 ≤ s0.1.ns := by rw [e2]; exact h.ns_pos
    have z0 := abovePoints_luff_z hok (r := 0) (Nat.zero_le _)
    have z1 := abovePoints_luff_z hok (r := 1) hns
    have p0 := hok.z_nonneg (r := 0) (Nat.zero_le _)
    have p1 := hok.z_pos_of_row one_pos hns
    have e : (lerp (abovePoints s0 0 0) (abovePoints s0 1 0) (1 / 2)).z =
        Real.cos (deg2rad s0.1.csys.heelDeg) * ((lerp s0.1.tack s0.1.head (((0 : ℕ) : ℝ) / s0.1.ns)).z +
          (lerp s0.1.tack s0.1.head (((1 : ℕ) : ℝ) / s0.1.ns)).z) / 2 := by
      have : (lerp (abovePoints s0 0 0) (abovePoints s0 1 0) (1 / 2)).z =
          ((abovePoints s0 0 0).z + (abovePoints s0 1 0).z) / 2 := by simp [lerp]; ring
      rw [this, z0, z1]; ring
    show (lerp (abovePoints s0 0 0) (abovePoints s0 1 0) (1 / 2)).z ≠ 0
    rw [e]
    have := hok.heel
    positivity
  · intro e he
    have hcs' := C59_csys_constructor_total c.heelDeg c.leewayDeg c.vRef
    obtain ⟨hull, hh, -⟩ := C57_hull c.rig.sheer base ⟨c.heelDeg, c.leewayDeg, c.vRef⟩ c.clrUpright
    have : prepare fitpackSpline c = .error e := by
      unfold prepare prepareGeometry
      simp only [h1, h2, hcs', h3, h4, hset, hbase, need, hh, he, bind, Except.bind]
    unfold run
    rw [this]

/-! ## C77 -/

/-- Panel `(i, j)` of block `b` of the panel array is spanned by the points of the sail `s` afloat. -/
def SpannedBy (c : Config) (panels : List Panel) (b : ℕ) (s : SailInput × (ℕ → ℝ)) : Prop :=
  ∀ i j, i < c.solver.nc → j < c.solver.ns →
    panels[panelNo c.solver.nc c.solver.ns b i j]? =
      some (panelOf (afloatPoint c.heelDeg c.leewayDeg s) i j)

theorem spannedBy {c : Config} {ss : List (SailInput × (ℕ → ℝ))} {set : SailSet}
    (hb : List.Forall₂ (BuiltFrom c.solver.nc c.solver.ns) ss set.sails)
    (hp : set.panels = blockPanels c.solver.nc c.solver.ns (ss.map abovePoints ++ ss.map underPoints))
    (hcs : ∀ x ∈ ss, x.1.csys = ⟨c.heelDeg, c.leewayDeg, c.vRef⟩) (b : ℕ) (hlt : b < ss.length) :
    SpannedBy c set.panels b ss[b] := by
  intro i j hi hj
  have hl : b < (ss.map abovePoints ++ ss.map underPoints).length := by simp; omega
  have hmem : ss[b] ∈ ss := List.getElem_mem hlt
  obtain ⟨g, hg⟩ : ∃ g, BuiltFrom c.solver.nc c.solver.ns ss[b] g :=
    ⟨_, hb.get hlt (by rw [← hb.length_eq]; exact hlt)⟩
  obtain ⟨hok, e1, e2, -⟩ := hg
  rw [hp, blockPanels_get hl hi hj]
  have e : (ss.map abovePoints ++ ss.map underPoints)[b] = abovePoints ss[b] := by
    rw [List.getElem_append_left (by simpa using hlt)]; simp
  rw [e]
  simp only [panelOf]
  have hc := hcs _ hmem
  rw [abovePoints_afloat hok hc (by omega), abovePoints_afloat hok hc (by omega),
    abovePoints_afloat hok hc (by omega), abovePoints_afloat hok hc (by omega)]

/-- Non-vacuity of the theorems about well-formed configurations: jib and main sail on a heeled yacht with
leeway, several panels, default twist. -/
noncomputable def wellFormedConfig : Config where
  heelDeg := 10
  leewayDeg := 5
  rho := 1
  wind := ⟨50, 5, 3, "exponential", some (1 / 7), some 10, some 0, none⟩
  solver := ⟨4, 3, "linear", "real_twist"⟩
  rig := demoRig "jib_and_main"
  main := { demoConf with twist := none }
  jib := demoConf
  vRef := 0
  clrUpright := 0

/-- **C77.** For every well-formed configuration, the panels handed to the solver are those of the sail
plan described by `variables.py`: luff of the main sail from the boom up the mast, luff of the jib along
the forestay from the stem; chord, camber, camber position and twist of every row read off the curves
(polygons or cubic splines) through the given values; the upright sail is heeled, turned by leeway and twisted about its luff. -/
theorem C77_geometry (c : Config) (h : WellFormed c) :
    ∃ hull set, prepareGeometry fitpackSpline c =
        .ok (⟨c.heelDeg, c.leewayDeg, c.vRef⟩, windGetProfile c.wind, set, hull) ∧
      (c.rig.sailsDef = "jib" → set.panels.length = 2 * (c.solver.nc * c.solver.ns) ∧
        ∃ sj, DesignedJib c.solver c.rig ⟨c.heelDeg, c.leewayDeg, c.vRef⟩ (jibData c) sj ∧
          SpannedBy c set.panels 0 sj) ∧
      (c.rig.sailsDef = "main" → set.panels.length = 2 * (c.solver.nc * c.solver.ns) ∧
        ∃ sm, DesignedMain c.solver c.rig ⟨c.heelDeg, c.leewayDeg, c.vRef⟩ (mainData c) sm ∧
          SpannedBy c set.panels 0 sm) ∧
      (c.rig.sailsDef = "jib_and_main" → set.panels.length = 4 * (c.solver.nc * c.solver.ns) ∧
        ∃ sj sm, DesignedJib c.solver c.rig ⟨c.heelDeg, c.leewayDeg, c.vRef⟩ (jibData c) sj ∧
          DesignedMain c.solver c.rig ⟨c.heelDeg, c.leewayDeg, c.vRef⟩ (mainData c) sm ∧
          SpannedBy c set.panels 0 sj ∧ SpannedBy c set.panels 1 sm) := by
  obtain ⟨ss, set, hset, hb, hp, hcs, hne, d1, d2, d3⟩ := wellFormed_set h
  obtain ⟨base, hbase⟩ := Option.ne_none_iff_exists'.1 h.base
  have h1 : mainSailInit c.main = .ok (mainData c) := withTwist_default h.main_twist 12 5
  have h2 : jibSailInit c.jib = .ok (jibData c) := withTwist_default h.jib_twist 15 7
  have hcs' := C59_csys_constructor_total c.heelDeg c.leewayDeg c.vRef
  obtain ⟨hull, hh, -⟩ := C57_hull c.rig.sheer base ⟨c.heelDeg, c.leewayDeg, c.vRef⟩ c.clrUpright
  have hsp := spannedBy hb hp hcs
  have hl : set.panels.length = 2 * ss.length * (c.solver.nc * c.solver.ns) := by
    rw [hp, blockPanels_length, List.length_append, List.length_map, List.length_map]
    ring
  refine ⟨hull, set, ?_, ?_, ?_, ?_⟩
  · unfold prepareGeometry
    simp only [h1, h2, hcs', windPostInit_ok h.wind, wellFormed_validation h, hset, hbase, need, hh, bind,
      Except.bind]
  · intro hd
    obtain ⟨sj, rfl, hj⟩ := d1 hd
    exact ⟨by rw [hl]; simp, sj, hj, hsp 0 (by simp)⟩
  · intro hd
    obtain ⟨sm, rfl, hm⟩ := d2 hd
    exact ⟨by rw [hl]; simp, sm, hm, hsp 0 (by simp)⟩
  · intro hd
    obtain ⟨sj, sm, rfl, hj, hm⟩ := d3 hd
    exact ⟨by rw [hl]; simp, sj, sm, hj, hm, hsp 0 (by simp), hsp 1 (by simp)⟩

theorem wellFormed_demo : WellFormed wellFormedConfig where
  mode := by simp [wellFormedConfig, twistModes]
  ns_pos := by simp [wellFormedConfig]
  nc_pos := by simp [wellFormedConfig]
  heel := by
    apply ne_of_gt
    apply Real.cos_pos_of_mem_Ioo
    have := Real.pi_pos
    simp only [deg2rad, wellFormedConfig]
    constructor <;> linarith
  sails := by simp [wellFormedConfig, demoRig]
  base := by simp [wellFormedConfig, demoRig]
  main_twist := Or.inr (by simp [wellFormedConfig, demoConf])
  jib_twist := Or.inr (by simp [wellFormedConfig, demoConf])
  jib _ := ⟨demo_goodJib _, _, _, _, _, _, demo_goodSail⟩
  main _ := ⟨demo_goodMain _, [0, 1], [1, 1], [12 * 0 + 5, 12 * 1 + 5], [0, 0], [1 / 2, 1 / 2],
    { demo_goodSail with twist_eq := rfl, twist_len := rfl }⟩
  wind := by simp [WindIncomplete, wellFormedConfig]

example : WellFormed wellFormedConfig ∧ ReferenceAboveWater wellFormedConfig.wind :=
  ⟨wellFormed_demo, fun _ ref wl h1 h2 => by cases h1; cases h2; norm_num⟩

/-- The same with spline interpolation. -/
example : WellFormed { wellFormedConfig with solver := ⟨4, 3, "spline", "real_twist"⟩, main := splineConf, jib := splineConf } :=
  { wellFormed_demo with
    mode := by simp [twistModes]
    ns_pos := by simp
    nc_pos := by simp
    main_twist := Or.inl (by simp [splineConf])
    jib_twist := Or.inl (by simp [splineConf])
    jib := fun _ => ⟨demo_goodJib _, _, _, _, _, _, spline_goodSail⟩
    main := fun _ => ⟨demo_goodMain _, _, _, _, _, _, spline_goodSail⟩ }

end PySailing.Props
