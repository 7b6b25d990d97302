import Verif.Spec.Settings
import Verif.Props.Main

/-!
# Settings files (C107), uniform sails and the shipped settings (C108)
-/

namespace PySailing.Props

open PySailing PySailing.Spec

/-! ## C107 -/

theorem lookup_map_of_mem {fields : Kwargs} (hf : (fields.map Prod.fst).Nodup) (g : String × Val → Val) {f : String × Val}
    (h : f ∈ fields) : (fields.map fun f => (f.1, g f)).lookup f.1 = some (g f) := by
  induction fields with
  | nil => cases h
  | cons a l ih =>
    rw [List.map_cons, List.nodup_cons] at hf
    rw [List.map_cons]
    rcases List.mem_cons.1 h with rfl | h
    · simp
    · have hne : f.1 ≠ a.1 := fun e => hf.1 (e ▸ List.mem_map_of_mem h)
      rw [List.lookup_cons, beq_false_of_ne hne]
      exact ih hf.2 h

theorem dataclassInit_known {fields kw : Kwargs} (h : ∀ a ∈ kw, a.1 ∈ fields.map Prod.fst) :
    dataclassInit fields kw = .ok (fields.map fun f => (f.1, (kw.lookup f.1).getD f.2)) := by
  unfold dataclassInit
  rw [if_pos]
  rw [List.all_eq_true]
  intro a ha
  obtain ⟨f, hf, e⟩ := List.mem_map.1 (h a ha)
  exact List.any_eq_true.2 ⟨f, hf, by simpa using e⟩

theorem dataclassInit_unknown {fields kw : Kwargs} {a : String × Val} (ha : a ∈ kw) (h : a.1 ∉ fields.map Prod.fst) :
    dataclassInit fields kw = .error .typeError := by
  unfold dataclassInit
  rw [if_neg]
  intro hall
  obtain ⟨f, hf, e⟩ := List.any_eq_true.1 (List.all_eq_true.1 hall a ha)
  exact h (List.mem_map.2 ⟨f, hf, by simpa using e⟩)

theorem dataclassInit_error {fields kw : Kwargs} {e : PyErr} (h : dataclassInit fields kw = .error e) : e = .typeError := by
  unfold dataclassInit at h
  split_ifs at h
  cases h; rfl

/-- **C107**, one group of settings: an unknown name is a `TypeError`; otherwise every field of the group has the
value given for its name, or the default if none is given. -/
theorem C107_group (fields kw : Kwargs) (hf : (fields.map Prod.fst).Nodup) :
    ((∃ a ∈ kw, a.1 ∉ fields.map Prod.fst) → dataclassInit fields kw = .error .typeError) ∧
    ((∀ a ∈ kw, a.1 ∈ fields.map Prod.fst) → ∃ o, dataclassInit fields kw = .ok o ∧
      o.map Prod.fst = fields.map Prod.fst ∧
      ∀ k d, (k, d) ∈ fields → (∀ v, kw.lookup k = some v → o.lookup k = some v) ∧
        (kw.lookup k = none → o.lookup k = some d)) := by
  refine ⟨fun ⟨a, ha, h⟩ => dataclassInit_unknown ha h, fun h => ⟨_, dataclassInit_known h, by simp, ?_⟩⟩
  intro k d hk
  have e := lookup_map_of_mem hf (fun f => (kw.lookup f.1).getD f.2) hk
  simp only at e
  refine ⟨fun v hv => ?_, fun hn => ?_⟩
  · rw [e, hv]; rfl
  · rw [e, hn]; rfl

/-- The seven groups of a settings file with the names and defaults of `runner/container.py`. -/
noncomputable def groups (s : Settings) : List (Kwargs × Kwargs) :=
  [(conditionsFields, s.conditions), (solverFields, s.solver), (mainSailFields, s.mainSail), (jibSailFields, s.jibSail),
    (csysFields, s.csys), (keelFields, s.keel), (rigFields, s.rig)]

theorem groups_nodup (s : Settings) : ∀ g ∈ groups s, (g.1.map Prod.fst).Nodup := by
  intro g hg
  simp only [groups, List.mem_cons, List.not_mem_nil, or_false] at hg
  rcases hg with rfl | rfl | rfl | rfl | rfl | rfl | rfl <;>
    simp [conditionsFields, solverFields, mainSailFields, jibSailFields, csysFields, keelFields, rigFields]

theorem makeObjects_error {s : Settings} {g : Kwargs × Kwargs} (hg : g ∈ groups s) {a : String × Val} (ha : a ∈ g.2)
    (h : a.1 ∉ g.1.map Prod.fst) : makeObjects s = .error .typeError := by
  have key : ∀ {fields kw : Kwargs}, dataclassInit fields kw = .error .typeError ∨
      ∃ o, dataclassInit fields kw = .ok o := by
    intro fields kw
    cases e : dataclassInit fields kw with
    | ok o => exact Or.inr ⟨o, rfl⟩
    | error x => exact Or.inl (by rw [dataclassInit_error e])
  have hu := dataclassInit_unknown ha h
  simp only [groups, List.mem_cons, List.not_mem_nil, or_false] at hg
  unfold makeObjects
  simp only [bind, Except.bind]
  rcases key (fields := conditionsFields) (kw := s.conditions) with h1 | ⟨_, h1⟩
  · rw [h1]
  rcases key (fields := solverFields) (kw := s.solver) with h2 | ⟨_, h2⟩
  · rw [h1, h2]
  rcases key (fields := mainSailFields) (kw := s.mainSail) with h3 | ⟨_, h3⟩
  · rw [h1, h2, h3]
  rcases key (fields := jibSailFields) (kw := s.jibSail) with h4 | ⟨_, h4⟩
  · rw [h1, h2, h3, h4]
  rcases key (fields := csysFields) (kw := s.csys) with h5 | ⟨_, h5⟩
  · rw [h1, h2, h3, h4, h5]
  rcases key (fields := keelFields) (kw := s.keel) with h6 | ⟨_, h6⟩
  · rw [h1, h2, h3, h4, h5, h6]
  rcases key (fields := rigFields) (kw := s.rig) with h7 | ⟨_, h7⟩
  · rw [h1, h2, h3, h4, h5, h6, h7]
  exfalso
  rcases hg with rfl | rfl | rfl | rfl | rfl | rfl | rfl <;> simp_all

theorem namesKnown_iff (s : Settings) : NamesKnown s ↔ ∀ g ∈ groups s, ∀ a ∈ g.2, a.1 ∈ g.1.map Prod.fst := by
  simp only [NamesKnown, settingNames, groups, List.forall_mem_cons, conditionsFields, solverFields, mainSailFields,
    jibSailFields, csysFields, keelFields, rigFields, List.map_cons, List.map_nil, List.not_mem_nil, false_implies, implies_true]

/-- **C107.** A settings file with a name that its group does not have ends in a `TypeError` before anything is
calculated or written. -/
theorem C107_unknown (spline : SplineFn) (s : Settings) (h : ¬ NamesKnown s) :
    runSettings spline s = some ([], .error .typeError) := by
  rw [namesKnown_iff] at h
  push Not at h
  obtain ⟨g, hg, a, ha, h⟩ := h
  unfold runSettings
  rw [makeObjects_error hg ha h]

/-- **C107**: in particular the twist mode cannot be chosen in the settings file. -/
theorem C107_twist_mode (spline : SplineFn) (s : Settings) (mode : Val) (h : ("LLT_twist", mode) ∈ s.solver) :
    runSettings spline s = some ([], .error .typeError) :=
  C107_unknown spline s fun hk => by
    have := hk (s.solver, ["n_spanwise", "n_chordwise", "interpolation_type"]) (by simp [settingNames]) _ h
    simp at this

theorem dataclassInit_default {fields kw : Kwargs} (hf : (fields.map Prod.fst).Nodup) {k : String} {d : Val}
    (hk : (k, d) ∈ fields) (hn : kw.lookup k = none) : dataclassInit fields ((k, d) :: kw) = dataclassInit fields kw := by
  have hkf : k ∈ fields.map Prod.fst := List.mem_map.2 ⟨_, hk, rfl⟩
  by_cases h : ∀ a ∈ kw, a.1 ∈ fields.map Prod.fst
  · rw [dataclassInit_known h, dataclassInit_known (by
      intro a ha
      rcases List.mem_cons.1 ha with rfl | ha
      · exact hkf
      · exact h a ha)]
    congr 1
    apply List.map_congr_left
    intro f hfm
    congr 1
    by_cases e : f.1 = k
    · have : f = (k, d) := by
        have := List.inj_on_of_nodup_map hf hfm hk e
        exact this
      subst this
      simp [hn]
    · rw [List.lookup_cons, beq_false_of_ne e]
  · push Not at h
    obtain ⟨a, ha, h⟩ := h
    rw [dataclassInit_unknown ha h, dataclassInit_unknown (List.mem_cons_of_mem _ ha) h]

/-- **C107.** Leaving a setting out is the same as giving its default. -/
theorem C107_default (spline : SplineFn) (s : Settings) (k : String) (d : Val) :
    ((k, d) ∈ conditionsFields → s.conditions.lookup k = none →
      runSettings spline { s with conditions := (k, d) :: s.conditions } = runSettings spline s) ∧
    ((k, d) ∈ solverFields → s.solver.lookup k = none →
      runSettings spline { s with solver := (k, d) :: s.solver } = runSettings spline s) ∧
    ((k, d) ∈ mainSailFields → s.mainSail.lookup k = none →
      runSettings spline { s with mainSail := (k, d) :: s.mainSail } = runSettings spline s) ∧
    ((k, d) ∈ jibSailFields → s.jibSail.lookup k = none →
      runSettings spline { s with jibSail := (k, d) :: s.jibSail } = runSettings spline s) ∧
    ((k, d) ∈ csysFields → s.csys.lookup k = none →
      runSettings spline { s with csys := (k, d) :: s.csys } = runSettings spline s) ∧
    ((k, d) ∈ keelFields → s.keel.lookup k = none →
      runSettings spline { s with keel := (k, d) :: s.keel } = runSettings spline s) ∧
    ((k, d) ∈ rigFields → s.rig.lookup k = none →
      runSettings spline { s with rig := (k, d) :: s.rig } = runSettings spline s) := by
  have nd := groups_nodup s
  refine ⟨?_, ?_, ?_, ?_, ?_, ?_, ?_⟩
  · intro hk hn
    have e := dataclassInit_default (nd (conditionsFields, s.conditions) (by simp [groups])) hk hn
    unfold runSettings makeObjects
    simp only [e]
  · intro hk hn
    have e := dataclassInit_default (nd (solverFields, s.solver) (by simp [groups])) hk hn
    unfold runSettings makeObjects
    simp only [e]
  · intro hk hn
    have e := dataclassInit_default (nd (mainSailFields, s.mainSail) (by simp [groups])) hk hn
    unfold runSettings makeObjects
    simp only [e]
  · intro hk hn
    have e := dataclassInit_default (nd (jibSailFields, s.jibSail) (by simp [groups])) hk hn
    unfold runSettings makeObjects
    simp only [e]
  · intro hk hn
    have e := dataclassInit_default (nd (csysFields, s.csys) (by simp [groups])) hk hn
    unfold runSettings makeObjects
    simp only [e]
  · intro hk hn
    have e := dataclassInit_default (nd (keelFields, s.keel) (by simp [groups])) hk hn
    unfold runSettings makeObjects
    simp only [e]
  · intro hk hn
    have e := dataclassInit_default (nd (rigFields, s.rig) (by simp [groups])) hk hn
    unfold runSettings makeObjects
    simp only [e]

/-- The fields of a group with the given values or the defaults. -/
noncomputable def filled (fields kw : Kwargs) : Kwargs := fields.map fun f => (f.1, (kw.lookup f.1).getD f.2)

theorem runSettings_known (spline : SplineFn) {s : Settings}
    (h : ∀ g ∈ groups s, ∀ a ∈ g.2, a.1 ∈ g.1.map Prod.fst) : runSettings spline s =
      (Objects.config? ⟨filled conditionsFields s.conditions, filled solverFields s.solver,
        filled mainSailFields s.mainSail, filled jibSailFields s.jibSail, filled csysFields s.csys,
        filled keelFields s.keel, filled rigFields s.rig⟩).map (run spline) := by
  unfold runSettings makeObjects
  rw [dataclassInit_known (h (conditionsFields, s.conditions) (by simp [groups])),
    dataclassInit_known (h (solverFields, s.solver) (by simp [groups])),
    dataclassInit_known (h (mainSailFields, s.mainSail) (by simp [groups])),
    dataclassInit_known (h (jibSailFields, s.jibSail) (by simp [groups])),
    dataclassInit_known (h (csysFields, s.csys) (by simp [groups])),
    dataclassInit_known (h (keelFields, s.keel) (by simp [groups])),
    dataclassInit_known (h (rigFields, s.rig) (by simp [groups]))]
  rfl

theorem real?_iff (v : Val) (x : ℝ) : Val.real? (some v) = some x ↔ v = .num x := by
  cases v <;> simp [Val.real?]

theorem optReal?_iff (v : Val) (x : Option ℝ) : Val.optReal? (some v) = some x ↔ v = optNum x := by
  cases v <;> cases x <;> simp [Val.optReal?, optNum]

theorem optArr?_iff (v : Val) (x : Option (List ℝ)) : Val.optArr? (some v) = some x ↔ v = optArr x := by
  cases v <;> cases x <;> simp [Val.optArr?, optArr]

theorem count?_iff (v : Val) (x : ℕ) : Val.count? (some v) = some x ↔ v = .count x := by
  cases v <;> simp [Val.count?]

theorem text?_iff (v : Val) (x : String) : Val.text? (some v) = some x ↔ v = .text x := by
  cases v <;> simp [Val.text?]

theorem vec?_iff (v : Val) (x : V3) : Val.vec? (some v) = some x ↔ v = .vec x := by
  cases v <;> simp [Val.vec?]

theorem windConditions?_iff (kw : Kwargs) (w : WindConditions) :
    windConditions? (filled conditionsFields kw) = some w ↔
      given kw "alpha_true_wind_deg" (.num 50) = .num w.alphaDeg ∧ given kw "tws_ref" (.num 4.63) = .num w.twsRef ∧
      given kw "SOG_yacht" (.num 4.63) = .num w.sog ∧ given kw "wind_profile" (.text "exponential") = .text w.profile ∧
      given kw "wind_exp_coeff" (.num 0.1428) = optNum w.expCoeff ∧
      given kw "wind_reference_measurment_height" (.num 10) = optNum w.refHeight ∧
      given kw "reference_water_level_for_wind_profile" (.num 0) = optNum w.waterLevel ∧
      given kw "roughness" (.num 0.05) = optNum w.roughness := by
  obtain ⟨w1, w2, w3, w4, w5, w6, w7, w8⟩ := w
  simp only [windConditions?, filled, conditionsFields, List.map_cons, List.map_nil, List.lookup, bind, given,
    String.reduceBEq, Option.bind_eq_some_iff, real?_iff, optReal?_iff, text?_iff, Option.some.injEq, WindConditions.mk.injEq]
  constructor
  · rintro ⟨x1, h1, x2, h2, x3, h3, x4, h4, x5, h5, x6, h6, x7, h7, x8, h8, rfl, rfl, rfl, rfl, rfl, rfl, rfl, rfl⟩
    exact ⟨h1, h2, h3, h4, h5, h6, h7, h8⟩
  · rintro ⟨h1, h2, h3, h4, h5, h6, h7, h8⟩
    exact ⟨_, h1, _, h2, _, h3, _, h4, _, h5, _, h6, _, h7, _, h8, rfl, rfl, rfl, rfl, rfl, rfl, rfl, rfl⟩

theorem solverConf?_iff (kw : Kwargs) (w : SolverConf) :
    solverConf? (filled solverFields kw) = some w ↔
      given kw "n_spanwise" (.count 4) = .count w.ns ∧ given kw "n_chordwise" (.count 4) = .count w.nc ∧
      given kw "interpolation_type" (.text "spline") = .text w.interpolation ∧ w.lltTwist = "real_twist" := by
  obtain ⟨w1, w2, w3, w4⟩ := w
  simp only [solverConf?, filled, solverFields, List.map_cons, List.map_nil, List.lookup, bind, given,
    String.reduceBEq, Option.bind_eq_some_iff, count?_iff, text?_iff, Option.some.injEq, SolverConf.mk.injEq]
  constructor
  · rintro ⟨x1, h1, x2, h2, x3, h3, rfl, rfl, rfl, rfl⟩
    exact ⟨h1, h2, h3, rfl⟩
  · rintro ⟨h1, h2, h3, rfl⟩
    exact ⟨_, h1, _, h2, _, h3, rfl, rfl, rfl, rfl⟩

theorem rigConf?_iff (kw : Kwargs) (w : RigConf) :
    rigConf? (filled rigFields kw) = some w ↔
      given kw "main_sail_luff" (.num 12.4) = optNum w.mainLuff ∧ given kw "jib_luff" (.num 10) = optNum w.jibLuff ∧
      given kw "foretriangle_height" (.num 11.5) = optNum w.height ∧
      given kw "foretriangle_base" (.num 3.9) = optNum w.base ∧
      given kw "sheer_above_waterline" (.num 1.2) = .num w.sheer ∧ given kw "boom_above_sheer" (.num 1.3) = .num w.boom ∧
      given kw "rake_deg" (.num 92) = .num w.rakeDeg ∧ given kw "mast_LOA" (.num 0.15) = .num w.mastLOA ∧
      given kw "sails_def" (.text "jib_and_main") = .text w.sailsDef := by
  obtain ⟨w1, w2, w3, w4, w5, w6, w7, w8, w9⟩ := w
  simp only [rigConf?, filled, rigFields, List.map_cons, List.map_nil, List.lookup, bind, given,
    String.reduceBEq, Option.bind_eq_some_iff, real?_iff, optReal?_iff, text?_iff, Option.some.injEq, RigConf.mk.injEq]
  constructor
  · rintro ⟨x1, h1, x2, h2, x3, h3, x4, h4, x5, h5, x6, h6, x7, h7, x8, h8, x9, h9, rfl, rfl, rfl, rfl, rfl, rfl, rfl, rfl, rfl⟩
    exact ⟨h1, h2, h3, h4, h5, h6, h7, h8, h9⟩
  · rintro ⟨h1, h2, h3, h4, h5, h6, h7, h8, h9⟩
    exact ⟨_, h1, _, h2, _, h3, _, h4, _, h5, _, h6, _, h7, _, h8, _, h9, rfl, rfl, rfl, rfl, rfl, rfl, rfl, rfl, rfl⟩

theorem mainConf?_iff (kw : Kwargs) (w : SailConf) :
    sailConf? (filled mainSailFields kw) = some w ↔
      given kw "centerline_twist_deg" .none = optArr w.twist ∧
      given kw "girths" (.arr [0, 1 / 8, 1 / 4, 1 / 2, 3 / 4, 7 / 8, 1]) = optArr w.girths ∧
      given kw "chords" (.arr [4, 3.82, 3.64, 3.2, 2.64, 2.32, 2]) = optArr w.chords ∧
      given kw "camber" (.arr (List.replicate 7 (5 * 0.01))) = optArr w.camber ∧
      given kw "camber_distance_from_luff" (.arr (List.replicate 7 0.5)) = optArr w.distance := by
  obtain ⟨w1, w2, w3, w4, w5⟩ := w
  simp only [sailConf?, filled, mainSailFields, List.map_cons, List.map_nil, List.lookup, bind, given,
    String.reduceBEq, Option.bind_eq_some_iff, optArr?_iff, Option.some.injEq, SailConf.mk.injEq]
  constructor
  · rintro ⟨x1, h1, x2, h2, x3, h3, x4, h4, x5, h5, rfl, rfl, rfl, rfl, rfl⟩
    exact ⟨h1, h2, h3, h4, h5⟩
  · rintro ⟨h1, h2, h3, h4, h5⟩
    exact ⟨_, h1, _, h2, _, h3, _, h4, _, h5, rfl, rfl, rfl, rfl, rfl⟩

theorem jibConf?_iff (kw : Kwargs) (w : SailConf) :
    sailConf? (filled jibSailFields kw) = some w ↔
      given kw "centerline_twist_deg" .none = optArr w.twist ∧
      given kw "girths" (.arr [0, 1 / 4, 1 / 2, 3 / 4, 1]) = optArr w.girths ∧
      given kw "chords" (.arr [3.8, 2.98, 2.15, 1.33, 0.5]) = optArr w.chords ∧
      given kw "camber" (.arr (List.replicate 5 (0 * 0.01))) = optArr w.camber ∧
      given kw "camber_distance_from_luff" (.arr (List.replicate 5 0.5)) = optArr w.distance := by
  obtain ⟨w1, w2, w3, w4, w5⟩ := w
  simp only [sailConf?, filled, jibSailFields, List.map_cons, List.map_nil, List.lookup, bind, given,
    String.reduceBEq, Option.bind_eq_some_iff, optArr?_iff, Option.some.injEq, SailConf.mk.injEq]
  constructor
  · rintro ⟨x1, h1, x2, h2, x3, h3, x4, h4, x5, h5, rfl, rfl, rfl, rfl, rfl⟩
    exact ⟨h1, h2, h3, h4, h5⟩
  · rintro ⟨h1, h2, h3, h4, h5⟩
    exact ⟨_, h1, _, h2, _, h3, _, h4, _, h5, rfl, rfl, rfl, rfl, rfl⟩

theorem config?_iff (s : Settings) (c : Config) :
    (Objects.config? ⟨filled conditionsFields s.conditions, filled solverFields s.solver,
        filled mainSailFields s.mainSail, filled jibSailFields s.jibSail, filled csysFields s.csys,
        filled keelFields s.keel, filled rigFields s.rig⟩) = some c ↔ Configured s c := by
  obtain ⟨c1, c2, c3, c4, c5, c6, c7, c8, c9, c10⟩ := c
  have e1 : (filled conditionsFields s.conditions).lookup "heel_deg" = some (given s.conditions "heel_deg" (.num 10)) := by
    simp [filled, conditionsFields, List.lookup, given]
  have e2 : (filled conditionsFields s.conditions).lookup "leeway_deg" = some (given s.conditions "leeway_deg" (.num 5)) := by
    simp [filled, conditionsFields, List.lookup, given]
  have e3 : (filled conditionsFields s.conditions).lookup "rho" = some (given s.conditions "rho" (.num 1.225)) := by
    simp [filled, conditionsFields, List.lookup, given]
  have e4 : (filled csysFields s.csys).lookup "reference_level_for_moments" =
      some (given s.csys "reference_level_for_moments" (.vec ⟨0, 0, 0⟩)) := by
    simp [filled, csysFields, List.lookup, given]
  have e5 : (filled keelFields s.keel).lookup "center_of_lateral_resistance_upright" =
      some (given s.keel "center_of_lateral_resistance_upright" (.vec ⟨0, 0, -1⟩)) := by
    simp [filled, keelFields, List.lookup, given]
  simp only [Objects.config?, e1, e2, e3, e4, e5, bind, Option.bind_eq_some_iff, real?_iff, vec?_iff, windConditions?_iff,
    solverConf?_iff, rigConf?_iff, mainConf?_iff, jibConf?_iff, Option.some.injEq, Config.mk.injEq]
  constructor
  · rintro ⟨x1, h1, x2, h2, x3, h3, x4, h4, x5, h5, x6, h6, x7, h7, x8, h8, x9, h9, x10, h10,
      rfl, rfl, rfl, rfl, rfl, rfl, rfl, rfl, rfl, rfl⟩
    obtain ⟨w1, w2, w3, w4, w5, w6, w7, w8⟩ := h4
    obtain ⟨s1, s2, s3, s4⟩ := h5
    obtain ⟨r1, r2, r3, r4, r5, r6, r7, r8, r9⟩ := h6
    obtain ⟨m1, m2, m3, m4, m5⟩ := h7
    obtain ⟨j1, j2, j3, j4, j5⟩ := h8
    exact { leeway := h2, heel := h1, speed := w3, tws := w2, alpha := w1, water := w7, exponent := w5, refHeight := w6,
            rho := h3, profile := w4, roughness := w8, ns := s1, nc := s2, kind := s3, mode := s4, mainLuff := r1,
            jibLuff := r2, height := r3, base := r4, sheer := r5, boom := r6, rake := r7, mast := r8, sails := r9,
            mainTwist := m1, mainGirths := m2, mainChords := m3, mainCamber := m4, mainPosition := m5, jibTwist := j1,
            jibGirths := j2, jibChords := j3, jibCamber := j4, jibPosition := j5, reference := h9, clr := h10 }
  · intro h
    exact ⟨_, h.heel, _, h.leeway, _, h.rho, _, ⟨h.alpha, h.tws, h.speed, h.profile, h.exponent, h.refHeight, h.water,
      h.roughness⟩, _, ⟨h.ns, h.nc, h.kind, h.mode⟩, _, ⟨h.mainLuff, h.jibLuff, h.height, h.base, h.sheer, h.boom, h.rake,
      h.mast, h.sails⟩, _, ⟨h.mainTwist, h.mainGirths, h.mainChords, h.mainCamber, h.mainPosition⟩, _,
      ⟨h.jibTwist, h.jibGirths, h.jibChords, h.jibCamber, h.jibPosition⟩, _, h.reference, _, h.clr,
      rfl, rfl, rfl, rfl, rfl, rfl, rfl, rfl, rfl, rfl⟩

/-- **C107.** The run of a settings file without unknown names is the run of the configuration that has each given
value, and the documented default where none is given; there is no other configuration. -/
theorem C107_config (spline : SplineFn) (s : Settings) (h : NamesKnown s) :
    (∀ c, Configured s c → runSettings spline s = some (run spline c)) ∧
    (∀ out, runSettings spline s = some out → ∃ c, Configured s c ∧ out = run spline c) ∧
    (∀ c c', Configured s c → Configured s c' → c = c') := by
  rw [runSettings_known spline ((namesKnown_iff s).1 h)]
  refine ⟨fun c hc => ?_, fun out ho => ?_, fun c c' hc hc' => ?_⟩
  · rw [(config?_iff s c).2 hc]; rfl
  · obtain ⟨c, hc, rfl⟩ := Option.map_eq_some_iff.1 ho
    exact ⟨c, (config?_iff s c).1 hc, rfl⟩
  · have e := ((config?_iff s c).2 hc).symm.trans ((config?_iff s c').2 hc')
    exact Option.some.inj e

/-- A settings file that gives the rake only. -/
example : ∃ o, dataclassInit rigFields [("rake_deg", .num 95)] = .ok o ∧ o.lookup "rake_deg" = some (.num 95) ∧
    o.lookup "jib_luff" = some (.num 10) := by
  obtain ⟨o, h1, -, h2⟩ := (C107_group rigFields [("rake_deg", .num 95)] (by simp [rigFields])).2
    (by simp only [List.forall_mem_cons]; simp [rigFields])
  exact ⟨o, h1, (h2 "rake_deg" (.num 92) (by simp [rigFields])).1 _ rfl,
    (h2 "jib_luff" (.num 10) (by simp [rigFields])).2 rfl⟩

/-- Settings whose solver dictionary chooses a twist mode; the rest is empty. -/
example (spline : SplineFn) :
    runSettings spline ⟨[], [("LLT_twist", .text "average_const")], [], [], [], [], []⟩ = some ([], .error .typeError) :=
  C107_twist_mode spline _ (.text "average_const") (by simp)

/-- Giving the default rake in an empty settings file changes nothing. -/
example (spline : SplineFn) : runSettings spline ⟨[], [], [], [], [], [], [("rake_deg", .num 92)]⟩ =
    runSettings spline ⟨[], [], [], [], [], [], []⟩ :=
  (C107_default spline ⟨[], [], [], [], [], [], []⟩ "rake_deg" (.num 92)).2.2.2.2.2.2 (by simp [rigFields]) rfl

/-! ## C108 -/

/-- A constant row of data keeps its value. -/
theorem curveWithin_replicate {kind : String} {gi : List ℝ} (hne : gi ≠ [])
    (hk : kind = "linear" ∨ (kind = "spline" ∧ 4 ≤ gi.length))
    (hinc : ∀ i, i + 1 < gi.length → gi.getD i 0 < gi.getD (i + 1) 0) (x : ℝ) :
    CurveWithin kind gi (List.replicate gi.length x) x x := by
  rcases hk with rfl | ⟨rfl, hl⟩
  · refine curveWithin_linear hne (by simp) hinc ?_
    intro y hy
    rw [List.eq_of_mem_replicate hy]
    exact ⟨le_rfl, le_rfl⟩
  · rintro t v - - (⟨h, -⟩ | ⟨-, S, hS, rfl⟩)
    · exact absurd h (by decide)
    · have h := cubic_isSpline (m := gi.length - 1) (xs := fun i => gi.getD i 0)
        (ys := fun i => (List.replicate gi.length x).getD i 0) x 0 0 0 (by
          intro i hi
          have hi' : i < gi.length := by omega
          simp [List.getD_eq_getElem?_getD, hi'])
      have e := hS.unique (by omega) (fun i hi => hinc i (by omega)) h
      rw [e]
      constructor <;> simp

/-- A sail with the same camber and camber position in all its sections. -/
structure UniformSail (kind : String) (c : SailConf) (girths chords twist : List ℝ) (camber position : ℝ) : Prop where
  girths_eq : c.girths = some girths
  chords_eq : c.chords = some chords
  twist_eq : c.twist = some twist
  camber_eq : c.camber = some (List.replicate girths.length camber)
  distance_eq : c.distance = some (List.replicate girths.length position)
  nonempty : girths ≠ []
  kind_ok : kind = "linear" ∨ (kind = "spline" ∧ 4 ≤ girths.length)
  increasing : ∀ i, i + 1 < girths.length → girths.getD i 0 < girths.getD (i + 1) 0
  chords_len : chords.length = girths.length
  twist_len : twist.length = girths.length
  camber_range : 0 ≤ camber ∧ camber ≤ 0.3
  position_range : 0 < position ∧ position ≤ 0.9

/-- **C108.** Sails with the same camber and camber position in all sections are good sail data, with linear as
well as with spline interpolation, whatever their chords and twists. -/
theorem C108_uniform {kind : String} {c : SailConf} {girths chords twist : List ℝ} {camber position : ℝ}
    (h : UniformSail kind c girths chords twist camber position) :
    GoodSail kind c girths chords twist (List.replicate girths.length camber)
      (List.replicate girths.length position) where
  girths_eq := h.girths_eq
  chords_eq := h.chords_eq
  twist_eq := h.twist_eq
  camber_eq := h.camber_eq
  distance_eq := h.distance_eq
  nonempty := h.nonempty
  kind_ok := h.kind_ok
  increasing := h.increasing
  chords_len := h.chords_len
  twist_len := h.twist_len
  camber_len := by simp
  distance_len := by simp
  camber_range := fun x v h0 h1 hv => by
    obtain ⟨a, b⟩ := curveWithin_replicate h.nonempty h.kind_ok h.increasing camber x v h0 h1 hv
    exact ⟨h.camber_range.1.trans a, b.trans h.camber_range.2⟩
  distance_range := ⟨position, h.position_range.1, fun x v h0 h1 hv => by
    obtain ⟨a, b⟩ := curveWithin_replicate h.nonempty h.kind_ok h.increasing position x v h0 h1 hv
    exact ⟨a, b.trans h.position_range.2⟩⟩

/-- The configuration of `variables.py`, with the given numbers of panels. -/
noncomputable def shippedConfig (ns nc : ℕ) : Config where
  heelDeg := 10
  leewayDeg := 5
  rho := 1.225
  wind := ⟨50, 4.63, 4.63, "exponential", some 0.1428, some 10, some 0, some 0.05⟩
  solver := ⟨ns, nc, "spline", "real_twist"⟩
  rig := ⟨some 12.4, some 10, some 11.5, some 3.9, 1.2, 1.3, 92, 0.15, "jib_and_main"⟩
  main := ⟨some (shippedMainGirths.map fun x => 12 * x + 5), some shippedMainGirths,
    some [4, 3.82, 3.64, 3.2, 2.64, 2.32, 2], some (List.replicate 7 (5 * 0.01)), some (List.replicate 7 0.5)⟩
  jib := ⟨some (shippedJibGirths.map fun x => 15 * x + 7), some shippedJibGirths,
    some [3.8, 2.98, 2.15, 1.33, 0.5], some (List.replicate 5 (5 * 0.01)), some (List.replicate 5 0.5)⟩
  vRef := ⟨0, 0, 0⟩
  clrUpright := ⟨0, 0, -1⟩

theorem shipped_configured (ns nc : ℕ) : Configured (shippedVariables ns nc) (shippedConfig ns nc) := by
  constructor <;>
    simp [given, List.lookup, optNum, optArr, shippedVariables, shippedConfig]

theorem shipped_known (ns nc : ℕ) : NamesKnown (shippedVariables ns nc) := by
  simp only [NamesKnown, settingNames, shippedVariables, List.forall_mem_cons]
  simp

/-- The configuration of `examples/rectangle_variables.py`: a flat rectangular sail on the water level. -/
noncomputable def rectangleConfig : Config where
  heelDeg := 0
  leewayDeg := 0
  rho := 1.225
  wind := ⟨1, 1, 0, "flat", some 0, some 10, some 0, some 0.05⟩
  solver := ⟨16, 8, "spline", "real_twist"⟩
  rig := ⟨some 5, some 10, some 11.5, some 3.9, 0, 0, 90, 0, "main"⟩
  main := ⟨some (shippedMainGirths.map fun x => -10 + 0 * x), some shippedMainGirths,
    some (List.replicate 7 1), some (List.replicate 7 (0 * 0.01)), some (List.replicate 7 0.5)⟩
  jib := ⟨some (shippedJibGirths.map fun x => 0 * (10 + 5) + 0 * 15 * x), some shippedJibGirths,
    some [3.8, 2.98, 2.15, 1.33, 0.5], some (List.replicate 5 (0 * 0.01)), some (List.replicate 5 0.5)⟩
  vRef := ⟨0, 0, 0⟩
  clrUpright := ⟨0, 0, -1⟩

theorem rectangle_configured : Configured shippedRectangle rectangleConfig := by
  constructor <;>
    simp [given, List.lookup, optNum, optArr, shippedRectangle, rectangleConfig]

theorem rectangle_known : NamesKnown shippedRectangle := by
  simp only [NamesKnown, settingNames, shippedRectangle, List.forall_mem_cons]
  simp

/-- The configuration of `examples/sweep_variables.py`: a flat sail swept by 45 degrees. -/
noncomputable def sweepConfig : Config where
  heelDeg := 0
  leewayDeg := 0
  rho := 1
  wind := ⟨4, 1, 0, "flat", some 0, some 10, some 0, some 0.05⟩
  solver := ⟨4, 1, "linear", "real_twist"⟩
  rig := ⟨some (0.5 / Real.cos (deg2rad 45)), some 10, some 11.5, some 3.9, 0, 0, 90 + 45, 0, "main"⟩
  main := ⟨some (shippedMainGirths.map fun x => 0 * x), some shippedMainGirths,
    some (List.replicate 7 0.2), some (List.replicate 7 (0 * 0.01)), some (List.replicate 7 0.5)⟩
  jib := ⟨some (shippedJibGirths.map fun x => 0 * (10 + 5) + 0 * 15 * x), some shippedJibGirths,
    some (List.map (0 * ·) [3.8, 2.98, 2.15, 1.33, 0.5]), some (List.replicate 5 (0 * 0.01)), some (List.replicate 5 0.5)⟩
  vRef := ⟨0, 0, 0⟩
  clrUpright := ⟨0, 0, -1⟩

theorem sweep_configured : Configured shippedSweep sweepConfig := by
  constructor <;>
    simp [given, List.lookup, optNum, optArr, shippedSweep, sweepConfig]

theorem sweep_known : NamesKnown shippedSweep := by
  simp only [NamesKnown, settingNames, shippedSweep, List.forall_mem_cons]
  simp

/-- The configuration of a settings file with empty dictionaries: that of `variables.py`, but with 4 by 4 panels, the
default twists and a flat jib. -/
noncomputable def emptyConfig : Config :=
  { shippedConfig 4 4 with
    main := { (shippedConfig 4 4).main with twist := none }
    jib := { (shippedConfig 4 4).jib with twist := none, camber := some (List.replicate 5 (0 * 0.01)) } }

theorem empty_configured : Configured ⟨[], [], [], [], [], [], []⟩ emptyConfig := by
  constructor <;>
    simp [given, List.lookup, optNum, optArr, emptyConfig, shippedConfig, shippedMainGirths, shippedJibGirths]

theorem empty_known : NamesKnown ⟨[], [], [], [], [], [], []⟩ := by
  simp only [NamesKnown, settingNames, List.forall_mem_cons]
  simp

theorem sin_deg_pos {x : ℝ} (h0 : 0 < x) (h1 : x < 180) : 0 < Real.sin (deg2rad x) := by
  have := Real.pi_pos
  apply Real.sin_pos_of_pos_of_lt_pi
  · unfold deg2rad; positivity
  · unfold deg2rad
    calc x * (Real.pi / 180) < 180 * (Real.pi / 180) := by gcongr
      _ = Real.pi := by ring

theorem cos_deg_pos {x : ℝ} (h0 : -90 < x) (h1 : x < 90) : 0 < Real.cos (deg2rad x) := by
  have hp : 0 < Real.pi / 180 := by have := Real.pi_pos; positivity
  apply Real.cos_pos_of_mem_Ioo
  unfold deg2rad
  constructor
  · calc -(Real.pi / 2) = -90 * (Real.pi / 180) := by ring
      _ < x * (Real.pi / 180) := by gcongr
  · calc x * (Real.pi / 180) < 90 * (Real.pi / 180) := by gcongr
      _ = Real.pi / 2 := by ring

/-- **C108.** A configuration with uniform sails is well-formed when the numbers of the rig make sense. -/
theorem C108_wellformed (c : Config) (hm : c.solver.lltTwist ∈ twistModes) (hns : 1 ≤ c.solver.ns) (hnc : 1 ≤ c.solver.nc)
    (hheel : -90 < c.heelDeg ∧ c.heelDeg < 90) (hs : c.rig.sailsDef ∈ ["jib", "main", "jib_and_main"])
    (hrake : 0 < c.rig.rakeDeg ∧ c.rig.rakeDeg < 180)
    (hbase : ∃ b, c.rig.base = some b ∧ 0 < b)
    (hsheer : 0 ≤ c.rig.sheer) (hboom : 0 ≤ c.rig.boom)
    (hwater : c.heelDeg = 0 ∨ 0 < c.rig.sheer)
    (hjib : c.rig.sailsDef ≠ "main" → (∃ l, c.rig.jibLuff = some l ∧ 0 < l) ∧ (∃ t, c.rig.height = some t ∧ 0 < t))
    (hmain : c.rig.sailsDef ≠ "jib" → ∃ l, c.rig.mainLuff = some l ∧ 0 < l)
    (hj : ∃ gi ch tw ca po, UniformSail c.solver.interpolation (jibData c) gi ch tw ca po)
    (hma : ∃ gi ch tw ca po, UniformSail c.solver.interpolation (mainData c) gi ch tw ca po)
    (hw : ¬ WindIncomplete c.wind) : WellFormed c := by
  obtain ⟨gj, cj, tj, aj, pj, hj⟩ := hj
  obtain ⟨gm, cm, tm, am, pm, hma⟩ := hma
  have hrk := sin_deg_pos hrake.1 hrake.2
  have hs0 : 0 < c.rig.sheer ∨ c.rig.sheer = 0 ∧ Real.sin (deg2rad c.heelDeg) = 0 := by
    rcases hsheer.lt_or_eq with h | h
    · exact Or.inl h
    · refine Or.inr ⟨h.symm, ?_⟩
      rcases hwater with e | e
      · simp [e, deg2rad]
      · exact absurd h e.ne
  refine ⟨hm, hns, hnc, (cos_deg_pos hheel.1 hheel.2).ne', hs, ?_, ?_, ?_, ?_, ?_, hw⟩
  · obtain ⟨b, e, -⟩ := hbase
    simp [e]
  · have := hma.girths_eq
    exact Or.inr (by simp only [mainData, withDefaultTwist] at this; simp [this])
  · have := hj.girths_eq
    exact Or.inr (by simp only [jibData, withDefaultTwist] at this; simp [this])
  · intro h
    obtain ⟨h1, h2⟩ := hjib h
    exact ⟨⟨h1, hbase, h2, hs0, hrk⟩, _, _, _, _, _, C108_uniform hj⟩
  · intro h
    refine ⟨⟨hmain h, ?_, hrk⟩, _, _, _, _, _, C108_uniform hma⟩
    rcases hs0 with h0 | ⟨h0, h1⟩
    · exact Or.inl (by linarith)
    · rcases hboom.lt_or_eq with hb | hb
      · exact Or.inl (by linarith)
      · exact Or.inr ⟨by rw [h0, ← hb, add_zero], h1⟩

theorem shippedMain_inc : ∀ i, i + 1 < shippedMainGirths.length →
    shippedMainGirths.getD i 0 < shippedMainGirths.getD (i + 1) 0 := by
  intro i hi
  have hi' : i < 6 := by simp only [shippedMainGirths, List.length_cons, List.length_nil] at hi; omega
  clear hi
  interval_cases i <;> norm_num [shippedMainGirths]

theorem shippedJib_inc : ∀ i, i + 1 < shippedJibGirths.length →
    shippedJibGirths.getD i 0 < shippedJibGirths.getD (i + 1) 0 := by
  intro i hi
  have hi' : i < 4 := by simp only [shippedJibGirths, List.length_cons, List.length_nil] at hi; omega
  clear hi
  interval_cases i <;> norm_num [shippedJibGirths]

/-- A sail on the girths of the shipped main sails. -/
theorem uniform_main {kind : String} (hk : kind = "linear" ∨ kind = "spline") {c : SailConf} {chords twist : List ℝ} {camber : ℝ}
    (h : c = ⟨some twist, some shippedMainGirths, some chords, some (List.replicate 7 camber), some (List.replicate 7 0.5)⟩)
    (hc : chords.length = 7) (ht : twist.length = 7) (h0 : 0 ≤ camber) (h1 : camber ≤ 0.3) :
    UniformSail kind c shippedMainGirths chords twist camber 0.5 := by
  subst h
  exact ⟨rfl, rfl, rfl, rfl, rfl, by simp [shippedMainGirths],
    hk.imp_right fun e => ⟨e, by simp [shippedMainGirths]⟩, shippedMain_inc, by simp [shippedMainGirths, hc],
    by simp [shippedMainGirths, ht], ⟨h0, h1⟩, by norm_num, by norm_num⟩

/-- A sail on the girths of the shipped jibs. -/
theorem uniform_jib {kind : String} (hk : kind = "linear" ∨ kind = "spline") {c : SailConf} {chords twist : List ℝ} {camber : ℝ}
    (h : c = ⟨some twist, some shippedJibGirths, some chords, some (List.replicate 5 camber), some (List.replicate 5 0.5)⟩)
    (hc : chords.length = 5) (ht : twist.length = 5) (h0 : 0 ≤ camber) (h1 : camber ≤ 0.3) :
    UniformSail kind c shippedJibGirths chords twist camber 0.5 := by
  subst h
  exact ⟨rfl, rfl, rfl, rfl, rfl, by simp [shippedJibGirths],
    hk.imp_right fun e => ⟨e, by simp [shippedJibGirths]⟩, shippedJib_inc, by simp [shippedJibGirths, hc],
    by simp [shippedJibGirths, ht], ⟨h0, h1⟩, by norm_num, by norm_num⟩

theorem shipped_wellFormed {ns nc : ℕ} (h1 : 1 ≤ ns) (h2 : 1 ≤ nc) : WellFormed (shippedConfig ns nc) :=
  C108_wellformed _ (by simp [shippedConfig, twistModes]) h1 h2 (by norm_num [shippedConfig])
    (by simp [shippedConfig]) (by norm_num [shippedConfig]) ⟨3.9, rfl, by norm_num⟩ (by norm_num [shippedConfig])
    (by norm_num [shippedConfig]) (Or.inr (by norm_num [shippedConfig]))
    (fun _ => ⟨⟨10, rfl, by norm_num⟩, ⟨11.5, rfl, by norm_num⟩⟩) (fun _ => ⟨12.4, rfl, by norm_num⟩)
    ⟨_, _, _, _, _, uniform_jib (Or.inr rfl) rfl rfl (by simp [shippedJibGirths]) (by norm_num) (by norm_num)⟩
    ⟨_, _, _, _, _, uniform_main (Or.inr rfl) rfl rfl (by simp [shippedMainGirths]) (by norm_num) (by norm_num)⟩
    (by simp [WindIncomplete, shippedConfig])

theorem empty_wellFormed : WellFormed emptyConfig :=
  C108_wellformed _ (by simp [emptyConfig, shippedConfig, twistModes]) (by simp [emptyConfig, shippedConfig])
    (by simp [emptyConfig, shippedConfig]) (by norm_num [emptyConfig, shippedConfig])
    (by simp [emptyConfig, shippedConfig]) (by norm_num [emptyConfig, shippedConfig]) ⟨3.9, rfl, by norm_num⟩
    (by norm_num [emptyConfig, shippedConfig])
    (by norm_num [emptyConfig, shippedConfig]) (Or.inr (by norm_num [emptyConfig, shippedConfig]))
    (fun _ => ⟨⟨10, rfl, by norm_num⟩, ⟨11.5, rfl, by norm_num⟩⟩) (fun _ => ⟨12.4, rfl, by norm_num⟩)
    ⟨_, _, _, _, _, uniform_jib (Or.inr rfl) rfl rfl (by simp [shippedJibGirths]) (by norm_num) (by norm_num)⟩
    ⟨_, _, _, _, _, uniform_main (Or.inr rfl) rfl rfl (by simp [shippedMainGirths]) (by norm_num) (by norm_num)⟩
    (by simp [WindIncomplete, emptyConfig, shippedConfig])

theorem rectangle_wellFormed : WellFormed rectangleConfig :=
  C108_wellformed _ (by simp [rectangleConfig, twistModes]) (by simp [rectangleConfig])
    (by simp [rectangleConfig]) (by norm_num [rectangleConfig])
    (by simp [rectangleConfig]) (by norm_num [rectangleConfig]) ⟨3.9, rfl, by norm_num⟩
    (by norm_num [rectangleConfig]) (by norm_num [rectangleConfig]) (Or.inl rfl)
    (fun h => absurd rfl h) (fun _ => ⟨5, rfl, by norm_num⟩)
    ⟨_, _, _, _, _, uniform_jib (Or.inr rfl) rfl rfl (by simp [shippedJibGirths]) (by norm_num) (by norm_num)⟩
    ⟨_, _, _, _, _, uniform_main (Or.inr rfl) rfl rfl (by simp [shippedMainGirths]) (by norm_num) (by norm_num)⟩
    (by simp [WindIncomplete, rectangleConfig])

theorem sweep_wellFormed : WellFormed sweepConfig :=
  C108_wellformed _ (by simp [sweepConfig, twistModes]) (by simp [sweepConfig])
    (by simp [sweepConfig]) (by norm_num [sweepConfig])
    (by simp [sweepConfig]) (by norm_num [sweepConfig]) ⟨3.9, rfl, by norm_num⟩
    (by norm_num [sweepConfig]) (by norm_num [sweepConfig]) (Or.inl rfl)
    (fun h => absurd rfl h) (fun _ => ⟨_, rfl, div_pos (by norm_num) (cos_deg_pos (by norm_num) (by norm_num))⟩)
    ⟨_, _, _, _, _, uniform_jib (Or.inl rfl) rfl rfl (by simp [shippedJibGirths]) (by norm_num) (by norm_num)⟩
    ⟨_, _, _, _, _, uniform_main (Or.inl rfl) rfl rfl (by simp [shippedMainGirths]) (by norm_num) (by norm_num)⟩
    (by simp [WindIncomplete, sweepConfig])

/-- The settings files that come with the program, `variables.py` with any numbers of panels, and the settings file
with empty dictionaries; each with its number of panels (mirror images included). -/
inductive ShippedSettings : Settings → ℕ → Prop
  | standard (ns nc : ℕ) (h1 : 1 ≤ ns) (h2 : 1 ≤ nc) : ShippedSettings (shippedVariables ns nc) (4 * (nc * ns))
  | rectangle : ShippedSettings shippedRectangle 256
  | sweep : ShippedSettings shippedSweep 8
  | empty : ShippedSettings ⟨[], [], [], [], [], [], []⟩ 64

/-- **C108.** A run with a shipped settings file builds all its panels; it then writes every output, unless the
linear equations cannot be solved, in which case it writes nothing. -/
theorem C108_shipped (s : Settings) (n : ℕ) (hs : ShippedSettings s n) :
    ∃ c set, Configured s c ∧ runSettings fitpackSpline s = some (run fitpackSpline c) ∧ WellFormed c ∧
      sailSetOf fitpackSpline c.solver c.rig (some (mainData c)) (some (jibData c))
        ⟨c.heelDeg, c.leewayDeg, c.vRef⟩ = .ok set ∧ set.panels.length = n ∧
      ((∃ r, vlm (c.vlmInput set (windGetProfile c.wind)) = .ok r) →
        (run fitpackSpline c).2 = .ok () ∧ (run fitpackSpline c).1.map outputKind = outputOrder) ∧
      (∀ e, vlm (c.vlmInput set (windGetProfile c.wind)) = .error e → run fitpackSpline c = ([], .error e)) := by
  have key : ∀ c : Config, WellFormed c → ReferenceAboveWater c.wind →
      Configured s c → NamesKnown s →
      (∀ set, (c.rig.sailsDef = "main" → set.panels.length = 2 * (c.solver.nc * c.solver.ns)) →
        (c.rig.sailsDef = "jib_and_main" → set.panels.length = 4 * (c.solver.nc * c.solver.ns)) →
        (set : SailSet).panels.length = n) →
      ∃ c set, Configured s c ∧ runSettings fitpackSpline s = some (run fitpackSpline c) ∧ WellFormed c ∧
      sailSetOf fitpackSpline c.solver c.rig (some (mainData c)) (some (jibData c))
        ⟨c.heelDeg, c.leewayDeg, c.vRef⟩ = .ok set ∧ set.panels.length = n ∧
      ((∃ r, vlm (c.vlmInput set (windGetProfile c.wind)) = .ok r) →
        (run fitpackSpline c).2 = .ok () ∧ (run fitpackSpline c).1.map outputKind = outputOrder) ∧
      (∀ e, vlm (c.vlmInput set (windGetProfile c.wind)) = .error e → run fitpackSpline c = ([], .error e)) := by
    intro c hc hw hcf hk hn
    obtain ⟨set, h1, h2, h3⟩ := C72_wellformed_partial c hc hw
    obtain ⟨hull, set', hg, g1, g2, g3⟩ := C77_geometry c hc
    have : set' = set := by
      have e1 : mainSailInit c.main = .ok (mainData c) := withTwist_default hc.main_twist 12 5
      have e2 : jibSailInit c.jib = .ok (jibData c) := withTwist_default hc.jib_twist 15 7
      have e3 := C59_csys_constructor_total c.heelDeg c.leewayDeg c.vRef
      have e4 := windPostInit_ok hc.wind
      have e5 := wellFormed_validation hc
      obtain ⟨base, e6⟩ := Option.ne_none_iff_exists'.1 hc.base
      unfold prepareGeometry at hg
      rw [e1, e2, e3] at hg
      simp only [bind, Except.bind, e4, e5, h1, e6, need] at hg
      split at hg
      · cases hg
      · cases hg; rfl
    subst this
    exact ⟨c, set', hcf, (C107_config _ s hk).1 c hcf, hc, h1, hn _ (fun e => (g2 e).1) (fun e => (g3 e).1), h2, h3⟩
  cases hs with
  | standard ns nc h1 h2 =>
    refine key (shippedConfig ns nc) (shipped_wellFormed h1 h2) ?_ (shipped_configured _ _) (shipped_known _ _) fun set _ h => h rfl
    intro _ ref wl h1 h2; cases h1; cases h2; norm_num
  | rectangle =>
    refine key rectangleConfig rectangle_wellFormed ?_ rectangle_configured rectangle_known fun set h _ => h rfl
    intro h; exact absurd h (by simp [rectangleConfig])
  | sweep =>
    refine key sweepConfig sweep_wellFormed ?_ sweep_configured sweep_known fun set h _ => h rfl
    intro h; exact absurd h (by simp [sweepConfig])
  | empty =>
    refine key emptyConfig empty_wellFormed ?_ empty_configured empty_known fun set _ h => h rfl
    intro _ ref wl h1 h2; cases h1; cases h2; norm_num

/-- `variables.py` and `examples/variables.py`. -/
example : ShippedSettings (shippedVariables 10 5) 200 ∧ ShippedSettings (shippedVariables 15 10) 600 :=
  ⟨.standard 10 5 (by norm_num) (by norm_num), .standard 15 10 (by norm_num) (by norm_num)⟩

end PySailing.Props
