import Verif.Lemmas.Excel
import Verif.Props.Workbook

/-!
# C83, C84: the Excel file of a run
-/

namespace PySailing.Props

open Spec

/-! ## Tables of a run -/

theorem inviscidFlow_keys {sails : List SailGeom} {csys : Csys} {a : FlowArrays} {res : FlowResults}
    (h : inviscidFlow sails csys a = .ok res) : KeysIn res.dyn ((sails.map SailGeom.name).flatMap sailKeys) := by
  unfold inviscidFlow at h
  simp only [bind, Except.bind] at h
  split at h
  · cases h
  split at h
  · cases h
  split at h
  · cases h
  rename_i dyn hdyn
  split at h
  · cases h
  injection h with h
  subst h
  have := KeysIn.flowSails hdyn KeysIn.empty
  rw [List.nil_append] at this
  rwa [List.flatMap_map]

/-- The sheet `Integrals` of a run has the rows of one or two sails. -/
theorem run_keys {spline : SplineFn} {c : Config} {t : SavedResults} (h : .workbook (some t) ∈ (run spline c).1) :
    ∃ names ∈ [["jib"], ["main_sail"], ["jib", "main_sail"]], KeysIn t.integrals (integralKeys names) := by
  obtain ⟨p, hp, hs⟩ := run_workbook h
  obtain ⟨hi, -⟩ := saveResults_integrals hs
  obtain ⟨main, jib, base, -, -, -, -, -, hset, -, -, -, res, hres, hflow⟩ := prepare_ok hp
  have hk := inviscidFlow_keys hres
  have hsh := (sailSetOf_shape hset).1
  refine ⟨p.set.sails.map SailGeom.name, ?_, ?_⟩
  · rcases hsh with h | h | h <;> rw [h.2] <;> simp
  · rw [hi, hflow]
    exact keysIn_toDfIntegral hk

/-- The frame of a heading, as a computation. -/
theorem colourOf_exists (s : String) (h : ¬ (mentions "COG" s = true ∧ mentions "COW" s = true)) :
    ∃ f, ColourOf s f ∧ (f = .general ↔ mentions "COG" s = false ∧ mentions "COW" s = false) := by
  by_cases h1 : mentions "COG" s = true
  · have h2 : ¬ mentions "COW" s = true := fun h2 => h ⟨h1, h2⟩
    exact ⟨.cog, .cog (mentions_iff.1 h1) (fun hc => h2 (mentions_iff.2 hc)), by simp [h1]⟩
  · by_cases h2 : mentions "COW" s = true
    · exact ⟨.cow, .cow (mentions_iff.1 h2) (fun hc => h1 (mentions_iff.2 hc)), by simp [h2]⟩
    · exact ⟨.general, .none (fun hc => h1 (mentions_iff.2 hc)) (fun hc => h2 (mentions_iff.2 hc)), by
        simp at h1 h2; simp [h1, h2]⟩

theorem colourOf_unique {s : String} {f g : CellFormat} (hf : ColourOf s f) (hg : ColourOf s g) : f = g := by
  cases hf <;> cases hg <;> first | rfl | contradiction

theorem integralKeys_tagged : ∀ names ∈ [["jib"], ["main_sail"], ["jib", "main_sail"]],
    ∀ k ∈ integralKeys names, (mentions "COG" k != mentions "COW" k) = true := by
  decide +kernel

theorem concatFrames_rows {ts : List Frame} {i : ℕ} {col : String × List Cell}
    (h : (concatFrames ts)[i]? = some col) :
    (concatFrames ts).rows = col.2.length ∧ ∃ old, (col.1, old) ∈ ts.flatten := by
  have key : ∀ c ∈ concatFrames ts, c.2.length = ((ts.flatten.map fun c => c.2.length).foldl max 0) ∧
      ∃ old, (c.1, old) ∈ ts.flatten := by
    intro c hc
    simp only [concatFrames, List.mem_map] at hc
    obtain ⟨a, ha, rfl⟩ := hc
    refine ⟨?_, a.2, ha⟩
    have hle : a.2.length ≤ (ts.flatten.map fun c => c.2.length).foldl max 0 := by
      have : ∀ (l : List ℕ) (m x : ℕ), x ∈ l ∨ x ≤ m → x ≤ l.foldl max m := by
        intro l
        induction l with
        | nil => intro m x hx; simpa using hx
        | cons b l ih =>
          intro m x hx
          rw [List.foldl_cons]
          apply ih
          rcases hx with hx | hx
          · rcases List.mem_cons.1 hx with rfl | hx
            · right; exact le_max_right _ _
            · left; exact hx
          · right; exact le_trans hx (le_max_left _ _)
      exact this _ 0 _ (.inl (List.mem_map.2 ⟨a, ha, rfl⟩))
    simp only [List.length_append, List.length_replicate]
    omega
  have hm := List.mem_of_getElem? h
  refine ⟨?_, (key col hm).2⟩
  cases hc : concatFrames ts with
  | nil => rw [hc] at hm; cases hm
  | cons c l =>
    show c.2.length = _
    rw [(key c (by rw [hc]; simp)).1, (key col hm).1]

theorem saveResults_components {r : Vlm} {csys csys0 : Csys} {o : FlowObject} {sails : List SailGeom}
    {t : SavedResults} (h : saveResults r csys o sails csys0 = .ok t) :
    ∃ ts, t.components = concatFrames ts ∧ ∀ c ∈ ts.flatten,
      (mentions "COG" c.1 && mentions "COW" c.1) = false ∧ c.1 ≠ "Camber_estimate" := by
  unfold saveResults at h
  simp only [bind, Except.bind] at h
  split at h
  · cases h
  split at h
  · cases h
  split at h
  · cases h
  split at h
  · cases h
  injection h with h
  subst h
  refine ⟨_, rfl, ?_⟩
  intro c hc
  have hn : c.1 ∈ ["Circulation_magnitude", "V_induced_COG.x", "V_induced_COG.y", "V_induced_COG.z",
      "V_induced_length", "V_app_fs_COG.x", "V_app_fs_COG.y", "V_app_fs_COG.z", "V_app_fs_length",
      "AWA_fs_COG_deg", "AWA_fs_COW_deg", "Pressure", "F_sails_COG.x", "F_sails_COG.y", "F_sails_COG.z",
      "M_sails_COG.x", "M_sails_COG.y", "M_sails_COG.z", "F_sails_COW.x", "F_sails_COW.y", "F_sails_COW.z",
      "cp_points_COG.x", "cp_points_COG.y", "cp_points_COG.z", "TWS_COG.x", "TWS_COG.y", "TWS_COG.z",
      "TWS_length", "V_app_infs_COG.x", "V_app_infs_COG.y", "V_app_infs_COG.z", "V_app_infs_length",
      "AWA_infs_COG_deg", "AWA_infs_COW_deg", "cp_points_upright.z", "girths", "sail_name"] := by
    have hm : c.1 ∈ (List.flatten _).map Prod.fst := List.mem_map.2 ⟨c, hc, rfl⟩
    simp only [FlowResults.toDfFull, Inlet.toDfFull, Frame.firstHalf, vecColumns, List.flatten_cons,
      List.flatten_nil, List.map_append, List.map_cons, List.map_nil, List.append_nil, List.cons_append,
      List.nil_append, List.map_map, Function.comp_def] at hm
    exact hm
  have : ∀ n ∈ ["Circulation_magnitude", "V_induced_COG.x", "V_induced_COG.y", "V_induced_COG.z",
      "V_induced_length", "V_app_fs_COG.x", "V_app_fs_COG.y", "V_app_fs_COG.z", "V_app_fs_length",
      "AWA_fs_COG_deg", "AWA_fs_COW_deg", "Pressure", "F_sails_COG.x", "F_sails_COG.y", "F_sails_COG.z",
      "M_sails_COG.x", "M_sails_COG.y", "M_sails_COG.z", "F_sails_COW.x", "F_sails_COW.y", "F_sails_COW.z",
      "cp_points_COG.x", "cp_points_COG.y", "cp_points_COG.z", "TWS_COG.x", "TWS_COG.y", "TWS_COG.z",
      "TWS_length", "V_app_infs_COG.x", "V_app_infs_COG.y", "V_app_infs_COG.z", "V_app_infs_length",
      "AWA_infs_COG_deg", "AWA_infs_COW_deg", "cp_points_upright.z", "girths", "sail_name"],
      (mentions "COG" n && mentions "COW" n) = false ∧ n ≠ "Camber_estimate" := by decide +kernel
  exact this c.1 hn

/-! ## C83 -/

/-- The rows of the sheet `Integrals` are determined: there is exactly one table, sorted by name, with the
reported quantities. -/
theorem C83_table (spline : SplineFn) (c : Config) (t : SavedResults) (h : .workbook (some t) ∈ (run spline c).1) :
    ∃! rows, IsDictTable t.integrals rows := by
  obtain ⟨names, -, hk⟩ := run_keys h
  obtain ⟨rows, hr⟩ := isDictTable_exists _ hk
  exact ⟨rows, hr, fun r hr' => isDictTable_unique hr' hr⟩

/-- **C83.** In the Excel file of every run, all data cells of a column of the sheet `Components` have the
colour that belongs to its heading. -/
theorem C83_components (spline : SplineFn) (c : Config) (t : SavedResults) (h : .workbook (some t) ∈ (run spline c).1)
    (rows : List (String × ℝ)) {i : ℕ} {col : String × List Cell} (hi : t.components[i]? = some col) :
    (workbook t rows).components.content 0 i = .text col.1 ∧
    ∃ f, ColourOf col.1 f ∧ ∀ r < col.2.length, (workbook t rows).components.shown (r + 1) i = f := by
  obtain ⟨p, hp, hs⟩ := run_workbook h
  obtain ⟨ts, ht, hn⟩ := saveResults_components hs
  rw [ht] at hi
  obtain ⟨hr, old, hold⟩ := concatFrames_rows hi
  obtain ⟨h1, h2⟩ := hn _ hold
  obtain ⟨f, hf, -⟩ := colourOf_exists col.1 (by simpa using h1)
  refine ⟨?_, f, hf, fun r hrl => ?_⟩
  · show (match t.components[i]? with | none => _ | some c => _) = _
    rw [ht, hi]
  · show (componentsSheet t.components).shown (r + 1) i = f
    rw [ht]
    exact components_shown hi (by rw [hr]; exact hrl) h2 hf

/-- **C83.** In the Excel file of every run, both cells of every row of the sheet `Integrals` have the
colour of the coordinate system in which the quantity is given. -/
theorem C83_integrals (spline : SplineFn) (c : Config) (t : SavedResults) (h : .workbook (some t) ∈ (run spline c).1)
    (rows : List (String × ℝ)) (hrows : IsDictTable t.integrals rows) {i : ℕ} {q : String × ℝ}
    (hi : rows[i]? = some q) :
    ∃ f, ColourOf q.1 f ∧ f ≠ .general ∧ (workbook t rows).integrals.shown (i + 1) 0 = f ∧
      (workbook t rows).integrals.shown (i + 1) 1 = f := by
  obtain ⟨names, hn, hk⟩ := run_keys h
  have hq : t.integrals q.1 = some q.2 := (hrows.2 q.1 q.2).1 (List.mem_of_getElem? hi)
  have htag := integralKeys_tagged names hn q.1 (hk q.1 (by rw [hq]; simp))
  obtain ⟨f, hf, hg⟩ := colourOf_exists q.1 (by
    rintro ⟨a, b⟩; rw [a, b] at htag; simp at htag)
  have hg' : f ≠ .general := fun he => by
    obtain ⟨a, b⟩ := hg.1 he
    rw [a, b] at htag; simp at htag
  have hblank : ∃ ch ∈ q.1.toList, ch ≠ ' ' := by
    cases hf with
    | cog h1 _ => exact contains_nonblank h1 (by decide)
    | cow h1 _ => exact contains_nonblank h1 (by decide)
    | none => exact absurd rfl hg'
  exact ⟨f, hf, hg', summary_shown hi hi le_rfl (by norm_num) hblank hf hg' (fun k h1 h2 => by omega),
    summary_shown hi hi le_rfl (by norm_num) hblank hf hg' (fun k h1 h2 => by omega)⟩

/-- **C83**, partial: in the sheet `IC_at_reference_height` both cells of a row have the colour of the
coordinate system named in it.  Missing: rows without a coordinate system, see `C83_refuted`. -/
theorem C83_inlet_partial (t : SavedResults) (rows : List (String × ℝ)) {i : ℕ} {q : String × ℝ}
    (hi : (sortRows t.inlet)[i]? = some q) {f : CellFormat} (hf : ColourOf q.1 f) (hg : f ≠ .general) :
    (workbook t rows).inlet.shown (i + 1) 0 = f ∧ (workbook t rows).inlet.shown (i + 1) 1 = f := by
  have hblank : ∃ ch ∈ q.1.toList, ch ≠ ' ' := by
    cases hf with
    | cog h1 _ => exact contains_nonblank h1 (by decide)
    | cow h1 _ => exact contains_nonblank h1 (by decide)
    | none => exact absurd rfl hg
  exact ⟨summary_shown hi hi le_rfl (by norm_num) hblank hf hg (fun k h1 h2 => by omega),
    summary_shown hi hi le_rfl (by norm_num) hblank hf hg (fun k h1 h2 => by omega)⟩

theorem sorted_reference {w : WindObj} {csys : Csys} {c ref wl : Option ℝ} (hw : w.profile = .exp c ref wl)
    {l : List (String × ℝ)} (h : windIntegral w csys = .ok l) :
    (sortRows l).map Prod.fst = ["AWA_infs_at_reference_height_COG_deg", "AWA_infs_at_reference_height_COW_deg",
      "Reference_measurement_height", "Reference_water_level_for_wind_profile", "TWS_at_reference_height_COG.x",
      "TWS_at_reference_height_COG.y", "TWS_at_reference_height_COG.z", "TWS_length_at_reference_height",
      "V_app_infs_at_reference_height_COG.x", "V_app_infs_at_reference_height_COG.y",
      "V_app_infs_at_reference_height_COG.z", "V_app_infs_length_at_reference_height_COG"] := by
  unfold windIntegral at h
  rw [hw] at h
  dsimp only at h
  split at h
  · simp only [bind, Except.bind] at h
    split at h
    · cases h
    injection h with h
    rw [← h]
    have hsplit : ∀ (a b c d e f g h i j k l : String × ℝ), [a, b, c, d, e, f, g, h, i, j, k, l].Perm
        ([k, l] ++ [a, b, c, d, e, f, g, h, i, j]) := fun a b c d e f g h i j k l =>
      (List.perm_append_comm (l₁ := [a, b, c, d, e, f, g, h, i, j]) (l₂ := [k, l]))
    rw [sortRows_eq (hsplit _ _ _ _ _ _ _ _ _ _ _ _).symm]
    · rfl
    · simp only [List.cons_append, List.nil_append, List.map_cons, List.map_nil]
      decide +kernel
  · cases h

/-- **C83 is violated**: in every run with the exponential wind profile the reference height, the water
level and the length of the true wind, which belong to no coordinate system, are shown in the colour of the
course over ground; the rule for a row is applied to all rows above it. -/
theorem C83_refuted (spline : SplineFn) (c : Config) (t : SavedResults) (h : .workbook (some t) ∈ (run spline c).1)
    (hexp : c.wind.profile = "exponential") (rows : List (String × ℝ)) :
    ∀ name ∈ ["Reference_measurement_height", "Reference_water_level_for_wind_profile",
        "TWS_length_at_reference_height"],
      ColourOf name .general ∧ ∃ i, (workbook t rows).inlet.content (i + 1) 0 = .text name ∧
        (workbook t rows).inlet.shown (i + 1) 0 = .cog ∧ (workbook t rows).inlet.shown (i + 1) 1 = .cog := by
  obtain ⟨p, hp, hs⟩ := run_workbook h
  obtain ⟨-, hw⟩ := saveResults_integrals hs
  obtain ⟨-, -, -, -, -, -, -, -, -, -, -, hvl, -⟩ := prepare_ok hp
  have hwind : p.vlm.inlet.winds = windGetProfile c.wind := by
    obtain ⟨-, -, -, hinl, -⟩ := (vlm_ok_iff _ _).1 hvl
    rw [((inletConditions_ok_iff _ _ _ _).1 hinl).2.2]; rfl
  have hprof : p.vlm.inlet.winds.profile = .exp c.wind.expCoeff c.wind.refHeight c.wind.waterLevel := by
    rw [hwind]; simp [windGetProfile, hexp]
  have hsort := sorted_reference hprof hw
  have key : ∀ i j : ℕ, i ≤ j → j < 12 → ∀ ni nj : String,
      ((sortRows t.inlet).map Prod.fst)[i]? = some ni → ((sortRows t.inlet).map Prod.fst)[j]? = some nj →
      (∃ ch ∈ ni.toList, ch ≠ ' ') → mentions "COG" nj = true → mentions "COW" nj = false →
      (∀ k, i ≤ k → k < j → ∀ n, ((sortRows t.inlet).map Prod.fst)[k]? = some n →
        mentions "COG" n = false ∧ mentions "COW" n = false) →
      (workbook t rows).inlet.content (i + 1) 0 = .text ni ∧
        (workbook t rows).inlet.shown (i + 1) 0 = .cog ∧ (workbook t rows).inlet.shown (i + 1) 1 = .cog := by
    intro i j hij hj ni nj hni hnj hblank h1 h2 hb
    rw [List.getElem?_map, Option.map_eq_some_iff] at hni hnj
    obtain ⟨qi, hqi, rfl⟩ := hni
    obtain ⟨qj, hqj, rfl⟩ := hnj
    have hcol : ColourOf qj.1 .cog := .cog (mentions_iff.1 h1) fun hc => by
      rw [mentions_iff.2 hc] at h2; cases h2
    have hbet : ∀ k, i ≤ k → k < j → ∀ q, (sortRows t.inlet)[k]? = some q → ColourOf q.1 .general := by
      intro k h3 h4 q hq
      obtain ⟨h5, h6⟩ := hb k h3 h4 q.1 (by rw [List.getElem?_map, hq]; rfl)
      exact .none (fun hc => by rw [mentions_iff.2 hc] at h5; cases h5)
        (fun hc => by rw [mentions_iff.2 hc] at h6; cases h6)
    refine ⟨?_, summary_shown hqi hqj hij (by norm_num) hblank hcol (by decide) hbet,
      summary_shown hqi hqj hij (by norm_num) hblank hcol (by decide) hbet⟩
    show (summarySheet (sortRows t.inlet)).content (i + 1) 0 = _
    simp [summarySheet, hqi]
  rw [hsort] at key
  have hnone : ∀ name ∈ ["Reference_measurement_height", "Reference_water_level_for_wind_profile",
        "TWS_length_at_reference_height"], ColourOf name .general := by
    have : ∀ name ∈ ["Reference_measurement_height", "Reference_water_level_for_wind_profile",
        "TWS_length_at_reference_height"], mentions "COG" name = false ∧ mentions "COW" name = false := by decide +kernel
    intro name hn
    obtain ⟨h5, h6⟩ := this name hn
    exact .none (fun hc => by rw [mentions_iff.2 hc] at h5; cases h5)
        (fun hc => by rw [mentions_iff.2 hc] at h6; cases h6)
  intro name hname
  refine ⟨hnone name hname, ?_⟩
  simp only [List.mem_cons, List.not_mem_nil, or_false] at hname
  rcases hname with rfl | rfl | rfl
  · refine ⟨2, key 2 4 (by norm_num) (by norm_num) _ _ rfl rfl (by decide) (by decide) (by decide) ?_⟩
    intro k h1 h2 n hn
    interval_cases k <;> (cases hn; decide)
  · refine ⟨3, key 3 4 (by norm_num) (by norm_num) _ _ rfl rfl (by decide) (by decide) (by decide) ?_⟩
    intro k h1 h2 n hn
    interval_cases k <;> (cases hn; decide)
  · refine ⟨7, key 7 8 (by norm_num) (by norm_num) _ _ rfl rfl (by decide) (by decide) (by decide) ?_⟩
    intro k h1 h2 n hn
    interval_cases k <;> (cases hn; decide)

/-- Non-vacuity of `C83_refuted` (and of the theorems above): a run with the exponential wind profile that
writes an Excel file. -/
example (spline : SplineFn) : ∃ c t, c.wind.profile = "exponential" ∧ .workbook (some t) ∈ (run spline c).1 := by
  have hab : |(3 / 2 : ℝ)| = 3 / 2 := abs_of_pos (by norm_num)
  have h90 : deg2rad 90 = Real.pi / 2 := by simp [deg2rad]; ring
  have h1 : (windGetProfile ⟨90, 1, 1, "exponential", some (1 / 2), some (3 / 2), some 0, none⟩).trueWindAt |3 / 2|
      = .ok ⟨0, 1, 0⟩ := by
    simp only [windGetProfile, if_true, WindObj.trueWindAt, WindObj.expFactor, hab, sub_zero]
    norm_num [bind, Except.bind, WindObj.lengthToXyz, WindObj.alpha, h90]
  obtain ⟨p, hp, hc, hw, hv⟩ := Demo.prepared_wind spline
    ⟨90, 1, 1, "exponential", some (1 / 2), some (3 / 2), some 0, none⟩ (by simp [windPostInit]) h1
    (by simp [windGetProfile])
  obtain ⟨t, ht⟩ := demo_prepared_workbook spline hp rfl rfl (by norm_num [Demo.config, demoRig, deg2rad_90]) hc hv (by
    rw [hw]
    simp only [windGetProfile, if_true, windIntegral, expFactorFloat]
    norm_num [bind, Except.bind])
  exact ⟨_, t, rfl, ht⟩

/-! ## C84 -/

/-- **C84.** In the Excel file of every run, the numbers of the sheet `Components` are the computed ones
rounded to eight decimals, those of the two other sheets the computed ones rounded to two decimals; names
are written as they are, in the order of the table, with the values in the second column. -/
theorem C84_written (t : SavedResults) (rows : List (String × ℝ)) :
    (∀ (i r : ℕ) (col : String × List Cell) (x : ℝ), t.components[i]? = some col → col.2[r]? = some (.num x) →
      ∃ y, (workbook t rows).components.content (r + 1) i = .number y ∧ Rounded 8 x y) ∧
    (∀ (i r : ℕ) (col : String × List Cell) (s : String), t.components[i]? = some col →
      col.2[r]? = some (.text s) → (workbook t rows).components.content (r + 1) i = .text s) ∧
    (∀ (r : ℕ) (q : String × ℝ), rows[r]? = some q → (workbook t rows).integrals.content (r + 1) 0 = .text q.1 ∧
      ∃ y, (workbook t rows).integrals.content (r + 1) 1 = .number y ∧ Rounded 2 q.2 y) ∧
    (∀ q ∈ t.inlet, ∃ r, (workbook t rows).inlet.content (r + 1) 0 = .text q.1 ∧
      ∃ y, (workbook t rows).inlet.content (r + 1) 1 = .number y ∧ Rounded 2 q.2 y) := by
  refine ⟨?_, ?_, ?_, ?_⟩
  · intro i r col x hi hr
    refine ⟨formatFloat 8 x, ?_, formatFloat_rounded 8 x⟩
    simp [workbook, componentsSheet, hi, hr, Cell.written]
  · intro i r col s hi hr
    simp [workbook, componentsSheet, hi, hr, Cell.written]
  · intro r q hr
    refine ⟨by simp [workbook, summarySheet, hr], formatFloat 2 q.2, ?_, formatFloat_rounded 2 q.2⟩
    simp [workbook, summarySheet, hr]
  · intro q hq
    have hq' := (sortRows_perm t.inlet).symm.subset hq
    obtain ⟨r, hr⟩ := List.getElem?_of_mem hq'
    refine ⟨r, by simp [workbook, summarySheet, hr], formatFloat 2 q.2, ?_, formatFloat_rounded 2 q.2⟩
    simp [workbook, summarySheet, hr]

theorem shown_of_row {t : SavedResults} {rows : List (String × ℝ)} (hrows : IsDictTable t.integrals rows)
    {name : String} {v : ℝ} (h : t.integrals name = some v) :
    ∃ y, Shown (workbook t rows).integrals name y ∧ Rounded 2 v y := by
  obtain ⟨r, hr⟩ := List.getElem?_of_mem ((hrows.2 name v).2 h)
  obtain ⟨h1, y, h2, h3⟩ := (C84_written t rows).2.2.1 r _ hr
  exact ⟨y, ⟨r, h1, h2⟩, h3⟩

/-- **C84**, layout: missing values are left blank, and the quantities of the inlet sheet are in alphabetical
order. -/
theorem C84_layout (t : SavedResults) (rows : List (String × ℝ)) :
    (∀ (i r : ℕ) (col : String × List Cell), t.components[i]? = some col → col.2[r]? = some .nan →
      (workbook t rows).components.content (r + 1) i = .blank) ∧
    (∀ (i j : ℕ) (a b : String), i < j → (workbook t rows).inlet.content (i + 1) 0 = .text a →
      (workbook t rows).inlet.content (j + 1) 0 = .text b → a ≤ b) ∧
    (∀ i, t.inlet.length ≤ i → ∀ k, (workbook t rows).inlet.content (i + 1) k = .blank) := by
  refine ⟨fun i r col hi hr => by simp [workbook, componentsSheet, hi, hr, Cell.written], ?_, ?_⟩
  · intro i j a b hij ha hb
    simp only [workbook, summarySheet] at ha hb
    split at ha
    · cases ha
    rename_i p hp
    split at hb
    · cases hb
    rename_i q hq
    simp only [if_true, SheetCell.text.injEq] at ha hb
    obtain ⟨li, e1⟩ := List.getElem?_eq_some_iff.1 hp
    obtain ⟨lj, e2⟩ := List.getElem?_eq_some_iff.1 hq
    have := List.pairwise_iff_getElem.1 (sortRows_pairwise t.inlet) i j li lj hij
    rw [e1, e2] at this
    rw [← ha, ← hb]
    exact this
  · intro i hi k
    have : (sortRows t.inlet)[i]? = none := by
      rw [List.getElem?_eq_none_iff, (sortRows_perm t.inlet).length_eq]; exact hi
    simp [workbook, summarySheet, this]

/-- **C84.** The forces of the sails as they are shown in the Excel file add up to the shown total: exactly
for one sail, up to 0.015 per component for jib and main sail. -/
theorem C84_sums (spline : SplineFn) (c : Config) (t : SavedResults) (h : .workbook (some t) ∈ (run spline c).1)
    (rows : List (String × ℝ)) (hrows : IsDictTable t.integrals rows) :
    ∀ axis ∈ [".x", ".y", ".z"],
      (c.rig.sailsDef = "jib" → ∃ a, Shown (workbook t rows).integrals ("F_jib_total_COG" ++ axis) a ∧
        Shown (workbook t rows).integrals ("F_sails_total_COG" ++ axis) a) ∧
      (c.rig.sailsDef = "main" → ∃ a, Shown (workbook t rows).integrals ("F_main_sail_total_COG" ++ axis) a ∧
        Shown (workbook t rows).integrals ("F_sails_total_COG" ++ axis) a) ∧
      (c.rig.sailsDef = "jib_and_main" → ∃ a b s,
        Shown (workbook t rows).integrals ("F_jib_total_COG" ++ axis) a ∧
        Shown (workbook t rows).integrals ("F_main_sail_total_COG" ++ axis) b ∧
        Shown (workbook t rows).integrals ("F_sails_total_COG" ++ axis) s ∧ |a + b - s| ≤ 0.015) := by
  obtain ⟨F, M, keel, hF, -, -, -, -, hjib, hmain, hjm⟩ := C73_totals spline c t h
  have comp : ∀ {key : String} {V : V3}, rowVec t.integrals key = some V →
      t.integrals (key ++ ".x") = some V.x ∧ t.integrals (key ++ ".y") = some V.y ∧
      t.integrals (key ++ ".z") = some V.z := by
    intro key V hV
    unfold rowVec at hV
    split at hV
    · rename_i a b c h1 h2 h3
      injection hV with hV
      rw [← hV]
      exact ⟨h1, h2, h3⟩
    · cases hV
  have bound : ∀ {u v w a b s : ℝ}, u + v = w → Rounded 2 u a → Rounded 2 v b → Rounded 2 w s →
      |a + b - s| ≤ 0.015 := by
    intro u v w a b s hw ha hb hs
    have h1 := abs_le.1 ha.2
    have h2 := abs_le.1 hb.2
    have h3 := abs_le.1 hs.2
    norm_num at h1 h2 h3
    rw [abs_le]
    constructor <;> norm_num <;> linarith
  obtain ⟨sx, sy, sz⟩ := comp hF
  have same : ∀ {k : String}, rowVec t.integrals k = some F → ∀ axis ∈ [".x", ".y", ".z"],
      ∃ a, Shown (workbook t rows).integrals (k ++ axis) a ∧
        Shown (workbook t rows).integrals ("F_sails_total_COG" ++ axis) a := by
    intro k hk axis ha
    obtain ⟨kx, ky, kz⟩ := comp hk
    have fin : ∀ {v : ℝ}, t.integrals (k ++ axis) = some v → t.integrals ("F_sails_total_COG" ++ axis) = some v →
        ∃ a, Shown (workbook t rows).integrals (k ++ axis) a ∧
        Shown (workbook t rows).integrals ("F_sails_total_COG" ++ axis) a := by
      intro v h1 h2
      obtain ⟨r1, hr1⟩ := List.getElem?_of_mem ((hrows.2 _ v).2 h1)
      obtain ⟨r2, hr2⟩ := List.getElem?_of_mem ((hrows.2 _ v).2 h2)
      refine ⟨formatFloat 2 v, ⟨r1, ?_, ?_⟩, ⟨r2, ?_, ?_⟩⟩ <;> simp [workbook, summarySheet, hr1, hr2]
    simp only [List.mem_cons, List.not_mem_nil, or_false] at ha
    rcases ha with rfl | rfl | rfl
    · exact fin kx sx
    · exact fin ky sy
    · exact fin kz sz
  intro axis ha
  refine ⟨fun hd => same (hjib hd).1 axis ha, fun hd => same (hmain hd).1 axis ha, fun hd => ?_⟩
  obtain ⟨Fj, Fm, -, -, hj, hm, -, -, hsum, -⟩ := hjm hd
  obtain ⟨jx, jy, jz⟩ := comp hj
  obtain ⟨mx, my, mz⟩ := comp hm
  have hx : Fj.x + Fm.x = F.x := by rw [← hsum]; rfl
  have hy : Fj.y + Fm.y = F.y := by rw [← hsum]; rfl
  have hz : Fj.z + Fm.z = F.z := by rw [← hsum]; rfl
  have fin : ∀ {u v w : ℝ}, u + v = w → t.integrals ("F_jib_total_COG" ++ axis) = some u →
      t.integrals ("F_main_sail_total_COG" ++ axis) = some v → t.integrals ("F_sails_total_COG" ++ axis) = some w →
      ∃ a b s, Shown (workbook t rows).integrals ("F_jib_total_COG" ++ axis) a ∧
      Shown (workbook t rows).integrals ("F_main_sail_total_COG" ++ axis) b ∧
      Shown (workbook t rows).integrals ("F_sails_total_COG" ++ axis) s ∧ |a + b - s| ≤ 0.015 := by
    intro u v w huv h1 h2 h3
    obtain ⟨a, ha, ra⟩ := shown_of_row hrows h1
    obtain ⟨b, hb, rb⟩ := shown_of_row hrows h2
    obtain ⟨s, hs, rs⟩ := shown_of_row hrows h3
    exact ⟨a, b, s, ha, hb, hs, bound huv ra rb rs⟩
  simp only [List.mem_cons, List.not_mem_nil, or_false] at ha
  rcases ha with rfl | rfl | rfl
  · exact fin hx jx mx sx
  · exact fin hy jy my sy
  · exact fin hz jz mz sz

/-- Non-vacuity of `C84_sums`: a run with an Excel file and its table. -/
example (spline : SplineFn) : ∃ t rows, .workbook (some t) ∈ (run spline Demo.config).1 ∧
    Demo.config.rig.sailsDef = "main" ∧ IsDictTable t.integrals rows := by
  obtain ⟨t, ht⟩ := demo_workbook spline
  obtain ⟨rows, hr, -⟩ := C83_table spline _ t ht
  exact ⟨t, rows, ht, rfl, hr⟩

/-- **C84.** A quantity of the two summary sheets that is smaller than half a hundredth is shown as zero; a
number with at most the written decimals is shown exactly. -/
theorem C84_small (t : SavedResults) (rows : List (String × ℝ)) {r : ℕ} {q : String × ℝ} (hr : rows[r]? = some q) :
    (|q.2| < 0.005 → (workbook t rows).integrals.content (r + 1) 1 = .number 0) ∧
    (∀ n : ℤ, q.2 = n / 100 → (workbook t rows).integrals.content (r + 1) 1 = .number q.2) := by
  have hc : (workbook t rows).integrals.content (r + 1) 1 = .number (formatFloat 2 q.2) := by
    simp [workbook, summarySheet, hr]
  rw [hc]
  refine ⟨fun hs => ?_, fun n hn => ?_⟩
  · rw [formatFloat_small 2 (by norm_num at hs ⊢; exact hs)]
  · rw [hn]
    have := formatFloat_exact 2 n
    norm_num at this ⊢
    rw [this]

/-- Non-vacuity of `C84_small`: a table with a small and with a short number. -/
example : ([("a", (0.001 : ℝ)), ("b", 1.25)] : List (String × ℝ))[0]? = some ("a", (0.001 : ℝ)) ∧
    |(0.001 : ℝ)| < 0.005 ∧ (1.25 : ℝ) = (125 : ℤ) / 100 := by
  refine ⟨rfl, ?_, ?_⟩ <;> norm_num [abs_of_pos]

end PySailing.Props
