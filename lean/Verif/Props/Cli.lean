import Verif.Spec.Cli
import Verif.Props.Figures
import Verif.Props.Excel

/-!
# C90 - C94: files, command line option, exit status
-/

namespace PySailing.Props

open PySailing PySailing.Spec

/-! ## C90 -/

theorem target_own {o : OutputArgs} {e : Effect} {f : FilePath} (h : target o e = some f) :
    f ∈ ownFiles o := by
  cases e with
  | workbook t => simp [target] at h; simp [ownFiles, ← h]
  | caseCopy => simp [target] at h; simp [ownFiles, ← h]
  | picture s => simp [target] at h
  | cpMap m => simp [target] at h; simp [ownFiles, ← h]
  | sectionPlot name g =>
    simp only [target, Option.some.injEq] at h
    by_cases hn : name = "drag"
    · rw [if_pos hn] at h
      simp only [ownFiles, ← h]
      simp
    · rw [if_neg hn] at h
      simp only [ownFiles, ← h]
      simp

theorem writeOutput_target {o : OutputArgs} {e : Effect} {d d' : Disk} (h : writeOutput o e d = .ok d') :
    d' = d ∨ ∃ f c, target o e = some f ∧ d' = Function.update d f c := by
  cases e with
  | workbook t => right; injection h with h; exact ⟨_, _, rfl, h.symm⟩
  | caseCopy =>
    right
    unfold writeOutput at h
    simp only at h
    split at h
    · cases h
    · split at h
      · cases h
      · injection h with h
        exact ⟨_, _, rfl, h.symm⟩
  | picture s => left; injection h with h; exact h.symm
  | cpMap m => right; injection h with h; exact ⟨_, _, rfl, h.symm⟩
  | sectionPlot name g => right; injection h with h; exact ⟨_, _, rfl, h.symm⟩

theorem writeOutput_own {o : OutputArgs} {e : Effect} {d d' : Disk} (h : writeOutput o e d = .ok d')
    {f : FilePath} (hf : f ∉ ownFiles o) : d' f = d f := by
  rcases writeOutput_target h with rfl | ⟨g, c, hg, rfl⟩
  · rfl
  · rw [Function.update_of_ne]
    rintro rfl
    exact hf (target_own hg)

theorem writeAll_own {o : OutputArgs} {f : FilePath} (hf : f ∉ ownFiles o) :
    ∀ (steps : List (Py Effect)) (d : Disk), (writeAll o steps d).1 f = d f
  | [], _ => rfl
  | .error _ :: _, _ => rfl
  | .ok e :: rest, d => by
    unfold writeAll
    cases h : writeOutput o e d with
    | error x => rfl
    | ok d' =>
      simp only
      rw [writeAll_own hf rest d', writeOutput_own h hf]

theorem interrupted_own {o : OutputArgs} {f : FilePath} (hf : f ∉ ownFiles o)
    {steps : List (Py Effect)} {d d' : Disk} (h : Interrupted o steps d d') : d' f = d f := by
  induction h with
  | now => rfl
  | during e rest d g c hg =>
    rw [Function.update_of_ne]
    rintro rfl
    exact hf (target_own hg)
  | later e rest d d1 d2 hw _ ih => rw [ih, writeOutput_own hw hf]

/-- **C90.** Whatever `variables.py` contains and however the program ends, it changes no file except the
five files of its own results in the directory `name`: the workbook, the copy of the case, the map of the
pressure coefficient and the two section plots.  This also holds when the program is interrupted at any
moment, even in the middle of writing a file.  If no settings are read no file is changed. -/
theorem C90_own_files (spline : SplineFn) (py : PythonFn) (cwd : String) (second : ℕ) (dvars : String)
    (p : Process) (disk : Disk) :
    (∀ x, (loadVariables py disk cwd second dvars p).2 = .error x →
      (callMain spline py cwd second dvars p disk).2 = (disk, x)) ∧
    ∀ o c, (loadVariables py disk cwd second dvars p).2 = .ok (o, c) →
      (∀ f, (callMain spline py cwd second dvars p disk).2.1 f ≠ disk f → f ∈ ownFiles o) ∧
      ∀ pr disk', prepare spline c = .ok pr → Interrupted o (outputSteps c pr) disk disk' →
        ∀ f, disk' f ≠ disk f → f ∈ ownFiles o := by
  refine ⟨fun x hx => ?_, fun o c ho => ⟨fun f => ?_, fun pr disk' _ hi f => ?_⟩⟩
  · unfold callMain
    split
    · rename_i p' x' h
      rw [h] at hx
      injection hx with hx
      rw [hx]
    · rename_i p' o c h
      rw [h] at hx
      cases hx
  · contrapose!
    intro hf
    unfold callMain
    split
    · rfl
    · rename_i p' o' c' h
      rw [h] at ho
      injection ho with ho
      injection ho with h1 h2
      subst h1 h2
      split
      · rfl
      · exact writeAll_own hf _ _
  · contrapose!
    intro hf
    exact interrupted_own hf hi

/-- When the outputs are written to the end, none of them raised. -/
theorem writeAll_done {o : OutputArgs} : ∀ {steps : List (Py Effect)} {d : Disk},
    (writeAll o steps d).2 = .done → (emit steps).2 = .ok ()
  | [], _, _ => rfl
  | .error e :: _, d, h => by cases h
  | .ok e :: rest, d, h => by
    unfold writeAll at h
    cases hw : writeOutput o e d with
    | error x =>
      rw [hw] at h
      simp only at h
      subst h
      cases e with
      | workbook t => cases hw
      | caseCopy =>
        unfold writeOutput at hw
        simp only at hw
        split at hw
        · cases hw
        · split at hw <;> cases hw
      | picture s => cases hw
      | cpMap m => cases hw
      | sectionPlot name g => cases hw
    | ok d' =>
      rw [hw] at h
      show (emit rest).2 = _
      exact writeAll_done (d := d') h

/-- The outputs of a program that writes all of them. -/
theorem outputSteps_ok {c : Config} {pr : Prepared} (h : (emit (outputSteps c pr)).2 = .ok ()) :
    ∃ t s m f g, outputSteps c pr = [.ok (.workbook t), .ok .caseCopy, .ok (.picture s), .ok (.cpMap m),
      .ok (.sectionPlot "lift" f), .ok (.sectionPlot "drag" g)] := by
  have sp : ∀ (d : Py CoeffPlotData) x n cs e, sectionPlotStep d x n cs = .ok e → ∃ f, e = .sectionPlot n f := by
    intro d x n cs e he
    unfold sectionPlotStep at he
    cases hd : nanAsNone d with
    | error y => rw [hd] at he; cases he
    | ok d' =>
      rw [hd] at he
      cases d' with
      | none => injection he with he; exact ⟨_, he.symm⟩
      | some d1 =>
        simp only [bind, Except.bind] at he
        cases hp : plotSectionCoeff (x d1) d1.meanCpZ n cs with
        | error y => rw [hp] at he; cases he
        | ok f => rw [hp] at he; injection he with he; exact ⟨_, he.symm⟩
  unfold outputSteps at h ⊢
  cases h1 : nanAsNone (saveResults pr.vlm pr.csys pr.flow pr.set.sails pr.csys) with
  | error e => rw [h1] at h; cases h
  | ok t =>
  cases h2 : nanAsNone (displayScene pr.vlm pr.flow.res pr.hull false false) with
  | error e => rw [h1, h2] at h; cases h
  | ok s =>
  cases h3 : plotCp pr.set.zeroMesh pr.vlm.out.pCoeffs with
  | error e => rw [h1, h2, h3] at h; cases h
  | ok m =>
  cases h4 : sectionPlotStep (coeffPlotData pr.vlm c.solver.nc c.solver.ns) (·.drag) "lift" ["blue", "green"] with
  | error e => rw [h1, h2, h3, h4] at h; cases h
  | ok f =>
  cases h5 : sectionPlotStep (coeffPlotData pr.vlm c.solver.nc c.solver.ns) (·.lift) "drag" ["teal", "purple"] with
  | error e => rw [h1, h2, h3, h4, h5] at h; cases h
  | ok g =>
    obtain ⟨f', rfl⟩ := sp _ _ _ _ _ h4
    obtain ⟨g', rfl⟩ := sp _ _ _ _ _ h5
    exact ⟨t, s, m, f', g', rfl⟩

/-- **C90.** A run that ends normally leaves all five files: the workbook, the map and the two plots with
the contents that the calculation yields, and an exact copy of the case file. -/
theorem C90_complete (spline : SplineFn) (py : PythonFn) (cwd : String) (second : ℕ) (dvars : String)
    (p : Process) (disk : Disk) (o : OutputArgs) (c : Config)
    (ho : (loadVariables py disk cwd second dvars p).2 = .ok (o, c)) (hdiff : (ownFiles o).Nodup)
    (hdone : (callMain spline py cwd second dvars p disk).2.2 = .done) :
    (run spline c).2 = .ok () ∧ disk ⟨o.caseDir, o.caseName⟩ ≠ none ∧
    ∃ t s m f g, (run spline c).1 =
        [.workbook t, .caseCopy, .picture s, .cpMap m, .sectionPlot "lift" f, .sectionPlot "drag" g] ∧
      let disk' := (callMain spline py cwd second dvars p disk).2.1
      disk' ⟨o.name, o.fileName ++ ".xlsx"⟩ = some (.workbook t) ∧
      disk' ⟨o.name, o.caseName⟩ = disk ⟨o.caseDir, o.caseName⟩ ∧
      disk' ⟨o.name, "cp_plot.html"⟩ = some (.cpMap m) ∧
      disk' ⟨o.name, "section_cl.png"⟩ = some (.sectionPlot "lift" f) ∧
      disk' ⟨o.name, "section_cd.png"⟩ = some (.sectionPlot "drag" g) := by
  obtain ⟨p', hl⟩ : ∃ p', loadVariables py disk cwd second dvars p = (p', .ok (o, c)) :=
    ⟨(loadVariables py disk cwd second dvars p).1, by rw [← ho]⟩
  unfold callMain at hdone ⊢
  rw [hl] at hdone ⊢
  simp only at hdone ⊢
  cases hp : prepare spline c with
  | error e => rw [hp] at hdone; cases hdone
  | ok pr =>
    rw [hp] at hdone
    simp only at hdone ⊢
    have hr : run spline c = emit (outputSteps c pr) := by unfold run; rw [hp]
    rw [hr]
    have he := writeAll_done hdone
    obtain ⟨t, s, m, f, g, hs⟩ := outputSteps_ok he
    rw [hs] at hdone ⊢
    have hne : o.caseDir ≠ o.name ∧ disk ⟨o.caseDir, o.caseName⟩ ≠ none := by
      constructor
      · intro hn
        simp only [writeAll, writeOutput, hn, if_true] at hdone
        split at hdone
        · rename_i heq
          split at heq <;> cases heq
        · rename_i x heq
          split at heq <;> (injection heq with heq; subst heq; cases hdone)
      · intro hn
        have : (Function.update disk ⟨o.name, o.fileName ++ ".xlsx"⟩ (some (Content.workbook t)))
            ⟨o.caseDir, o.caseName⟩ = none ∨ o.caseDir = o.name := by
          by_cases h : o.caseDir = o.name
          · right; exact h
          · left; rw [Function.update_of_ne _ _ _, hn]; simp [h]
        simp only [writeAll, writeOutput] at hdone
        rcases this with h | h
        · rw [h] at hdone; cases hdone
        · simp only [h, if_true] at hdone
          split at hdone
          · rename_i heq
            split at heq <;> cases heq
          · rename_i x heq
            split at heq <;> (injection heq with heq; subst heq; cases hdone)
    obtain ⟨hdir, hsrc⟩ := hne
    obtain ⟨x, hx⟩ := Option.ne_none_iff_exists'.1 hsrc
    have hup : (Function.update disk ⟨o.name, o.fileName ++ ".xlsx"⟩ (some (Content.workbook t)))
        ⟨o.caseDir, o.caseName⟩ = some x := by
      rw [Function.update_of_ne _ _ _, hx]; simp [hdir]
    simp only [ownFiles, List.nodup_cons, List.mem_cons, FilePath.mk.injEq, true_and, not_or] at hdiff
    obtain ⟨⟨d1, d2, d3, d4, -⟩, ⟨d5, d6, d7, -⟩, ⟨d8, d9, -⟩, -⟩ := hdiff
    refine ⟨rfl, hsrc, t, s, m, f, g, rfl, ?_⟩
    simp [writeAll, writeOutput, hdir, d1, d2, d3, d4, d5, d6, d7, hx]

theorem callMain_ok {spline : SplineFn} {py : PythonFn} {cwd : String} {second : ℕ} {dvars : String}
    {p : Process} {disk : Disk} {o : OutputArgs} {c : Config} {pr : Prepared}
    (ho : (loadVariables py disk cwd second dvars p).2 = .ok (o, c)) (hp : prepare spline c = .ok pr) :
    (callMain spline py cwd second dvars p disk).2 = writeAll o (outputSteps c pr) disk := by
  obtain ⟨p', hl⟩ : ∃ p', loadVariables py disk cwd second dvars p = (p', .ok (o, c)) :=
    ⟨(loadVariables py disk cwd second dvars p).1, by rw [← ho]⟩
  unfold callMain
  rw [hl]
  simp only
  rw [hp]

theorem prepared_of_run {spline : SplineFn} {c : Config} (h : (run spline c).2 = .ok ()) :
    ∃ pr, prepare spline c = .ok pr ∧ (emit (outputSteps c pr)).2 = .ok () := by
  unfold run at h
  cases hp : prepare spline c with
  | error e => rw [hp] at h; cases h
  | ok pr => rw [hp] at h; exact ⟨pr, rfl, h⟩

/-- **C90.** A run ends normally exactly if the calculation and all outputs succeed and the file to archive
exists in a directory other than the one of the results. -/
theorem C90_done_iff (spline : SplineFn) (py : PythonFn) (cwd : String) (second : ℕ) (dvars : String)
    (p : Process) (disk : Disk) (o : OutputArgs) (c : Config)
    (ho : (loadVariables py disk cwd second dvars p).2 = .ok (o, c)) :
    (callMain spline py cwd second dvars p disk).2.2 = .done ↔
      (run spline c).2 = .ok () ∧ disk ⟨o.caseDir, o.caseName⟩ ≠ none ∧ o.caseDir ≠ o.name := by
  constructor
  · intro hdone
    have hne : o.caseDir ≠ o.name := by
      intro hn
      obtain ⟨pr, hp⟩ : ∃ pr, prepare spline c = .ok pr := by
        cases hp : prepare spline c with
        | error e =>
          obtain ⟨p', hl⟩ : ∃ p', loadVariables py disk cwd second dvars p = (p', .ok (o, c)) :=
            ⟨(loadVariables py disk cwd second dvars p).1, by rw [← ho]⟩
          unfold callMain at hdone
          rw [hl] at hdone
          simp only at hdone
          rw [hp] at hdone
          cases hdone
        | ok pr => exact ⟨pr, rfl⟩
      rw [callMain_ok ho hp] at hdone
      obtain ⟨t, s, m, f, g, hs⟩ := outputSteps_ok (writeAll_done hdone)
      rw [hs] at hdone
      simp only [writeAll, writeOutput, hn, if_true] at hdone
      split at hdone
      · rename_i heq
        split at heq <;> cases heq
      · rename_i x heq
        split at heq <;> (injection heq with heq; subst heq; cases hdone)
    obtain ⟨pr, hp⟩ : ∃ pr, prepare spline c = .ok pr := by
      cases hp : prepare spline c with
      | error e =>
        obtain ⟨p', hl⟩ : ∃ p', loadVariables py disk cwd second dvars p = (p', .ok (o, c)) :=
          ⟨(loadVariables py disk cwd second dvars p).1, by rw [← ho]⟩
        unfold callMain at hdone
        rw [hl] at hdone
        simp only at hdone
        rw [hp] at hdone
        cases hdone
      | ok pr => exact ⟨pr, rfl⟩
    rw [callMain_ok ho hp] at hdone
    have he := writeAll_done hdone
    refine ⟨by unfold run; rw [hp]; exact he, ?_, hne⟩
    obtain ⟨t, s, m, f, g, hs⟩ := outputSteps_ok he
    rw [hs] at hdone
    intro hn
    simp only [writeAll, writeOutput] at hdone
    rw [Function.update_of_ne (by simp [hne]), hn] at hdone
    cases hdone
  · rintro ⟨hr, hsrc, hdir⟩
    obtain ⟨pr, hp, he⟩ := prepared_of_run hr
    rw [callMain_ok ho hp]
    obtain ⟨t, s, m, f, g, hs⟩ := outputSteps_ok he
    obtain ⟨x, hx⟩ := Option.ne_none_iff_exists'.1 hsrc
    rw [hs]
    simp [writeAll, writeOutput, hdir, hx]

/-- A new process that finds `variables.py` in the directory `dvars` only. -/
theorem settings_dvars {py : PythonFn} {disk : Disk} {path : List String} {cwd : String} {second : ℕ}
    {dvars s : String} {o : OutputArgs} {c : Config} (hpath : ∀ d ∈ path, disk ⟨d, "variables.py"⟩ = none)
    (hd : disk ⟨dvars, "variables.py"⟩ = some (.text s)) (hs : py s ⟨cwd, second, dvars⟩ = .ok o c) :
    settings py disk path cwd second dvars = .ok (o, c) := by
  have hf : findVariables disk (path ++ [dvars]) = some (dvars, .text s) := by
    induction path with
    | nil => simp [findVariables, hd]
    | cons d rest ih =>
      simp only [List.cons_append, findVariables, hpath d (by simp)]
      exact ih fun d hd => hpath d (by simp [hd])
  unfold settings loadVariables
  simp only [hf, execute, hs]

/-- A case whose results go to the directory `out`, for the examples. -/
def exampleOutput : OutputArgs := ⟨"variables.py", "case", "out", "results"⟩

/-- Files with one case only, for the examples. -/
def exampleDisk : Disk := fun f => if f = ⟨"case", "variables.py"⟩ then some (.text "") else none

/-- Non-vacuity of C90: a run with the one panel sail ends normally and leaves the five files. -/
example (spline : SplineFn) : settings (fun _ _ => .ok exampleOutput Demo.config) exampleDisk ["bin"] "home" 0
      "case" = .ok (exampleOutput, Demo.config) ∧ (ownFiles exampleOutput).Nodup ∧
    (callMain spline (fun _ _ => .ok exampleOutput Demo.config) "home" 0 "case" ⟨["bin"], none⟩
      exampleDisk).2.2 = .done := by
  have h : settings (fun _ _ => .ok exampleOutput Demo.config) exampleDisk ["bin"] "home" 0
      "case" = .ok (exampleOutput, Demo.config) :=
    settings_dvars (s := "") (by simp [exampleDisk]) (by simp [exampleDisk]) rfl
  refine ⟨h, by decide, (C90_done_iff _ _ _ _ _ _ _ _ _ h).2 ⟨demo_completes spline, ?_, ?_⟩⟩
  · simp [exampleDisk, exampleOutput]
  · decide

/-! ## C91 -/

theorem ran_own {spline : SplineFn} {py : PythonFn} {name : Option String} {disk disk' : Disk}
    (h : Ran spline py name disk disk') {f : FilePath} (hf : name ≠ some f.dir) : disk' f = disk f := by
  have key : ∀ {o : OutputArgs}, f ∈ ownFiles o → f.dir = o.name := by
    intro o ho
    simp only [ownFiles, List.mem_cons, List.not_mem_nil, or_false] at ho
    rcases ho with rfl | rfl | rfl | rfl | rfl <;> rfl
  cases h with
  | stopped path cwd second dvars disk x hx =>
    rw [(C90_own_files spline py cwd second dvars ⟨path, none⟩ disk).1 x hx]
  | finished path cwd second dvars disk o c ho =>
    by_contra hne
    have := ((C90_own_files spline py cwd second dvars ⟨path, none⟩ disk).2 o c ho).1 f hne
    exact hf (by rw [key this])
  | interrupted path cwd second dvars disk disk' o c pr ho hp hi =>
    by_contra hne
    have := ((C90_own_files spline py cwd second dvars ⟨path, none⟩ disk).2 o c ho).2 pr disk' hp hi f hne
    exact hf (by rw [key this])

/-- **C91, partial.** Results stay: whatever runs follow, finished, failed or interrupted at any moment, in
whatever order, no file of the directory `D` changes as long as none of them has `D` as its output
directory.  Missing from the full claim: that different runs have different output directories; see
`C91_refuted_same_second`. -/
theorem C91_kept_partial (spline : SplineFn) (py : PythonFn) (D : String) (disk disk' : Disk)
    (h : RunsElsewhere spline py D disk disk') (f : FilePath) (hf : f.dir = D) : disk' f = disk f := by
  induction h with
  | refl => rfl
  | tail _ hstep ih =>
    obtain ⟨name, hr, hn⟩ := hstep
    rw [ran_own hr (by rw [hf]; exact hn), ih]

/-- Non-vacuity: a run with another output directory, which does write. -/
example (spline : SplineFn) : ∃ disk', RunsElsewhere spline (fun _ _ => .ok exampleOutput Demo.config) "old"
      exampleDisk disk' ∧ disk' ≠ exampleDisk := by
  have h : settings (fun _ _ => .ok exampleOutput Demo.config) exampleDisk ["bin"] "home" 0
      "case" = .ok (exampleOutput, Demo.config) :=
    settings_dvars (s := "") (by simp [exampleDisk]) (by simp [exampleDisk]) rfl
  refine ⟨_, Relation.ReflTransGen.single ⟨_, Ran.finished ["bin"] "home" 0 "case" exampleDisk _ _ h, by decide⟩, ?_⟩
  have hd := (C90_done_iff spline _ _ _ _ _ _ _ _ h).2 ⟨demo_completes spline, by simp [exampleDisk, exampleOutput], by decide⟩
  obtain ⟨-, -, t, s, m, f, g, -, h1, -⟩ := C90_complete spline _ _ _ _ _ _ _ _ h (by decide) hd
  intro he
  rw [he] at h1
  simp [exampleDisk, exampleOutput] at h1

theorem writeAll_other {o : OutputArgs} {f : FilePath} : ∀ (steps : List (Py Effect)),
    (∀ e, .ok e ∈ steps → target o e ≠ some f) → ∀ d : Disk, (writeAll o steps d).1 f = d f
  | [], _, _ => rfl
  | .error _ :: _, _, _ => rfl
  | .ok e :: rest, h, d => by
    unfold writeAll
    cases hw : writeOutput o e d with
    | error x => rfl
    | ok d' =>
      simp only
      rw [writeAll_other rest (fun e' he => h e' (List.mem_cons_of_mem _ he)) d']
      rcases writeOutput_target hw with rfl | ⟨g, c, hg, rfl⟩
      · rfl
      · rw [Function.update_of_ne]
        rintro rfl
        exact h e List.mem_cons_self hg

/-- The workbook of a run is on the disk afterwards, however the run ends. -/
theorem callMain_workbook {spline : SplineFn} {py : PythonFn} {cwd : String} {second : ℕ} {dvars : String}
    {p : Process} {disk : Disk} {o : OutputArgs} {c : Config} {t : Option SavedResults}
    (ho : (loadVariables py disk cwd second dvars p).2 = .ok (o, c))
    (ht : .workbook t ∈ (run spline c).1)
    (hn : o.fileName ++ ".xlsx" ∉ [o.caseName, "cp_plot.html", "section_cl.png", "section_cd.png"]) :
    (callMain spline py cwd second dvars p disk).2.1 ⟨o.name, o.fileName ++ ".xlsx"⟩ = some (.workbook t) := by
  obtain ⟨pr, hp, hm⟩ := mem_run ht
  rw [callMain_ok ho hp]
  have sp : ∀ (d : Py CoeffPlotData) x n cs e, sectionPlotStep d x n cs = .ok e → ∃ f, e = .sectionPlot n f := by
    intro d x n cs e he
    unfold sectionPlotStep at he
    cases hd : nanAsNone d with
    | error y => rw [hd] at he; cases he
    | ok d' =>
      rw [hd] at he
      cases d' with
      | none => injection he with he; exact ⟨_, he.symm⟩
      | some d1 =>
        simp only [bind, Except.bind] at he
        cases hp : plotSectionCoeff (x d1) d1.meanCpZ n cs with
        | error y => rw [hp] at he; cases he
        | ok f => rw [hp] at he; injection he with he; exact ⟨_, he.symm⟩
  have hrest : ∀ e, .ok e ∈ (outputSteps c pr).tail → (∀ t, e ≠ .workbook t) ∧
      target o e ≠ some ⟨o.name, o.fileName ++ ".xlsx"⟩ := by
    intro e he
    simp only [List.mem_cons, List.not_mem_nil, or_false, not_or] at hn
    obtain ⟨n1, n2, n3, n4⟩ := hn
    simp only [outputSteps, List.tail_cons, List.mem_cons, List.not_mem_nil, or_false] at he
    rcases he with h | h | h | h | h
    · injection h with h; subst h
      exact ⟨fun t => by simp, by simp [target, Ne.symm n1]⟩
    · cases hx : nanAsNone (displayScene pr.vlm pr.flow.res pr.hull false false) with
      | error y => rw [hx] at h; cases h
      | ok s => rw [hx] at h; injection h with h; subst h; exact ⟨fun t => by simp, by simp [target]⟩
    · cases hx : plotCp pr.set.zeroMesh pr.vlm.out.pCoeffs with
      | error y => rw [hx] at h; cases h
      | ok s =>
        rw [hx] at h; injection h with h; subst h
        exact ⟨fun t => by simp, by simp [target, Ne.symm n2]⟩
    · obtain ⟨f, rfl⟩ := sp _ _ _ _ _ h.symm
      exact ⟨fun t => by simp, by simp [target, Ne.symm n3]⟩
    · obtain ⟨f, rfl⟩ := sp _ _ _ _ _ h.symm
      exact ⟨fun t => by simp, by simp [target, Ne.symm n4]⟩
  have hhead : outputSteps c pr = .ok (.workbook t) :: (outputSteps c pr).tail := by
    have hcons : ∃ x, outputSteps c pr = x :: (outputSteps c pr).tail := ⟨_, rfl⟩
    obtain ⟨x, hx⟩ := hcons
    rw [hx, List.mem_cons] at hm
    rcases hm with rfl | hm
    · exact hx
    · exact absurd rfl ((hrest _ hm).1 t)
  rw [hhead]
  show (writeAll o (outputSteps c pr).tail _).1 _ = _
  rw [writeAll_other _ fun e he => (hrest e he).2]
  simp

/-- **C91 is false in general.** The results of the shipped settings go to a directory named after the
second in which the program starts.  Two runs with different cases `A` and `B`, started in the same
directory within one second, write to the same file: after the second run the workbook of the first one is
replaced. -/
theorem C91_refuted_same_second (spline : SplineFn) (py : PythonFn) (stamp : ℕ → String)
    (cwd A B sA sB : String) (now : ℕ) (path : List String) (disk : Disk) (cA cB : Config)
    (hA : py sA ⟨cwd, now, A⟩ = .ok (shippedOutput stamp cwd now) cA)
    (hB : py sB ⟨cwd, now, B⟩ = .ok (shippedOutput stamp cwd now) cB)
    (hpath : ∀ d ∈ path, disk ⟨d, "variables.py"⟩ = none)
    (dA : disk ⟨A, "variables.py"⟩ = some (.text sA)) (dB : disk ⟨B, "variables.py"⟩ = some (.text sB))
    (hout : ∀ d ∈ B :: path, d ≠ (shippedOutput stamp cwd now).name) (tA tB : Option SavedResults)
    (rA : .workbook tA ∈ (run spline cA).1) (rB : .workbook tB ∈ (run spline cB).1) :
    let disk1 := (callMain spline py cwd now A ⟨path, none⟩ disk).2.1
    let disk2 := (callMain spline py cwd now B ⟨path, none⟩ disk1).2.1
    let book : FilePath := ⟨(shippedOutput stamp cwd now).name, "my_fancy_results.xlsx"⟩
    disk1 book = some (.workbook tA) ∧ disk2 book = some (.workbook tB) := by
  intro disk1 disk2 book
  have hs1 := settings_dvars hpath dA hA
  have hn : (shippedOutput stamp cwd now).fileName ++ ".xlsx" ∉
      [(shippedOutput stamp cwd now).caseName, "cp_plot.html", "section_cl.png", "section_cd.png"] := by
    simp only [shippedOutput]
    decide
  have hkeep : ∀ d ∈ B :: path, disk1 ⟨d, "variables.py"⟩ = disk ⟨d, "variables.py"⟩ := by
    intro d hd
    refine ran_own (Ran.finished (spline := spline) path cwd now A disk _ _ hs1) ?_
    simp only [ne_eq, Option.some.injEq]
    exact fun h => hout d hd h.symm
  have hs2 : settings py disk1 path cwd now B = .ok (shippedOutput stamp cwd now, cB) :=
    settings_dvars (fun d hd => by rw [hkeep d (by simp [hd])]; exact hpath d hd)
      (by rw [hkeep B (by simp)]; exact dB) hB
  exact ⟨callMain_workbook hs1 rA hn, callMain_workbook hs2 rB hn⟩

/-- Files with two cases, for the example. -/
def twoCases : Disk := fun f =>
  if f = ⟨"A", "variables.py"⟩ then some (.text "A") else if f = ⟨"B", "variables.py"⟩ then some (.text "B") else none

/-- Non-vacuity: two such runs with different workbooks (flat and exponential wind profile). -/
example (spline : SplineFn) : ∃ cA cB tA tB, .workbook tA ∈ (run spline cA).1 ∧ .workbook tB ∈ (run spline cB).1 ∧
    tA ≠ tB ∧
    let py : PythonFn := fun s env => .ok (shippedOutput (fun _ => "now") env.cwd env.second)
      (if s = "A" then cA else cB)
    let disk1 := (callMain spline py "home" 0 "A" ⟨[], none⟩ twoCases).2.1
    let disk2 := (callMain spline py "home" 0 "B" ⟨[], none⟩ disk1).2.1
    let book : FilePath := ⟨"home/results_example_jib_and_mainsail_vlm/now", "my_fancy_results.xlsx"⟩
    disk1 book = some (.workbook tA) ∧ disk2 book = some (.workbook tB) := by
  have hab : |(3 / 2 : ℝ)| = 3 / 2 := abs_of_pos (by norm_num)
  have h90 : deg2rad 90 = Real.pi / 2 := by simp [deg2rad]; ring
  have h1 : (windGetProfile ⟨90, 1, 1, "exponential", some (1 / 2), some (3 / 2), some 0, none⟩).trueWindAt |3 / 2|
      = .ok ⟨0, 1, 0⟩ := by
    simp only [windGetProfile, if_true, WindObj.trueWindAt, WindObj.expFactor, hab, sub_zero]
    norm_num [bind, Except.bind, WindObj.lengthToXyz, WindObj.alpha, h90]
  obtain ⟨p, hp, hc, hw, hv⟩ := Demo.prepared_wind spline
    ⟨90, 1, 1, "exponential", some (1 / 2), some (3 / 2), some 0, none⟩ (by simp [windPostInit]) h1
    (by simp [windGetProfile])
  obtain ⟨tB, hB⟩ := demo_prepared_workbook spline hp rfl rfl (by norm_num [Demo.config, demoRig, deg2rad_90]) hc hv (by
    rw [hw]
    simp only [windGetProfile, if_true, windIntegral, expFactorFloat]
    norm_num [bind, Except.bind])
  obtain ⟨tA, hA⟩ := demo_workbook spline
  refine ⟨_, _, some tA, some tB, hA, hB, ?_, ?_⟩
  · intro he
    injection he with he
    subst he
    obtain ⟨p1, hp1, hs1⟩ := run_workbook hA
    obtain ⟨p2, hp2, hs2⟩ := run_workbook hB
    obtain ⟨p0, hp0, -, hvl, -⟩ := Demo.prepared spline
    rw [hp0] at hp1
    injection hp1 with hp1
    subst hp1
    rw [hp] at hp2
    injection hp2 with hp2
    subst hp2
    have w1 := (saveResults_integrals hs1).2
    have w2 := (saveResults_integrals hs2).2
    obtain ⟨-, -, -, hinl, -⟩ := (vlm_ok_iff _ _).1 hvl
    rw [((inletConditions_ok_iff _ _ _ _).1 hinl).2.2] at w1
    injection w1 with w1
    rw [hw, ← w1] at w2
    simp only [windGetProfile, if_true, windIntegral, expFactorFloat] at w2
    norm_num [bind, Except.bind] at w2
  · exact C91_refuted_same_second spline _ (fun _ => "now") "home" "A" "B" "A" "B" 0 [] twoCases _ _
      rfl rfl (by simp) rfl rfl (by decide) _ _ hA hB

/-! ## C92 -/

theorem findVariables_first {disk : Disk} {pre post : List String} {d : String} {x : Content}
    (hpre : ∀ e ∈ pre, disk ⟨e, "variables.py"⟩ = none) (hd : disk ⟨d, "variables.py"⟩ = some x) :
    findVariables disk (pre ++ d :: post) = some (d, x) := by
  induction pre with
  | nil => simp [findVariables, hd]
  | cons e rest ih =>
    simp only [List.cons_append, findVariables, hpre e (by simp)]
    exact ih fun e he => hpre e (by simp [he])

theorem settings_first {py : PythonFn} {disk : Disk} {path pre post : List String} {cwd dvars d s : String}
    {second : ℕ} (hsplit : path ++ [dvars] = pre ++ d :: post)
    (hpre : ∀ e ∈ pre, disk ⟨e, "variables.py"⟩ = none) (hd : disk ⟨d, "variables.py"⟩ = some (.text s)) :
    settings py disk path cwd second dvars = settingsOf (py s ⟨cwd, second, d⟩) := by
  unfold settings loadVariables settingsOf
  simp only [hsplit, findVariables_first hpre hd, execute]
  cases py s ⟨cwd, second, d⟩ <;> rfl

/-- **C92, partial.** In a new process the settings come from the file `variables.py` in the directory of
the option `--dvars`, provided that none of the directories in which Python searches before contains a file
of this name; if there is no such file anywhere, the program ends without changing a file.  Missing from the
full claim: the proviso; see `C92_refuted`. -/
theorem C92_option_partial (spline : SplineFn) (py : PythonFn) (disk : Disk) (path : List String) (cwd : String)
    (second : ℕ) (dvars : String) (hpath : ∀ d ∈ path, disk ⟨d, "variables.py"⟩ = none) :
    (∀ s, disk ⟨dvars, "variables.py"⟩ = some (.text s) →
      settings py disk path cwd second dvars = settingsOf (py s ⟨cwd, second, dvars⟩)) ∧
    (disk ⟨dvars, "variables.py"⟩ = none →
      (callMain spline py cwd second dvars ⟨path, none⟩ disk).2 = (disk, .noVariables)) := by
  refine ⟨fun s hs => settings_first rfl hpath hs, fun hn => ?_⟩
  have hf : findVariables disk (path ++ [dvars]) = none := by
    have hall : ∀ d ∈ path ++ [dvars], disk ⟨d, "variables.py"⟩ = none := by
      intro d hd
      rcases List.mem_append.1 hd with h | h
      · exact hpath d h
      · rw [List.mem_singleton.1 h]; exact hn
    generalize path ++ [dvars] = l at hall
    induction l with
    | nil => rfl
    | cons d rest ih =>
      simp only [findVariables, hall d (by simp)]
      exact ih fun d hd => hall d (by simp [hd])
  unfold callMain loadVariables
  simp only [hf]

/-- **C92 is false in general**: the directory of the option is searched last.  If a directory in Python's
search path has a `variables.py` (with `python -m pySailingVLM` this is the working directory), that file is
used and the one in the directory of the option is not read, whatever it contains. -/
theorem C92_refuted (py : PythonFn) (disk : Disk) (lib : List String) (cwd s : String) (second : ℕ)
    (dvars : String) (hcwd : disk ⟨cwd, "variables.py"⟩ = some (.text s)) :
    settings py disk (cwd :: lib) cwd second dvars = settingsOf (py s ⟨cwd, second, cwd⟩) :=
  settings_first (pre := []) (post := lib ++ [dvars]) rfl (by simp) hcwd

/-- A witness: two cases, the one in the working directory is computed although the other one is asked
for. -/
example : ∃ (py : PythonFn) (disk : Disk), disk ⟨"B", "variables.py"⟩ = some (.text "B") ∧
    settings py disk ["A", "lib"] "A" 0 "B" = .ok (exampleOutput, Demo.config) ∧
    settings py disk ["lib"] "A" 0 "B" = .ok (exampleOutput, noBase) := by
  let py : PythonFn := fun s _ => .ok exampleOutput (if s = "A" then Demo.config else noBase)
  refine ⟨py, twoCases, rfl, ?_, ?_⟩
  · rw [C92_refuted py twoCases ["lib"] "A" "A" 0 "B" rfl]; rfl
  · rw [(C92_option_partial (fun _ _ _ => .ok []) py twoCases ["lib"] "A" 0 "B" (by decide)).1 "B" rfl]; rfl

theorem findVariables_split {disk : Disk} {l : List String} {d : String} {x : Content}
    (h : findVariables disk l = some (d, x)) :
    ∃ pre post, l = pre ++ d :: post ∧ (∀ e ∈ pre, disk ⟨e, "variables.py"⟩ = none) ∧
      disk ⟨d, "variables.py"⟩ = some x := by
  induction l with
  | nil => simp [findVariables] at h
  | cons e rest ih =>
    unfold findVariables at h
    split at h
    · rename_i c hc
      injection h with h
      injection h with h1 h2
      subst h1; subst h2
      exact ⟨[], rest, rfl, by simp, hc⟩
    · rename_i hn
      obtain ⟨pre, post, rfl, hpre, hd⟩ := ih h
      refine ⟨e :: pre, post, rfl, ?_, hd⟩
      intro e' he'
      rcases List.mem_cons.1 he' with rfl | h'
      · exact hn
      · exact hpre e' h'

/-- **C92, exactly.**  In a new process, the settings are those of the file in the directory of the option,
whatever that file means to Python, if and only if none of the directories that Python searches before it has a
`variables.py`. -/
theorem C92_exact (disk : Disk) (path : List String) (cwd : String) (second : ℕ) (dvars s : String)
    (hd : disk ⟨dvars, "variables.py"⟩ = some (.text s)) :
    (∀ py : PythonFn, settings py disk path cwd second dvars = settingsOf (py s ⟨cwd, second, dvars⟩)) ↔
    ∃ before rest, path ++ [dvars] = before ++ dvars :: rest ∧ ∀ d ∈ before, disk ⟨d, "variables.py"⟩ = none := by
  constructor
  · intro h
    obtain ⟨⟨d, x⟩, hf⟩ : ∃ q, findVariables disk (path ++ [dvars]) = some q := by
      cases hf : findVariables disk (path ++ [dvars]) with
      | some q => exact ⟨q, rfl⟩
      | none =>
        have := h fun _ _ => .raises .keyError
        unfold settings loadVariables settingsOf at this
        simp [hf] at this
    obtain ⟨pre, post, hsplit, hpre, hdx⟩ := findVariables_split hf
    by_cases e : d = dvars
    · subst e; exact ⟨pre, post, hsplit, hpre⟩
    exfalso
    have := h fun _ env => if env.dir = dvars then .importError else .raises .keyError
    unfold settings loadVariables settingsOf at this
    cases x <;> simp [hf, execute, e] at this
  · rintro ⟨pre, post, hsplit, hpre⟩ py
    exact settings_first hsplit hpre hd

/-- Non-vacuity of `C92_exact`: of two cases the one in the second directory is used if the first one is not
searched before. -/
example : (∀ py : PythonFn, settings py twoCases ["lib", "B", "A"] "A" 0 "B" = settingsOf (py "B" ⟨"A", 0, "B"⟩)) ∧
    ¬ ∀ py : PythonFn, settings py twoCases ["lib", "A"] "A" 0 "B" = settingsOf (py "B" ⟨"A", 0, "B"⟩) := by
  refine ⟨(C92_exact twoCases _ _ _ _ "B" rfl).2 ⟨["lib"], ["A", "B"], rfl, by decide⟩, fun h => ?_⟩
  obtain ⟨pre, post, h1, h2⟩ := (C92_exact twoCases _ _ _ _ "B" rfl).1 h
  rcases pre with _ | ⟨a, _ | ⟨b, pre⟩⟩
  · simp at h1
  · simp at h1
  · simp only [List.cons_append, List.nil_append, List.cons.injEq] at h1
    have := h2 b (by simp)
    rw [← h1.2.1] at this
    revert this
    decide

/-- **C92**, second call: once a call of `main()` has read its settings, later calls in the same process use
the same ones, whatever option they are given and whatever the files contain by then; in particular they
write to the same output directory. -/
theorem C92_cached (spline : SplineFn) (py : PythonFn) (disk disk2 : Disk) (p : Process) (cwd dvars cwd2 dvars2 : String)
    (second second2 : ℕ) (o : OutputArgs) (c : Config)
    (ho : (loadVariables py disk cwd second dvars p).2 = .ok (o, c)) :
    (loadVariables py disk2 cwd2 second2 dvars2 (callMain spline py cwd second dvars p disk).1).2 = .ok (o, c) := by
  have h : (callMain spline py cwd second dvars p disk).1.loaded = some (o, c) := by
    have h1 : (loadVariables py disk cwd second dvars p).1.loaded = some (o, c) := by
      unfold loadVariables at ho ⊢
      simp only at ho ⊢
      split
      · rename_i m hm
        simp only [hm] at ho
        injection ho with ho
        rw [ho]
      · rename_i hm
        simp only [hm] at ho
        split
        · rename_i hf
          simp only [hf] at ho
          cases ho
        · rename_i d x hf
          simp only [hf] at ho
          split
          · rename_i o' c' he
            simp only [he] at ho
            injection ho with ho
            rw [ho]
          · rename_i he
            simp only [he] at ho
            cases ho
          · rename_i e he
            simp only [he] at ho
            cases ho
    obtain ⟨p', hl⟩ : ∃ p', loadVariables py disk cwd second dvars p = (p', .ok (o, c)) :=
      ⟨(loadVariables py disk cwd second dvars p).1, by rw [← ho]⟩
    unfold callMain
    rw [hl] at h1 ⊢
    simp only at h1 ⊢
    split <;> exact h1
  unfold loadVariables
  simp only [h]

/-- Non-vacuity: a second call that asks for another case. -/
example (spline : SplineFn) : ∃ py : PythonFn, (loadVariables py twoCases "home" 1 "B"
      (callMain spline py "home" 0 "A" ⟨[], none⟩ twoCases).1).2 = .ok (exampleOutput, Demo.config) ∧
    settings py twoCases [] "home" 1 "B" = .ok (exampleOutput, noBase) := by
  refine ⟨fun s _ => .ok exampleOutput (if s = "A" then Demo.config else noBase), ?_, rfl⟩
  exact C92_cached spline _ _ _ _ _ _ _ _ _ _ _ _ rfl

/-! ## C93 -/

/-- **C93, partial.** If the case file names its own directory and its own name (as
`examples/sweep_variables.py` does), then after a run that ends normally the archived copy in the output
directory is the file from which the run was computed.  Missing from the full claim: settings that name
another directory, as the shipped `variables.py` does; see `C93_refuted_missing`,
`C93_refuted_other`. -/
theorem C93_archived_partial (spline : SplineFn) (py : PythonFn) (disk : Disk) (path : List String) (cwd : String)
    (second : ℕ) (dvars s : String) (o : OutputArgs) (c : Config)
    (hpath : ∀ d ∈ path, disk ⟨d, "variables.py"⟩ = none) (hd : disk ⟨dvars, "variables.py"⟩ = some (.text s))
    (hs : py s ⟨cwd, second, dvars⟩ = .ok o c) (hself : o.caseDir = dvars ∧ o.caseName = "variables.py")
    (hdiff : (ownFiles o).Nodup)
    (hdone : (callMain spline py cwd second dvars ⟨path, none⟩ disk).2.2 = .done) :
    (callMain spline py cwd second dvars ⟨path, none⟩ disk).2.1 ⟨o.name, "variables.py"⟩ = some (.text s) := by
  obtain ⟨-, -, t, pic, m, f, g, -, -, h, -⟩ :=
    C90_complete spline py cwd second dvars ⟨path, none⟩ disk o c (settings_dvars hpath hd hs) hdiff hdone
  rw [hself.1, hself.2, hd] at h
  exact h

/-- Non-vacuity: the run of the example above. -/
example (spline : SplineFn) : (callMain spline (fun _ _ => .ok exampleOutput Demo.config) "home" 0 "case"
    ⟨["bin"], none⟩ exampleDisk).2.1 ⟨"out", "variables.py"⟩ = some (.text "") := by
  have h : settings (fun _ _ => .ok exampleOutput Demo.config) exampleDisk ["bin"] "home" 0
      "case" = .ok (exampleOutput, Demo.config) :=
    settings_dvars (s := "") (by simp [exampleDisk]) (by simp [exampleDisk]) rfl
  exact C93_archived_partial spline _ exampleDisk ["bin"] "home" 0 "case" "" exampleOutput Demo.config
    (by simp [exampleDisk]) rfl rfl ⟨rfl, rfl⟩ (by decide)
    ((C90_done_iff spline _ _ _ _ _ _ _ _ h).2 ⟨demo_completes spline, by simp [exampleDisk, exampleOutput], by decide⟩)

/-- **C93, exactly.**  After a run that ends normally, whichever file the settings came from, the archived copy
has the text `s` of that file if and only if the file named by the settings as the case file has this text. -/
theorem C93_exact (spline : SplineFn) (py : PythonFn) (disk : Disk) (path : List String) (cwd : String)
    (second : ℕ) (dvars d s : String) (before rest : List String) (hsplit : path ++ [dvars] = before ++ d :: rest)
    (hbefore : ∀ e ∈ before, disk ⟨e, "variables.py"⟩ = none)
    (hd : disk ⟨d, "variables.py"⟩ = some (.text s)) (o : OutputArgs) (c : Config)
    (hs : py s ⟨cwd, second, d⟩ = .ok o c) (hdiff : (ownFiles o).Nodup)
    (hdone : (callMain spline py cwd second dvars ⟨path, none⟩ disk).2.2 = .done) :
    (callMain spline py cwd second dvars ⟨path, none⟩ disk).2.1 ⟨o.name, o.caseName⟩ = some (.text s) ↔
      disk ⟨o.caseDir, o.caseName⟩ = some (.text s) := by
  have hset : settings py disk path cwd second dvars = .ok (o, c) := by
    rw [settings_first hsplit hbefore hd, hs]; rfl
  obtain ⟨-, -, t, pic, m, f, g, -, -, h, -⟩ :=
    C90_complete spline py cwd second dvars ⟨path, none⟩ disk o c hset hdiff hdone
  rw [h]

/-- Non-vacuity of `C93_exact`: the run of the example above. -/
example (spline : SplineFn) : (callMain spline (fun _ _ => .ok exampleOutput Demo.config) "home" 0 "case"
    ⟨["bin"], none⟩ exampleDisk).2.1 ⟨"out", "variables.py"⟩ = some (.text "") ↔
    exampleDisk ⟨"case", "variables.py"⟩ = some (.text "") := by
  have h : settings (fun _ _ => .ok exampleOutput Demo.config) exampleDisk ["bin"] "home" 0
      "case" = .ok (exampleOutput, Demo.config) :=
    settings_dvars (s := "") (by simp [exampleDisk]) (by simp [exampleDisk]) rfl
  exact C93_exact spline _ exampleDisk ["bin"] "home" 0 "case" "case" "" ["bin"] [] rfl (by simp [exampleDisk]) rfl
    exampleOutput Demo.config rfl (by decide)
    ((C90_done_iff spline _ _ _ _ _ _ _ _ h).2 ⟨demo_completes spline, by simp [exampleDisk, exampleOutput], by decide⟩)

theorem append_ne_self (a b : String) (hb : b ≠ "") : a ≠ a ++ b := by
  intro h
  have := congrArg String.length h
  rw [String.length_append] at this
  have h0 : b.length = 0 := by omega
  exact hb (String.length_eq_zero_iff.1 h0)

/-- **C93 is false for the shipped settings**: they take the working directory for the directory of the
case.  With `--dvars` naming another directory and no `variables.py` in the working directory, the workbook
is written, then the program ends with `FileNotFoundError`: no copy of the case and no figure is written. -/
theorem C93_refuted_missing (spline : SplineFn) (py : PythonFn) (stamp : ℕ → String) (disk : Disk)
    (path : List String) (cwd : String) (second : ℕ) (dvars s : String) (c : Config)
    (hpath : ∀ d ∈ cwd :: path, disk ⟨d, "variables.py"⟩ = none)
    (hd : disk ⟨dvars, "variables.py"⟩ = some (.text s))
    (hs : py s ⟨cwd, second, dvars⟩ = .ok (shippedOutput stamp cwd second) c)
    (hr : (run spline c).2 = .ok ()) :
    let result := (callMain spline py cwd second dvars ⟨path, none⟩ disk).2
    let out := (shippedOutput stamp cwd second).name
    result.2 = .fileNotFound ∧ (∃ t, result.1 ⟨out, "my_fancy_results.xlsx"⟩ = some (.workbook t)) ∧
    ∀ f : FilePath, f ≠ ⟨out, "my_fancy_results.xlsx"⟩ → result.1 f = disk f := by
  intro result out
  obtain ⟨pr, hp, he⟩ := prepared_of_run hr
  have hset := settings_dvars (path := path) (fun d hd => hpath d (by simp [hd])) hd hs
  obtain ⟨t, pic, m, f, g, hst⟩ := outputSteps_ok he
  have hres : result = (Function.update disk ⟨out, "my_fancy_results.xlsx"⟩ (some (.workbook t)), .fileNotFound) := by
    show (callMain spline py cwd second dvars ⟨path, none⟩ disk).2 = _
    rw [callMain_ok hset hp, hst]
    have hne : (⟨cwd, "variables.py"⟩ : FilePath) ≠ ⟨out, "my_fancy_results" ++ ".xlsx"⟩ := by
      simp only [ne_eq, FilePath.mk.injEq, not_and]
      intro _; decide
    have hcopy : writeOutput (shippedOutput stamp cwd second) .caseCopy
        (Function.update disk ⟨out, "my_fancy_results" ++ ".xlsx"⟩ (some (.workbook t))) = .error .fileNotFound := by
      have : (Function.update disk ⟨out, "my_fancy_results" ++ ".xlsx"⟩ (some (Content.workbook t)))
          ⟨(shippedOutput stamp cwd second).caseDir, (shippedOutput stamp cwd second).caseName⟩ = none := by
        show (Function.update disk _ _) (⟨cwd, "variables.py"⟩ : FilePath) = none
        rw [Function.update_of_ne hne, hpath cwd (by simp)]
      simp only [writeOutput]
      rw [this]
    have h1 : writeOutput (shippedOutput stamp cwd second) (.workbook t) disk =
        .ok (Function.update disk ⟨out, "my_fancy_results" ++ ".xlsx"⟩ (some (.workbook t))) := rfl
    simp only [writeAll]
    rw [h1]
    simp only
    rw [hcopy]
    rfl
  rw [hres]
  exact ⟨rfl, ⟨t, by simp⟩, fun f hf => by simp [Function.update_of_ne hf]⟩

/-- Non-vacuity: the run of the one panel sail with the shipped output settings, started from another
directory. -/
example (spline : SplineFn) : (callMain spline
    (fun _ env => .ok (shippedOutput (fun _ => "now") env.cwd env.second) Demo.config) "home" 0 "case"
    ⟨["bin"], none⟩ exampleDisk).2.2 = .fileNotFound :=
  (C93_refuted_missing spline _ (fun _ => "now") exampleDisk ["bin"] "home" 0 "case" "" Demo.config
    (by simp [exampleDisk]) rfl rfl (demo_completes spline)).1

/-- **C93 is false for the shipped settings**: if the working directory has a `variables.py` as well, the run
ends normally, but the archived copy is that file and not the one from which the run was computed. -/
theorem C93_refuted_other (spline : SplineFn) (py : PythonFn) (stamp : ℕ → String) (disk : Disk)
    (path : List String) (cwd : String) (second : ℕ) (dvars s : String) (x : Content) (c : Config)
    (hpath : ∀ d ∈ path, disk ⟨d, "variables.py"⟩ = none)
    (hcwd : disk ⟨cwd, "variables.py"⟩ = some x)
    (hd : disk ⟨dvars, "variables.py"⟩ = some (.text s))
    (hs : py s ⟨cwd, second, dvars⟩ = .ok (shippedOutput stamp cwd second) c)
    (hr : (run spline c).2 = .ok ()) :
    let result := (callMain spline py cwd second dvars ⟨path, none⟩ disk).2
    result.2 = .done ∧ result.1 ⟨(shippedOutput stamp cwd second).name, "variables.py"⟩ = some x := by
  have hset := settings_dvars hpath hd hs
  have hne : cwd ≠ cwd ++ "/results_example_jib_and_mainsail_vlm/" ++ stamp second := by
    rw [String.append_assoc]
    refine append_ne_self _ _ ?_
    intro h
    have := congrArg String.length h
    rw [String.length_append] at this
    simp at this
  have hdone := (C90_done_iff spline py cwd second dvars ⟨path, none⟩ disk _ _ hset).2
    ⟨hr, by simp [shippedOutput, hcwd], by simpa [shippedOutput] using hne⟩
  refine ⟨hdone, ?_⟩
  obtain ⟨-, -, t, pic, m, f, g, -, -, h, -⟩ := C90_complete spline py cwd second dvars ⟨path, none⟩ disk _ c hset
    (by simp [ownFiles, shippedOutput]) hdone
  rw [show (shippedOutput stamp cwd second).caseName = "variables.py" from rfl,
    show (shippedOutput stamp cwd second).caseDir = cwd from rfl, hcwd] at h
  exact h

/-- Non-vacuity: computed from the case in `B`, archived with the case in `A`. -/
example (spline : SplineFn) : (callMain spline
    (fun _ env => .ok (shippedOutput (fun _ => "now") env.cwd env.second) Demo.config) "A" 0 "B"
    ⟨["bin"], none⟩ twoCases).2.1 ⟨"A/results_example_jib_and_mainsail_vlm/now", "variables.py"⟩ =
      some (.text "A") :=
  (C93_refuted_other spline _ (fun _ => "now") twoCases ["bin"] "A" 0 "B" "B" (.text "A") Demo.config
    (by decide) rfl rfl rfl (demo_completes spline)).2

/-! ## C94 -/

/-- **C94, partial.** If the exit status is not 0, the results are not complete: the settings could not be
executed, the calculation or an output raised, or there was no file to archive.  Missing from the full
claim: the converse; see `C94_refuted_*`. -/
theorem C94_status_partial (spline : SplineFn) (py : PythonFn) (cwd : String) (second : ℕ) (dvars : String)
    (path : List String) (disk : Disk)
    (h : (callMain spline py cwd second dvars ⟨path, none⟩ disk).2.2.status ≠ 0) :
    (∃ e, settings py disk path cwd second dvars = .error (.raised e)) ∨
    ∃ o c, settings py disk path cwd second dvars = .ok (o, c) ∧
      ((run spline c).2 ≠ .ok () ∨ disk ⟨o.caseDir, o.caseName⟩ = none ∨ o.caseDir = o.name) := by
  cases hs : settings py disk path cwd second dvars with
  | error x =>
    left
    rw [(C90_own_files spline py cwd second dvars ⟨path, none⟩ disk).1 x hs] at h
    unfold settings loadVariables at hs
    simp only at hs
    split at hs
    · injection hs with hs; subst hs; exact absurd rfl h
    · split at hs
      · cases hs
      · injection hs with hs; subst hs; exact absurd rfl h
      · injection hs with hs; exact ⟨_, by rw [← hs]⟩
  | ok oc =>
    right
    obtain ⟨o, c⟩ := oc
    refine ⟨o, c, rfl, ?_⟩
    by_contra hno
    simp only [not_or, not_not] at hno
    obtain ⟨h1, h2, h3⟩ := hno
    rw [(C90_done_iff spline py cwd second dvars ⟨path, none⟩ disk o c hs).2 ⟨h1, h2, h3⟩] at h
    exact h rfl

/-- Non-vacuity: the run with the shipped output settings, started from another directory. -/
example (spline : SplineFn) : (callMain spline
    (fun _ env => .ok (shippedOutput (fun _ => "now") env.cwd env.second) Demo.config) "home" 0 "case"
    ⟨["bin"], none⟩ exampleDisk).2.2.status ≠ 0 := by
  rw [(C93_refuted_missing spline _ (fun _ => "now") exampleDisk ["bin"] "home" 0 "case" "" Demo.config
    (by simp [exampleDisk]) rfl rfl (demo_completes spline)).1]
  decide

/-- **C94 is false in general**: without a `variables.py`, or if one imports something that is not installed,
the program ends with exit status 0 and has written nothing. -/
theorem C94_refuted_no_variables (spline : SplineFn) (py : PythonFn) (cwd : String) (second : ℕ) (dvars : String)
    (path : List String) (disk : Disk) (hpath : ∀ d ∈ path, disk ⟨d, "variables.py"⟩ = none)
    (h : disk ⟨dvars, "variables.py"⟩ = none ∨
      ∃ s, disk ⟨dvars, "variables.py"⟩ = some (.text s) ∧ py s ⟨cwd, second, dvars⟩ = .importError) :
    (callMain spline py cwd second dvars ⟨path, none⟩ disk).2.2.status = 0 ∧
    (callMain spline py cwd second dvars ⟨path, none⟩ disk).2.1 = disk := by
  have : (callMain spline py cwd second dvars ⟨path, none⟩ disk).2 = (disk, .noVariables) := by
    rcases h with h | ⟨s, h1, h2⟩
    · exact (C92_option_partial spline py disk path cwd second dvars hpath).2 h
    · refine (C90_own_files spline py cwd second dvars ⟨path, none⟩ disk).1 .noVariables ?_
      have := (C92_option_partial spline py disk path cwd second dvars hpath).1 s h1
      rw [h2] at this
      exact this
  rw [this]
  exact ⟨rfl, rfl⟩

/-- Non-vacuity: the directory of the option has no such file. -/
example (spline : SplineFn) (py : PythonFn) :
    (callMain spline py "home" 0 "home" ⟨["bin"], none⟩ exampleDisk).2.2.status = 0 :=
  (C94_refuted_no_variables spline py "home" 0 "home" ["bin"] exampleDisk (by simp [exampleDisk]) (Or.inl rfl)).1

theorem callMain_nothing {spline : SplineFn} {py : PythonFn} {cwd : String} {second : ℕ} {dvars : String}
    {p : Process} {disk : Disk} {o : OutputArgs} {c : Config} {e : PyErr}
    (hs : (loadVariables py disk cwd second dvars p).2 = .ok (o, c)) (hr : run spline c = ([], .error e)) :
    (callMain spline py cwd second dvars p disk).2 = (disk, .raised e) := by
  obtain ⟨p', hl⟩ : ∃ p', loadVariables py disk cwd second dvars p = (p', .ok (o, c)) :=
    ⟨(loadVariables py disk cwd second dvars p).1, by rw [← hs]⟩
  unfold callMain
  rw [hl]
  unfold run at hr
  simp only
  cases hp : prepare spline c with
  | error e' =>
    rw [hp] at hr
    injection hr with _ hr
    injection hr with hr
    rw [hr]
  | ok pr =>
    rw [hp] at hr
    simp only at hr ⊢
    cases hst : outputSteps c pr with
    | nil => rw [hst] at hr; simp [emit] at hr
    | cons x rest =>
      rw [hst] at hr
      cases x with
      | ok y => simp [emit] at hr
      | error e' => simp only [emit, Prod.mk.injEq, true_and, Except.error.injEq] at hr; rw [hr]; rfl

theorem status_raised (e : PyErr) : (Ending.raised e).status = 0 ↔ e = .sysExit 0 := by
  cases e <;> simp [Ending.status]

theorem writeAll_ending (o : OutputArgs) {steps : List (Py Effect)} (h : ∀ x ∈ steps, x ≠ .ok .caseCopy) (disk : Disk) :
    (writeAll o steps disk).2 = match (emit steps).2 with
      | .ok _ => .done
      | .error e => .raised e := by
  induction steps generalizing disk with
  | nil => rfl
  | cons x rest ih =>
    cases x with
    | error e => rfl
    | ok y =>
      have hrest := ih (fun z hz => h z (List.mem_cons_of_mem _ hz))
      cases y with
      | caseCopy => exact absurd rfl (h _ (List.mem_cons_self ..))
      | workbook t => simp only [writeAll, writeOutput, emit]; exact hrest _
      | picture t => simp only [writeAll, writeOutput, emit]; exact hrest _
      | cpMap t => simp only [writeAll, writeOutput, emit]; exact hrest _
      | sectionPlot n t => simp only [writeAll, writeOutput, emit]; exact hrest _

/-- **C94, exactly**: the exit status is 0 if and only if the results are complete, or no settings were found, or
something called `sys.exit` without a status: the settings, or the calculation before the first or after the second
output.  Every other exception gives another status. -/
theorem C94_exact (spline : SplineFn) (py : PythonFn) (cwd : String) (second : ℕ) (dvars : String)
    (path : List String) (disk : Disk) :
    (callMain spline py cwd second dvars ⟨path, none⟩ disk).2.2.status = 0 ↔
    settings py disk path cwd second dvars = .error .noVariables ∨
    settings py disk path cwd second dvars = .error (.raised (.sysExit 0)) ∨
    ∃ o c, settings py disk path cwd second dvars = .ok (o, c) ∧
      (run spline c = ([], .error (.sysExit 0)) ∨
        (((run spline c).2 = .ok () ∨ (run spline c).2 = .error (.sysExit 0)) ∧ disk ⟨o.caseDir, o.caseName⟩ ≠ none ∧
          o.caseDir ≠ o.name)) := by
  cases hs : settings py disk path cwd second dvars with
  | error x =>
    rw [(C90_own_files spline py cwd second dvars ⟨path, none⟩ disk).1 x hs]
    unfold settings loadVariables at hs
    simp only at hs
    split at hs
    · injection hs with hs; subst hs; simp [Ending.status]
    · split at hs
      · cases hs
      · injection hs with hs; subst hs; simp [Ending.status]
      · injection hs with hs
        subst hs
        simp only [status_raised]
        simp
  | ok oc =>
    obtain ⟨o, c⟩ := oc
    have hs' : (loadVariables py disk cwd second dvars ⟨path, none⟩).2 = .ok (o, c) := hs
    have key : (callMain spline py cwd second dvars ⟨path, none⟩ disk).2.2.status = 0 ↔
        (run spline c = ([], .error (.sysExit 0)) ∨
          (((run spline c).2 = .ok () ∨ (run spline c).2 = .error (.sysExit 0)) ∧ disk ⟨o.caseDir, o.caseName⟩ ≠ none ∧
            o.caseDir ≠ o.name)) := by
      have stop : ∀ e, run spline c = ([], .error e) → ((Ending.raised e).status = 0 ↔
          (run spline c = ([], .error (.sysExit 0)) ∨
            (((run spline c).2 = .ok () ∨ (run spline c).2 = .error (.sysExit 0)) ∧ disk ⟨o.caseDir, o.caseName⟩ ≠ none ∧
              o.caseDir ≠ o.name))) := by
        intro e he
        rw [status_raised, he]
        simp
        tauto
      cases hp : prepare spline c with
      | error e =>
        have hr : run spline c = ([], .error e) := by unfold run; rw [hp]
        rw [callMain_nothing hs' hr]
        exact stop e hr
      | ok pr =>
        rw [callMain_ok hs' hp]
        have hr : run spline c = emit (outputSteps c pr) := by unfold run; rw [hp]
        obtain ⟨wb, rest, hst, hrest⟩ : ∃ (wb : Py (Option SavedResults)) (rest : List (Py Effect)),
            outputSteps c pr = wb.map .workbook :: .ok .caseCopy :: rest ∧ ∀ x ∈ rest, x ≠ .ok .caseCopy := by
          refine ⟨_, _, rfl, fun x hx => ?_⟩
          have hsec : ∀ d q n cs, sectionPlotStep d q n cs ≠ .ok .caseCopy := by
            intro d q n cs h
            unfold sectionPlotStep at h
            cases h1 : nanAsNone d with
            | error e => rw [h1] at h; cases h
            | ok d' =>
              rw [h1] at h
              cases d' with
              | none => cases h
              | some d'' =>
                simp only [bind, Except.bind] at h
                cases h2 : plotSectionCoeff (q d'') d''.meanCpZ n cs <;> rw [h2] at h <;> cases h
          simp only [List.mem_cons, List.not_mem_nil, or_false] at hx
          rcases hx with rfl | rfl | rfl | rfl
          · intro h
            cases h' : nanAsNone (displayScene pr.vlm pr.flow.res pr.hull false false) <;> rw [h'] at h <;> cases h
          · intro h
            cases h' : plotCp pr.set.zeroMesh pr.vlm.out.pCoeffs <;> rw [h'] at h <;> cases h
          · exact hsec _ _ _ _
          · exact hsec _ _ _ _
        rw [hst] at hr ⊢
        cases wb with
        | error e =>
          have hr' : run spline c = ([], .error e) := hr
          exact stop e hr'
        | ok t =>
          have hr' : run spline c = (.workbook t :: .caseCopy :: (emit rest).1, (emit rest).2) := hr
          rw [hr']
          simp only [Except.map, writeAll, writeOutput, Prod.mk.injEq, reduceCtorEq, false_and, false_or]
          by_cases hdir : o.caseDir = o.name
          · simp only [hdir, if_true, ne_eq, not_true_eq_false, and_false, iff_false]
            cases Function.update disk ⟨o.name, o.fileName ++ ".xlsx"⟩ (some (.workbook t)) ⟨o.name, o.caseName⟩ <;> simp [Ending.status]
          · rw [Function.update_of_ne (by simp [hdir])]
            cases hf : disk ⟨o.caseDir, o.caseName⟩ with
            | none => simp [Ending.status]
            | some x =>
              simp only [hdir, if_false]
              rw [writeAll_ending o hrest]
              cases (emit rest).2 with
              | ok u => simp [Ending.status, hdir]
              | error e => simp only [status_raised]; simp [hdir]
    rw [key]
    simp

/-- Non-vacuity: an error in the settings, and a complete run. -/
example (spline : SplineFn) :
    (callMain spline (fun _ _ => .raises .typeError) "home" 0 "case" ⟨["bin"], none⟩ exampleDisk).2.2.status ≠ 0 ∧
    (callMain spline (fun _ _ => .ok exampleOutput Demo.config) "home" 0 "case" ⟨["bin"], none⟩ exampleDisk).2.2.status = 0 := by
  constructor
  · rw [Ne, C94_exact]
    have : settings (fun _ _ => .raises .typeError) exampleDisk ["bin"] "home" 0 "case" = .error (.raised .typeError) := rfl
    rw [this]
    simp
  · exact (C94_exact _ _ _ _ _ _ _).2 (Or.inr (Or.inr ⟨exampleOutput, Demo.config, rfl, Or.inr ⟨Or.inl (demo_completes spline),
      by simp [exampleDisk, exampleOutput], by simp [exampleOutput]⟩⟩))

/-- **C94 is false in general**: a configuration that the checks reject ends the program with exit status 0,
and nothing is written. -/
theorem C94_refuted_rejected (spline : SplineFn) (py : PythonFn) (cwd : String) (second : ℕ) (dvars : String)
    (path : List String) (disk : Disk) (o : OutputArgs) (c : Config)
    (hs : settings py disk path cwd second dvars = .ok (o, c))
    (hmain : c.main.twist ≠ none ∨ c.main.girths ≠ none)
    (hjib : c.jib.twist ≠ none ∨ c.jib.girths ≠ none)
    (hdef : c.rig.sailsDef ∈ ["jib", "main", "jib_and_main"])
    (h : WindIncomplete c.wind ∨ ¬ UsableSails c) :
    (callMain spline py cwd second dvars ⟨path, none⟩ disk).2.2.status = 0 ∧
    (callMain spline py cwd second dvars ⟨path, none⟩ disk).2.1 = disk := by
  rw [callMain_nothing hs (C71_rejected spline c hmain hjib hdef h)]
  exact ⟨rfl, rfl⟩

/-- Non-vacuity: a main sail whose camber array is too short. -/
example (spline : SplineFn) : (callMain spline
    (fun _ _ => .ok exampleOutput { Demo.config with main := { demoConf with camber := some [0] } }) "home" 0 "case"
    ⟨["bin"], none⟩ exampleDisk).2.2.status = 0 := by
  refine (C94_refuted_rejected spline _ "home" 0 "case" ["bin"] exampleDisk exampleOutput
    { Demo.config with main := { demoConf with camber := some [0] } } rfl (by simp [demoConf])
    (by simp [Demo.config, demoConf]) (by simp [Demo.config, demoRig]) (Or.inr ?_)).1
  intro h
  obtain ⟨-, g, m, d, h1, h2, -, h4, -⟩ := h.2 (Or.inl rfl)
  cases h1; cases h2; simp at h4

end PySailing.Props
