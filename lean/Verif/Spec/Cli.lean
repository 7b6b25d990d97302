import Verif.Model.Cli

/-!
# Specification: files of a run, histories of runs
-/

namespace PySailing.Spec

open PySailing

/-- The files a run may write. -/
def ownFiles (o : OutputArgs) : List FilePath :=
  [⟨o.name, o.fileName ++ ".xlsx"⟩, ⟨o.name, o.caseName⟩, ⟨o.name, "cp_plot.html"⟩,
    ⟨o.name, "section_cl.png"⟩, ⟨o.name, "section_cd.png"⟩]

/-- The settings with which `main()` works when it is called with `--dvars dvars` in a new process. -/
def settings (py : PythonFn) (disk : Disk) (path : List String) (cwd : String) (second : ℕ)
    (dvars : String) : Except Ending (OutputArgs × Config) :=
  (loadVariables py disk cwd second dvars ⟨path, none⟩).2

/-- What `main()` makes of a `variables.py` that Python executes with the result `r`. -/
def settingsOf (r : Loaded) : Except Ending (OutputArgs × Config) :=
  match r with
  | .ok o c => .ok (o, c)
  | .importError => .error .noVariables
  | .raises e => .error (.raised e)

/-- One run of the program in a new process, finished or interrupted at any moment, that takes the files
from `disk` to `disk'`.  `name` is the name of its output directory, if it gets as far as knowing it. -/
inductive Ran (spline : SplineFn) (py : PythonFn) : Option String → Disk → Disk → Prop
  | stopped (path : List String) (cwd : String) (second : ℕ) (dvars : String) (disk : Disk) (x : Ending) :
      settings py disk path cwd second dvars = .error x →
      Ran spline py none disk (callMain spline py cwd second dvars ⟨path, none⟩ disk).2.1
  | finished (path : List String) (cwd : String) (second : ℕ) (dvars : String) (disk : Disk)
      (o : OutputArgs) (c : Config) :
      settings py disk path cwd second dvars = .ok (o, c) →
      Ran spline py (some o.name) disk (callMain spline py cwd second dvars ⟨path, none⟩ disk).2.1
  | interrupted (path : List String) (cwd : String) (second : ℕ) (dvars : String) (disk disk' : Disk)
      (o : OutputArgs) (c : Config) (pr : Prepared) :
      settings py disk path cwd second dvars = .ok (o, c) → prepare spline c = .ok pr →
      Interrupted o (outputSteps c pr) disk disk' → Ran spline py (some o.name) disk disk'

/-- Any number of runs, none of which has `D` as its output directory. -/
def RunsElsewhere (spline : SplineFn) (py : PythonFn) (D : String) : Disk → Disk → Prop :=
  Relation.ReflTransGen fun disk disk' => ∃ name, Ran spline py name disk disk' ∧ name ≠ some D

end PySailing.Spec
