import Verif.Model.Main

/-!
# `runner/cli.py`: files, command line option and exit status

The program as seen from outside: which `variables.py` it reads, which files it writes where, how the
process ends.  Directories are names; two names of one directory (relative and absolute, links) are not
identified, and a directory can always be created and written to.  The contents of `variables.py` are
arbitrary: what executing it yields is a parameter (`PythonFn`).
-/

namespace PySailing

/-- `Output`, `runner/container.py:9-14`. -/
structure OutputArgs where
  caseName : String
  caseDir : String
  name : String
  fileName : String

/-- `output_args` of the shipped `variables.py:9-14`, executed in the directory `cwd` at the time `second`;
`stamp` is `time.strftime("%Y-%m-%d_%Hh%Mm%Ss")`.  The file is found as `variables.py`, so this is its
`case_name`. -/
def shippedOutput (stamp : ℕ → String) (cwd : String) (second : ℕ) : OutputArgs where
  caseName := "variables.py"
  caseDir := cwd
  name := cwd ++ "/results_example_jib_and_mainsail_vlm/" ++ stamp second
  fileName := "my_fancy_results"

/-- A file in a directory.  Names of files have no directory part. -/
structure FilePath where
  dir : String
  file : String
  deriving DecidableEq

/-- What a file contains: text, or one of the files that the program writes (`results/save_utils.py:56`,
`solver/panels_plotter.py:370`, `409`). -/
inductive Content where
  | text (s : String)
  | workbook (t : Option SavedResults)
  | cpMap (m : List (List (ℝ × ℝ) × ℝ))
  | sectionPlot (name : String) (f : Option Figure)

/-- The files of the computer. -/
abbrev Disk := FilePath → Option Content

/-- What executing `variables.py` can depend on besides its text: the working directory
(`os.path.abspath('')`, `variables.py:11`), the clock in seconds (`time.strftime`, `variables.py:12`) and
the directory of the file (`__file__`, `examples/sweep_variables.py:14`). -/
structure ImportEnv where
  cwd : String
  second : ℕ
  dir : String

/-- The result of executing `variables.py`: the arguments of the objects of `runner/cli.py:49-56`, an
`ImportError`, or another exception. -/
inductive Loaded where
  | ok (o : OutputArgs) (c : Config)
  | importError
  | raises (e : PyErr)

/-- What Python makes of the text of `variables.py`. -/
abbrev PythonFn := String → ImportEnv → Loaded

/-- State of the Python process: `sys.path`, and the module `variables` once it is imported
(`sys.modules`), `runner/cli.py:20-21`. -/
structure Process where
  path : List String
  loaded : Option (OutputArgs × Config)

/-- How the program ends: normally; `sys.exit(0)` at `runner/cli.py:24`; an exception (or `sys.exit`) from
the calculation; `FileNotFoundError` or `SameFileError` from `shutil.copy`, `runner/cli.py:81`. -/
inductive Ending where
  | done
  | noVariables
  | raised (e : PyErr)
  | fileNotFound
  | sameFile

/-- Exit status of the process, `__main__.py:5` (`main()` returns `None`); an uncaught exception gives
`1`. -/
def Ending.status : Ending → ℕ
  | .done => 0
  | .noVariables => 0
  | .raised (.sysExit n) => n
  | .raised _ => 1
  | .fileNotFound => 1
  | .sameFile => 1

/-- The directory in which `import variables` finds the module: the first one of `sys.path` with a file of
that name, `runner/cli.py:21`.  Packages and compiled modules of the same name are not modelled. -/
def findVariables (disk : Disk) : List String → Option (String × Content)
  | [] => none
  | d :: rest =>
    match disk ⟨d, "variables.py"⟩ with
    | some c => some (d, c)
    | none => findVariables disk rest

/-- Executing a file: anything but text is not Python. -/
def execute (py : PythonFn) (c : Content) (env : ImportEnv) : Loaded :=
  match c with
  | .text s => py s env
  | _ => .raises .valueError

/-- `load_variable_module(args)`, `runner/cli.py:18-24`: the directory is *appended* to `sys.path`; a module
that is already imported is not read again; an `ImportError`, also one raised inside `variables.py`, ends
the program with status `0`. -/
def loadVariables (py : PythonFn) (disk : Disk) (cwd : String) (second : ℕ) (dvars : String) (p : Process) :
    Process × Except Ending (OutputArgs × Config) :=
  let path := p.path ++ [dvars]
  match p.loaded with
  | some m => (⟨path, some m⟩, .ok m)
  | none =>
    match findVariables disk path with
    | none => (⟨path, none⟩, .error .noVariables)
    | some (d, c) =>
      match execute py c ⟨cwd, second, d⟩ with
      | .ok o cfg => (⟨path, some (o, cfg)⟩, .ok (o, cfg))
      | .importError => (⟨path, none⟩, .error .noVariables)
      | .raises e => (⟨path, none⟩, .error (.raised e))

/-- The file that an output goes to: `results/save_utils.py:40`, `56`, `runner/cli.py:81`,
`solver/panels_plotter.py:370`, `409`; the picture is only shown. -/
def target (o : OutputArgs) : Effect → Option FilePath
  | .workbook _ => some ⟨o.name, o.fileName ++ ".xlsx"⟩
  | .caseCopy => some ⟨o.name, o.caseName⟩
  | .picture _ => none
  | .cpMap _ => some ⟨o.name, "cp_plot.html"⟩
  | .sectionPlot name _ => some ⟨o.name, "section_" ++ (if name = "drag" then "cd" else "cl") ++ ".png"⟩

/-- Writing one output: `shutil.copy` needs the source and refuses to copy a file onto itself
(`runner/cli.py:81`); the others replace the file. -/
def writeOutput (o : OutputArgs) (e : Effect) (disk : Disk) : Except Ending Disk :=
  match e with
  | .workbook t => .ok (Function.update disk ⟨o.name, o.fileName ++ ".xlsx"⟩ (some (.workbook t)))
  | .caseCopy =>
    match disk ⟨o.caseDir, o.caseName⟩ with
    | none => .error .fileNotFound
    | some c =>
      if o.caseDir = o.name then .error .sameFile
      else .ok (Function.update disk ⟨o.name, o.caseName⟩ (some c))
  | .picture _ => .ok disk
  | .cpMap m => .ok (Function.update disk ⟨o.name, "cp_plot.html"⟩ (some (.cpMap m)))
  | .sectionPlot name f => .ok (Function.update disk
      ⟨o.name, "section_" ++ (if name = "drag" then "cd" else "cl") ++ ".png"⟩ (some (.sectionPlot name f)))

/-- The outputs one after the other, `runner/cli.py:80-93`. -/
def writeAll (o : OutputArgs) : List (Py Effect) → Disk → Disk × Ending
  | [], disk => (disk, .done)
  | .error e :: _, disk => (disk, .raised e)
  | .ok e :: rest, disk =>
    match writeOutput o e disk with
    | .ok disk' => writeAll o rest disk'
    | .error x => (disk, x)

/-- `main()`, `runner/cli.py:46-93`, called in the process `p` at a given time in a given directory with
`--dvars dvars`. -/
noncomputable def callMain (spline : SplineFn) (py : PythonFn) (cwd : String) (second : ℕ) (dvars : String)
    (p : Process) (disk : Disk) : Process × Disk × Ending :=
  match loadVariables py disk cwd second dvars p with
  | (p', .error x) => (p', disk, x)
  | (p', .ok (o, c)) =>
    match prepare spline c with
    | .error e => (p', disk, .raised e)
    | .ok pr => (p', writeAll o (outputSteps c pr) disk)

/-- Disks that an interruption (kill, power failure) of the outputs can leave: nothing more is written; or
the file being written has any contents or is missing; or the interruption comes later.
`runner/cli.py:80-93`. -/
inductive Interrupted (o : OutputArgs) : List (Py Effect) → Disk → Disk → Prop
  | now (steps : List (Py Effect)) (disk : Disk) : Interrupted o steps disk disk
  | during (e : Effect) (rest : List (Py Effect)) (disk : Disk) (f : FilePath) (c : Option Content) :
      target o e = some f → Interrupted o (.ok e :: rest) disk (Function.update disk f c)
  | later (e : Effect) (rest : List (Py Effect)) (disk disk' disk'' : Disk) :
      writeOutput o e disk = .ok disk' → Interrupted o rest disk' disk'' →
      Interrupted o (.ok e :: rest) disk disk''

end PySailing
