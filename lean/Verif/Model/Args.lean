import Verif.Model.Cli

/-!
# `runner/cli.py`: the command line

`parse_cli()`, `runner/cli.py:26-43`, declares one option, `-dv` or `--dvars`, and leaves the rest to
`argparse.ArgumentParser`, which adds `-h` and `--help`.  What `argparse` (standard library, Python 3.10 and 3.11)
does with the words of the command line for this declaration is modelled here; other versions differ in rare cases
(`-h` followed by further characters, `--dvars=--`).  Digits are the ASCII digits.
-/

namespace PySailing

/-- A word of the command line, `sys.argv[1:]`. -/
abbrev Word := List Char

/-- `-dv`, `runner/cli.py:39`. -/
def optShort : Word := ['-', 'd', 'v']

/-- `--dvars`, `runner/cli.py:39`. -/
def optLong : Word := ['-', '-', 'd', 'v', 'a', 'r', 's']

/-- `--help`, added by `argparse.ArgumentParser`, `runner/cli.py:28`. -/
def helpLong : Word := ['-', '-', 'h', 'e', 'l', 'p']

/-- What a word is for the parser of `runner/cli.py:28-39`: no option; an option it does not know; an abbreviation
of two options; `-h` or `--help` with the characters that follow; the option of the program, perhaps with a value
after `=`. -/
inductive Token where
  | plain
  | unknown
  | ambiguous
  | help (tail : Word)
  | dvars (value : Option Word)
  deriving DecidableEq

/-- Digits only, at least one. -/
def digits (w : Word) : Bool := !w.isEmpty && w.all Char.isDigit

/-- The pattern `^-\d+$|^-\d*\.\d+$` of `argparse`; `w` is the word without the minus. -/
def isNumber (w : Word) : Bool :=
  digits w ||
    match w.dropWhile Char.isDigit with
    | '.' :: r => digits r
    | _ => false

/-- The two parts of a word at the first `=`. -/
def splitEq (w : Word) : Word × Option Word :=
  match w.dropWhile (· ≠ '=') with
  | [] => (w, none)
  | _ :: v => (w.takeWhile (· ≠ '='), some v)

/-- A word with a minus that is none of the options: negative numbers and words with a space are no options. -/
def notOption (w : Word) : Token :=
  if isNumber w.tail ∨ ' ' ∈ w then .plain else .unknown

/-- `ArgumentParser._parse_optional` for the options declared at `runner/cli.py:28-39`. -/
def classify (w : Word) : Token :=
  match w with
  | '-' :: '-' :: _ =>
    let (o, v) := splitEq w
    if o <+: helpLong ∧ o <+: optLong then .ambiguous
    else if o <+: helpLong then
      match v with
      | none => .help []
      | some _ => .help ['=']
    else if o <+: optLong then .dvars v
    else notOption w
  | '-' :: 'h' :: tail => .help tail
  | ['-', 'd'] => .dvars none
  | '-' :: _ :: _ =>
    let (o, v) := splitEq w
    if o = optShort then .dvars v else notOption w
  | _ => .plain

/-- The end of the program at `-h`: further letters `h` are more of the same, an explicit argument is an error,
anything else comes too late to be one. -/
def helpStatus : Word → ℕ
  | [] => 0
  | 'h' :: rest => helpStatus rest
  | '-' :: _ => 2
  | '=' :: _ => 2
  | _ => 0

/-- `--`: only what is no option follows. -/
def endOfOptions : Word := ['-', '-']

/-- The loop of `ArgumentParser.parse_args`, `runner/cli.py:41`: value of the option so far, and whether there were
words nobody asked for. -/
def parseLoop : List Word → Option Word → Bool → Py (Option Word)
  | [], d, extra => if extra then .error (.sysExit 2) else .ok d
  | w :: ws, d, extra =>
    if w = endOfOptions then .error (.sysExit 2)
    else
      match classify w with
      | .plain => parseLoop ws d true
      | .unknown => parseLoop ws d true
      | .ambiguous => .error (.sysExit 2)
      | .help tail => .error (.sysExit (helpStatus tail))
      | .dvars (some v) => parseLoop ws (some v) extra
      | .dvars none =>
        match ws with
        | [] => .error (.sysExit 2)
        | v :: ws' =>
          if v ≠ endOfOptions ∧ classify v = .plain then parseLoop ws' (some v) extra
          else .error (.sysExit 2)

/-- `parser.parse_args()`, `runner/cli.py:41`, with the default `os.getcwd()` of line 39.  All words before `--` are
looked at before the first one is used, so an ambiguous abbreviation comes first. -/
def parseCli (cwd : String) (words : List Word) : Py String :=
  if .ambiguous ∈ (words.takeWhile (· ≠ endOfOptions)).map classify then .error (.sysExit 2)
  else do
    let d ← parseLoop words none false
    .ok ((d.map String.ofList).getD cwd)

/-- The program started with the given words, `runner/cli.py:41-42`, `48`, and `__main__.py:5`. -/
noncomputable def callProgram (spline : SplineFn) (py : PythonFn) (cwd : String) (second : ℕ) (words : List Word)
    (p : Process) (disk : Disk) : Process × Disk × Ending :=
  match parseCli cwd words with
  | .error e => (p, disk, .raised e)
  | .ok dvars => callMain spline py cwd second dvars p disk

end PySailing
