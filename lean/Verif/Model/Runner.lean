import Verif.Model.Interpolator
import Verif.Model.Sail

/-!
# `runner/container.py`, `runner/sail.py` (class `Sail`)
-/

namespace PySailing

/-- The fields of a `MainSail` or `JibSail` object, `runner/container.py:66-89`; each may be `None`.
Simplification: an array has one axis, so its shape is its length. -/
structure SailConf where
  twist : Option (List ℝ)
  girths : Option (List ℝ)
  chords : Option (List ℝ)
  camber : Option (List ℝ)
  distance : Option (List ℝ)

/-- `if twist is None: twist = a * self.girths + b`, `runner/container.py:75-77`, `87-89`; arithmetic
with `None` is a `TypeError`. -/
noncomputable def SailConf.withTwist (c : SailConf) (a b : ℝ) : Py SailConf :=
  match c.twist with
  | some _ => .ok c
  | none => match c.girths with
    | some g => .ok { c with twist := some (g.map fun x => a * x + b) }
    | none => .error .typeError

/-- `MainSail.__post_init__`, `runner/container.py:75-77`. -/
noncomputable def mainSailInit (c : SailConf) : Py SailConf := c.withTwist 12 5

/-- `JibSail.__post_init__`, `runner/container.py:87-89`. -/
noncomputable def jibSailInit (c : SailConf) : Py SailConf := c.withTwist 15 7

/-- The fields of a `Rig` object, `runner/container.py:48-58`; those that `Sail` tests for `None` are
options. -/
structure RigConf where
  mainLuff : Option ℝ
  jibLuff : Option ℝ
  height : Option ℝ
  base : Option ℝ
  sheer : ℝ
  boom : ℝ
  rakeDeg : ℝ
  mastLOA : ℝ
  sailsDef : String

/-- The fields of a `Solver` object, `runner/container.py:18-24`.  `LLT_twist` is a `ClassVar`: the constructor
does not accept it and every object has `"real_twist"`; runs with another value are those after an
assignment to the class attribute. -/
structure SolverConf where
  ns : ℕ
  nc : ℕ
  interpolation : String
  lltTwist : String

/-- `check_input_arr_shapes(check_arr, sails_def)`, `runner/sail.py:27-30`; `None.shape` is an
`AttributeError`.  The first array is compared with itself first. -/
def checkShapes (arrs : List (Option (List ℝ))) : Py Unit :=
  arrs.foldlM (init := ()) fun _ arr =>
    match arr, arrs.head? with
    | some a, some (some a0) => if a.length ≠ a0.length then .error .valueError else .ok ()
    | _, _ => .error .attributeError

/-- `check_list_for_none` on the scalars and arrays of `jib_stuff` or `main_stuff`,
`runner/sail.py:17-25`: true when one of them is `None`. -/
def hasNone (scalars : List (Option ℝ)) (arrs : List (Option (List ℝ))) : Bool :=
  scalars.any Option.isNone || arrs.any Option.isNone

/-- The scalars of `jib_stuff`, `runner/sail.py:89`. -/
def jibScalars (rig : RigConf) : List (Option ℝ) := [rig.base, rig.height, rig.jibLuff]

/-- The scalar of `main_stuff`, `runner/sail.py:91`. -/
def mainScalars (rig : RigConf) : List (Option ℝ) := [rig.mainLuff]

/-- The arrays `jib_stuff[3:]` or `main_stuff[1:]`, `runner/sail.py:89`, `91`. -/
def SailConf.arrays (c : SailConf) : List (Option (List ℝ)) := [c.girths, c.twist, c.camber, c.distance]

/-- A local variable that is bound only if the sail object is not `None`, `runner/sail.py:88-91`. -/
def boundLocal {α : Type} (x : Option α) : Py α :=
  match x with
  | some a => .ok a
  | none => .error .unboundLocal

/-- The body of the `try` block of `Sail.__post_init__`, `runner/sail.py:88-106`. -/
def sailChecks (rig : RigConf) (main jib : Option SailConf) : Py Unit := do
  if rig.sailsDef = "jib" then
    let j ← boundLocal jib
    if hasNone (jibScalars rig) j.arrays then .error .valueError
    else checkShapes j.arrays
  else if rig.sailsDef = "main" then
    let m ← boundLocal main
    if hasNone (mainScalars rig) m.arrays then .error .valueError
    else checkShapes m.arrays
  else if rig.sailsDef = "jib_and_main" then
    let j ← boundLocal jib
    let m ← boundLocal main
    if hasNone (jibScalars rig ++ mainScalars rig) (j.arrays ++ m.arrays) then .error .valueError
    else do
      checkShapes j.arrays
      checkShapes m.arrays
  else
    let j ← boundLocal jib
    checkShapes j.arrays
    let m ← boundLocal main
    checkShapes m.arrays

/-- `Sail.__post_init__`, `runner/sail.py:86-109`: `ValueError` is caught, printed and turned into
`sys.exit()`, exit status 0. -/
def sailPostInit (rig : RigConf) (main jib : Option SailConf) : Py Unit :=
  match sailChecks rig main jib with
  | .error .valueError => .error (.sysExit 0)
  | r => r

/-- Use of a value that may be `None` in arithmetic, `runner/sail.py:119-141`, `runner/cli.py:66`. -/
def need {α : Type} (x : Option α) : Py α :=
  match x with
  | some a => .ok a
  | none => .error .typeError

/-- Use of an array that may be `None` in an interpolation, `runner/sail.py:123-128` with
`solver/interpolator.py:9-16`: `np.interp` refuses it with a `ValueError` (too small depth), `splrep` with a
`TypeError` (lengths differ), and an unknown kind is a `KeyError` first. -/
def needArray (kind : String) (x : Option (List ℝ)) : Py (List ℝ) :=
  match x with
  | some a => .ok a
  | none =>
    if kind = "linear" then .error .valueError
    else if kind = "spline" then .error .typeError
    else .error .keyError

/-- Attribute access on a sail object that may be `None`, `runner/sail.py:123`, `136`. -/
def attr {α : Type} (x : Option α) : Py α :=
  match x with
  | some a => .ok a
  | none => .error .attributeError

/-- The four interpolated arrays of one sail: chords, twist, camber, camber position,
`runner/sail.py:123-128`, `136-140`. -/
noncomputable def interpolatedSail (spline : SplineFn) (s : SolverConf) (c : SailConf) :
    Py (List ℝ × List ℝ × List ℝ × List ℝ) := do
  let girths ← needArray s.interpolation c.girths
  let chords ← needArray s.interpolation c.chords
  let chords' ← interpolateGirths spline s.interpolation girths chords (s.ns + 1)
  let twist ← needArray s.interpolation c.twist
  let twist' ← interpolateGirths spline s.interpolation girths twist (s.ns + 1)
  let camber ← needArray s.interpolation c.camber
  let camber' ← interpolateGirths spline s.interpolation girths camber (s.ns + 1)
  let distance ← needArray s.interpolation c.distance
  let distance' ← interpolateGirths spline s.interpolation girths distance (s.ns + 1)
  .ok (chords', twist', camber', distance')

/-- The factory of `Sail.__get_sail_set`, `runner/sail.py:114-115`. -/
def RigConf.factory (rig : RigConf) (s : SolverConf) (csys : Csys) : SailFactory :=
  ⟨csys, s.ns, s.nc, rig.rakeDeg, rig.sheer⟩

/-- The jib of `Sail.__get_sail_set`, `runner/sail.py:118-130`. -/
noncomputable def sailJib (spline : SplineFn) (s : SolverConf) (rig : RigConf)
    (jib : Option SailConf) (csys : Csys) : Py SailGeom := do
  let j ← attr jib
  let (chords, twist, camber, distance) ← interpolatedSail spline s j
  let luff ← need rig.jibLuff
  let base ← need rig.base
  let height ← need rig.height
  (rig.factory s csys).makeJib luff base height rig.mastLOA chords (some twist) (some s.lltTwist)
    camber distance

/-- The main sail of `Sail.__get_sail_set`, `runner/sail.py:132-142`. -/
noncomputable def sailMain (spline : SplineFn) (s : SolverConf) (rig : RigConf)
    (main : Option SailConf) (csys : Csys) : Py SailGeom := do
  let m ← attr main
  let (chords, twist, camber, distance) ← interpolatedSail spline s m
  let luff ← need rig.mainLuff
  (rig.factory s csys).makeMainSail luff rig.boom chords (some twist) (some s.lltTwist) camber distance

/-- The first `if` of `Sail.__get_sail_set`, `runner/sail.py:118-130`. -/
noncomputable def selectedJib (spline : SplineFn) (s : SolverConf) (rig : RigConf)
    (jib : Option SailConf) (csys : Csys) : Py (List SailGeom) :=
  if rig.sailsDef = "jib" ∨ rig.sailsDef = "jib_and_main" then
    (sailJib spline s rig jib csys).map fun g => [g]
  else .ok []

/-- The second `if` of `Sail.__get_sail_set`, `runner/sail.py:132-142`. -/
noncomputable def selectedMain (spline : SplineFn) (s : SolverConf) (rig : RigConf)
    (main : Option SailConf) (csys : Csys) : Py (List SailGeom) :=
  if rig.sailsDef = "main" ∨ rig.sailsDef = "jib_and_main" then
    (sailMain spline s rig main csys).map fun g => [g]
  else .ok []

/-- `Sail.sail_set`, `runner/sail.py:111-148`. -/
noncomputable def sailSetOf (spline : SplineFn) (s : SolverConf) (rig : RigConf)
    (main jib : Option SailConf) (csys : Csys) : Py SailSet := do
  let js ← selectedJib spline s rig jib csys
  let ms ← selectedMain spline s rig main csys
  sailSet (js ++ ms)

end PySailing
