import Verif.Model.Main
import Verif.Spec.Runner
import Verif.Spec.Results

/-!
# Specification: the command line program
-/

namespace PySailing.Spec

open PySailing

/-- What kind of output it is. -/
def outputKind : Effect → String
  | .workbook _ => "workbook"
  | .caseCopy => "copy of variables.py"
  | .picture _ => "picture"
  | .cpMap _ => "pressure map"
  | .sectionPlot name _ => name

/-- The outputs of a complete run, in order. -/
def outputOrder : List String :=
  ["workbook", "copy of variables.py", "picture", "pressure map", "lift", "drag"]

/-- Arrays of a sail as a user has to give them: girths, camber and camber position of the same length,
and the twist, if given, of that length too. -/
def UsableArrays (c : SailConf) : Prop :=
  ∃ girths camber distance, c.girths = some girths ∧ c.camber = some camber ∧
    c.distance = some distance ∧ camber.length = girths.length ∧ distance.length = girths.length ∧
    ∀ twist, c.twist = some twist → twist.length = girths.length

/-- The data of the selected sails are given. -/
def UsableSails (c : Config) : Prop :=
  (c.rig.sailsDef = "jib" ∨ c.rig.sailsDef = "jib_and_main" →
    c.rig.base ≠ none ∧ c.rig.height ≠ none ∧ c.rig.jibLuff ≠ none ∧ UsableArrays c.jib) ∧
  (c.rig.sailsDef = "main" ∨ c.rig.sailsDef = "jib_and_main" →
    c.rig.mainLuff ≠ none ∧ UsableArrays c.main)

/-- Wind data that the program recognises as incomplete. -/
def WindIncomplete (w : WindConditions) : Prop :=
  (w.profile = "logarithmic" ∧ (w.roughness = none ∨ w.refHeight = none)) ∨
  (w.profile = "flat" ∧ (w.expCoeff = none ∨ w.refHeight = none)) ∨
  (w.profile = "expotentional" ∧ (w.expCoeff = none ∨ w.refHeight = none))

/-- For an exponential wind profile: reference height positive and above the water level. -/
def ReferenceAboveWater (w : WindConditions) : Prop :=
  w.profile = "exponential" → ∀ ref wl, w.refHeight = some ref → w.waterLevel = some wl → 0 < ref ∧ wl < ref

/-- The sail data with the default twist of `a * girth + b` degrees where no twist is given. -/
noncomputable def withDefaultTwist (a b : ℝ) (c : SailConf) : SailConf :=
  { c with twist := c.twist <|> c.girths.map (List.map fun x => a * x + b) }

/-- The jib as used by a run. -/
noncomputable def jibData (c : Config) : SailConf := withDefaultTwist 15 7 c.jib

/-- The main sail as used by a run. -/
noncomputable def mainData (c : Config) : SailConf := withDefaultTwist 12 5 c.main

/-- A well-formed configuration: a documented twist mode, at least one panel in each
direction, heel not 90 degrees, well-formed rig and sail data for the selected sails, and wind data the
program accepts. -/
structure WellFormed (c : Config) : Prop where
  mode : c.solver.lltTwist ∈ twistModes
  ns_pos : 1 ≤ c.solver.ns
  nc_pos : 1 ≤ c.solver.nc
  heel : Real.cos (deg2rad c.heelDeg) ≠ 0
  sails : c.rig.sailsDef ∈ ["jib", "main", "jib_and_main"]
  base : c.rig.base ≠ none
  main_twist : c.main.twist ≠ none ∨ c.main.girths ≠ none
  jib_twist : c.jib.twist ≠ none ∨ c.jib.girths ≠ none
  jib : c.rig.sailsDef ≠ "main" → GoodJibRig c.heelDeg c.rig ∧ ∃ gi ch tw ca di, GoodSail c.solver.interpolation (jibData c) gi ch tw ca di
  main : c.rig.sailsDef ≠ "jib" → GoodMainRig c.heelDeg c.rig ∧ ∃ gi ch tw ca di, GoodSail c.solver.interpolation (mainData c) gi ch tw ca di
  wind : ¬ WindIncomplete c.wind

end PySailing.Spec
