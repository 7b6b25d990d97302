import Verif.Spec.NearSail
import Verif.Spec.Main
import Verif.Model.Results

/-!
# Configurations and workbooks that tend to a given one (C133)
-/

namespace PySailing.Spec

open PySailing Filter Topology

variable {T : Type}

/-- Optional numbers tend to an optional number: near the limit they are given if and only if it is given. -/
def NearNumber (l : Filter T) (x : T → Option ℝ) : Option ℝ → Prop
  | none => ∀ᶠ t in l, x t = none
  | some a => ∃ f : T → ℝ, (∀ᶠ t in l, x t = some (f t)) ∧ Tendsto f l (𝓝 a)

/-- Optional arrays tend to an optional array: near the limit they are given if and only if it is given, have its length, and
every entry tends to its entry. -/
def NearArray (l : Filter T) (x : T → Option (List ℝ)) : Option (List ℝ) → Prop
  | none => ∀ᶠ t in l, x t = none
  | some a => ∃ f : T → List ℝ, (∀ᶠ t in l, x t = some (f t) ∧ (f t).length = a.length) ∧
      ∀ i, i < a.length → Tendsto (fun t => (f t).getD i 0) l (𝓝 (a.getD i 0))

/-- The data of sails tend to those of a sail. -/
structure NearSailConf (l : Filter T) (s : T → SailConf) (s0 : SailConf) : Prop where
  twist : NearArray l (fun t => (s t).twist) s0.twist
  girths : NearArray l (fun t => (s t).girths) s0.girths
  chords : NearArray l (fun t => (s t).chords) s0.chords
  camber : NearArray l (fun t => (s t).camber) s0.camber
  distance : NearArray l (fun t => (s t).distance) s0.distance

/-- The data of rigs with the same choice of sails tend to those of a rig. -/
structure NearRig (l : Filter T) (r : T → RigConf) (r0 : RigConf) : Prop where
  mainLuff : NearNumber l (fun t => (r t).mainLuff) r0.mainLuff
  jibLuff : NearNumber l (fun t => (r t).jibLuff) r0.jibLuff
  height : NearNumber l (fun t => (r t).height) r0.height
  base : NearNumber l (fun t => (r t).base) r0.base
  sheer : Tendsto (fun t => (r t).sheer) l (𝓝 r0.sheer)
  boom : Tendsto (fun t => (r t).boom) l (𝓝 r0.boom)
  rake : Tendsto (fun t => (r t).rakeDeg) l (𝓝 r0.rakeDeg)
  mastLOA : Tendsto (fun t => (r t).mastLOA) l (𝓝 r0.mastLOA)
  sailsDef : ∀ t, (r t).sailsDef = r0.sailsDef

/-- Configurations with the same mesh, choice of sails and shape of the wind profile tend to a configuration: every number in
`variables.py` — but those that define the shape of the profile — tends to its number. -/
structure NearConfig (l : Filter T) (c : T → Config) (c0 : Config) : Prop where
  heel : Tendsto (fun t => (c t).heelDeg) l (𝓝 c0.heelDeg)
  leeway : Tendsto (fun t => (c t).leewayDeg) l (𝓝 c0.leewayDeg)
  rho : Tendsto (fun t => (c t).rho) l (𝓝 c0.rho)
  alpha : Tendsto (fun t => (c t).wind.alphaDeg) l (𝓝 c0.wind.alphaDeg)
  speed : Tendsto (fun t => (c t).wind.twsRef) l (𝓝 c0.wind.twsRef)
  yacht : Tendsto (fun t => (c t).wind.sog) l (𝓝 c0.wind.sog)
  profile : ∀ t, (c t).wind = { c0.wind with alphaDeg := (c t).wind.alphaDeg, twsRef := (c t).wind.twsRef, sog := (c t).wind.sog }
  solver : ∀ t, (c t).solver = c0.solver
  rig : NearRig l (fun t => (c t).rig) c0.rig
  main : NearSailConf l (fun t => (c t).main) c0.main
  jib : NearSailConf l (fun t => (c t).jib) c0.jib
  vRef : Conv l (fun t => (c t).vRef) c0.vRef
  clr : Conv l (fun t => (c t).clrUpright) c0.clrUpright

/-- Cells of a table tend to a cell: numbers to a number; a text, a `nan` or no cell stays what it is. -/
def NearCell (l : Filter T) (x : T → Option Cell) : Option Cell → Prop
  | some (.num a) => ∃ f : T → ℝ, (∀ᶠ t in l, x t = some (.num (f t))) ∧ Tendsto f l (𝓝 a)
  | c => ∀ᶠ t in l, x t = c

/-- The angle of a velocity in row `q` of a table jumps: the angle of the local flow where the flow has no component along the
course (`arctan (y / x)`), the angle of the apparent wind where this comes from exactly astern or vanishes (`arctan2 y x`). -/
def AngleJumps (t : SavedResults) (name : String) (q : ℕ) : Prop :=
  ((name = "AWA_fs_COG_deg" ∨ name = "AWA_fs_COW_deg") ∧ t.components.cell "V_app_fs_COG.x" q = some (.num 0)) ∨
  ((name = "AWA_infs_COG_deg" ∨ name = "AWA_infs_COW_deg") ∧ t.components.cell "V_app_infs_COG.y" q = some (.num 0) ∧
    ∃ x ≤ 0, t.components.cell "V_app_infs_COG.x" q = some (.num x))

/-- The same for the sheet with the wind at the reference height. -/
def ReferenceAngleJumps (t : SavedResults) (name : String) : Prop :=
  (name = "AWA_infs_at_reference_height_COG_deg" ∨ name = "AWA_infs_at_reference_height_COW_deg") ∧
    t.inlet.lookup "V_app_infs_at_reference_height_COG.y" = some 0 ∧
    ∃ x ≤ 0, t.inlet.lookup "V_app_infs_at_reference_height_COG.x" = some x

/-- Workbooks tend to a workbook: the same columns and rows, every number of its three sheets tends to its number — the angles
where they do not jump. -/
structure NearWorkbook (l : Filter T) (t : T → SavedResults) (t0 : SavedResults) : Prop where
  columns : ∀ᶠ x in l, (t x).components.map Prod.fst = t0.components.map Prod.fst
  rows : ∀ᶠ x in l, (t x).components.map (fun c => c.2.length) = t0.components.map fun c => c.2.length
  cells : ∀ name q, ¬ AngleJumps t0 name q →
    NearCell l (fun x => (t x).components.cell name q) (t0.components.cell name q)
  integrals : ∀ key, NearNumber l (fun x => (t x).integrals key) (t0.integrals key)
  quantities : ∀ᶠ x in l, (t x).inlet.map Prod.fst = t0.inlet.map Prod.fst
  inlet : ∀ name, ¬ ReferenceAngleJumps t0 name → NearNumber l (fun x => (t x).inlet.lookup name) (t0.inlet.lookup name)

end PySailing.Spec
