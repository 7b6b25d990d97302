import Verif.Model.Main

/-!
# Specification: what a full turn of the yacht's heading changes in the output
-/

namespace PySailing.Spec

open PySailing

/-- A number in a cell, lowered by `x`. -/
def lowered (x : ℝ) : Cell → Cell
  | .num y => .num (y - x)
  | .nan => .nan
  | .text s => .text s

/-- The columns with angles measured from the centre line are lowered by `x`; others stay. -/
def columnLowered (x : ℝ) (c : String × List Cell) : String × List Cell :=
  if c.1 = "AWA_fs_COW_deg" ∨ c.1 = "AWA_infs_COW_deg" then (c.1, c.2.map (lowered x)) else c

/-- The row with the angle measured from the centre line is lowered by `x`; others stay. -/
noncomputable def rowLowered (x : ℝ) (r : String × ℝ) : String × ℝ :=
  if r.1 = "AWA_infs_at_reference_height_COW_deg" then (r.1, r.2 - x) else r

/-- The workbook with every angle measured from the centre line lowered by `x` and nothing else changed. -/
noncomputable def workbookLowered (x : ℝ) (t : SavedResults) : SavedResults :=
  ⟨t.components.map (columnLowered x), t.integrals, t.inlet.map (rowLowered x)⟩

/-- An output with every angle measured from the centre line lowered by `x` and nothing else changed. -/
noncomputable def outputLowered (x : ℝ) : Effect → Effect
  | .workbook t => .workbook (t.map (workbookLowered x))
  | .caseCopy => .caseCopy
  | .picture s => .picture s
  | .cpMap m => .cpMap m
  | .sectionPlot name f => .sectionPlot name f

end PySailing.Spec
