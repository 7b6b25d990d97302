import Verif.Model.Excel

/-!
# Specification for the Excel file (C83, C84)
-/

namespace PySailing.Spec

/-- `s` contains the word `w`. -/
def Contains (w s : String) : Prop := ∃ a b : List Char, s.toList = a ++ w.toList ++ b

/-- The colour that belongs to a quantity: that of the coordinate system named in it (`COG`: course over
ground, `COW`: course over water), none otherwise. -/
inductive ColourOf : String → CellFormat → Prop where
  | cog {s : String} : Contains "COG" s → ¬ Contains "COW" s → ColourOf s .cog
  | cow {s : String} : Contains "COW" s → ¬ Contains "COG" s → ColourOf s .cow
  | none {s : String} : ¬ Contains "COG" s → ¬ Contains "COW" s → ColourOf s .general

/-- `y` is `x` rounded to `d` decimals: a multiple of `10 ^ -d` at most half a unit away. -/
def Rounded (d : ℕ) (x y : ℝ) : Prop := (∃ n : ℤ, y = n / 10 ^ d) ∧ |y - x| ≤ 1 / 2 / 10 ^ d

/-- A summary sheet shows the value `y` in the row with the name `name`. -/
def Shown (s : Sheet) (name : String) (y : ℝ) : Prop :=
  ∃ r, s.content (r + 1) 0 = .text name ∧ s.content (r + 1) 1 = .number y

end PySailing.Spec
