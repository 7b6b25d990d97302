import Verif.Model.Main
import Mathlib.Algebra.Order.Round
import Mathlib.Data.List.Sort

/-!
# `results/save_utils.py`, `save_to_excel`: the Excel file

What a reader of the file sees in each cell: the value (numbers are rounded when they are written) and the
format.  Modelled by their documentation: pandas' `to_excel` with `float_format`, and Excel's conditional
formats.  Not modelled: column widths, borders, number formats other than per cent.
-/

namespace PySailing

/-- The content of a cell of a sheet, `results/save_utils.py:55`, `112`.  `nan` is written as an empty
cell. -/
inductive SheetCell where
  | number (x : ℝ)
  | text (s : String)
  | blank

/-- `float("%.<d>f" % x)`, what pandas writes for a number with `float_format="%.8f"`
(`results/save_utils.py:55`) or `"%.2f"` (`:112`): the nearest number with `d` decimals, the even one of
two nearest. -/
noncomputable def formatFloat (d : ℕ) (x : ℝ) : ℝ :=
  let y := x * 10 ^ d
  let n : ℤ := if Int.fract y = 1 / 2 then (if Even ⌊y⌋ then ⌊y⌋ else ⌊y⌋ + 1) else ⌊y + 1 / 2⌋
  (n : ℝ) / 10 ^ d

/-- A value of a data frame as it is written, `results/save_utils.py:55`. -/
noncomputable def Cell.written (d : ℕ) : Cell → SheetCell
  | .num x => .number (formatFloat d x)
  | .nan => .blank
  | .text s => .text s

/-- The formats of `results/save_utils.py:66-88`. -/
inductive CellFormat where
  | general
  | cog
  | cow
  | percent
deriving DecidableEq

/-- The conditions of the conditional formats, `results/save_utils.py:100-101`, `124`. -/
inductive CellTest where
  | ge0
  | lt0
  | noBlanks

/-- When Excel regards a condition as met (`results/save_utils.py:100-101`, `124`): text is greater than
every number, an empty cell counts as 0, `no_blanks` asks for a character other than a space. -/
def CellTest.holds : CellTest → SheetCell → Prop
  | .ge0, .number x => 0 ≤ x
  | .ge0, .text _ => True
  | .ge0, .blank => True
  | .lt0, .number x => x < 0
  | .lt0, _ => False
  | .noBlanks, .number _ => True
  | .noBlanks, .text s => ∃ ch ∈ s.toList, ch ≠ ' '
  | .noBlanks, .blank => False

/-- One call of `worksheet.conditional_format(first_row, col, last_row, col, ...)`,
`results/save_utils.py:100-109`, `124-131`. -/
structure CondRule where
  first : ℕ
  last : ℕ
  col : ℕ
  test : CellTest
  format : CellFormat

/-- A sheet: contents by row and column, and its conditional formats in the order in which they are
added, `results/save_utils.py:55`, `112`. -/
structure Sheet where
  content : ℕ → ℕ → SheetCell
  rules : List CondRule

/-- The rule applies to the cell, `results/save_utils.py:100`. -/
def CondRule.applies (R : CondRule) (s : Sheet) (row col : ℕ) : Prop :=
  R.first ≤ row ∧ row ≤ R.last ∧ R.col = col ∧ R.test.holds (s.content row col)

open Classical in
/-- The format in which Excel shows a cell: that of the first rule that applies (xlsxwriter numbers the
priorities in the order of the calls), otherwise that of the column, `results/save_utils.py:95`, `118`. -/
noncomputable def Sheet.shown (s : Sheet) (row col : ℕ) : CellFormat :=
  match s.rules.find? fun R => R.applies s row col with
  | some R => R.format
  | none => .general

/-- `tag in name`, `results/save_utils.py:97`. -/
def mentions (tag name : String) : Bool := decide (tag.toList <:+: name.toList)

/-- Two rules that together cover numbers of both signs, `results/save_utils.py:100-101`. -/
def bothSigns (first last col : ℕ) (f : CellFormat) : List CondRule :=
  [⟨first, last, col, .ge0, f⟩, ⟨first, last, col, .lt0, f⟩]

/-- The rules of the column `i` with heading `name`, `results/save_utils.py:97-109`. -/
def componentRules (maxRow i : ℕ) (name : String) : List CondRule :=
  (if mentions "COG" name then bothSigns 1 maxRow i .cog else []) ++
  (if mentions "COW" name then bothSigns 1 maxRow i .cow else []) ++
  (if name = "Camber_estimate" then bothSigns 1 maxRow i .percent else [])

/-- The number of rows of a frame whose columns have equal lengths, `results/save_utils.py:49`. -/
def Frame.rows (t : Frame) : ℕ := match t with
  | [] => 0
  | c :: _ => c.2.length

/-- The sheet `Components`, `results/save_utils.py:55-109`: headings in row 0, `float_format="%.8f"`. -/
noncomputable def componentsSheet (t : Frame) : Sheet where
  content := fun row col => match t[col]? with
    | none => .blank
    | some c => match row with
      | 0 => .text c.1
      | r + 1 => match c.2[r]? with
        | none => .blank
        | some v => v.written 8
  rules := t.zipIdx.flatMap fun c => componentRules t.rows c.2 c.1.1

/-- The rules of one row of a summary sheet, `results/save_utils.py:120-131`; `i` is the number of the
row of the data frame. -/
def summaryRules (i : ℕ) (quantity : String) : List CondRule :=
  (if mentions "COG" quantity then ⟨1, i + 1, 0, .noBlanks, .cog⟩ :: bothSigns 0 (i + 1) 1 .cog else []) ++
  (if mentions "COW" quantity then ⟨1, i + 1, 0, .noBlanks, .cow⟩ :: bothSigns 0 (i + 1) 1 .cow else [])

/-- `write_summary_sheet(df, sheet_name)`, `results/save_utils.py:111-131`: columns `Quantity` and
`Value`, `float_format="%.2f"`. -/
noncomputable def summarySheet (rows : List (String × ℝ)) : Sheet where
  content := fun row col => match row with
    | 0 => if col = 0 then .text "Quantity" else if col = 1 then .text "Value" else .blank
    | r + 1 => match rows[r]? with
      | none => .blank
      | some q => if col = 0 then .text q.1 else if col = 1 then .number (formatFloat 2 q.2) else .blank
  rules := rows.zipIdx.flatMap fun q => summaryRules q.2 q.1.1

/-- `pd.DataFrame.from_records(obj_as_dict, index=['Value']).transpose()` sorts the keys of a dictionary,
`results/inviscid_flow.py:178-180`, `inlet/winds.py:144-147`. -/
def sortRows (rows : List (String × ℝ)) : List (String × ℝ) :=
  rows.insertionSort fun a b => a.1 ≤ b.1

/-- The rows of a data frame made from the dictionary `d`: its entries, sorted by key
(`results/inviscid_flow.py:178-180`). -/
def IsDictTable (d : PyDict) (rows : List (String × ℝ)) : Prop :=
  (rows.Pairwise fun a b => a.1 < b.1) ∧ ∀ k v, (k, v) ∈ rows ↔ d k = some v

/-- The Excel file, `results/save_utils.py:46-137`. -/
structure Workbook where
  components : Sheet
  integrals : Sheet
  inlet : Sheet

/-- `save_to_excel` for the tables `t`, `results/save_utils.py:46-137`; `rows` is the table of the
integrals as pandas orders it. -/
noncomputable def workbook (t : SavedResults) (rows : List (String × ℝ)) : Workbook where
  components := componentsSheet t.components
  integrals := summarySheet rows
  inlet := summarySheet (sortRows t.inlet)

end PySailing
