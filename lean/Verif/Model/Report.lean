import Verif.Model.Aircraft
import Mathlib.Algebra.Order.Round
import Mathlib.Data.Nat.Digits.Defs

/-!
# `runner/aircraft.py`, `Aircraft.get_info`: the printed report

The text made by the format specification `:.6f` is modelled character by character.  The text of numpy arrays
(`print(array)`, `str(array)`) and of a plain `{x}` is not: the report then contains the value itself.
-/

namespace PySailing

/-- One part of the printed text, `runner/aircraft.py:76-82`. -/
inductive Printed where
  | text (s : String)
  | number (x : ℝ)
  | array (x : List ℝ)
  | vector (v : V3)

/-- The decimal digits of a natural number, as Python prints it; used by `fixed` (`runner/aircraft.py:80-81`). -/
def natText (n : ℕ) : List Char :=
  if n = 0 then ['0'] else (Nat.digits 10 n).reverse.map Nat.digitChar

/-- The last `d` decimal digits of a natural number, with leading zeros; used by `fixed` (`runner/aircraft.py:80-81`). -/
def padText : ℕ → ℕ → List Char
  | 0, _ => []
  | d + 1, n => Nat.digitChar (n / 10 ^ d % 10) :: padText d n

/-- The integer nearest to `y`, the even one of two nearest; used by `fixed` (`runner/aircraft.py:80-81`). -/
noncomputable def nearestInt (y : ℝ) : ℤ :=
  if Int.fract y = 1 / 2 then (if Even ⌊y⌋ then ⌊y⌋ else ⌊y⌋ + 1) else ⌊y + 1 / 2⌋

open Classical in
/-- `f"{x:.<d>f}"`, `runner/aircraft.py:80-81`: sign, integer part, point and `d` decimals of the nearest decimal number.  Python
keeps the sign of a negative number that is rounded to zero; the float `-0.0`, which prints as `-0.000000`, is the
real number 0 here. -/
noncomputable def fixed (d : ℕ) (x : ℝ) : String :=
  let n := (nearestInt (x * 10 ^ d)).natAbs
  String.ofList ((if x < 0 then ['-'] else []) ++ natText (n / 10 ^ d) ++ '.' :: padText d n)

/-- `Aircraft.get_info()`, `runner/aircraft.py:75-82`: one list per `print`. -/
noncomputable def Aircraft.getInfo (w : Aircraft) : List (List Printed) :=
  [[.text "gamma_magnitude: \n"],
   [.array (List.ofFn w.gamma)],
   [.text "DONE"],
   [.text "\nAspect Ratio ", .number w.AR],
   [.text ("CL_expected " ++ fixed 6 w.CLTheoretical ++ " \t CD_ind_expected " ++ fixed 6 w.CDTheoretical)],
   [.text ("CL_vlm      " ++ fixed 6 w.CL ++ "  \t CD_vlm          " ++ fixed 6 w.CD)],
   [.text "\n\ntotal_F ", .vector (List.ofFn w.force).sum]]

end PySailing
