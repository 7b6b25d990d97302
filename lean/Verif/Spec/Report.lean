import Verif.Model.Report
import Verif.Spec.Excel

/-!
# Reading a printed number (C130)
-/

namespace PySailing.Spec

open PySailing

/-- The number written with the decimal digits `l`, most significant digit first. -/
def readNat (l : List Char) : ℕ := l.foldl (fun acc c => 10 * acc + (c.toNat - 48)) 0

/-- The number written as `digits.digits`. -/
noncomputable def readUnsigned (l : List Char) : ℝ :=
  readNat (l.takeWhile (· ≠ '.')) + readNat ((l.dropWhile (· ≠ '.')).drop 1) / 10 ^ ((l.dropWhile (· ≠ '.')).drop 1).length

/-- The number written as `digits.digits` or `-digits.digits`. -/
noncomputable def readDecimal (s : String) : ℝ :=
  if s.toList.head? = some '-' then -readUnsigned (s.toList.drop 1) else readUnsigned s.toList

/-- A text that is a number with `d` decimals: an optional minus sign, at least one digit, a point, `d` digits. -/
def DecimalText (d : ℕ) (s : String) : Prop :=
  ∃ (sign ip fp : List Char), s.toList = sign ++ ip ++ '.' :: fp ∧ (sign = [] ∨ sign = ['-']) ∧ ip ≠ [] ∧ fp.length = d ∧
    (∀ c ∈ ip ++ fp, c.isDigit) ∧ (ip.head? = some '0' → ip = ['0'])

end PySailing.Spec
