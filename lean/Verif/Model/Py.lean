import Mathlib.Data.Real.Basic
import Mathlib.Data.List.Basic
import Mathlib.Data.List.Range

/-!
# Python exceptions and numpy list primitives
-/

namespace PySailing

/-- Outcomes other than a normal return of the modelled functions.
`nonFinite` is *not* a Python exception: it stands for a result containing `nan`/`inf`
(numpy division by zero with a warning), which the exact-real model cannot carry.
`sysExit c` models `sys.exit(c)` (`runner/sail.py:55`, `109`, `thin_airfoil/vlm_airfoil.py:76`). -/
inductive PyErr where
  | nonFinite
  | valueError
  | sysExit (code : ℕ)
  | indexError
  | keyError
  | linAlgError
  | assertionError
  | zeroDivision
  | unboundLocal
  | typeError
  | attributeError
  deriving DecidableEq, Repr

/-- Result of a modelled Python call. -/
abbrev Py (α : Type) := Except PyErr α

/-- Python indexing `xs[i]` with an integer `i` on a sequence: negative indices count from the
end, out-of-range indices raise `IndexError`.  Used for `mesh[i, :, d]`,
`solver/additional_functions.py:149-151`. -/
def pyGet {α : Type} (xs : List α) (i : ℤ) : Py α :=
  let k : ℤ := if i < 0 then i + xs.length else i
  if k < 0 then .error .indexError
  else match xs[k.toNat]? with
    | some a => .ok a
    | none => .error .indexError

/-- `np.array_split(xs, g)` for `g ≥ 1`: the first `len % g` chunks have one extra element.
Used at `solver/coefs.py:127`.  `g = 0` raises `ValueError`. -/
def chunksOf {α : Type} (xs : List α) : List ℕ → List (List α)
  | [] => []
  | n :: ns => xs.take n :: chunksOf (xs.drop n) ns

/-- See `chunksOf`; sizes of numpy's `array_split` (numpy `lib/shape_base.py`). -/
def arraySplit {α : Type} (xs : List α) (g : ℕ) : Py (List (List α)) :=
  if g = 0 then .error .valueError
  else
    let q := xs.length / g
    let e := xs.length % g
    .ok (chunksOf xs (List.replicate e (q + 1) ++ List.replicate (g - e) q))

/-- `np.split(xs, g)`: equal chunks, `ValueError` if `g` does not divide the length.
Used at `solver/additional_functions.py:79`. -/
def npSplit {α : Type} (xs : List α) (g : ℕ) : Py (List (List α)) :=
  if g = 0 then .error .zeroDivision
  else if xs.length % g = 0 then .ok (chunksOf xs (List.replicate g (xs.length / g)))
  else .error .valueError

end PySailing
