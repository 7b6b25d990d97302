import Verif.Model.Results

/-!
# Specification: reading result sheets, moments
-/

namespace PySailing.Spec

open PySailing

/-- The vector written in the three rows `key.x`, `key.y`, `key.z` of a sheet. -/
def rowVec (d : PyDict) (key : String) : Option V3 :=
  match d (key ++ ".x"), d (key ++ ".y"), d (key ++ ".z") with
  | some x, some y, some z => some ⟨x, y, z⟩
  | _, _, _ => none

/-- The moment written in the rows `key.x (heel)`, `key.y (pitch)`, `key.z (yaw)`. -/
def rowMoment (d : PyDict) (key : String) : Option V3 :=
  match d (key ++ ".x (heel)"), d (key ++ ".y (pitch)"), d (key ++ ".z (yaw)") with
  | some x, some y, some z => some ⟨x, y, z⟩
  | _, _, _ => none

/-- Sum of `f` over the `m` panels of sail `b` (sails one after the other). -/
def sailSum (m b : ℕ) (f : ℕ → V3) : V3 := ∑ k ∈ Finset.range m, f (b * m + k)

/-- Row `k` of an array of vectors. -/
def row (xs : List V3) (k : ℕ) : V3 := xs.getD k 0

/-- Vector from the reference point `v` to `p`; for a point under water, from the mirror image of the
reference point. -/
noncomputable def armFrom (v p : V3) : V3 :=
  open Classical in if 0 < p.z then p - v else p - mirror v

end PySailing.Spec
