import Verif.Model.Py
import Verif.Model.Vec

/-!
# `solver/velocity.py`: vortex kernels

`vortex_line` is total: outside the core all its denominators are positive.
`vortex_infinite_line` divides by `|ap| (|ap| - u.ap)` and by `|r0|`; the total function
`vortexInfiniteLine` gives the value when these do not vanish, and `wakeDefined` is the condition
under which the Python result is finite.  (numba evaluates array / scalar with numpy semantics:
`nan`, no exception.)
-/

namespace PySailing

/-- One test of the loop of `is_in_vortex_core`, `solver/velocity.py:16-18`, given the norm of
the vector. -/
def inCore (n : ℝ) : Prop := n < 1e-8

open Classical in
/-- `is_in_vortex_core(vector_list)`, `solver/velocity.py:8-19`, on the list of norms: true iff
one of the vectors is shorter than `1e-8`. -/
noncomputable def isInVortexCore (norms : List ℝ) : Bool :=
  norms.any (fun n => decide (inCore n))

/-- `vortex_line(p, p1, p2, gamma)`, `solver/velocity.py:23-58`.  The third entry of the core
list is `|r1 x r2|^2` (lines 48-49). -/
noncomputable def vortexLine (p p1 p2 : V3) (gamma : ℝ) : V3 :=
  let r0 := p2 - p1
  let r1 := p - p1
  let r2 := p - p2
  let c := V3.cross r1 r2
  if isInVortexCore [r1.norm, r2.norm, |c.norm ^ 2|] then 0
  else
    let q := (1 / c.norm ^ 2) • c
    let q := (r0.dot ((1 / r1.norm) • r1 - (1 / r2.norm) • r2)) • q
    (gamma / (4 * Real.pi)) • q

/-- The Python value of `vortex_infinite_line` is finite: neither `|r0|` nor
`|ap| (|ap| - u.ap)` vanishes; `solver/velocity.py:75-80`. -/
def wakeDefined (P A r0 : V3) : Prop :=
  r0 ≠ 0 ∧ (P - A).norm * ((P - A).norm - ((1 / r0.norm) • r0).dot (P - A)) ≠ 0

/-- `vortex_infinite_line(P, A, r0, gamma)`, `solver/velocity.py:64-82` (meaningful under
`wakeDefined`). -/
noncomputable def vortexInfiniteLine (P A r0 : V3) (gamma : ℝ) : V3 :=
  let u := (1 / r0.norm) • r0
  let ap := P - A
  let v := (1 / (ap.norm * (ap.norm - u.dot ap))) • V3.cross u ap
  (gamma / (4 * Real.pi)) • v

open Classical in
/-- `vortex_infinite_line(P, A, r0, gamma)`, `solver/velocity.py:64-82`, as a Python call: the
value, or `nonFinite` when a denominator vanishes. -/
noncomputable def vortexInfiniteLineCall (P A r0 : V3) (gamma : ℝ) : Py V3 :=
  if wakeDefined P A r0 then .ok (vortexInfiniteLine P A r0 gamma) else .error .nonFinite

/-- `vortex_horseshoe(p, B, C, V, gamma)`, `solver/velocity.py:86-109`. -/
noncomputable def vortexHorseshoe (p B C V : V3) (gamma : ℝ) : V3 :=
  vortexInfiniteLine p C V gamma + vortexLine p B C gamma + vortexInfiniteLine p B V (-1 * gamma)

/-- `vortex_horseshoe_v2(p, A, B, C, D, V, gamma)`, `solver/velocity.py:113-137`. -/
noncomputable def vortexHorseshoeV2 (p A B C D V : V3) (gamma : ℝ) : V3 :=
  vortexLine p A B gamma + vortexLine p B C gamma + vortexLine p C D gamma
    + vortexInfiniteLine p D V gamma + vortexInfiniteLine p A V (-1 * gamma)

/-- `vortex_ring(p, A, B, C, D, gamma)`, `solver/velocity.py:142-161`. -/
noncomputable def vortexRing (p A B C D : V3) (gamma : ℝ) : V3 :=
  vortexLine p A B gamma + vortexLine p B C gamma + vortexLine p C D gamma
    + vortexLine p D A gamma

end PySailing
