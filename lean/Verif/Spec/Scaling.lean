import Verif.Spec.Lattice

/-!
# Specification: geometrically similar lattices
-/

namespace PySailing.Spec

open PySailing

/-- The panel enlarged `s` times (with respect to the origin on the water surface). -/
noncomputable def scalePanel (s : ℝ) (q : Panel) : Panel := ⟨s • q.p1, s • q.p2, s • q.p3, s • q.p4⟩

/-- The wind object with all heights of its profile (roughness, reference height, water level) enlarged
`s` times; speeds and angles stay. -/
noncomputable def scaleHeights (s : ℝ) (w : WindObj) : WindObj :=
  { w with profile := match w.profile with
    | .flat => .flat
    | .log r ref => .log (r.map (s * ·)) (ref.map (s * ·))
    | .exp c ref wl => .exp c (ref.map (s * ·)) (wl.map (s * ·)) }

/-- The point `p` is in the core of the vortex segment from `p1` to `p2` (where the code replaces the
induced velocity by zero): closer than `1e-8` to an end, or the cross product of the vectors from the ends
is shorter than `1e-4`. -/
def inSegmentCore (p p1 p2 : V3) : Prop :=
  (p - p1).norm < 1e-8 ∨ (p - p2).norm < 1e-8 ∨ (V3.cross (p - p1) (p - p2)).norm ^ 2 < 1e-8

/-- Enlarging point and segment `s` times does not bring the point into the core or out of it. -/
def sameCore (s : ℝ) (p p1 p2 : V3) : Prop :=
  inSegmentCore (s • p) (s • p1) (s • p2) ↔ inSegmentCore p p1 p2

/-- The absolute sizes in the code do not distinguish the lattice from the one enlarged `s` times: the
areas of the enlarged panels are above the threshold `1e-14` of the no-flux check, and no control point or
pressure point gets into the core of a vortex segment or out of it. -/
structure SizesIrrelevant {K : ℕ} (s : ℝ) (L : Fin K → PanelVars) (areas : Fin K → ℝ) : Prop where
  areas : ∀ i, 1e-14 ≤ s ^ 2 * areas i
  core : ∀ i j, ∀ p ∈ [(L i).ctrP, (L i).cp],
    sameCore s p (L j).ring.A (L j).ring.B ∧ sameCore s p (L j).ring.B (L j).ring.C ∧
    sameCore s p (L j).ring.C (L j).ring.D ∧ sameCore s p (L j).ring.D (L j).ring.A

end PySailing.Spec
