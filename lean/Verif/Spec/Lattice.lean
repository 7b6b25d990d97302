import Verif.Model.Solver
import Verif.Spec.Sail
import Verif.Spec.Isometry

/-!
# Specification: the velocity field of a vortex lattice
-/

namespace PySailing.Spec

open PySailing

variable {K : ℕ}

/-- Velocity at the point `p` induced by the whole lattice with circulations `γ`: the sum over the
panels of the circulation times the velocity of the panel's closed vortex ring, or, for a trailing edge
panel, of its ring with the rear edge replaced by two trailing vortices along the local wind. -/
noncomputable def latticeVelocity (L : Fin K → PanelVars) (te : Fin K → Bool) (V : Fin K → V3)
    (g : ℝ) (γ : Fin K → ℝ) (p : V3) : V3 :=
  ∑ j, γ j • (if te j then
      vortexHorseshoeV2 p (L j).ring.A (L j).ring.B (L j).ring.C (L j).ring.D (V j) g
    else vortexRing p (L j).ring.A (L j).ring.B (L j).ring.C (L j).ring.D g)

/-- The influence matrix of the lattice: normal component at control point `i` of the velocity of
vortex `j` with unit circulation. -/
noncomputable def influence (L : Fin K → PanelVars) (te : Fin K → Bool) (V : Fin K → V3) (g : ℝ) :
    Matrix (Fin K) (Fin K) ℝ :=
  fun i j => (latticeVelocity L te V g (Pi.single j 1) (L i).ctrP).dot (L i).normal

/-- No trailing vortex passes through any of the points. -/
def clearOfWakes (L : Fin K → PanelVars) (te : Fin K → Bool) (V : Fin K → V3)
    (pts : Fin K → V3) : Prop :=
  ∀ i j, te j = true → V j ≠ 0 ∧ ∀ s : ℝ, 0 ≤ s →
    pts i ≠ (L j).ring.A + s • V j ∧ pts i ≠ (L j).ring.D + s • V j

/-- The conditions under which a lattice has a unique solution and all results are numbers:
control points and pressure points clear of the wakes, an invertible influence matrix, areas above the
threshold, some wind and density. -/
structure WellPosed (L : Fin K → PanelVars) (areas : Fin K → ℝ) (te : Fin K → Bool) (rho g : ℝ)
    (V : Fin K → V3) : Prop where
  ctr : clearOfWakes L te V (fun i => (L i).ctrP)
  cp : clearOfWakes L te V (fun i => (L i).cp)
  regular : (influence L te V g).det ≠ 0
  areas : ∀ i, 1e-14 ≤ areas i
  rho : 0 < K → rho ≠ 0
  wind : ∀ i, V i ≠ 0

/-! ## Transformed inputs and results -/

/-- All result arrays mapped: circulations by `c`, velocities by `fv`, forces by `ff`, pressures by
`fp`, coefficients by `fc`. -/
def mapAll (o : VlmArrays) (c : ℝ → ℝ) (fv ff : V3 → V3) (fp fc : ℝ → ℝ) :
    VlmArrays where
  gamma := o.gamma.map c
  vIndCtrl := o.vIndCtrl.map fv
  vFsCtrl := o.vFsCtrl.map fv
  force := o.force.map ff
  vFsCp := o.vFsCp.map fv
  vIndCp := o.vIndCp.map fv
  pressure := o.pressure.map fp
  pCoeffs := o.pCoeffs.map fc
  lift := o.lift.map ff
  drag := o.drag.map ff

/-- A moved panel. -/
def movePanel (R : V3 → V3) (t : V3) (q : Panel) : Panel :=
  ⟨move R t q.p1, move R t q.p2, move R t q.p3, move R t q.p4⟩

/-! ## Sets of equally sized sails -/

/-- The corner points of panel `(i, j)` (`i` chordwise, `j` spanwise) of a mesh of points. -/
def panelOf (pts : ℕ → ℕ → V3) (i j : ℕ) : Panel :=
  ⟨pts j (i + 1), pts j i, pts (j + 1) i, pts (j + 1) (i + 1)⟩

/-- The panels of several meshed blocks (sails, mirrored sails) of `nc` by `ns` panels, one block
after the other. -/
def blockPanels (nc ns : ℕ) (blocks : List (ℕ → ℕ → V3)) : List Panel :=
  (blocks.map (panelGrid nc ns)).flatten

/-- A flag for every panel of `n` blocks, which depends on the chordwise row only. -/
def blockFlags (nc ns n : ℕ) (row : ℕ → Bool) : List Bool :=
  (List.replicate n ((List.range nc).flatMap fun i => (List.range ns).map fun _ => row i)).flatten

/-- Trailing edge flags of `n` blocks: the last chordwise row. -/
def trailingFlags (nc ns n : ℕ) : List Bool := blockFlags nc ns n fun i => decide (i + 1 = nc)

/-- Leading edge flags of `n` blocks: the first chordwise row if there are at least two rows (the
trailing edge flag takes precedence). -/
def leadingFlags (nc ns n : ℕ) : List Bool := blockFlags nc ns n fun i => decide (i = 0 ∧ 2 ≤ nc)

/-- Number of panel `(i, j)` of block `b`. -/
def panelNo (nc ns b i j : ℕ) : ℕ := (b * nc + i) * ns + j

end PySailing.Spec

namespace PySailing.Spec

open PySailing

/-- The mirror image of a mesh in the water plane, numbered from the other end of the span (as
`SailGeometry` numbers the underwater part). -/
def mirrorMesh (ns : ℕ) (pts : ℕ → ℕ → V3) (r k : ℕ) : V3 := mirror (pts (ns - r) k)

/-- Number of the mirror image of panel `(i, j)` of sail `b` in a set of `n` sails and their
images. -/
def mirrorPanelNo (nc ns n b i j : ℕ) : ℕ := panelNo nc ns (n + b) i (ns - 1 - j)

end PySailing.Spec
