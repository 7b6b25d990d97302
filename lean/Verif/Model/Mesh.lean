import Verif.Model.Py
import Verif.Model.Vec
import Mathlib.Analysis.SpecialFunctions.Trigonometric.Arctan

/-!
# `solver/mesher.py`, `solver/panels.py`, `thin_airfoil/vlm_airfoil.py`

Grid sizes are natural numbers (Python ints; negative sizes are not modelled).
-/

namespace PySailing

/-- `discrete_segment(p1, p2, n)`, `solver/mesher.py:5-14`.  For `n = 0` the loop does not run
and the (infinite) `step` is not used: the result is `[p2]`. -/
noncomputable def discreteSegment (p1 p2 : V3) (n : ℕ) : List V3 :=
  let step := (1 / (n : ℝ)) • (p2 - p1)
  (List.range n).map (fun i : ℕ => p1 + (i : ℝ) • step) ++ [p2]

/-- `make_point_mesh(segment1, segment2, n)`, `solver/mesher.py:17-25`. -/
noncomputable def makePointMesh (segment1 segment2 : List V3) (n : ℕ) : List (List V3) :=
  (segment1.zip segment2).map fun p => discreteSegment p.1 p.2 n

/-! ## Two dimensional arrays of points -/

/-- A numpy array of shape `(n0, n1, 3)`; entries outside of the shape are irrelevant.
Models `mesh` in `yacht_geometry/sail_geometry.py:83`. -/
structure NdMesh where
  n0 : ℕ
  n1 : ℕ
  at' : ℕ → ℕ → V3

namespace NdMesh

/-- `np.array(rows)` of a rectangular list of rows, `solver/mesher.py:25`, `69`.  `n1` is the
common row length. -/
def ofRows (n1 : ℕ) (rows : List (List V3)) : NdMesh :=
  ⟨rows.length, n1, fun i j => (rows.getD i []).getD j 0⟩

/-- `np.swapaxes(mesh, 0, 1)`, `yacht_geometry/sail_geometry.py:85`, `148`. -/
def swapaxes (m : NdMesh) : NdMesh := ⟨m.n1, m.n0, fun i j => m.at' j i⟩

/-- `mesh.reshape(sh0*sh1, sh2)` (row-major), `yacht_geometry/sail_geometry.py:90`. -/
def flatten (m : NdMesh) : List V3 :=
  (List.range m.n0).flatMap fun i => (List.range m.n1).map fun j => m.at' i j

/-- `mesh.reshape(sh0, sh1, sh2)`, `yacht_geometry/sail_geometry.py:147`. -/
def reshape (n0 n1 : ℕ) (l : List V3) : NdMesh := ⟨n0, n1, fun i j => l.getD (i * n1 + j) 0⟩

end NdMesh

/-! ## Panels -/

/-- A row of the `panels` array, `[pSE, pSW, pNW, pNE]`, `solver/panels.py:33`. -/
@[ext]
structure Panel where
  p1 : V3
  p2 : V3
  p3 : V3
  p4 : V3

/-- The result of `make_panels_from_mesh_spanwise`, `solver/panels.py:44`. -/
structure PanelSet where
  panels : List Panel
  te : List Bool
  le : List Bool

/-- Body of the double loop of `make_panels_from_mesh_spanwise`, `solver/panels.py:29-33`. -/
def panelAt (mesh : NdMesh) (i j : ℕ) : Panel :=
  ⟨mesh.at' (i + 1) j, mesh.at' i j, mesh.at' i (j + 1), mesh.at' (i + 1) (j + 1)⟩

/-- `make_panels_from_mesh_spanwise(mesh)`, `solver/panels.py:10-44`.  Natural-number
subtraction: an array with no line or no point per line has no panels (numpy would refuse the
negative size; such arrays do not occur). -/
def makePanelsFromMeshSpanwise (mesh : NdMesh) : PanelSet :=
  let M := mesh.n1 - 1
  let N := mesh.n0 - 1
  { panels := (List.range N).flatMap fun i => (List.range M).map fun j => panelAt mesh i j
    te := (List.range N).flatMap fun i => (List.range M).map fun _ =>
      if i + 2 = mesh.n0 then true else false
    le := (List.range N).flatMap fun i => (List.range M).map fun _ =>
      if i + 2 = mesh.n0 then false else if i = 0 then true else false }

/-- `make_panels_from_le_te_points([le_SW, te_SE, le_NW, te_NE], [nc, ns])`,
`solver/panels.py:47-64`. -/
noncomputable def makePanelsFromLeTePoints (leSW teSE leNW teNE : V3) (nc ns : ℕ) : PanelSet :=
  let south := discreteSegment leSW teSE nc
  let north := discreteSegment leNW teNE nc
  makePanelsFromMeshSpanwise (NdMesh.ofRows (ns + 1) (makePointMesh south north ns))

/-- One iteration of `get_panels_area`, `solver/panels.py:117-130`: half the norms of the cross
products of consecutive steps of the path p1 p2 p3 p4. -/
noncomputable def panelArea (q : Panel) : ℝ :=
  let s0 := q.p2 - q.p1
  let s1 := q.p3 - q.p2
  let s2 := q.p4 - q.p3
  0 + 0.5 * (V3.cross s0 s1).norm + 0.5 * (V3.cross s1 s2).norm

/-- `get_panels_area(panels)`, `solver/panels.py:103-132`. -/
noncomputable def getPanelsArea (panels : List Panel) : List ℝ := panels.map panelArea

/-! ## Airfoil -/

/-- `np.linspace(0, 1, n)`, `thin_airfoil/vlm_airfoil.py:22`. -/
noncomputable def linspace01 (n : ℕ) : List ℝ :=
  if n = 1 then [0] else (List.range n).map fun i : ℕ => (i : ℝ) / ((n : ℝ) - 1)

open Classical in
/-- `__get_y_camber(x)`, `thin_airfoil/vlm_airfoil.py:78-86`. -/
noncomputable def yCamber (m p x : ℝ) : Py ℝ :=
  if x < p ∧ x ≥ 0 then .ok (m * (2 * p * x - x ^ 2) / p ^ 2)
  else if x ≥ p ∧ x ≤ 1 then .ok (m * (1 - 2 * p + 2 * p * x - x ^ 2) / (1 - p) ^ 2)
  else .error .valueError

open Classical in
/-- `__get_dy_dx_camber(x)`, `thin_airfoil/vlm_airfoil.py:88-96`. -/
noncomputable def dyCamber (m p x : ℝ) : Py ℝ :=
  if x < p ∧ x ≥ 0 then .ok (2 * m * (p - x) / p ^ 2)
  else if x ≥ p ∧ x ≤ 1 then .ok (2 * m * (p - x) / (1 - p) ^ 2)
  else .error .valueError

open Classical in
/-- `__get_camber_thickness(x)`, `thin_airfoil/vlm_airfoil.py:98-103`, `math.sqrt` of a
negative number (a `ValueError`) does not occur since `x` comes from `linspace(0, 1, n)`. -/
noncomputable def camberThickness (t x : ℝ) : ℝ :=
  if 1.0 - x < 0.0001 then
    5 * t * (0.2969 * Real.sqrt x + -0.126 * x + -0.3516 * x * x + 0.2843 * x * x * x
      + -0.1036 * x * x * x * x)
  else
    5 * t * (0.2969 * Real.sqrt x + -0.126 * x + -0.3516 * x * x + 0.2843 * x * x * x
      + -0.1015 * x * x * x * x)

/-- The arrays of a `VlmAirfoil` object, `thin_airfoil/vlm_airfoil.py:22-34`. -/
structure Airfoil where
  xc : List ℝ
  yc : List ℝ
  yt : List ℝ
  theta : List ℝ
  xu : List ℝ
  xl : List ℝ
  yu : List ℝ
  yl : List ℝ

open Classical in
/-- `VlmAirfoil(m, p, t, n)`, `thin_airfoil/vlm_airfoil.py:8-34` with the parameter check of
`64-76`: a parameter out of range prints a message and calls `sys.exit(1)`. -/
noncomputable def vlmAirfoil (m p t : ℝ) (n : ℕ) : Py Airfoil :=
  if ¬ (m ≤ 0.3 ∧ m ≥ 0) then .error (.sysExit 1)
  else if ¬ (p ≤ 0.9 ∧ p ≥ 0) then .error (.sysExit 1)
  else if ¬ (t ≤ 0.4 ∧ t ≥ 0) then .error (.sysExit 1)
  else do
    let xc := linspace01 n
    let yc ← xc.mapM (yCamber m p)
    let yt := xc.map (camberThickness t)
    let dyc ← xc.mapM (dyCamber m p)
    let theta := dyc.map Real.arctan
    return {
      xc := xc, yc := yc, yt := yt, theta := theta
      xu := List.zipWith (fun a b => a - b) xc (List.zipWith (fun a b => a * Real.sin b) yt theta)
      xl := List.zipWith (fun a b => a + b) xc (List.zipWith (fun a b => a * Real.sin b) yt theta)
      yu := List.zipWith (fun a b => a + b) yc (List.zipWith (fun a b => a * Real.cos b) yt theta)
      yl := List.zipWith (fun a b => a - b) yc (List.zipWith (fun a b => a * Real.cos b) yt theta) }

/-! ## Airfoil mesh -/

/-- `te_line += chords_vec` with numpy broadcasting, `solver/mesher.py:42-43`; `chords` are the x
components of `chords_vec` (the others are zero, `yacht_geometry/sail_geometry.py:78-79`).  One
chord is broadcast to all rows; any other length mismatch is a `ValueError`. -/
noncomputable def teLine (leLine : List V3) (chords : List ℝ) : Py (List V3) :=
  if chords.length = leLine.length then
    .ok (List.zipWith (fun p c => p + ⟨c, 0, 0⟩) leLine chords)
  else match chords with
    | [c] => .ok (leLine.map fun p => p + ⟨c, 0, 0⟩)
    | _ => .error .valueError

/-- Python `xs[i]` for a non-negative loop counter, `solver/mesher.py:58-59`. -/
def idx {α : Type} (xs : List α) (i : ℕ) : Py α :=
  match xs[i]? with
  | some a => .ok a
  | none => .error .indexError

/-- Body of the loop of `make_airfoil_mesh`, `solver/mesher.py:58-67`; `r` is `counter`. -/
noncomputable def airfoilRow (n : ℕ) (distance camber : List ℝ) (r : ℕ) (p1 p2 : V3) :
    Py (List V3) := do
  let p ← idx distance r
  let m ← idx camber r
  let foil ← vlmAirfoil m p 0.0 n
  let xs := foil.xc.map fun x => (p2.x - p1.x) * x + p1.x
  let ys := foil.yc.map fun y => (p2.x - p1.x) * y
  return List.zipWith (fun x y => ⟨x, y, p1.z⟩) xs ys

/-- `make_airfoil_mesh([le_SW, le_NW], [nc, ns], chords_vec, distance, camber)`,
`solver/mesher.py:28-69`: one row of `nc + 1` points per point of the luff. -/
noncomputable def makeAirfoilMesh (leSW leNW : V3) (nc ns : ℕ) (chords distance camber : List ℝ) :
    Py NdMesh := do
  let leLine := discreteSegment leSW leNW ns
  let te ← teLine leLine chords
  let n := nc + 1
  let rows ← ((leLine.zip te).zipIdx).mapM fun q => airfoilRow n distance camber q.2 q.1.1 q.1.2
  return NdMesh.ofRows n rows

end PySailing
