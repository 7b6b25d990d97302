import Verif.Model.Arith
import Verif.Model.Aircraft

/-!
# `runner/aircraft.py` with any arithmetic

`Aircraft.__init__` once more, with every operation done by an arithmetic, in the order of the source text; `Model/Aircraft.lean`
is the same program with exact real numbers.  Integers (panel numbers and loop indices) become machine numbers like literals.
-/

namespace PySailing

/-- The operations of `Arith`, and `math.cos`, `math.sin`, `math.sqrt` (`rotations/geometry_calc.py:26-28`) and `np.sum`
(`solver/coefs.py:231`, `runner/aircraft.py:71`; numpy chooses the order of the additions). -/
structure FullArith extends Arith where
  cos : ℝ → ℝ
  sin : ℝ → ℝ
  sqrt : ℝ → ℝ
  sum : List ℝ → ℝ

/-- Exact operations: the arithmetic of `Model/Aircraft.lean`, `runner/aircraft.py`. -/
noncomputable def exactFull : FullArith where
  toArith := exactArith
  cos := Real.cos
  sin := Real.sin
  sqrt := Real.sqrt
  sum := List.sum

namespace FullArith

variable (A : FullArith)

/-- `np.deg2rad(x)`, `runner/aircraft.py:47`, `solver/coefs.py:253`: numpy multiplies by the quotient of its constant for `pi`
and `180.0`. -/
noncomputable def deg2rad (x : ℝ) : ℝ := A.mul x (A.div (A.lit Real.pi) (A.lit 180))

/-- The array of `rotations/geometry_calc.py:29-33`. -/
noncomputable def quatMatrix (a b c d : ℝ) : M3 :=
  let aa := A.mul a a
  let bb := A.mul b b
  let cc := A.mul c c
  let dd := A.mul d d
  let bc := A.mul b c
  let ad := A.mul a d
  let ac := A.mul a c
  let ab := A.mul a b
  let bd := A.mul b d
  let cd := A.mul c d
  let two := A.lit 2
  { r0 := ⟨A.sub (A.sub (A.add aa bb) cc) dd, A.mul two (A.add bc ad), A.mul two (A.sub bd ac)⟩
    r1 := ⟨A.mul two (A.sub bc ad), A.sub (A.sub (A.add aa cc) bb) dd, A.mul two (A.add cd ab)⟩
    r2 := ⟨A.mul two (A.add bd ac), A.mul two (A.sub cd ab), A.sub (A.sub (A.add aa dd) bb) cc⟩ }

open Classical in
/-- `rotation_matrix(axis, theta)`, `rotations/geometry_calc.py:7-33`. -/
noncomputable def rotationMatrix (axis : V3) (theta : ℝ) : Py M3 :=
  let r := A.sqrt (A.dot axis axis)
  if r = 0 then .error .nonFinite
  else
    let k := A.vdiv axis r
    let h := A.div theta (A.lit 2)
    .ok (A.quatMatrix (A.cos h) (A.mul (-k.x) (A.sin h)) (A.mul (-k.y) (A.sin h)) (A.mul (-k.z) (A.sin h)))

/-- `np.dot(Rz, p)`, `runner/aircraft.py:49-52`. -/
def mulVec (M : M3) (v : V3) : V3 := ⟨A.dot M.r0 v, A.dot M.r1 v, A.dot M.r2 v⟩

/-- `discrete_segment(p1, p2, n)`, `solver/mesher.py:5-14`. -/
noncomputable def discreteSegment (p1 p2 : V3) (n : ℕ) : List V3 :=
  let step := A.vdiv (A.vsub p2 p1) (A.lit n)
  (List.range n).map (fun i : ℕ => A.vadd p1 (A.vmul (A.lit i) step)) ++ [p2]

/-- `make_point_mesh(segment1, segment2, n)`, `solver/mesher.py:17-25`. -/
noncomputable def makePointMesh (segment1 segment2 : List V3) (n : ℕ) : List (List V3) :=
  (segment1.zip segment2).map fun p => A.discreteSegment p.1 p.2 n

/-- `make_panels_from_le_te_points(...)`, `solver/panels.py:47-64`; the arrangement of the points as panels
(`make_panels_from_mesh_spanwise`) calculates nothing. -/
noncomputable def makePanelsFromLeTePoints (leSW teSE leNW teNE : V3) (nc ns : ℕ) : PanelSet :=
  makePanelsFromMeshSpanwise (NdMesh.ofRows (ns + 1)
    (A.makePointMesh (A.discreteSegment leSW teSE nc) (A.discreteSegment leNW teNE nc) ns))

/-- The panels of the wing, `runner/aircraft.py:41-53`. -/
noncomputable def panelSet (a : AircraftInput) : Py PanelSet := do
  let Rz ← A.rotationMatrix Csys.ez (A.deg2rad (-a.aoaDeg))
  .ok (A.makePanelsFromLeTePoints (A.mulVec Rz ⟨0, 0, -a.half⟩) (A.mulVec Rz ⟨a.chord, 0, -a.half⟩)
    (A.mulVec Rz ⟨0, 0, a.half⟩) (A.mulVec Rz ⟨a.chord, 0, a.half⟩) a.nc a.ns)

open Classical in
/-- `calculate_normals_collocations_cps_rings_spans_leading_trailing_mid_points(panels, gamma_orientation)`,
`solver/coefs.py:59-112`.  Additions and multiplications of machine numbers commute: `p4 + p1` and `bc * gamma_orientation` are
written as in `calculate_vlm_variables`. -/
noncomputable def aircraftVariables (panels : List Panel) (g : ℝ) : Py (List PanelVars) :=
  if ∃ q ∈ panels, A.norm (A.normalRaw q) = 0 then .error .nonFinite
  else .ok (panels.map fun q => A.panelVars g q (A.behindA q) (A.behindD q))

open Classical in
/-- `get_CL_CD_free_wing(AR, AoA_deg)`, `solver/coefs.py:246-256`. -/
noncomputable def getCLCDFreeWing (AR aoaDeg : ℝ) : Py (ℝ × ℝ) :=
  let a0 := A.mul (A.lit 2) (A.lit Real.pi)
  let q := A.mul (A.mul (A.lit Real.pi) AR) (A.lit 0.8)
  if q = 0 then .error .zeroDivision
  else if A.add (A.lit 1) (A.div a0 q) = 0 then .error .zeroDivision
  else
    let CL := A.mul (A.div a0 (A.add (A.lit 1) (A.div a0 q))) (A.deg2rad aoaDeg)
    .ok (CL, A.div (A.mul CL CL) q)

/-- `np.sum(F, axis=0)`, `solver/coefs.py:231`, `240`. -/
def vsum (F : List V3) : V3 := ⟨A.sum (F.map V3.x), A.sum (F.map V3.y), A.sum (F.map V3.z)⟩

/-- `self.__S`, `runner/aircraft.py:28`. -/
noncomputable def wingArea (a : AircraftInput) : ℝ := A.mul (A.mul (A.lit 2) a.half) a.chord

/-- `q = 0.5 * rho * (np.linalg.norm(V) ** 2) * S`, `solver/coefs.py:232`, `241`, `runner/aircraft.py:72`. -/
noncomputable def dynamicForce (V : V3) (rho S : ℝ) : ℝ :=
  A.mul (A.mul (A.mul (A.lit 0.5) rho) (A.mul (A.norm V) (A.norm V))) S

open Classical in
/-- `Aircraft.__init__`, `runner/aircraft.py:15-73`. -/
noncomputable def aircraft (a : AircraftInput) : Py Aircraft := do
  if a.chord = 0 then .error .zeroDivision
  else
    let AR := A.div (A.mul (A.lit 2) a.half) a.chord
    let th ← A.getCLCDFreeWing AR a.aoaDeg
    let ps ← A.panelSet a
    if ps.panels = [] then .error .typeError
    else
      let vars ← nanTrap (A.aircraftVariables ps.panels a.g)
      let L : Fin vars.length → PanelVars := fun i => vars[i]
      let te : Fin vars.length → Bool := fun i => ps.te.getD i false
      let le : Fin vars.length → Bool := fun i => ps.le.getD i false
      let areas : Fin vars.length → ℝ := fun i => (ps.panels.map A.panelArea).getD i 0
      let s ← A.solveLattice L areas te a.g (fun _ => a.V)
      let f ← A.calcForceWrapper L te le a.ns a.rho a.g (fun _ => a.V) s.1 "force_xyz"
      let p ← A.calcPressure f.1 (fun i => (L i).normal) areas
      let q := A.dynamicForce a.V a.rho (A.wingArea a)
      if q = 0 then .error .nonFinite
      else
        let F := A.vsum (List.ofFn f.1)
        .ok ⟨a, AR, th.1, th.2, ps, vars, s.1, f.1, p, A.div F.z q, A.div F.x q, A.div (A.sum (List.ofFn p)) q⟩

open Classical in
/-- `Aircraft.Cxyz`, `runner/aircraft.py:84-89`, `solver/coefs.py:238-244`. -/
noncomputable def wingCxyz (w : Aircraft) : Py V3 :=
  let q := A.dynamicForce w.input.V w.input.rho (A.wingArea w.input)
  if q = 0 then .error .nonFinite else .ok (A.vdiv (A.vsum (List.ofFn w.force)) q)

end FullArith

end PySailing
