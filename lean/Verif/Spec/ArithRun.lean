import Verif.Model.ArithRun
import Verif.Spec.ArithSail
import Verif.Spec.Main

/-!
# Accurate arithmetics for a run of the program (C134)
-/

namespace PySailing.Spec

open PySailing

/-- `S` calculates interpolating splines with accuracy `u`: where the exact spline is defined, the distances of the knots are at
least `1 / B` and all numbers are at most `B`, the error is at most `condition n B` times `u`, if this is at most one. -/
def AccurateSpline (condition : ℕ → ℝ → ℝ) (S : SplineFn) (u : ℝ) : Prop :=
  ∀ (B : ℝ) (xNew xs ys v0 : List ℝ), 0 < B → fitpackSpline xNew xs ys = .ok v0 →
    (∀ i, i + 1 < xs.length → 1 / B ≤ xs.getD (i + 1) 0 - xs.getD i 0) → (∀ x ∈ xNew ++ xs ++ ys ++ v0, |x| ≤ B) →
    u * condition xs.length B ≤ 1 → ∃ v, S xNew xs ys = .ok v ∧ NearList (u * condition xs.length B) v v0

/-- `A` is an arithmetic of accuracy `u`: as in `AccurateSail`; the arc sine is rounded, scipy's rotation matrices have an error of
at most `u`, relative to the angle, and splines are accurate. -/
structure AccurateRun (growth : ℕ → ℝ) (condition : ℕ → ℝ → ℝ) (A : RunArith) (u : ℝ) : Prop extends
    AccurateSail growth A.toSailArith u where
  arcsin : ∀ x, |x| ≤ 1 → Rounds u (A.arcsin x) (Real.arcsin x)
  rotvec : ∀ (axis : V3) (θ : ℝ), axis.dot axis = 1 → |θ| ≤ 1 / u →
    NearV (u * (1 + |θ|)) (A.rotvec axis θ).r0 (scipyMatrix (θ • axis)).r0 ∧
    NearV (u * (1 + |θ|)) (A.rotvec axis θ).r1 (scipyMatrix (θ • axis)).r1 ∧
    NearV (u * (1 + |θ|)) (A.rotvec axis θ).r2 (scipyMatrix (θ • axis)).r2
  spline : AccurateSpline condition A.spline u

/-- Optional numbers, both given or both missing, that differ by at most `ε`. -/
def CloseNumber (ε : ℝ) : Option ℝ → Option ℝ → Prop := Option.Rel fun x y => |x - y| ≤ ε

/-- Optional arrays, both given or both missing, of the same length, that differ by at most `ε`. -/
def CloseArray (ε : ℝ) : Option (List ℝ) → Option (List ℝ) → Prop := Option.Rel (NearList ε)

/-- Data of a sail that differ by at most `ε`. -/
structure CloseSailConf (ε : ℝ) (s s0 : SailConf) : Prop where
  twist : CloseArray ε s.twist s0.twist
  girths : CloseArray ε s.girths s0.girths
  chords : CloseArray ε s.chords s0.chords
  camber : CloseArray ε s.camber s0.camber
  distance : CloseArray ε s.distance s0.distance

/-- Data of a rig that differ by at most `ε`; the same choice of sails. -/
structure CloseRig (ε : ℝ) (r r0 : RigConf) : Prop where
  mainLuff : CloseNumber ε r.mainLuff r0.mainLuff
  jibLuff : CloseNumber ε r.jibLuff r0.jibLuff
  height : CloseNumber ε r.height r0.height
  base : CloseNumber ε r.base r0.base
  sheer : |r.sheer - r0.sheer| ≤ ε
  boom : |r.boom - r0.boom| ≤ ε
  rake : |r.rakeDeg - r0.rakeDeg| ≤ ε
  mastLOA : |r.mastLOA - r0.mastLOA| ≤ ε
  sailsDef : r.sailsDef = r0.sailsDef

/-- Settings that differ by at most `ε` in every number — but those that define the shape of the wind profile —, with the same
mesh, choice of sails and shape of the profile. -/
structure CloseConfig (ε : ℝ) (c c0 : Config) : Prop where
  heel : |c.heelDeg - c0.heelDeg| ≤ ε
  leeway : |c.leewayDeg - c0.leewayDeg| ≤ ε
  rho : |c.rho - c0.rho| ≤ ε
  alpha : |c.wind.alphaDeg - c0.wind.alphaDeg| ≤ ε
  speed : |c.wind.twsRef - c0.wind.twsRef| ≤ ε
  yacht : |c.wind.sog - c0.wind.sog| ≤ ε
  profile : c.wind = { c0.wind with alphaDeg := c.wind.alphaDeg, twsRef := c.wind.twsRef, sog := c.wind.sog }
  solver : c.solver = c0.solver
  rig : CloseRig ε c.rig c0.rig
  main : CloseSailConf ε c.main c0.main
  jib : CloseSailConf ε c.jib c0.jib
  vRef : NearV ε c.vRef c0.vRef
  clr : NearV ε c.clrUpright c0.clrUpright

/-- Camber and its position, as calculated for the selected sails, are in the admissible range. -/
structure ComputedInRange (A : RunArith) (c : Config) : Prop where
  jib : c.rig.sailsDef ≠ "main" → ∀ jib s, A.withTwist c.jib 15 7 = .ok jib →
    A.jibInput c.solver c.rig jib ⟨c.heelDeg, c.leewayDeg, c.vRef⟩ = .ok s → InRange A.toSailArith s
  main : c.rig.sailsDef ≠ "jib" → ∀ main s, A.withTwist c.main 12 5 = .ok main →
    A.mainInput c.solver c.rig main ⟨c.heelDeg, c.leewayDeg, c.vRef⟩ = .ok s → InRange A.toSailArith s

/-- Camber and its position in the sections of the selected sails, calculated exactly, are in the interior of the admissible
range. -/
structure WellInRange (c : Config) : Prop where
  jib : c.rig.sailsDef ≠ "main" → ∀ ch tw ca di, interpolatedSail fitpackSpline c.solver (jibData c) = .ok (ch, tw, ca, di) →
    (∀ m ∈ ca, 0 < m ∧ m < 0.3) ∧ ∀ p ∈ di, p < 0.9
  main : c.rig.sailsDef ≠ "jib" → ∀ ch tw ca di, interpolatedSail fitpackSpline c.solver (mainData c) = .ok (ch, tw, ca, di) →
    (∀ m ∈ ca, 0 < m ∧ m < 0.3) ∧ ∀ p ∈ di, p < 0.9

/-- The sheet `Integrals` of two runs: the same quantities, with values that differ by at most `ε`. -/
def CloseIntegrals (ε : ℝ) (d d0 : PyDict) : Prop := ∀ key, CloseNumber ε (d key) (d0 key)

/-- The arithmetic that rounds every single result, as `roundedSail`; rotation matrices and splines are rounded exact ones. -/
noncomputable def roundedRun (rnd : ℝ → ℝ) (solve : LinearSolver) : RunArith where
  toSailArith := roundedSail rnd solve
  arcsin x := rnd (Real.arcsin x)
  rotvec axis θ :=
    let M := scipyMatrix (θ • axis)
    ⟨⟨rnd M.r0.x, rnd M.r0.y, rnd M.r0.z⟩, ⟨rnd M.r1.x, rnd M.r1.y, rnd M.r1.z⟩, ⟨rnd M.r2.x, rnd M.r2.y, rnd M.r2.z⟩⟩
  spline xNew xs ys := (fitpackSpline xNew xs ys).map (List.map rnd)

end PySailing.Spec
