import Verif.Model.ArithWing
import Verif.Spec.Arith
import Verif.Spec.Rounding

/-!
# Accurate arithmetics for a whole wing (C131)
-/

namespace PySailing.Spec

open PySailing

/-- `A` is an arithmetic of accuracy `u`: as in `AccurateArith`; sines, cosines of arguments below `1 / u` and square roots are
rounded, and a sum of `n` numbers, added up in any order, has an error of at most `growth n` times `u`, relative to the sum of
the absolute values. -/
structure AccurateFull (growth : ℕ → ℝ) (A : FullArith) (u : ℝ) : Prop extends AccurateArith growth A.toArith u where
  cos : ∀ x, |x| ≤ 1 / u → Rounds u (A.cos x) (Real.cos x)
  sin : ∀ x, |x| ≤ 1 / u → Rounds u (A.sin x) (Real.sin x)
  sqrt : ∀ x, 0 ≤ x → Rounds u (A.sqrt x) (Real.sqrt x)
  sum : ∀ xs : List ℝ, u * (growth xs.length * (1 + (xs.map abs).sum)) ≤ 1 →
    |A.sum xs - xs.sum| ≤ u * (growth xs.length * (1 + (xs.map abs).sum))

/-- Arguments of `Aircraft` that differ by at most `ε` (same panel numbers, same orientation). -/
structure NearWingInput (ε : ℝ) (a b : AircraftInput) : Prop where
  nc : a.nc = b.nc
  ns : a.ns = b.ns
  g : a.g = b.g
  chord : |a.chord - b.chord| ≤ ε
  half : |a.half - b.half| ≤ ε
  aoa : |a.aoaDeg - b.aoaDeg| ≤ ε
  V : NearV ε a.V b.V
  rho : |a.rho - b.rho| ≤ ε

/-- The attributes of two wings have the same sizes and differ by at most `ε`. -/
structure NearWingResult (ε : ℝ) (w w' : Aircraft) : Prop where
  gamma : List.Forall₂ (fun x y => |x - y| ≤ ε) (List.ofFn w.gamma) (List.ofFn w'.gamma)
  force : List.Forall₂ (NearV ε) (List.ofFn w.force) (List.ofFn w'.force)
  pressure : List.Forall₂ (fun x y => |x - y| ≤ ε) (List.ofFn w.pressure) (List.ofFn w'.pressure)
  AR : |w.AR - w'.AR| ≤ ε
  CLTheoretical : |w.CLTheoretical - w'.CLTheoretical| ≤ ε
  CDTheoretical : |w.CDTheoretical - w'.CDTheoretical| ≤ ε
  CL : |w.CL - w'.CL| ≤ ε
  CD : |w.CD - w'.CD| ≤ ε
  Cp : |w.Cp - w'.Cp| ≤ ε

/-- The arithmetic that rounds every single result; sums are added from left to right. -/
noncomputable def roundedFull (rnd : ℝ → ℝ) (solve : LinearSolver) : FullArith where
  toArith := roundedArith rnd solve
  cos x := rnd (Real.cos x)
  sin x := rnd (Real.sin x)
  sqrt x := rnd (Real.sqrt x)
  sum xs := xs.foldl (fun s x => rnd (s + x)) 0

end PySailing.Spec
