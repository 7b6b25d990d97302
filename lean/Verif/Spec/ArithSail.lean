import Verif.Model.ArithSail
import Verif.Spec.ArithWing
import Verif.Spec.NearSail

/-!
# Accurate arithmetics for sails and winds (C132)
-/

namespace PySailing.Spec

open PySailing

/-- Product of the sizes of the factors of a matrix product. -/
noncomputable def chainSize (Ms : List (Matrix (Fin 4) (Fin 4) ℝ)) (v : Fin 4 → ℝ) : ℝ :=
  (Ms.map fun M => 1 + ∑ i, ∑ j, |M i j|).prod * (1 + ∑ i, |v i|)

/-- `A` is an arithmetic of accuracy `u`: as in `AccurateFull`; logarithms and powers are rounded; a product of `n` matrices and a
column, multiplied in any order, has an error of at most `growth n` times `u`, relative to the sizes of the factors; signs are
kept, and zero divided by anything is zero. -/
structure AccurateSail (growth : ℕ → ℝ) (A : SailArith) (u : ℝ) : Prop extends AccurateFull growth A.toFullArith u where
  log : ∀ x, 0 < x → Rounds u (A.log x) (Real.log x)
  pow : ∀ x y : ℝ, 0 < x ∨ x ≠ 0 ∧ (∃ n : ℤ, y = n) → Rounds u (A.pow x y) (x ^ y)
  multiDot : ∀ Ms v, u * (growth Ms.length * chainSize Ms v) ≤ 1 →
    ∀ i, |A.multiDot Ms v i - Ms.prod.mulVec v i| ≤ u * (growth Ms.length * chainSize Ms v)
  lit_nonneg : ∀ x, 0 ≤ x → 0 ≤ A.lit x
  mul_nonneg : ∀ x y, 0 ≤ x → 0 ≤ y → 0 ≤ A.mul x y
  div_nonneg : ∀ x y, 0 ≤ x → 0 ≤ y → 0 ≤ A.div x y
  zero_div : ∀ x, A.div 0 x = 0

/-- Lists of the same length whose entries differ by at most `ε`. -/
def NearList (ε : ℝ) (xs ys : List ℝ) : Prop := List.Forall₂ (fun x y => |x - y| ≤ ε) xs ys

/-- Settings of a sail that differ by at most `ε` (same panel numbers, same twist mode, twist given or not for both). -/
structure NearSailInput (ε : ℝ) (s s0 : SailInput) : Prop where
  nc : s.nc = s0.nc
  ns : s.ns = s0.ns
  mode : s.mode = s0.mode
  tack : NearV ε s.tack s0.tack
  head : NearV ε s.head s0.head
  heel : |s.csys.heelDeg - s0.csys.heelDeg| ≤ ε
  leeway : |s.csys.leewayDeg - s0.csys.leewayDeg| ≤ ε
  chords : NearList ε s.chords s0.chords
  camber : NearList ε s.camber s0.camber
  distance : NearList ε s.distance s0.distance
  twist : Option.Rel (NearList ε) s.twist s0.twist

/-- Camber and its position are in the admissible range, the bounds being those of the arithmetic. -/
def InRange (A : SailArith) (s : SailInput) : Prop :=
  (∀ m ∈ s.camber, 0 ≤ m ∧ m ≤ A.lit 0.3) ∧ ∀ p ∈ s.distance, p ≤ A.lit 0.9

/-- Winds of the same profile that differ by at most `ε`: direction, speed and speed of the yacht. -/
structure NearWindObj (ε : ℝ) (w w0 : WindObj) : Prop where
  profile : w.profile = w0.profile
  alpha : |w.alphaDeg - w0.alphaDeg| ≤ ε
  speed : |w.twsRef - w0.twsRef| ≤ ε
  yacht : |w.vYacht - w0.vYacht| ≤ ε

/-- The arithmetic that rounds every single result; sums are added from left to right, the matrices are applied to the column one
after the other. -/
noncomputable def roundedSail (rnd : ℝ → ℝ) (solve : LinearSolver) : SailArith where
  toFullArith := roundedFull rnd solve
  log x := rnd (Real.log x)
  pow x y := rnd (x ^ y)
  multiDot Ms v := Ms.foldr (fun M w i => (List.ofFn fun j => rnd (M i j * w j)).foldl (fun s x => rnd (s + x)) 0) v

end PySailing.Spec
