import Verif.Model.Arith

/-!
# Accurate arithmetics (C128)
-/

namespace PySailing.Spec

open PySailing

/-- The machine number `e` for the exact result `x`, in an arithmetic of accuracy `u`: relative and absolute error at most `u`
(underflow is an absolute error), unless `x` is larger than `1 / u` (overflow). -/
def Rounds (u e x : ℝ) : Prop := |x| ≤ 1 / u → |e - x| ≤ u * (1 + |x|)

/-- `A` is an arithmetic of accuracy `u`: the results of the operations are rounded; the scalar product may be added up in any
order, so that its error is relative to the lengths of the vectors; for a linear system of size `K` whose condition number is
below `1 / u`, up to the factor `growth K`, the solver returns numbers with a backward error of at most `growth K` times `u`. -/
structure AccurateArith (growth : ℕ → ℝ) (A : Arith) (u : ℝ) : Prop where
  pos : 0 < u
  lit : ∀ x, Rounds u (A.lit x) x
  add : ∀ x y, Rounds u (A.add x y) (x + y)
  sub : ∀ x y, Rounds u (A.sub x y) (x - y)
  mul : ∀ x y, Rounds u (A.mul x y) (x * y)
  div : ∀ x y, y ≠ 0 → Rounds u (A.div x y) (x / y)
  norm : ∀ v, Rounds u (A.norm v) v.norm
  dot : ∀ v w : V3, v.norm * w.norm ≤ 1 / u → |A.dot v w - v.dot w| ≤ u * (1 + v.norm * w.norm)
  solve : ∀ (K : ℕ) (M : Matrix (Fin K) (Fin K) ℝ) (b : Fin K → ℝ), M.det ≠ 0 →
    u * (growth K * (1 + ∑ i, ∑ j, |M i j|) * (1 + ∑ i, ∑ j, |M⁻¹ i j|)) ≤ 1 → u * ∑ i, |b i| ≤ 1 →
    ∃ γ, A.solve K M b = .ok γ ∧
      ∀ i, |M.mulVec γ i - b i| ≤ u * (growth K * (1 + ∑ i, ∑ j, |M i j|) * (1 + ∑ j, |γ j|))

/-- Coordinates differ by at most `ε`. -/
def NearV (ε : ℝ) (a b : V3) : Prop := |a.x - b.x| ≤ ε ∧ |a.y - b.y| ≤ ε ∧ |a.z - b.z| ≤ ε

/-- The corners of two panels differ by at most `ε`. -/
def NearPanel (ε : ℝ) (p q : Panel) : Prop := NearV ε p.p1 q.p1 ∧ NearV ε p.p2 q.p2 ∧ NearV ε p.p3 q.p3 ∧ NearV ε p.p4 q.p4

/-- Inputs of `Vlm` that differ by at most `ε` in the corners of the panels and in the density. -/
structure NearInput (ε : ℝ) (a b : VlmInput) : Prop where
  panels : List.Forall₂ (NearPanel ε) a.panels b.panels
  nc : a.nc = b.nc
  ns : a.ns = b.ns
  te : a.te = b.te
  le : a.le = b.le
  g : a.g = b.g
  rho : |a.rho - b.rho| ≤ ε

/-- Results of `Vlm` of the same sizes that differ by at most `ε`. -/
structure NearArrays (ε : ℝ) (o o' : VlmArrays) : Prop where
  gamma : List.Forall₂ (fun x y => |x - y| ≤ ε) o.gamma o'.gamma
  vIndCtrl : List.Forall₂ (NearV ε) o.vIndCtrl o'.vIndCtrl
  vFsCtrl : List.Forall₂ (NearV ε) o.vFsCtrl o'.vFsCtrl
  force : List.Forall₂ (NearV ε) o.force o'.force
  vFsCp : List.Forall₂ (NearV ε) o.vFsCp o'.vFsCp
  vIndCp : List.Forall₂ (NearV ε) o.vIndCp o'.vIndCp
  pressure : List.Forall₂ (fun x y => |x - y| ≤ ε) o.pressure o'.pressure
  pCoeffs : List.Forall₂ (fun x y => |x - y| ≤ ε) o.pCoeffs o'.pCoeffs
  lift : List.Forall₂ (NearV ε) o.lift o'.lift
  drag : List.Forall₂ (NearV ε) o.drag o'.drag

end PySailing.Spec
