import Verif.Lemmas.ArithCore

/-!
# With exact operations the program of `Model/Arith.lean` is that of `Model/Solver.lean`
-/

namespace PySailing

open Spec

namespace ExactArith

theorem vadd (a b : V3) : exactArith.vadd a b = a + b := rfl

theorem vsub (a b : V3) : exactArith.vsub a b = a - b := rfl

theorem vmul (s : ℝ) (a : V3) : exactArith.vmul s a = s • a := rfl

theorem vdiv (a : V3) (s : ℝ) : exactArith.vdiv a s = (1 / s) • a := by
  ext <;> simp [Arith.vdiv, exactArith] <;> ring

theorem cross (a b : V3) : exactArith.cross a b = V3.cross a b := rfl

theorem norm (a : V3) : exactArith.norm a = a.norm := rfl

theorem dot (a b : V3) : exactArith.dot a b = a.dot b := rfl

theorem lit (x : ℝ) : exactArith.lit x = x := rfl

theorem mul (x y : ℝ) : exactArith.mul x y = x * y := rfl

theorem add (x y : ℝ) : exactArith.add x y = x + y := rfl

theorem sub (x y : ℝ) : exactArith.sub x y = x - y := rfl

theorem div (x y : ℝ) : exactArith.div x y = x / y := rfl

theorem norm_x (x : ℝ) : (⟨x, 0, 0⟩ : V3).norm = |x| := by
  rw [V3.norm]
  simp [V3.dot, ← sq, Real.sqrt_sq_eq_abs]

theorem inCore (p p1 p2 : V3) : exactArith.inCore p p1 p2 ↔
    isInVortexCore [(p - p1).norm, (p - p2).norm, |(V3.cross (p - p1) (p - p2)).norm ^ 2|] = true := by
  simp only [Arith.inCore, vsub, cross, norm, lit, mul, norm_x, isInVortexCore, List.any_cons, List.any_nil,
    Bool.or_false, Bool.or_eq_true, decide_eq_true_eq, ← sq]
  rfl

theorem vortexLine (p p1 p2 : V3) (g : ℝ) : exactArith.vortexLine p p1 p2 g = PySailing.vortexLine p p1 p2 g := by
  unfold Arith.vortexLine PySailing.vortexLine
  simp only [inCore, vsub, cross, norm, lit, mul, vdiv, vmul, dot, ← sq, Arith.strength, div]

theorem lineDefined (p p1 p2 : V3) : exactArith.lineDefined p p1 p2 := by
  unfold Arith.lineDefined
  by_cases h : exactArith.inCore p p1 p2
  · exact .inl h
  · refine .inr ?_
    unfold Arith.inCore at h
    simp only [vsub, cross, norm, lit, mul, norm_x, not_or, not_lt] at h ⊢
    obtain ⟨h1, h2, h3⟩ := h
    refine ⟨fun h => ?_, fun h => ?_, fun h => ?_, by positivity⟩
    · rw [h, abs_zero] at h3; norm_num at h3
    · rw [h] at h1; norm_num at h1
    · rw [h] at h2; norm_num at h2

theorem vortexInfiniteLine (P Q r : V3) (g : ℝ) :
    exactArith.vortexInfiniteLine P Q r g = PySailing.vortexInfiniteLine P Q r g := by
  unfold Arith.vortexInfiniteLine PySailing.vortexInfiniteLine Arith.wakeDen Arith.strength
  simp only [vsub, cross, norm, lit, mul, vdiv, vmul, dot, sub, div]

theorem wakeDefined (P Q r : V3) : exactArith.wakeDefined P Q r ↔ PySailing.wakeDefined P Q r := by
  unfold Arith.wakeDefined PySailing.wakeDefined Arith.wakeDen
  simp only [vsub, norm, lit, mul, vdiv, dot, sub]
  constructor
  · rintro ⟨h1, h2, -⟩
    exact ⟨fun h => h1 (by rw [h, V3.norm_zero]), h2⟩
  · rintro ⟨h1, h2⟩
    exact ⟨(V3.norm_pos h1).ne', h2, by positivity⟩

theorem panelVars (g : ℝ) (q : Panel) (a d : V3) : exactArith.panelVars g q a d = PySailing.panelVars g q a d := by
  unfold Arith.panelVars PySailing.panelVars Arith.quarterB Arith.quarterC Arith.normalRaw
  simp only [vsub, vadd, vmul, vdiv, lit, cross, norm, PySailing.normalRaw, PySailing.quarterB, PySailing.quarterC]

theorem behindA (q : Panel) : exactArith.behindA q = PySailing.behindA q := by
  unfold Arith.behindA PySailing.behindA
  simp only [vsub, vadd, vdiv, lit]

theorem behindD (q : Panel) : exactArith.behindD q = PySailing.behindD q := by
  unfold Arith.behindD PySailing.behindD
  simp only [vsub, vadd, vdiv, lit]

theorem quarterB (q : Panel) : exactArith.quarterB q = PySailing.quarterB q := by
  unfold Arith.quarterB PySailing.quarterB
  simp only [vsub, vadd, vdiv, lit]

theorem quarterC (q : Panel) : exactArith.quarterC q = PySailing.quarterC q := by
  unfold Arith.quarterC PySailing.quarterC
  simp only [vsub, vadd, vdiv, lit]

theorem panelArea (q : Panel) : exactArith.panelArea q = PySailing.panelArea q := by
  unfold Arith.panelArea PySailing.panelArea
  simp only [vsub, cross, norm, lit, mul, add]

theorem bad (q : Panel) : exactArith.norm (exactArith.normalRaw q) = 0 ↔ PySailing.normalRaw q = 0 := by
  rw [norm, show exactArith.normalRaw q = PySailing.normalRaw q from rfl]
  constructor
  · intro h
    by_contra hn
    exact (V3.norm_pos hn).ne' h
  · intro h
    rw [h, V3.norm_zero]

theorem calculateVlmVariables (panels : List Panel) (te : List Bool) (g : ℝ) (nc ns : ℕ) :
    exactArith.calculateVlmVariables panels te g nc ns = PySailing.calculateVlmVariables panels te g nc ns := by
  rw [calculateVlmVariables_variablesOf]
  unfold Arith.calculateVlmVariables
  simp only [panelVars, behindA, behindD, quarterB, quarterC, bad]

variable {K : ℕ}

theorem velCoef (L : Fin K → PanelVars) (te : Fin K → Bool) (V : Fin K → V3) (g : ℝ) (p : V3) (j : Fin K) :
    exactArith.velCoef L te V g p j = PySailing.velCoef L te V g p j := by
  unfold Arith.velCoef PySailing.velCoef Arith.vortexHorseshoeV2 Arith.vortexRing PySailing.vortexHorseshoeV2 PySailing.vortexRing
  simp only [vortexLine, vortexInfiniteLine, vadd, mul, lit]

theorem coefsDefined (L : Fin K → PanelVars) (te : Fin K → Bool) (V pts : Fin K → V3) :
    exactArith.coefsDefined L te V pts ↔ PySailing.coefsDefined L te V pts := by
  unfold Arith.coefsDefined PySailing.coefsDefined
  simp only [lineDefined, true_and, implies_true, wakeDefined]
  exact forall_congr' fun i => forall_congr' fun j => imp_congr_right fun _ => and_comm

theorem calcVelocityCoefs (L : Fin K → PanelVars) (te : Fin K → Bool) (V : Fin K → V3) (g : ℝ) (pts : Fin K → V3) :
    exactArith.calcVelocityCoefs L te V g pts = PySailing.calcVelocityCoefs L te V g pts := by
  unfold Arith.calcVelocityCoefs PySailing.calcVelocityCoefs
  simp only [velCoef, dot]
  by_cases h : PySailing.coefsDefined L te V pts
  · rw [if_pos h, if_pos ((coefsDefined L te V pts).2 h)]
  · rw [if_neg h, if_neg (mt (coefsDefined L te V pts).1 h)]

theorem calcInducedVelocity (c : Fin K → Fin K → V3) (gamma : Fin K → ℝ) :
    exactArith.calcInducedVelocity c gamma = PySailing.calcInducedVelocity c gamma := by
  funext i
  unfold Arith.calcInducedVelocity PySailing.calcInducedVelocity
  simp only [vadd, vmul]
  have key : ∀ (l : List (Fin K)) (s : V3), l.foldl (fun s j => s + gamma j • c i j) s = s + (l.map fun j => gamma j • c i j).sum := by
    intro l
    induction l with
    | nil => intro s; simp
    | cons x l ih => intro s; rw [List.foldl_cons, ih, List.map_cons, List.sum_cons, add_assoc]
  rw [key, zero_add, Fin.sum_univ_def]

theorem calculateAppFs (V : Fin K → V3) (c : Fin K → Fin K → V3) (gamma : Fin K → ℝ) :
    exactArith.calculateAppFs V c gamma = PySailing.calculateAppFs V c gamma := by
  unfold Arith.calculateAppFs PySailing.calculateAppFs
  simp only [calcInducedVelocity, vadd]

theorem solveLattice (L : Fin K → PanelVars) (areas : Fin K → ℝ) (te : Fin K → Bool) (g : ℝ) (V : Fin K → V3) :
    exactArith.solveLattice L areas te g V = PySailing.solveLattice L areas te g V := by
  unfold Arith.solveLattice PySailing.solveLattice
  simp only [calcVelocityCoefs, calculateAppFs]
  rfl

theorem calcForceWrapper (L : Fin K → PanelVars) (te le : Fin K → Bool) (ns : ℕ) (rho g : ℝ) (V : Fin K → V3) (gamma : Fin K → ℝ)
    (name : String) : exactArith.calcForceWrapper L te le ns rho g V gamma name =
      PySailing.calcForceWrapper L te le ns rho g V gamma name := by
  unfold Arith.calcForceWrapper PySailing.calcForceWrapper
  simp only [calcVelocityCoefs, calculateAppFs]
  rfl

theorem vlmCore (L : Fin K → PanelVars) (areas : Fin K → ℝ) (te le : Fin K → Bool) (ns : ℕ) (rho g : ℝ) (V : Fin K → V3) :
    exactArith.vlmCore L areas te le ns rho g V = PySailing.vlmCore L areas te le ns rho g V := by
  unfold Arith.vlmCore PySailing.vlmCore
  simp only [solveLattice, calcForceWrapper]
  rfl

theorem vlmWithWinds (a : VlmInput) (V : List V3) : exactArith.vlmWithWinds a V = PySailing.vlmWithWinds a V := by
  unfold Arith.vlmWithWinds PySailing.vlmWithWinds vlmSolve getPanelsArea
  simp only [calculateVlmVariables, vlmCore, show exactArith.panelArea = PySailing.panelArea from funext panelArea]

end ExactArith

end PySailing
