import Verif.Lemmas.ArithWing

/-!
# `Aircraft` with rounded operations: exact operations, and limits
-/

namespace PySailing

open Spec

namespace ExactFull

theorem deg2rad (x : ℝ) : exactFull.deg2rad x = PySailing.deg2rad x := rfl

theorem rotationMatrix (axis : V3) (θ : ℝ) : exactFull.rotationMatrix axis θ = PySailing.rotationMatrix axis θ := by
  classical
  unfold FullArith.rotationMatrix PySailing.rotationMatrix
  have hz : exactFull.sqrt (exactFull.dot axis axis) = 0 ↔ axis = 0 := by
    show Real.sqrt (axis.dot axis) = 0 ↔ axis = 0
    constructor
    · intro h
      by_contra hn
      exact (Real.sqrt_pos.2 (V3.dot_self_pos hn)).ne' h
    · rintro rfl
      simp [V3.dot]
  by_cases h : axis = 0
  · rw [if_pos h]
    exact if_pos (hz.2 h)
  · rw [if_neg h]
    refine (if_neg (mt hz.1 h)).trans ?_
    congr 1
    unfold rotationMatrixCore
    have e : exactFull.vdiv axis (exactFull.sqrt (exactFull.dot axis axis)) = (1 / Real.sqrt (axis.dot axis)) • axis :=
      ExactArith.vdiv _ _
    simp only [e, V3.smul_x, V3.smul_y, V3.smul_z, V3.neg_x, V3.neg_y, V3.neg_z, mul_comm (Real.sin (θ / 2))]
    rfl

theorem discreteSegment (p q : V3) (n : ℕ) : exactFull.discreteSegment p q n = PySailing.discreteSegment p q n := by
  unfold FullArith.discreteSegment PySailing.discreteSegment
  have e : exactFull.vdiv (exactFull.vsub q p) (exactFull.lit n) = (1 / (n : ℝ)) • (q - p) := ExactArith.vdiv _ _
  simp only [e]
  rfl

theorem panelSet (a : AircraftInput) : exactFull.panelSet a = a.panelSet := by
  unfold FullArith.panelSet AircraftInput.panelSet FullArith.makePanelsFromLeTePoints makePanelsFromLeTePoints
    FullArith.makePointMesh makePointMesh
  simp only [rotationMatrix, discreteSegment]
  rfl

theorem aircraftVariables (panels : List Panel) (g : ℝ) :
    exactFull.aircraftVariables panels g = calculateAircraftVariables panels g := by
  unfold FullArith.aircraftVariables calculateAircraftVariables
  have hb : ∀ q, exactFull.norm (exactFull.normalRaw q) = 0 ↔ normalRaw q = 0 := ExactArith.bad
  have hv : ∀ q, exactFull.panelVars g q (exactFull.behindA q) (exactFull.behindD q) =
      PySailing.panelVars g q (PySailing.behindA q) (PySailing.behindD q) := fun q => by
    rw [show exactFull.behindA q = PySailing.behindA q from ExactArith.behindA q,
      show exactFull.behindD q = PySailing.behindD q from ExactArith.behindD q]
    exact ExactArith.panelVars g q _ _
  simp only [hv]
  have hex : (∃ q ∈ panels, exactFull.norm (exactFull.normalRaw q) = 0) ↔ ∃ q ∈ panels, normalRaw q = 0 :=
    exists_congr fun q => and_congr_right fun _ => hb q
  by_cases h : ∃ q ∈ panels, normalRaw q = 0
  · rw [if_pos h, if_pos (hex.2 h)]
  · rw [if_neg h, if_neg (mt hex.1 h)]

theorem vsum (F : List V3) : exactFull.vsum F = F.sum := by
  induction F with
  | nil => rfl
  | cons v F ih =>
    rw [List.sum_cons, ← ih]
    rfl

theorem dynamicForce (V : V3) (rho S : ℝ) : exactFull.dynamicForce V rho S = 0.5 * rho * V.norm ^ 2 * S := by
  unfold FullArith.dynamicForce
  rw [sq]
  rfl

theorem aircraft (a : AircraftInput) : exactFull.aircraft a = PySailing.aircraft a := by
  classical
  unfold FullArith.aircraft PySailing.aircraft getVlmCLCD
  have e : exactFull.panelArea = PySailing.panelArea := funext ExactArith.panelArea
  simp only [panelSet, aircraftVariables, vsum, dynamicForce, getPanelsArea, e]
  simp only [show exactFull.toArith = exactArith from rfl, ExactArith.solveLattice, ExactArith.calcForceWrapper]
  have hS : exactFull.wingArea a = a.S := rfl
  simp only [hS]
  split_ifs with h
  · rfl
  all_goals
    refine bind_congr (m := Except PyErr) fun th => bind_congr (m := Except PyErr) fun ps => ?_
    by_cases h2 : ps.panels = []
    · rw [if_pos h2, if_pos h2]
    rw [if_neg h2, if_neg h2]
    exact bind_congr (m := Except PyErr) fun vars => bind_congr (m := Except PyErr) fun s =>
      bind_congr (m := Except PyErr) fun f => bind_congr (m := Except PyErr) fun p => rfl

end ExactFull

/-- `Aircraft` returns when its steps do. -/
theorem FullArith.aircraft_of (A : FullArith) {a : AircraftInput} (hc : a.chord ≠ 0) {th : ℝ × ℝ}
    (hth : A.getCLCDFreeWing (A.div (A.mul (A.lit 2) a.half) a.chord) a.aoaDeg = .ok th) {ps : PanelSet}
    (hps : A.panelSet a = .ok ps) (hne : ps.panels ≠ []) {vars : List PanelVars} (hv : A.aircraftVariables ps.panels a.g = .ok vars)
    {K : ℕ} (hK : vars.length = K) {sol : VlmSolution K}
    (hs : A.vlmCore (fun i : Fin K => vars[i]'(by rw [hK]; exact i.isLt)) (fun i => (ps.panels.map A.panelArea).getD i 0)
      (fun i => ps.te.getD i false) (fun i => ps.le.getD i false) a.ns a.rho a.g (fun _ => a.V) = .ok sol)
    (hq : A.dynamicForce a.V a.rho (A.wingArea a) ≠ 0) :
    ∃ w, A.aircraft a = .ok w ∧ w.input = a ∧ w.panelSet = ps ∧ List.ofFn w.gamma = List.ofFn sol.gamma ∧
      List.ofFn w.force = List.ofFn sol.force ∧ List.ofFn w.pressure = List.ofFn sol.pressure ∧
      w.AR = A.div (A.mul (A.lit 2) a.half) a.chord ∧ w.CLTheoretical = th.1 ∧ w.CDTheoretical = th.2 ∧
      w.CL = A.div (A.vsum (List.ofFn sol.force)).z (A.dynamicForce a.V a.rho (A.wingArea a)) ∧
      w.CD = A.div (A.vsum (List.ofFn sol.force)).x (A.dynamicForce a.V a.rho (A.wingArea a)) ∧
      w.Cp = A.div (A.sum (List.ofFn sol.pressure)) (A.dynamicForce a.V a.rho (A.wingArea a)) := by
  classical
  subst hK
  unfold Arith.vlmCore at hs
  simp only [bind, Except.bind] at hs
  cases h1 : A.solveLattice (fun i : Fin vars.length => vars[i]) (fun i => (ps.panels.map A.panelArea).getD i 0)
      (fun i => ps.te.getD i false) a.g (fun _ => a.V) with
  | error e => rw [h1] at hs; cases hs
  | ok s1 =>
  rw [h1] at hs
  simp only at hs
  cases h2 : A.calcForceWrapper (fun i : Fin vars.length => vars[i]) (fun i => ps.te.getD i false) (fun i => ps.le.getD i false) a.ns
      a.rho a.g (fun _ => a.V) s1.1 "force_xyz" with
  | error e => rw [h2] at hs; cases hs
  | ok f1 =>
  rw [h2] at hs
  simp only at hs
  cases h3 : A.calcPressure f1.1 (fun i : Fin vars.length => vars[i].normal) (fun i => (ps.panels.map A.panelArea).getD i 0) with
  | error e => rw [h3] at hs; cases hs
  | ok p1 =>
  rw [h3] at hs
  simp only at hs
  have hsol : sol.gamma = s1.1 ∧ sol.force = f1.1 ∧ sol.pressure = p1 := by
    split at hs
    · cases hs
    split at hs
    · cases hs
    split at hs
    · cases hs
    injection hs with hs
    subst hs
    exact ⟨rfl, rfl, rfl⟩
  unfold FullArith.aircraft
  rw [if_neg hc]
  simp only [bind, Except.bind, hth, hps, if_neg hne, hv, nanTrap, h1, h2, h3, if_neg hq]
  rw [hsol.1, hsol.2.1, hsol.2.2]
  exact ⟨_, rfl, rfl, rfl, rfl, rfl, rfl, rfl, rfl, rfl, rfl, rfl, rfl⟩

end PySailing
