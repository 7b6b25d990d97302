import Verif.Model.ArithSail
import Verif.Lemmas.ArithWingCore
import Verif.Lemmas.ArithExact
import Verif.Lemmas.Sail
import Verif.Spec.NearSail

/-!
# With exact operations the program of `Model/ArithSail.lean` is that of `Model/Sail.lean` and `Model/Wind.lean`
-/

namespace PySailing

open Spec

namespace ExactSail

theorem linspace01 (n : ℕ) : exactSail.linspace01 n = PySailing.linspace01 n := by
  unfold SailArith.linspace01 PySailing.linspace01
  split_ifs with h
  · rfl
  · refine List.map_congr_left fun i hi => ?_
    have hn : i < n := List.mem_range.1 hi
    show (if i + 1 = n then (1 : ℝ) else (i : ℝ) * (1 / ((n : ℝ) - 1))) = (i : ℝ) / ((n : ℝ) - 1)
    split_ifs with h2
    · subst h2
      have : (i : ℝ) ≠ 0 := by
        have : i ≠ 0 := by omega
        exact_mod_cast this
      push_cast
      rw [add_sub_cancel_right, div_self this]
    · ring

theorem yCamber {m p : ℝ} (hp : p ≤ 0.9) (x : ℝ) : exactSail.yCamber m p x = PySailing.yCamber m p x := by
  unfold SailArith.yCamber PySailing.yCamber
  have h1 : (1 - p) * (1 - p) ≠ 0 := by
    have : 0 < 1 - p := by norm_num at hp; linarith
    positivity
  have h1' : exactSail.mul (exactSail.sub (exactSail.lit 1) p) (exactSail.sub (exactSail.lit 1) p) ≠ 0 := h1
  by_cases h : x < p ∧ x ≥ 0
  · have hp0 : exactSail.mul p p ≠ 0 := by
      have : 0 < p := lt_of_le_of_lt h.2 h.1
      exact (mul_pos this this).ne'
    simp only [if_pos h, if_neg hp0]
    rw [sq, sq]
    rfl
  · simp only [if_neg h]
    by_cases h2 : x ≥ p ∧ x ≤ 1
    · simp only [if_pos h2, if_neg h1']
      rw [sq, sq]
      rfl
    · simp only [if_neg h2]

theorem yCamber_error {m p x : ℝ} {e : PyErr} (h : PySailing.yCamber m p x = .error e) : e = .valueError := by
  unfold PySailing.yCamber at h
  split_ifs at h
  injection h with h
  exact h.symm

theorem dyCamber_of_yCamber {m p x : ℝ} {y : ℝ} (h : PySailing.yCamber m p x = .ok y) : ∃ d, dyCamber m p x = .ok d := by
  unfold PySailing.yCamber at h
  unfold dyCamber
  split_ifs at h ⊢ <;> exact ⟨_, rfl⟩

theorem mapM_ok_of {α β γ : Type} {f : α → Py β} {g : α → Py γ} (hfg : ∀ a b, f a = .ok b → ∃ c, g a = .ok c) :
    ∀ (xs : List α) (ys : List β), xs.mapM f = .ok ys → ∃ zs, xs.mapM g = .ok zs
  | [], _, _ => ⟨[], rfl⟩
  | x :: xs, ys, h => by
    rw [List.mapM_cons] at h
    rcases hx : f x with e | b
    · rw [hx] at h; cases h
    · rcases hxs : xs.mapM f with e | bs
      · rw [hx, hxs] at h; cases h
      · obtain ⟨c, hc⟩ := hfg x b hx
        obtain ⟨cs, hcs⟩ := mapM_ok_of hfg xs bs hxs
        exact ⟨c :: cs, by rw [List.mapM_cons, hc, hcs]; rfl⟩

theorem airfoilRow (n : ℕ) (distance camber : List ℝ) (r : ℕ) (p1 p2 : V3) :
    exactSail.airfoilRow n distance camber r p1 p2 = PySailing.airfoilRow n distance camber r p1 p2 := by
  classical
  unfold SailArith.airfoilRow PySailing.airfoilRow
  refine bind_congr (m := Except PyErr) fun p => bind_congr (m := Except PyErr) fun m => ?_
  unfold SailArith.airfoilLine PySailing.vlmAirfoil
  by_cases hm : m ≤ 0.3 ∧ m ≥ 0
  swap
  · rw [if_pos hm, if_pos (show ¬ (m ≤ exactSail.lit 0.3 ∧ m ≥ 0) from hm)]
    rfl
  by_cases hp : p ≤ 0.9 ∧ p ≥ 0
  swap
  · rw [if_neg (not_not.2 hm), if_neg (show ¬ ¬ (m ≤ exactSail.lit 0.3 ∧ m ≥ 0) from not_not.2 hm), if_pos hp,
      if_pos (show ¬ (p ≤ exactSail.lit 0.9 ∧ p ≥ 0) from hp)]
    rfl
  rw [if_neg (not_not.2 hm), if_neg (show ¬ ¬ (m ≤ exactSail.lit 0.3 ∧ m ≥ 0) from not_not.2 hm), if_neg (not_not.2 hp),
    if_neg (show ¬ ¬ (p ≤ exactSail.lit 0.9 ∧ p ≥ 0) from not_not.2 hp),
    if_neg (show ¬ ¬ ((0.0 : ℝ) ≤ 0.4 ∧ (0.0 : ℝ) ≥ 0) from not_not.2 ⟨by norm_num, by norm_num⟩)]
  rw [linspace01, show exactSail.yCamber m p = PySailing.yCamber m p from funext (yCamber hp.1)]
  rcases hy : (PySailing.linspace01 n).mapM (PySailing.yCamber m p) with e | yc
  · simp only [hy]
    rfl
  · obtain ⟨dy, hdy⟩ := mapM_ok_of (g := dyCamber m p) (fun a b => dyCamber_of_yCamber) _ _ hy
    simp only [hy, hdy]
    show Except.ok _ = Except.ok _
    congr 1
    have hc : exactSail.sub p2.x p1.x = p2.x - p1.x := rfl
    rw [List.zipWith_map, List.zip, List.map_zipWith]
    rfl

theorem teLine (le : List V3) (chords : List ℝ) : exactSail.teLine le chords = PySailing.teLine le chords := rfl

theorem makeAirfoilMesh (a b : V3) (nc ns : ℕ) (chords distance camber : List ℝ) :
    exactSail.makeAirfoilMesh a b nc ns chords distance camber = PySailing.makeAirfoilMesh a b nc ns chords distance camber := by
  unfold SailArith.makeAirfoilMesh PySailing.makeAirfoilMesh
  rw [show exactSail.discreteSegment a b ns = PySailing.discreteSegment a b ns from ExactFull.discreteSegment a b ns]
  simp only [teLine, airfoilRow]

theorem ex_ne : Csys.ex ≠ 0 := fun h => one_ne_zero (congrArg V3.x h)

theorem ez_ne : Csys.ez ≠ 0 := fun h => one_ne_zero (congrArg V3.z h)

theorem csysMatrices (c : Csys) : exactSail.csysMatrices c = .ok (c.heeling, c.reverseHeeling, c.leeway) := by
  unfold SailArith.csysMatrices
  have e : ∀ k θ, exactSail.rotationMatrix k θ = PySailing.rotationMatrix k θ := ExactFull.rotationMatrix
  have d : ∀ x, exactSail.deg2rad x = PySailing.deg2rad x := fun _ => rfl
  simp only [e, d, PySailing.rotationMatrix, if_neg ex_ne, if_neg ez_ne]
  rfl

theorem rotatePointWithMirror (c : Csys) (p : V3) :
    exactSail.rotatePointWithMirror (c.heeling, c.reverseHeeling, c.leeway) p = c.rotatePointWithMirror p := by
  unfold SailArith.rotatePointWithMirror Csys.rotatePointWithMirror
  have e : ∀ M v, exactSail.mulVec M v = M3.mulVec M v := fun _ _ => rfl
  by_cases h : p.z > 0
  · simp only [e, if_pos h]
  · simp only [e, if_neg h]

theorem axisV (p1 p2 : V3) : exactSail.axisV p1 p2 = Real.sqrt ((p2 - p1).y ^ 2 + (p2 - p1).z ^ 2) := by
  rw [sq, sq]; rfl

theorem rotateAboutLineCore (p1 p2 : V3) (θ : ℝ) (p : V3) :
    exactSail.rotateAboutLineCore p1 p2 θ p = PySailing.rotateAboutLineCore p1 p2 θ p := by
  unfold SailArith.rotateAboutLineCore PySailing.rotateAboutLineCore arbitraryAxisMatrix
  simp only [axisV]
  have e : ∀ Ms v, exactSail.multiDot Ms v = Ms.prod.mulVec v := fun _ _ => rfl
  simp only [e, List.prod_cons, List.prod_nil, Matrix.mul_one, Matrix.mul_assoc]
  rfl

theorem rotatePointsAroundArbitraryAxis (ps : List V3) (p1 p2 : V3) (θ : ℝ) :
    exactSail.rotatePointsAroundArbitraryAxis ps p1 p2 θ = PySailing.rotatePointsAroundArbitraryAxis ps p1 p2 θ := by
  classical
  unfold SailArith.rotatePointsAroundArbitraryAxis PySailing.rotatePointsAroundArbitraryAxis
  rw [axisV, show exactSail.rotateAboutLineCore p1 p2 θ = PySailing.rotateAboutLineCore p1 p2 θ from
    funext (rotateAboutLineCore p1 p2 θ)]
  have hl : exactSail.norm (exactSail.vsub p2 p1) = 0 → Real.sqrt ((p2 - p1).y ^ 2 + (p2 - p1).z ^ 2) = 0 := by
    intro h
    have h' : (p2 - p1).norm = 0 := h
    have hz : p2 - p1 = 0 := by
      by_contra hn
      exact (V3.norm_pos hn).ne' h'
    rw [hz]
    simp
  by_cases h : ps ≠ [] ∧ Real.sqrt ((p2 - p1).y ^ 2 + (p2 - p1).z ^ 2) = 0
  · rw [if_pos h, if_pos ⟨h.1, .inl h.2⟩]
  · rw [if_neg h, if_neg]
    rintro ⟨h1, h2 | h2⟩
    · exact h ⟨h1, h2⟩
    · exact h ⟨h1, hl h2⟩

theorem rotatePointsAroundLe (ps : List V3) (p1 p2 : V3) (tw : List ℝ) :
    exactSail.rotatePointsAroundLe ps p1 p2 tw = PySailing.rotatePointsAroundLe ps p1 p2 tw := by
  unfold SailArith.rotatePointsAroundLe PySailing.rotatePointsAroundLe
  have d : ∀ x, exactSail.deg2rad x = PySailing.deg2rad x := fun _ => rfl
  cases tw with
  | nil => rfl
  | cons t0 ts => simp only [rotatePointsAroundArbitraryAxis, d]

theorem assertAlmostEqual (a b : List V3) : exactSail.assertAlmostEqual a b = PySailing.assertAlmostEqual a b := by
  classical
  unfold SailArith.assertAlmostEqual PySailing.assertAlmostEqual
  have e : ∀ x y, exactSail.almostEq x y ↔ PySailing.almostEq x y := fun x y => by
    show |y - x| < 1.5 * 1e-7 ↔ |y - x| < 1.5e-7
    norm_num
  simp only [e, V3.almostEq]
  congr

theorem twistMesh (mesh : List V3) (sh0 sh1 : ℕ) (tw : List ℝ) :
    exactSail.twistMesh mesh sh0 sh1 tw = PySailing.twistMesh mesh sh0 sh1 tw := by
  unfold SailArith.twistMesh PySailing.twistMesh
  simp only [rotatePointsAroundLe, assertAlmostEqual]

theorem twistBlock (s : SailInput) (sh0 sh1 : ℕ) (a b : List V3) :
    exactSail.twistBlock s sh0 sh1 a b = PySailing.twistBlock s sh0 sh1 a b := by
  unfold SailArith.twistBlock PySailing.twistBlock
  simp only [twistMesh]
  rfl

theorem sailGeometry (s : SailInput) : exactSail.sailGeometry s = PySailing.sailGeometry s := by
  unfold SailArith.sailGeometry PySailing.sailGeometry
  have hb : ∀ {α β : Type} (x : α) (f : α → Py β), ((Except.ok x : Py α) >>= f) = f x := fun _ _ => rfl
  simp only [csysMatrices, makeAirfoilMesh, twistBlock, hb]
  simp only [show exactSail.rotatePointWithMirror (s.csys.heeling, s.csys.reverseHeeling, s.csys.leeway) =
    s.csys.rotatePointWithMirror from funext (rotatePointWithMirror s.csys)]

theorem logFactor (r ref h : ℝ) : exactSail.logFactor r ref h = WindObj.logFactor r ref h := by
  classical
  unfold SailArith.logFactor WindObj.logFactor
  show (if r = 0 then _ else if h / r ≤ 0 then _ else if ref / r < 0 then _ else if ref / r = 0 then _ else
    if Real.log (ref / r) = 0 then _ else _) = _
  by_cases h1 : r = 0
  · rw [if_pos h1, if_pos h1]
  rw [if_neg h1, if_neg h1]
  by_cases h2 : h / r ≤ 0
  · rw [if_pos h2, if_pos h2]
  rw [if_neg h2, if_neg h2]
  by_cases h3 : ref / r < 0
  · rw [if_pos h3, if_pos h3]
  rw [if_neg h3, if_neg h3]
  by_cases h4 : ref / r = 0
  · rw [if_pos h4, if_pos h4]
  rw [if_neg h4, if_neg h4]
  have h5 : Real.log (ref / r) = 0 ↔ ref / r = 1 := by
    rw [Real.log_eq_zero]
    constructor
    · rintro (h | h | h)
      · exact absurd h h4
      · exact h
      · rw [h] at h3; norm_num at h3
    · exact fun h => .inr (.inl h)
  by_cases h6 : ref / r = 1
  · rw [if_pos h6, if_pos (h5.2 h6)]
  · rw [if_neg h6, if_neg (mt h5.1 h6)]
    rfl

theorem expFactor (c ref wl h : ℝ) : exactSail.expFactor c ref wl h = WindObj.expFactor c ref wl h := rfl

theorem trueWindAt (w : WindObj) (h : ℝ) : exactSail.trueWindAt w h = w.trueWindAt h := by
  unfold SailArith.trueWindAt WindObj.trueWindAt
  simp only [logFactor, expFactor]
  rfl

theorem windsAt (w : WindObj) (rho : ℝ) (cps : List V3) :
    exactSail.windsAt w cps = (inletConditions w rho cps).map Inlet.vAppInfs := by
  unfold SailArith.windsAt inletConditions
  simp only [trueWindAt]
  rcases List.mapM (fun p : V3 => w.trueWindAt |p.z|) cps with e | tws
  · rfl
  · show (if tws = [] then _ else _) = Except.map _ (if tws = [] then _ else _)
    split_ifs <;> rfl

theorem vlm (a : VlmInput) : exactSail.vlm a = (PySailing.vlm a).map fun r => (r.inlet.vAppInfs, r.out) := by
  unfold SailArith.vlm PySailing.vlm vlmSolve getPanelsArea
  have e1 : ∀ p te g nc ns, exactSail.calculateVlmVariables p te g nc ns = PySailing.calculateVlmVariables p te g nc ns :=
    ExactArith.calculateVlmVariables
  have e3 : ∀ {K : ℕ} (L : Fin K → PanelVars) areas te le ns rho g V, exactSail.vlmCore L areas te le ns rho g V =
      PySailing.vlmCore L areas te le ns rho g V := ExactArith.vlmCore
  have e2 : exactSail.panelArea = PySailing.panelArea := funext ExactArith.panelArea
  simp only [e1, e2, windsAt _ a.rho, e3]
  rcases nanTrap (PySailing.calculateVlmVariables a.panels a.te a.g a.nc a.ns) with e | vars
  · rfl
  · show (nanTrap (Except.map Inlet.vAppInfs (inletConditions a.wind a.rho (vars.map PanelVars.cp))) >>= fun V => _) =
      Except.map _ (nanTrap (inletConditions a.wind a.rho (vars.map PanelVars.cp)) >>= fun inlet => _)
    rcases inletConditions a.wind a.rho (vars.map PanelVars.cp) with e | inl
    · cases e <;> rfl
    · show (PySailing.vlmCore (fun i : Fin vars.length => vars[i]) _ _ _ _ _ _ (fun i => inl.vAppInfs.getD i 0) >>= fun s => _) =
        Except.map _ (PySailing.vlmCore (fun i : Fin vars.length => vars[i]) _ _ _ _ _ _ (fun i => inl.vAppInfs.getD i 0) >>= fun s => _)
      rcases PySailing.vlmCore (fun i : Fin vars.length => vars[i]) _ _ _ _ _ _ (fun i => inl.vAppInfs.getD i 0) with e | s
      · rfl
      · rfl

theorem calculateSails (ss : List SailInput) (nc ns : ℕ) (rho g : ℝ) (w : WindObj) :
    exactSail.calculateSails ss nc ns rho g w =
      (Spec.calculateSails ss nc ns rho g w).map fun r => (r.inlet.vAppInfs, r.out) := by
  unfold SailArith.calculateSails Spec.calculateSails
  rw [show exactSail.sailGeometry = PySailing.sailGeometry from funext sailGeometry]
  rcases ss.mapM PySailing.sailGeometry with e | sails
  · rfl
  · rcases hs : sailSet sails with e | set
    · show (sailSet sails >>= _) = Except.map _ (sailSet sails >>= _)
      rw [hs]; rfl
    · show (sailSet sails >>= _) = Except.map _ (sailSet sails >>= _)
      rw [hs]
      exact vlm _

end ExactSail

end PySailing
