import Verif.Model.Interpolator
import Verif.Spec.Interpolation
import Verif.Lemmas.ListLemmas
import Mathlib.Tactic.Ring
import Mathlib.Tactic.FieldSimp
import Mathlib.Tactic.Linarith
import Mathlib.Tactic.NormNum

/-!
# Lemmas about `np.interp`
-/

namespace PySailing

open Spec

/-- The pairs `(xs i, ys i)`, `i = k, …, k + n`. -/
noncomputable def pairsFrom (xs ys : ℕ → ℝ) (k : ℕ) : ℕ → List (ℝ × ℝ)
  | 0 => [(xs k, ys k)]
  | n + 1 => (xs k, ys k) :: pairsFrom xs ys (k + 1) n

theorem pairsFrom_head (xs ys : ℕ → ℝ) (k n : ℕ) : ∃ rest, pairsFrom xs ys k n = (xs k, ys k) :: rest := by
  cases n <;> exact ⟨_, rfl⟩

theorem pairsFrom_eq (xs ys : ℕ → ℝ) (n : ℕ) : ∀ k, pairsFrom xs ys k n =
    (List.range (n + 1)).map fun i : ℕ => (xs (k + i), ys (k + i)) := by
  induction n with
  | zero => intro k; simp [pairsFrom]
  | succ n ih =>
    intro k
    rw [pairsFrom, ih (k + 1), List.range_succ_eq_map (n := n + 1), List.map_cons, List.map_map]
    simp only [add_zero]
    congr 1
    apply List.map_congr_left
    intro i _
    simp only [Function.comp]
    rw [show k + 1 + i = k + (i + 1) by omega]

theorem interp1_left {xs ys : ℕ → ℝ} {k n : ℕ} (hx : ∀ i < n, xs (k + i) < xs (k + (i + 1))) {x : ℝ}
    (h : x ≤ xs k) : interp1 x (pairsFrom xs ys k n) = ys k := by
  cases n with
  | zero => rfl
  | succ n =>
    obtain ⟨rest, hr⟩ := pairsFrom_head xs ys (k + 1) n
    have h0 := hx 0 (by omega)
    rw [pairsFrom, hr, interp1, if_pos (lt_of_le_of_lt h h0), if_pos h]

theorem interp1_right {xs ys : ℕ → ℝ} {n : ℕ} : ∀ {k : ℕ}, (∀ i < n, xs (k + i) < xs (k + (i + 1))) →
    ∀ {x : ℝ}, xs (k + n) ≤ x → interp1 x (pairsFrom xs ys k n) = ys (k + n) := by
  induction n with
  | zero => intros; rfl
  | succ n ih =>
    intro k hx x h
    obtain ⟨rest, hr⟩ := pairsFrom_head xs ys (k + 1) n
    have hx' : ∀ i < n, xs (k + 1 + i) < xs (k + 1 + (i + 1)) := by
      intro i hi
      have := hx (i + 1) (by omega)
      rwa [show k + (i + 1) = k + 1 + i by omega, show k + (i + 1 + 1) = k + 1 + (i + 1) by omega] at this
    have hmono : ∀ j ≤ n, xs (k + 1) ≤ xs (k + 1 + j) := by
      intro j hj
      induction j with
      | zero => exact le_refl _
      | succ j ihj => exact le_trans (ihj (by omega)) (hx' j (by omega)).le
    have hb : ¬ x < xs (k + 1) := by
      have := hmono n le_rfl
      rw [show k + 1 + n = k + (n + 1) by omega] at this
      push Not; linarith
    rw [pairsFrom, hr, interp1, if_neg hb, ← hr, ih hx' (by rwa [show k + 1 + n = k + (n + 1) by omega])]
    congr 1; omega

theorem interp1_between {xs ys : ℕ → ℝ} {n : ℕ} : ∀ {k : ℕ}, (∀ i < n, xs (k + i) < xs (k + (i + 1))) →
    ∀ {x : ℝ} {i : ℕ}, i < n → xs (k + i) ≤ x → x ≤ xs (k + (i + 1)) →
    interp1 x (pairsFrom xs ys k n) = ys (k + i) + (x - xs (k + i)) / (xs (k + (i + 1)) - xs (k + i)) *
      (ys (k + (i + 1)) - ys (k + i)) := by
  induction n with
  | zero => intros; omega
  | succ n ih =>
    intro k hx x i hi h1 h2
    obtain ⟨rest, hr⟩ := pairsFrom_head xs ys (k + 1) n
    have hx' : ∀ i < n, xs (k + 1 + i) < xs (k + 1 + (i + 1)) := by
      intro i hi
      have := hx (i + 1) (by omega)
      rwa [show k + (i + 1) = k + 1 + i by omega, show k + (i + 1 + 1) = k + 1 + (i + 1) by omega] at this
    have h0 := hx 0 (by omega)
    simp only [add_zero, zero_add] at h0
    rw [pairsFrom]
    cases i with
    | zero =>
      simp only [add_zero, zero_add] at h1 h2 ⊢
      by_cases hb : x < xs (k + 1)
      · rw [hr, interp1, if_pos hb]
        by_cases ha : x ≤ xs k
        · have : x = xs k := le_antisymm ha h1
          rw [if_pos ha, this]; simp
        · rw [if_neg ha]; ring
      · have hxe : x = xs (k + 1) := le_antisymm h2 (not_lt.1 hb)
        rw [hr, interp1, if_neg hb, ← hr, interp1_left hx' hxe.le, hxe]
        have : xs (k + 1) - xs k ≠ 0 := by linarith
        rw [div_self this]; ring
    | succ i =>
      have hmono : ∀ j ≤ n, xs (k + 1) ≤ xs (k + 1 + j) := by
        intro j hj
        induction j with
        | zero => exact le_refl _
        | succ j ihj => exact le_trans (ihj (by omega)) (hx' j (by omega)).le
      have hb : ¬ x < xs (k + 1) := by
        have := hmono i (by omega)
        rw [show k + 1 + i = k + (i + 1) by omega] at this
        push Not; linarith
      rw [hr, interp1, if_neg hb, ← hr, ih hx' (i := i) (by omega)
        (by rwa [show k + 1 + i = k + (i + 1) by omega])
        (by rwa [show k + 1 + (i + 1) = k + (i + 1 + 1) by omega])]
      rw [show k + 1 + i = k + (i + 1) by omega, show k + 1 + (i + 1) = k + (i + 1 + 1) by omega]

theorem interp1_polygon {xs ys : ℕ → ℝ} {m : ℕ} (hx : ∀ i < m, xs i < xs (i + 1)) (x : ℝ) :
    PolygonValue m xs ys x (interp1 x (pairsFrom xs ys 0 m)) := by
  have hx' : ∀ i < m, xs (0 + i) < xs (0 + (i + 1)) := by simpa using hx
  refine ⟨fun h => interp1_left hx' h, fun h => ?_, fun i hi h1 h2 => ?_⟩
  · have := interp1_right (ys := ys) hx' (x := x) (by simpa using h)
    simpa using this
  · have := interp1_between (ys := ys) hx' (x := x) hi (by simpa using h1) (by simpa using h2)
    simpa using this

/-- A point inside the data lies between two neighbours. -/
theorem exists_interval {xs : ℕ → ℝ} {m : ℕ} {x : ℝ} (h0 : xs 0 ≤ x) (h1 : x < xs m) :
    ∃ i < m, xs i ≤ x ∧ x ≤ xs (i + 1) := by
  induction m with
  | zero => linarith
  | succ m ih =>
    by_cases h : x < xs m
    · obtain ⟨i, hi, h⟩ := ih h
      exact ⟨i, by omega, h⟩
    · exact ⟨m, by omega, not_lt.1 h, h1.le⟩

theorem zip_pairsFrom {xs ys : List ℝ} {m : ℕ} (hx : xs.length = m + 1) (hy : ys.length = m + 1) :
    xs.zip ys = pairsFrom (fun i => xs.getD i 0) (fun i => ys.getD i 0) 0 m := by
  rw [pairsFrom_eq]
  apply List.ext_getElem?
  intro i
  by_cases hi : i < m + 1
  · rw [List.getElem?_map, List.getElem?_range hi, (List.getElem?_zip_eq_some (z := (xs.getD i 0, ys.getD i 0))).2]
    · simp
    · constructor
      · simp only; rw [List.getD_eq_getElem?_getD, List.getElem?_eq_getElem (by omega)]; rfl
      · simp only; rw [List.getD_eq_getElem?_getD, List.getElem?_eq_getElem (by omega)]; rfl
  · rw [List.getElem?_eq_none (by simp; omega), List.getElem?_eq_none (by simp; omega)]

end PySailing
