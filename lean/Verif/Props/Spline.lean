import Verif.Model.Spline
import Verif.Lemmas.Spline
import Verif.Props.Interpolator

/-!
# Properties of the spline interpolation (C81, C82)
-/

namespace PySailing

open Spec Props

/-- The modelled spline is the interpolating spline. -/
theorem splineThrough_isSpline {m : ℕ} {xs : ℕ → ℝ} (hm : 3 ≤ m) (hx : ∀ i < m, xs i < xs (i + 1)) (ys : ℕ → ℝ) :
    IsSpline m xs ys (splineThrough m xs ys) := by
  have h := exists_spline hm hx ys
  unfold splineThrough
  rw [dif_pos h]
  exact h.choose_spec

theorem interpolate_spline {m : ℕ} {xs ys : List ℝ} (h : GirthData m xs ys) (hm : 3 ≤ m) (n : ℕ) :
    interpolateGirths fitpackSpline "spline" xs ys n = .ok ((linspace01 n).map
      (splineThrough m (fun i => xs.getD i 0) (fun i => ys.getD i 0))) := by
  unfold interpolateGirths fitpackSpline
  rw [if_neg (by decide), if_pos rfl, if_neg (by rw [h.xs_len, h.ys_len]; simp), if_neg (by rw [h.xs_len]; omega),
    if_neg, if_neg, h.xs_len, Nat.add_sub_cancel]
  · rintro ⟨i, hi, e⟩
    exact absurd (h.increasing i (by rw [h.xs_len] at hi; omega)) (by rw [e]; exact lt_irrefl _)
  · rintro ⟨i, hi, e⟩
    exact lt_asymm e (h.increasing i (by rw [h.xs_len] at hi; omega))

theorem Spec.CubicOn.smul {S : ℝ → ℝ} {I : Set ℝ} (r : ℝ) (hS : CubicOn S I) : CubicOn (fun x => r * S x) I := by
  obtain ⟨a, b, c, d, h⟩ := hS
  exact ⟨r * a, r * b, r * c, r * d, fun x hx => by beta_reduce; rw [h x hx]; ring⟩

end PySailing

namespace PySailing.Props

open PySailing Spec

/-- **C81**: `interpolate_girths` with type `"spline"` succeeds for at least four increasing girths with one
ordinate each, returns `n_points` values, and value `k` is the value at `k / (n_points - 1)` of the
interpolating cubic spline through the data; there is exactly one such spline. -/
theorem C81_spline {m : ℕ} {xs ys : List ℝ} (h : GirthData m xs ys) (hm : 3 ≤ m) (n : ℕ) :
    ∃! S : ℝ → ℝ, IsSpline m (fun i => xs.getD i 0) (fun i => ys.getD i 0) S ∧
      ∃ v, interpolateGirths fitpackSpline "spline" xs ys n = .ok v ∧ v.length = n ∧
        ∀ k < n, v[k]? = some (S ((k : ℝ) / ((n : ℝ) - 1))) := by
  refine ⟨_, ⟨splineThrough_isSpline hm h.increasing _, _, interpolate_spline h hm n, by simp [linspace01_length],
    fun k hk => by rw [List.getElem?_map, linspace_at hk]; rfl⟩, ?_⟩
  rintro T ⟨hT, -⟩
  exact hT.unique hm h.increasing (splineThrough_isSpline hm h.increasing _)

/-- Every spline through the data gives the returned values. -/
theorem C81_values {m : ℕ} {xs ys : List ℝ} (h : GirthData m xs ys) (hm : 3 ≤ m) {n : ℕ} {S : ℝ → ℝ}
    (hS : IsSpline m (fun i => xs.getD i 0) (fun i => ys.getD i 0) S) :
    interpolateGirths fitpackSpline "spline" xs ys n =
      .ok ((List.range n).map fun k : ℕ => S ((k : ℝ) / ((n : ℝ) - 1))) := by
  obtain ⟨T, ⟨hT, v, hv, hl, hk⟩, -⟩ := C81_spline h hm n
  rw [hv, hS.unique hm h.increasing hT]
  congr 1
  apply List.ext_getElem?
  intro k
  by_cases hkn : k < n
  · rw [hk k hkn, List.getElem?_map, List.getElem?_range hkn]; rfl
  · rw [List.getElem?_eq_none (by omega), List.getElem?_eq_none (by simp; omega)]

/-- **C81**: where a sample falls on a girth the data value is returned. -/
theorem C81_reproduces {m : ℕ} {xs ys : List ℝ} (h : GirthData m xs ys) (hm : 3 ≤ m) {n : ℕ}
    {v : List ℝ} (hv : interpolateGirths fitpackSpline "spline" xs ys n = .ok v) {k i : ℕ} (hk : k < n)
    {y : ℝ} (hx : xs[i]? = some ((k : ℝ) / ((n : ℝ) - 1))) (hy : ys[i]? = some y) :
    v[k]? = some y := by
  obtain ⟨S, ⟨hS, v', hv', -, p⟩, -⟩ := C81_spline h hm n
  rw [hv] at hv'; cases hv'
  rw [p k hk]
  have hi : i < m + 1 := by rw [← h.ys_len]; exact (List.getElem?_eq_some_iff.1 hy).1
  have ex : xs.getD i 0 = (k : ℝ) / ((n : ℝ) - 1) := by
    rw [List.getD_eq_getElem?_getD, hx]; rfl
  have ey : ys.getD i 0 = y := by rw [List.getD_eq_getElem?_getD, hy]; rfl
  have t := hS.through i (by omega)
  rw [← ex, ← ey]
  exact congrArg some t

theorem cubic_isSpline {m : ℕ} {xs ys : ℕ → ℝ} (a b c d : ℝ)
    (h : ∀ i ≤ m, ys i = a + b * xs i + c * xs i ^ 2 + d * xs i ^ 3) :
    IsSpline m xs ys fun x => a + b * x + c * x ^ 2 + d * x ^ 3 where
  through i hi := (h i hi).symm
  smooth := by fun_prop
  first := ⟨a, b, c, d, fun _ _ => rfl⟩
  between _ _ _ := ⟨a, b, c, d, fun _ _ => rfl⟩
  last := ⟨a, b, c, d, fun _ _ => rfl⟩

/-- **C81**: data on a cubic polynomial are interpolated exactly, also beyond the first and last girth. -/
theorem C81_cubic {m : ℕ} {xs : List ℝ} (a b c d : ℝ)
    (h : GirthData m xs (xs.map fun x => a + b * x + c * x ^ 2 + d * x ^ 3)) (hm : 3 ≤ m) (n : ℕ) :
    interpolateGirths fitpackSpline "spline" xs (xs.map fun x => a + b * x + c * x ^ 2 + d * x ^ 3) n =
      .ok ((List.range n).map fun k : ℕ => a + b * ((k : ℝ) / ((n : ℝ) - 1)) +
        c * ((k : ℝ) / ((n : ℝ) - 1)) ^ 2 + d * ((k : ℝ) / ((n : ℝ) - 1)) ^ 3) := by
  refine C81_values h hm (cubic_isSpline a b c d fun i hi => ?_)
  have hi' : i < xs.length := by rw [h.xs_len]; omega
  simp [List.getD_eq_getElem?_getD, List.getElem?_eq_getElem hi']

/-- **C81**: for data on a straight line, with girths that cover `[0, 1]`, both interpolation types agree. -/
theorem C81_affine {m : ℕ} {xs : List ℝ} (a b : ℝ) (h : GirthData m xs (xs.map fun x => a * x + b))
    (hm : 3 ≤ m) {n : ℕ} (h0 : ∃ x0, xs[0]? = some x0 ∧ x0 ≤ 0) (h1 : ∃ x1, xs[m]? = some x1 ∧ 1 ≤ x1) :
    interpolateGirths fitpackSpline "spline" xs (xs.map fun x => a * x + b) n =
      interpolateGirths fitpackSpline "linear" xs (xs.map fun x => a * x + b) n := by
  rw [C52_affine a b h fitpackSpline h0 h1]
  have e : (fun x : ℝ => a * x + b) = fun x => b + a * x + 0 * x ^ 2 + 0 * x ^ 3 := by
    funext x; ring
  have h' := h
  rw [e] at h'
  have := C81_cubic b a 0 0 h' hm n
  rw [e, this]
  congr 1
  apply List.map_congr_left
  intro k _
  ring

theorem isSpline_combine {m : ℕ} {xs ys zs : ℕ → ℝ} {S T : ℝ → ℝ} (hS : IsSpline m xs ys S)
    (hT : IsSpline m xs zs T) (r s : ℝ) :
    IsSpline m xs (fun i => r * ys i + s * zs i) fun x => r * S x + s * T x where
  through i hi := by rw [hS.through i hi, hT.through i hi]
  smooth := (contDiff_const.mul hS.smooth).add (contDiff_const.mul hT.smooth)
  first := CubicOn.add (CubicOn.smul r hS.first) (CubicOn.smul s hT.first)
  between i h1 h2 := CubicOn.add (CubicOn.smul r (hS.between i h1 h2)) (CubicOn.smul s (hT.between i h1 h2))
  last := CubicOn.add (CubicOn.smul r hS.last) (CubicOn.smul s hT.last)

/-- **C81**: a linear combination of two rows of data is interpolated by the same combination of the
interpolated values. -/
theorem C81_superposition {m : ℕ} {xs ys zs v w : List ℝ} (h : GirthData m xs ys) (h' : GirthData m xs zs)
    (hm : 3 ≤ m) {n : ℕ} (hv : interpolateGirths fitpackSpline "spline" xs ys n = .ok v)
    (hw : interpolateGirths fitpackSpline "spline" xs zs n = .ok w) (r s : ℝ) :
    interpolateGirths fitpackSpline "spline" xs (List.zipWith (fun y z => r * y + s * z) ys zs) n =
      .ok (List.zipWith (fun y z => r * y + s * z) v w) := by
  have hS := splineThrough_isSpline (xs := fun i => xs.getD i 0) hm h.increasing fun i => ys.getD i 0
  have hT := splineThrough_isSpline (xs := fun i => xs.getD i 0) hm h.increasing fun i => zs.getD i 0
  rw [C81_values h hm hS] at hv
  rw [C81_values h' hm hT] at hw
  cases hv; cases hw
  have hd : GirthData m xs (List.zipWith (fun y z => r * y + s * z) ys zs) :=
    ⟨h.xs_len, by rw [List.length_zipWith, h.ys_len, h'.ys_len, min_self], h.increasing⟩
  have hc : IsSpline m (fun i => xs.getD i 0)
      (fun i => (List.zipWith (fun y z => r * y + s * z) ys zs).getD i 0)
      fun x => r * splineThrough m (fun i => xs.getD i 0) (fun i => ys.getD i 0) x +
        s * splineThrough m (fun i => xs.getD i 0) (fun i => zs.getD i 0) x := by
    have c := isSpline_combine hS hT r s
    refine ⟨fun i hi => ?_, c.smooth, c.first, c.between, c.last⟩
    rw [c.through i hi]
    have h1 : i < ys.length := by rw [h.ys_len]; omega
    have h2 : i < zs.length := by rw [h'.ys_len]; omega
    simp [List.getD_eq_getElem?_getD, List.getElem?_zipWith, h1, h2]
  rw [C81_values hd hm hc, List.zipWith_map, List.zipWith_self]

/-- **C81**: less than four girths, or data of a different number than girths, are a `TypeError`. -/
theorem C81_too_few (xs ys : List ℝ) (n : ℕ) (h : xs.length < 4 ∨ xs.length ≠ ys.length) :
    interpolateGirths fitpackSpline "spline" xs ys n = .error .typeError := by
  unfold interpolateGirths fitpackSpline
  rw [if_neg (by decide), if_pos rfl]
  by_cases h1 : xs.length ≠ ys.length
  · rw [if_pos h1]
  · rw [if_neg h1, if_pos]
    rcases h with h | h
    · omega
    · exact absurd h h1

/-- **C81**: girths that decrease somewhere are a `ValueError`. -/
theorem C81_decreasing (xs ys : List ℝ) (n : ℕ) (hl : ys.length = xs.length) (h4 : 4 ≤ xs.length) {i : ℕ} {a b : ℝ}
    (ha : xs[i]? = some a) (hb : xs[i + 1]? = some b) (h : b < a) :
    interpolateGirths fitpackSpline "spline" xs ys n = .error .valueError := by
  unfold interpolateGirths fitpackSpline
  rw [if_neg (by decide), if_pos rfl, if_neg (by omega), if_neg (by omega), if_pos]
  refine ⟨i, (List.getElem?_eq_some_iff.1 hb).1, ?_⟩
  rw [List.getD_eq_getElem?_getD, List.getD_eq_getElem?_getD, ha, hb]
  exact h

/-- Five girths and as many chords. -/
theorem demo_girths (ys : List ℝ) (h : ys.length = 5) : GirthData 4 [0, 1 / 4, 1 / 2, 3 / 4, 1] ys := by
  refine ⟨rfl, h, fun i hi => ?_⟩
  interval_cases i <;> simp <;> norm_num

/-- Non-vacuity of `C81_spline`, `C81_reproduces`: nine samples of five chords. -/
example : ∃ v, interpolateGirths fitpackSpline "spline" [0, 1 / 4, 1 / 2, 3 / 4, 1] [4, 3, 5 / 2, 1, 1 / 2] 9 = .ok v ∧
    v[2]? = some 3 ∧ v[8]? = some (1 / 2) := by
  have h := demo_girths [4, 3, 5 / 2, 1, 1 / 2] rfl
  obtain ⟨S, ⟨hS, v, hv, hl, hk⟩, -⟩ := C81_spline h (by norm_num) 9
  exact ⟨v, hv, C81_reproduces h (by norm_num) hv (k := 2) (i := 1) (by norm_num) (by simp; norm_num) rfl,
    C81_reproduces h (by norm_num) hv (k := 8) (i := 4) (by norm_num) (by simp; norm_num) rfl⟩

/-- Non-vacuity of `C81_affine`. -/
example : interpolateGirths fitpackSpline "spline" [0, 1 / 4, 1 / 2, 3 / 4, 1]
      ([0, 1 / 4, 1 / 2, 3 / 4, 1].map fun x : ℝ => 12 * x + 5) 7 =
    interpolateGirths fitpackSpline "linear" [0, 1 / 4, 1 / 2, 3 / 4, 1]
      ([0, 1 / 4, 1 / 2, 3 / 4, 1].map fun x : ℝ => 12 * x + 5) 7 :=
  C81_affine 12 5 (demo_girths _ rfl) (by norm_num) ⟨0, rfl, le_rfl⟩ ⟨1, rfl, le_rfl⟩

/-- Non-vacuity of `C81_decreasing`. -/
example : interpolateGirths fitpackSpline "spline" [0, 1 / 2, 1 / 4, 1] [1, 1, 1, 1] 7 = .error .valueError :=
  C81_decreasing _ _ 7 rfl (by norm_num) (i := 1) (a := 1 / 2) (b := 1 / 4) rfl rfl (by norm_num)

/-- **C82** (partial): with interpolation type `"linear"` the values stay within every interval that
contains the data.  Missing: the same for type `"spline"`, refuted below. -/
theorem C82_range_partial {m : ℕ} {xs ys : List ℝ} (h : GirthData m xs ys) (spline : SplineFn) (n : ℕ) {lo hi : ℝ}
    (hy : ∀ y ∈ ys, lo ≤ y ∧ y ≤ hi) :
    ∃ v, interpolateGirths spline "linear" xs ys n = .ok v ∧ v.length = n ∧ ∀ w ∈ v, lo ≤ w ∧ w ≤ hi := by
  obtain ⟨v, hv, hl, -⟩ := C52_polygon h spline n
  exact ⟨v, hv, hl, C52_range h spline hv hy⟩

/-- Cambers between a quarter of a percent and 19 percent, on a parabola. -/
noncomputable def demoCamber : List ℝ := [13 / 200, 1 / 400, 1 / 400, 13 / 200, 19 / 100]

theorem demoCamber_eq : demoCamber =
    [0, 1 / 4, 1 / 2, 3 / 4, 1].map fun x : ℝ => 13 / 200 + (-(3 / 8)) * x + 1 / 2 * x ^ 2 + 0 * x ^ 3 := by
  simp [demoCamber]; norm_num

/-- Their interpolation. -/
theorem demoCamber_spline (n : ℕ) : interpolateGirths fitpackSpline "spline" [0, 1 / 4, 1 / 2, 3 / 4, 1] demoCamber n =
    .ok ((List.range n).map fun k : ℕ => 13 / 200 + (-(3 / 8)) * ((k : ℝ) / ((n : ℝ) - 1)) +
      1 / 2 * ((k : ℝ) / ((n : ℝ) - 1)) ^ 2 + 0 * ((k : ℝ) / ((n : ℝ) - 1)) ^ 3) := by
  rw [demoCamber_eq]
  exact C81_cubic _ _ _ _ (demo_girths _ rfl) (by norm_num) n

/-- **C82**, refutation: with type `"spline"` values can leave the range of the data: five equidistant
girths, five positive ordinates, and one of nine interpolated values is negative. -/
theorem C82_overshoot : ∃ (m : ℕ) (xs ys v : List ℝ) (k : ℕ) (w : ℝ), GirthData m xs ys ∧ (∀ x ∈ xs, 0 ≤ x ∧ x ≤ 1) ∧
    (∀ y ∈ ys, 1 / 400 ≤ y ∧ y ≤ 19 / 100) ∧ interpolateGirths fitpackSpline "spline" xs ys 9 = .ok v ∧
    v[k]? = some w ∧ w < 0 := by
  refine ⟨4, _, _, _, 3, _, demo_girths demoCamber rfl, ?_, ?_, demoCamber_spline 9, by rw [List.getElem?_map]; rfl, ?_⟩
  · simp; norm_num
  · simp [demoCamber]; norm_num
  · norm_num

end PySailing.Props
