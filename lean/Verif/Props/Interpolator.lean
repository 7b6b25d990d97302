import Verif.Lemmas.Interpolator
import Mathlib.Tactic.IntervalCases

/-!
# Properties of the girth interpolation (C52)
-/

namespace PySailing.Props

open PySailing Spec

/-- Data for `np.interp`: `m + 1` girths in increasing order and as many ordinates. -/
structure GirthData (m : ℕ) (xs ys : List ℝ) : Prop where
  xs_len : xs.length = m + 1
  ys_len : ys.length = m + 1
  increasing : ∀ i < m, xs.getD i 0 < xs.getD (i + 1) 0

theorem interpolate_linear {m : ℕ} {xs ys : List ℝ} (h : GirthData m xs ys) (spline : SplineFn) (n : ℕ) :
    interpolateGirths spline "linear" xs ys n = .ok ((linspace01 n).map fun x =>
      interp1 x (pairsFrom (fun i => xs.getD i 0) (fun i => ys.getD i 0) 0 m)) := by
  have hne : xs ≠ [] := by
    intro h0; have := h.xs_len; rw [h0, List.length_nil] at this; omega
  unfold interpolateGirths npInterp
  rw [if_pos rfl, if_neg hne, if_neg (by rw [h.xs_len, h.ys_len]; simp),
    zip_pairsFrom h.xs_len h.ys_len]

/-- The abscissa of sample `k` of `n`. -/
theorem linspace_at {n k : ℕ} (hk : k < n) : (linspace01 n)[k]? = some ((k : ℝ) / ((n : ℝ) - 1)) := by
  obtain ⟨m, rfl⟩ : ∃ m, n = m + 1 := ⟨n - 1, by omega⟩
  rw [linspace01_getElem? hk]
  push_cast
  simp

/-- **C52**: `interpolate_girths` with type `"linear"` succeeds for increasing girths with one ordinate
each, returns `n_points` values, and value `k` is the value of the polygon through the data at
`k / (n_points - 1)` (at `0` for a single point). -/
theorem C52_polygon {m : ℕ} {xs ys : List ℝ} (h : GirthData m xs ys) (spline : SplineFn) (n : ℕ) :
    ∃ v, interpolateGirths spline "linear" xs ys n = .ok v ∧ v.length = n ∧
      ∀ k < n, ∃ w, v[k]? = some w ∧ PolygonValue m (fun i => xs.getD i 0) (fun i => ys.getD i 0)
        ((k : ℝ) / ((n : ℝ) - 1)) w := by
  refine ⟨_, interpolate_linear h spline n, by simp [linspace01_length], fun k hk => ?_⟩
  refine ⟨_, by rw [List.getElem?_map, linspace_at hk]; rfl, interp1_polygon h.increasing _⟩

/-- **C52**: where a sample falls on a girth the data value is returned. -/
theorem C52_reproduces {m : ℕ} {xs ys : List ℝ} (h : GirthData m xs ys) (spline : SplineFn) {n : ℕ}
    {v : List ℝ} (hv : interpolateGirths spline "linear" xs ys n = .ok v) {k i : ℕ} (hk : k < n)
    {y : ℝ} (hx : xs[i]? = some ((k : ℝ) / ((n : ℝ) - 1))) (hy : ys[i]? = some y) :
    v[k]? = some y := by
  obtain ⟨v', hv', _, hp⟩ := C52_polygon h spline n
  rw [hv] at hv'; cases hv'
  obtain ⟨w, hw, p⟩ := hp k hk
  rw [hw]
  have hi : i < m + 1 := by rw [← h.ys_len]; exact (List.getElem?_eq_some_iff.1 hy).1
  have ex : xs.getD i 0 = (k : ℝ) / ((n : ℝ) - 1) := by
    rw [List.getD_eq_getElem?_getD, hx]; rfl
  have ey : ys.getD i 0 = y := by rw [List.getD_eq_getElem?_getD, hy]; rfl
  by_cases him : i < m
  · have := p.between i him ex.le (by rw [← ex]; exact (h.increasing i him).le)
    rw [this, ex, ey]; simp
  · have : i = m := by omega
    subst this
    rw [p.right ex.le]
    exact congrArg some ey

/-- Between two ordinates. -/
theorem lerp_range {a b x x0 x1 lo hi : ℝ} (h : x0 < x1) (h0 : x0 ≤ x) (h1 : x ≤ x1) (ha : lo ≤ a)
    (hb : lo ≤ b) (ha' : a ≤ hi) (hb' : b ≤ hi) :
    lo ≤ a + (x - x0) / (x1 - x0) * (b - a) ∧ a + (x - x0) / (x1 - x0) * (b - a) ≤ hi := by
  have hd : 0 < x1 - x0 := by linarith
  obtain ⟨t, ht⟩ : ∃ t, t = (x - x0) / (x1 - x0) := ⟨_, rfl⟩
  have ht0 : 0 ≤ t := by rw [ht]; exact div_nonneg (by linarith) hd.le
  have ht1 : t ≤ 1 := by rw [ht, div_le_one hd]; linarith
  rw [← ht]
  constructor <;> nlinarith

theorem polygon_cases {m : ℕ} {xs ys : ℕ → ℝ} {x v : ℝ} (h : PolygonValue m xs ys x v) :
    (x ≤ xs 0 ∧ v = ys 0) ∨ (xs m ≤ x ∧ v = ys m) ∨ ∃ i < m, xs i ≤ x ∧ x ≤ xs (i + 1) ∧
      v = ys i + (x - xs i) / (xs (i + 1) - xs i) * (ys (i + 1) - ys i) := by
  by_cases h0 : x ≤ xs 0
  · exact .inl ⟨h0, h.left h0⟩
  by_cases h1 : xs m ≤ x
  · exact .inr (.inl ⟨h1, h.right h1⟩)
  obtain ⟨i, hi, a, b⟩ := exists_interval (m := m) (not_le.1 h0).le (not_le.1 h1)
  exact .inr (.inr ⟨i, hi, a, b, h.between i hi a b⟩)

/-- **C52**: the interpolated values stay within every interval that contains the data. -/
theorem C52_range {m : ℕ} {xs ys : List ℝ} (h : GirthData m xs ys) (spline : SplineFn) {n : ℕ}
    {v : List ℝ} (hv : interpolateGirths spline "linear" xs ys n = .ok v) {lo hi : ℝ}
    (hy : ∀ y ∈ ys, lo ≤ y ∧ y ≤ hi) : ∀ w ∈ v, lo ≤ w ∧ w ≤ hi := by
  obtain ⟨v', hv', hl, hp⟩ := C52_polygon h spline n
  rw [hv] at hv'; cases hv'
  intro w hw
  obtain ⟨k, hk, rfl⟩ := List.getElem_of_mem hw
  obtain ⟨w, hw, p⟩ := hp k (by omega)
  rw [List.getElem?_eq_getElem hk] at hw
  rw [Option.some.inj hw]
  have hy' : ∀ i ≤ m, lo ≤ ys.getD i 0 ∧ ys.getD i 0 ≤ hi := by
    intro i hi
    have hi' : i < ys.length := by rw [h.ys_len]; omega
    rw [List.getD_eq_getElem?_getD, List.getElem?_eq_getElem hi']
    exact hy _ (List.getElem_mem hi')
  rcases polygon_cases p with ⟨_, e⟩ | ⟨_, e⟩ | ⟨i, hi, a, b, e⟩
  · rw [e]; exact hy' 0 (by omega)
  · rw [e]; exact hy' m le_rfl
  · rw [e]
    exact lerp_range (h.increasing i hi) a b (hy' i (by omega)).1 (hy' (i + 1) (by omega)).1
      (hy' i (by omega)).2 (hy' (i + 1) (by omega)).2

/-- **C52**: data on a straight line, with girths that cover `[0, 1]`, are interpolated exactly. -/
theorem C52_affine {m : ℕ} {xs : List ℝ} (a b : ℝ)
    (h : GirthData m xs (xs.map fun x => a * x + b)) (spline : SplineFn) {n : ℕ}
    (h0 : ∃ x0, xs[0]? = some x0 ∧ x0 ≤ 0) (h1 : ∃ x1, xs[m]? = some x1 ∧ 1 ≤ x1) :
    interpolateGirths spline "linear" xs (xs.map fun x => a * x + b) n =
      .ok ((List.range n).map fun k : ℕ => a * ((k : ℝ) / ((n : ℝ) - 1)) + b) := by
  obtain ⟨v, hv, hl, hp⟩ := C52_polygon h spline n
  rw [hv]
  congr 1
  apply List.ext_getElem?
  intro k
  by_cases hk : k < n
  · obtain ⟨w, hw, p⟩ := hp k hk
    rw [hw, List.getElem?_map, List.getElem?_range hk]
    simp only [Option.map_some]
    congr 1
    have hmem : ((k : ℝ) / ((n : ℝ) - 1)) ∈ linspace01 n := List.mem_of_getElem? (linspace_at hk)
    have hr := linspace01_mem hmem
    obtain ⟨x, hx⟩ : ∃ x, x = (k : ℝ) / ((n : ℝ) - 1) := ⟨_, rfl⟩
    rw [← hx] at p hr ⊢
    have ey : ∀ i ≤ m, (xs.map fun x => a * x + b).getD i 0 = a * xs.getD i 0 + b := by
      intro i hi
      have hi' : i < xs.length := by rw [h.xs_len]; omega
      simp [List.getD_eq_getElem?_getD, List.getElem?_eq_getElem hi']
    obtain ⟨x0, hx0, hx0'⟩ := h0
    obtain ⟨x1, hx1, hx1'⟩ := h1
    have e0 : xs.getD 0 0 = x0 := by rw [List.getD_eq_getElem?_getD, hx0]; rfl
    have e1 : xs.getD m 0 = x1 := by rw [List.getD_eq_getElem?_getD, hx1]; rfl
    rcases polygon_cases p with ⟨c, e⟩ | ⟨c, e⟩ | ⟨i, hi, c, d, e⟩
    · simp only [e0] at c
      have : x = x0 := by linarith
      rw [e, ey 0 (by omega), e0, this]
    · simp only [e1] at c
      have : x = x1 := by linarith
      rw [e, ey m le_rfl, e1, this]
    · have hlt := h.increasing i hi
      rw [e, ey i (by omega), ey (i + 1) (by omega)]
      have : xs.getD (i + 1) 0 - xs.getD i 0 ≠ 0 := by linarith
      field_simp
      ring
  · rw [List.getElem?_eq_none (by omega), List.getElem?_eq_none (by simp; omega)]

theorem polygon_mono {m : ℕ} {xs ys : ℕ → ℝ} (hx : ∀ i < m, xs i < xs (i + 1))
    (hy : ∀ i < m, ys i ≤ ys (i + 1)) {x x' v v' : ℝ} (h : PolygonValue m xs ys x v)
    (h' : PolygonValue m xs ys x' v') (hle : x ≤ x') : v ≤ v' := by
  have mono : ∀ (f : ℕ → ℝ), (∀ i < m, f i ≤ f (i + 1)) → ∀ i j, i ≤ j → j ≤ m → f i ≤ f j := by
    intro f hf i j hij hjm
    induction j with
    | zero => have : i = 0 := by omega
              rw [this]
    | succ j ih =>
      by_cases e : i = j + 1
      · rw [e]
      · exact le_trans (ih (by omega) (by omega)) (hf j (by omega))
  have my := mono ys hy
  have mx := mono xs (fun i hi => (hx i hi).le)
  have seg : ∀ i < m, ∀ t, xs i ≤ t → t ≤ xs (i + 1) →
      ys i ≤ ys i + (t - xs i) / (xs (i + 1) - xs i) * (ys (i + 1) - ys i) ∧
      ys i + (t - xs i) / (xs (i + 1) - xs i) * (ys (i + 1) - ys i) ≤ ys (i + 1) := fun i hi t a b =>
    lerp_range (hx i hi) a b le_rfl (hy i hi) (hy i hi) le_rfl
  have lo : ys 0 ≤ v' := by
    rcases polygon_cases h' with ⟨_, e⟩ | ⟨_, e⟩ | ⟨i, hi, a, b, e⟩
    · rw [e]
    · rw [e]; exact my 0 m (by omega) le_rfl
    · rw [e]; exact le_trans (my 0 i (by omega) (by omega)) (seg i hi _ a b).1
  have hi' : v ≤ ys m := by
    rcases polygon_cases h with ⟨_, e⟩ | ⟨_, e⟩ | ⟨i, hi, a, b, e⟩
    · rw [e]; exact my 0 m (by omega) le_rfl
    · rw [e]
    · rw [e]; exact le_trans (seg i hi _ a b).2 (my (i + 1) m (by omega) le_rfl)
  rcases polygon_cases h with ⟨_, e⟩ | ⟨c, e⟩ | ⟨i, hi, a, b, e⟩
  · rw [e]; exact lo
  · rw [e, h'.right (le_trans c hle)]
  · rcases polygon_cases h' with ⟨c, e'⟩ | ⟨_, e'⟩ | ⟨j, hj, a', b', e'⟩
    · have hx0 := mx 0 i (by omega) (by omega)
      have : x = x' := by linarith
      subst this
      have : x = xs i := by linarith
      rw [h.left c, e']
    · rw [e']; exact hi'
    · rcases lt_trichotomy i j with hij | hij | hij
      · rw [e, e']
        exact le_trans (seg i hi _ a b).2 (le_trans (my (i + 1) j (by omega) (by omega)) (seg j hj _ a' b').1)
      · subst hij
        rw [e, e']
        have h1 : 0 ≤ ys (i + 1) - ys i := by linarith [hy i hi]
        have h2 : 0 < xs (i + 1) - xs i := by linarith [hx i hi]
        gcongr
      · have h3 := mx (j + 1) i (by omega) (by omega)
        have : x = x' := by linarith
        subst this
        have hxi : x = xs i := by linarith
        have hxj : xs (j + 1) = x := by linarith
        rw [e, h'.between i hi a b]

/-- **C52**: non-decreasing data give non-decreasing results. -/
theorem C52_monotone {m : ℕ} {xs ys : List ℝ} (h : GirthData m xs ys) (spline : SplineFn) {n : ℕ}
    {v : List ℝ} (hv : interpolateGirths spline "linear" xs ys n = .ok v)
    (hy : ∀ i < m, ys.getD i 0 ≤ ys.getD (i + 1) 0) {k l : ℕ} (hkl : k ≤ l) {a b : ℝ}
    (ha : v[k]? = some a) (hb : v[l]? = some b) : a ≤ b := by
  obtain ⟨v', hv', hl, hp⟩ := C52_polygon h spline n
  rw [hv] at hv'; cases hv'
  have hln : l < n := by rw [← hl]; exact (List.getElem?_eq_some_iff.1 hb).1
  obtain ⟨w, hw, p⟩ := hp k (by omega)
  obtain ⟨w', hw', p'⟩ := hp l hln
  rw [ha] at hw; rw [hb] at hw'
  cases hw; cases hw'
  refine polygon_mono h.increasing hy p p' ?_
  have : (1 : ℝ) ≤ n := by exact_mod_cast (by omega : 1 ≤ n)
  have hkl' : (k : ℝ) ≤ l := by exact_mod_cast hkl
  exact div_le_div_of_nonneg_right hkl' (by linarith)

/-- **C52**: the mirrored interpolation has `2 n_points` values, reads the same in both directions, and
its second half is the plain interpolation. -/
theorem C52_mirror (spline : SplineFn) (kind : String) {xs ys v : List ℝ} {n : ℕ}
    (hv : interpolateGirths spline kind xs ys n = .ok v) (hn : v.length = n) :
    ∃ w, interpolateAndMirrorGirths spline kind xs ys n = .ok w ∧ w.length = 2 * n ∧ w.reverse = w ∧
      w.drop n = v := by
  refine ⟨v.reverse ++ v, by unfold interpolateAndMirrorGirths; rw [hv]; rfl, by simp [hn]; omega,
    by simp, ?_⟩
  rw [List.drop_append, List.drop_eq_nil_of_le (by simp [hn])]
  simp [hn]

/-- **C52**: the table for the whole sail set: for every row of data the mirrored jib data followed by
the mirrored main sail data. -/
theorem C52_sections (spline : SplineFn) (kind : String) {dm dj js ms : List (List ℝ)}
    {mg jg : List ℝ} {n : ℕ}
    (hj : List.Forall₂ (fun d w => interpolateAndMirrorGirths spline kind jg d n = .ok w) dj js)
    (hm : List.Forall₂ (fun d w => interpolateAndMirrorGirths spline kind mg d n = .ok w) dm ms) :
    ∃ t, interpolateDataForSections spline kind dm dj mg jg n = .ok t ∧
      t.length = min dj.length dm.length ∧
      ∀ (k : ℕ) (a b : List ℝ), js[k]? = some a → ms[k]? = some b → t[k]? = some (a ++ b) := by
  have e : ∀ {g : List ℝ} {ds ws : List (List ℝ)},
      List.Forall₂ (fun d w => interpolateAndMirrorGirths spline kind g d n = .ok w) ds ws →
      ds.mapM (fun d => interpolateAndMirrorGirths spline kind g d n) = .ok ws := by
    intro g ds ws h
    induction h with
    | nil => rfl
    | cons h _ ih => rw [List.mapM_cons, h, ih]; rfl
  refine ⟨List.zipWith (fun j m => j ++ m) js ms, ?_, ?_, ?_⟩
  · unfold interpolateDataForSections
    rw [e hm, e hj]; rfl
  · rw [List.length_zipWith, hj.length_eq, hm.length_eq]
  · intro k a b ha hb
    rw [List.getElem?_zipWith, ha, hb]

/-- **C52**: an unknown interpolation type is a `KeyError`. -/
theorem C52_unknown_type (spline : SplineFn) (kind : String) (h1 : kind ≠ "linear")
    (h2 : kind ≠ "spline") (xs ys : List ℝ) (n : ℕ) :
    interpolateGirths spline kind xs ys n = .error .keyError := by
  unfold interpolateGirths
  rw [if_neg h1, if_neg h2]

/-- **C52**: girths and data of different length, or no data, are a `ValueError`. -/
theorem C52_bad_data (spline : SplineFn) (xs ys : List ℝ) (n : ℕ)
    (h : xs = [] ∨ xs.length ≠ ys.length) :
    interpolateGirths spline "linear" xs ys n = .error .valueError := by
  unfold interpolateGirths npInterp
  rw [if_pos rfl]
  split_ifs with h0 h1
  · rfl
  · rfl
  · rcases h with h | h
    · exact absurd h h0
    · exact absurd h (by simpa using h1)

/-- The girths and chords of a jib. -/
example : GirthData 2 [0, 1 / 4, 1] [4, 3, 1] := by
  refine ⟨rfl, rfl, fun i hi => ?_⟩
  interval_cases i <;> simp <;> norm_num

/-- Girths that cover `[0, 1]` with data on a line. -/
example : GirthData 1 [0, 1] ([0, 1].map fun x : ℝ => 12 * x + 5) ∧
    (∃ x0, ([0, 1] : List ℝ)[0]? = some x0 ∧ x0 ≤ 0) ∧ ∃ x1, ([0, 1] : List ℝ)[1]? = some x1 ∧ 1 ≤ x1 := by
  refine ⟨⟨rfl, rfl, fun i hi => ?_⟩, ⟨0, rfl, le_rfl⟩, ⟨1, rfl, le_rfl⟩⟩
  interval_cases i; simp

/-- Five samples of three girths: sample 1 falls on girth 1, the data decrease, and the result stays in
`[1, 4]`. -/
example : ∃ v, interpolateGirths (fun _ _ _ => .error .typeError) "linear" [0, 1 / 4, 1] [4, 3, 1] 5 = .ok v ∧
    v[1]? = some 3 ∧ ∀ w ∈ v, 1 ≤ w ∧ w ≤ 4 := by
  have h : GirthData 2 [0, 1 / 4, 1] [4, 3, 1] := by
    refine ⟨rfl, rfl, fun i hi => ?_⟩
    interval_cases i <;> simp <;> norm_num
  obtain ⟨v, hv, _⟩ := C52_polygon h (fun _ _ _ => .error .typeError) 5
  refine ⟨v, hv, C52_reproduces h _ hv (k := 1) (i := 1) (by norm_num) (by simp; norm_num) rfl,
    C52_range h _ hv (by simp; norm_num)⟩

end PySailing.Props
