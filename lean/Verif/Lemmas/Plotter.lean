import Verif.Spec.Plotter
import Verif.Lemmas.Coefs
import Verif.Lemmas.Results

/-!
# Lemmas about the plots
-/

namespace PySailing

open Spec

theorem sliceStep_map {α : Type} {nc : ℕ} (hnc : 0 < nc) (l : ℕ) (f : ℕ → α) :
    sliceStep ((List.range (nc * l)).map f) nc = (List.range l).map fun b => f (b * nc) := by
  have key : ∀ l, ∀ g : ℕ → Option α, (List.range (nc * l)).filterMap (fun i => if i % nc = 0 then g i else none)
      = (List.range l).filterMap fun b => g (b * nc) := by
    intro l
    induction l with
    | zero => intro g; simp
    | succ l ih =>
      intro g
      rw [Nat.mul_succ, List.range_add, List.filterMap_append, ih, List.range_succ,
        List.filterMap_append]
      congr 1
      obtain ⟨m, rfl⟩ : ∃ m, nc = m + 1 := ⟨nc - 1, by omega⟩
      rw [List.filterMap_map, List.range_succ_eq_map, List.filterMap_cons, List.filterMap_map]
      have e0 : ((fun i => if i % (m + 1) = 0 then g i else none) ∘ fun x => (m + 1) * l + x) 0
          = g (l * (m + 1)) := by
        simp only [Function.comp, Nat.add_zero, Nat.mul_mod_right, if_true]
        rw [Nat.mul_comm]
      have e1 : (List.range m).filterMap (((fun i => if i % (m + 1) = 0 then g i else none) ∘
          fun x => (m + 1) * l + x) ∘ Nat.succ) = [] := by
        rw [List.filterMap_eq_nil_iff]
        intro x hx
        have hx := List.mem_range.1 hx
        simp only [Function.comp, Nat.mul_add_mod]
        rw [Nat.mod_eq_of_lt (by omega), if_neg (by omega)]
      rw [e0, e1]
      cases hg : g (l * (m + 1)) <;> simp [hg]
  unfold sliceStep
  rw [List.length_map, List.length_range, key l fun i => ((List.range (nc * l)).map f)[i]?]
  have h : ∀ b ∈ List.range l, ((List.range (nc * l)).map f)[b * nc]? = some (f (b * nc)) := by
    intro b hb
    have hb := List.mem_range.1 hb
    rw [List.getElem?_map, List.getElem?_range]
    · rfl
    · rw [Nat.mul_comm nc l]; exact Nat.mul_lt_mul_of_pos_right hb hnc
  rw [List.filterMap_congr h]
  simp [Function.comp_def]

theorem firstRows_eq {α : Type} {nc ns l : ℕ} (hnc : 0 < nc) (hl : 0 < l) (arr : List α) (d : α)
    (h : arr.length = l * (nc * ns)) :
    firstRows arr nc l = .ok (gridArray l ns fun b j => arr.getD (panelNo nc ns b 0 j) d) := by
  unfold firstRows
  have e := eq_blockArray (nc := 1) (ns := ns) (n := nc * l) arr d (by rw [h]; ring)
  have e2 : npSplit arr (nc * l) = .ok ((List.range (nc * l)).map fun b =>
      gridArray 1 ns fun i j => arr.getD (panelNo 1 ns b i j) d) := by
    conv_lhs => rw [e]
    exact npSplit_blockArray _ (Nat.mul_pos hnc hl)
  rw [e2]
  show Except.ok _ = _
  rw [sliceStep_map hnc]
  congr 1
  unfold gridArray
  rw [List.flatMap_def]
  congr 1
  apply List.map_congr_left
  intro b _
  simp only [List.range_one, List.flatMap_singleton]
  apply List.map_congr_left
  intro j _
  congr 1
  unfold panelNo
  ring

/-- Length of a first row array. -/
theorem idx_grid {α : Type} {l ns b j : ℕ} (f : ℕ → ℕ → α) (hb : b < l) (hj : j < ns) :
    idx (gridArray l ns f) (b * ns + j) = .ok (f b j) := idx_of_getElem? (gridArray_get f hb hj)

theorem windLoop_plain (colors : List String) (ns : ℕ) {color : String} (hc : color ≠ "red")
    (cps wind : List V3) (st : WindLoop) (is : List ℕ) (h1 : ∀ i ∈ is, i < cps.length)
    (h2 : ∀ i ∈ is, i < wind.length) :
    windLoop colors cps ns wind color st is = .ok (st, is.map fun i =>
      windArrow st.shiftX st.shiftY (wind.getD i 0) (cps.getD i 0) color) := by
  induction is with
  | nil => rfl
  | cons i is ih =>
    have a1 := h1 i List.mem_cons_self
    have a2 := h2 i List.mem_cons_self
    have b1 : idx cps i = .ok (cps.getD i 0) := idx_of_getElem? (by
      rw [List.getD_eq_getElem?_getD, List.getElem?_eq_getElem a1]; rfl)
    have b2 : idx wind i = .ok (wind.getD i 0) := idx_of_getElem? (by
      rw [List.getD_eq_getElem?_getD, List.getElem?_eq_getElem a2]; rfl)
    have hs : windStep colors cps ns wind color st i =
        .ok (st, windArrow st.shiftX st.shiftY (wind.getD i 0) (cps.getD i 0) color) := by
      unfold windStep windStart
      rw [if_neg hc]
      simp only [bind, Except.bind, b1, b2]
      rfl
    unfold windLoop
    rw [hs]
    simp only [bind, Except.bind]
    rw [ih (fun i hi => h1 i (List.mem_cons_of_mem _ hi)) (fun i hi => h2 i (List.mem_cons_of_mem _ hi))]
    rfl

theorem counter_step {ns i : ℕ} (hns : 0 < ns) :
    (if i % ns = 0 ∧ i ≠ 0 then (i - 1) / ns + 1 else (i - 1) / ns) = i / ns := by
  rcases Nat.eq_zero_or_pos i with rfl | hi
  · simp
  · by_cases h : i % ns = 0
    · rw [if_pos ⟨h, hi.ne'⟩]
      obtain ⟨q, rfl⟩ := Nat.dvd_of_mod_eq_zero h
      rcases q with _ | q
      · omega
      · rw [Nat.mul_div_cancel_left _ hns]
        have : (ns * (q + 1) - 1) / ns = q := by
          rw [Nat.div_eq_iff hns]
          constructor
          · rw [Nat.mul_succ, Nat.mul_comm]; omega
          · rw [Nat.mul_succ, Nat.mul_comm q]
        rw [this]
    · rw [if_neg (fun h' => h h'.1)]
      have e := Nat.div_add_mod i ns
      have hlt := Nat.mod_lt i hns
      have hpos := Nat.pos_of_ne_zero h
      rw [Nat.div_eq_iff hns]
      have e' : i / ns * ns = ns * (i / ns) := Nat.mul_comm _ _
      constructor <;> omega

theorem windLoop_red (colors : List String) {ns : ℕ} (hns : 0 < ns) (cps wind : List V3) (n i0 : ℕ)
    (st : WindLoop) (hst : st.counter = (i0 - 1) / ns) (h1 : i0 + n ≤ cps.length)
    (h2 : i0 + n ≤ wind.length) (h3 : i0 + n ≤ ns * colors.length) :
    ∃ st', windLoop colors cps ns wind "red" st (List.range' i0 n) = .ok (st', (List.range' i0 n).map fun i =>
      windArrow (cps.getD i 0).x (cps.getD i 0).y (wind.getD i 0) (cps.getD i 0)
        (colors.getD (i / ns) "")) := by
  induction n generalizing i0 st with
  | zero => exact ⟨st, rfl⟩
  | succ n ih =>
    have b1 : idx cps i0 = .ok (cps.getD i0 0) := idx_of_getElem? (by
      rw [List.getD_eq_getElem?_getD, List.getElem?_eq_getElem (by omega)]; rfl)
    have b2 : idx wind i0 = .ok (wind.getD i0 0) := idx_of_getElem? (by
      rw [List.getD_eq_getElem?_getD, List.getElem?_eq_getElem (by omega)]; rfl)
    have hlt : i0 / ns < colors.length := by
      rw [Nat.div_lt_iff_lt_mul hns, Nat.mul_comm]; omega
    have b3 : idx colors (i0 / ns) = .ok (colors.getD (i0 / ns) "") := idx_of_getElem? (by
      rw [List.getD_eq_getElem?_getD, List.getElem?_eq_getElem hlt]; rfl)
    have hs : windStep colors cps ns wind "red" st i0 =
        .ok (⟨(cps.getD i0 0).x, (cps.getD i0 0).y, i0 / ns⟩,
          windArrow (cps.getD i0 0).x (cps.getD i0 0).y (wind.getD i0 0) (cps.getD i0 0)
            (colors.getD (i0 / ns) "")) := by
      unfold windStep windStart
      rw [if_pos rfl, hst, counter_step hns]
      simp only [bind, Except.bind, b1, b2, b3]
      rfl
    obtain ⟨st', hst'⟩ := ih (i0 + 1) ⟨(cps.getD i0 0).x, (cps.getD i0 0).y, i0 / ns⟩ (by simp)
      (by omega) (by omega) (by omega)
    refine ⟨st', ?_⟩
    rw [List.range'_succ]
    unfold windLoop
    rw [hs]
    simp only [bind, Except.bind]
    rw [hst']
    rfl

theorem map_range_grid {α β γ : Type} {l ns : ℕ} (x : ℕ → ℕ → α) (y : ℕ → ℕ → β) (dx : α) (dy : β)
    (f : ℕ → α → β → γ) :
    ((List.range (ns * l)).map fun i => f (i / ns) ((gridArray l ns x).getD i dx)
      ((gridArray l ns y).getD i dy)) = gridArray l ns fun b j => f b (x b j) (y b j) := by
  apply List.ext_getElem?
  intro k
  by_cases hk : k < l * ns
  · obtain ⟨b, j, hb, hj, rfl⟩ := grid_index hk
    rw [gridArray_get _ hb hj, List.getElem?_map, List.getElem?_range (by rw [Nat.mul_comm ns l]; exact hk)]
    have hd : (b * ns + j) / ns = b := by
      rw [Nat.mul_comm, Nat.mul_add_div (by omega), Nat.div_eq_of_lt hj, Nat.add_zero]
    simp only [Option.map_some, List.getD_eq_getElem?_getD, gridArray_get _ hb hj, hd,
      Option.getD_some]
  · rw [List.getElem?_eq_none (by simp; rw [Nat.mul_comm]; omega),
      List.getElem?_eq_none (by rw [gridArray_length]; omega)]

end PySailing
