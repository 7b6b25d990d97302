import Verif.Spec.Excel
import Mathlib.Data.String.Basic
import Mathlib.Tactic.IntervalCases
import Mathlib.Data.Finset.Sort

/-!
# Lemmas about the Excel file
-/

namespace PySailing

open Spec

/-! ## Rounding -/

theorem formatFloat_rounded (d : ℕ) (x : ℝ) : Rounded d x (formatFloat d x) := by
  have h10 : (0 : ℝ) < 10 ^ d := by positivity
  refine ⟨⟨_, rfl⟩, ?_⟩
  unfold formatFloat
  dsimp only
  rw [abs_le]
  set y := x * 10 ^ d with hy
  have hx : x = y / 10 ^ d := by rw [hy, mul_div_cancel_right₀ _ h10.ne']
  rw [hx]
  have key : ∀ n : ℤ, |(n : ℝ) - y| ≤ 1 / 2 →
      -(1 / 2 / 10 ^ d) ≤ (n : ℝ) / 10 ^ d - y / 10 ^ d ∧ (n : ℝ) / 10 ^ d - y / 10 ^ d ≤ 1 / 2 / 10 ^ d := by
    intro n hn
    rw [abs_le] at hn
    rw [← sub_div, ← neg_div, div_le_div_iff_of_pos_right h10, div_le_div_iff_of_pos_right h10]
    exact hn
  apply key
  have hf := Int.floor_add_fract y
  split_ifs with h1 h2
  · rw [h1] at hf
    rw [abs_le]; constructor <;> linarith
  · rw [h1] at hf
    push_cast
    rw [abs_le]; constructor <;> linarith
  · have h3 := Int.floor_le (y + 1 / 2)
    have h4 := Int.lt_floor_add_one (y + 1 / 2)
    rw [abs_le]; constructor <;> linarith

theorem formatFloat_exact (d : ℕ) (n : ℤ) : formatFloat d (n / 10 ^ d) = n / 10 ^ d := by
  have h10 : (0 : ℝ) < 10 ^ d := by positivity
  unfold formatFloat
  dsimp only
  rw [div_mul_cancel₀ _ h10.ne', Int.fract_intCast, if_neg (by norm_num)]
  congr 2
  rw [Int.floor_eq_iff]
  constructor <;> linarith

theorem formatFloat_small (d : ℕ) {x : ℝ} (h : |x| < 1 / 2 / 10 ^ d) : formatFloat d x = 0 := by
  have h10 : (0 : ℝ) < 10 ^ d := by positivity
  have h1 : |x * 10 ^ d| < 1 / 2 := by
    rw [abs_mul, abs_of_pos h10]
    rwa [lt_div_iff₀ h10] at h
  rw [abs_lt] at h1
  unfold formatFloat
  dsimp only
  set y := x * 10 ^ d
  have hfl : Int.fract y ≠ 1 / 2 := by
    intro hf
    have := Int.floor_add_fract y
    rw [hf] at this
    have h2 : (-1 : ℝ) < ⌊y⌋ := by linarith
    have h3 : (⌊y⌋ : ℝ) < 0 := by linarith
    have h2' : (-1 : ℤ) < ⌊y⌋ := by exact_mod_cast h2
    have h3' : ⌊y⌋ < (0 : ℤ) := by exact_mod_cast h3
    omega
  rw [if_neg hfl]
  have : ⌊y + 1 / 2⌋ = 0 := by
    rw [Int.floor_eq_iff]
    constructor <;> push_cast <;> linarith
  rw [this]; simp

/-! ## Formats -/

theorem mentions_iff {w s : String} : mentions w s = true ↔ Contains w s := by
  unfold mentions Contains
  rw [decide_eq_true_iff]
  constructor
  · rintro ⟨a, b, h⟩; exact ⟨a, b, h.symm⟩
  · rintro ⟨a, b, h⟩; exact ⟨a, b, h.symm⟩

open Classical in
theorem shown_of_split {s : Sheet} {r c : ℕ} {A B : List CondRule} {R : CondRule} (hs : s.rules = A ++ R :: B)
    (hA : ∀ Q ∈ A, ¬ Q.applies s r c) (hR : R.applies s r c) : s.shown r c = R.format := by
  unfold Sheet.shown
  have : s.rules.find? (fun R => decide (R.applies s r c)) = some R := by
    rw [hs, List.find?_append]
    have h1 : A.find? (fun R => decide (R.applies s r c)) = none := by
      rw [List.find?_eq_none]
      intro Q hQ
      simp [hA Q hQ]
    rw [h1, Option.none_or, List.find?_cons, decide_eq_true hR]
  rw [this]

open Classical in
theorem shown_none {s : Sheet} {r c : ℕ} (h : ∀ Q ∈ s.rules, ¬ Q.applies s r c) : s.shown r c = .general := by
  unfold Sheet.shown
  have : s.rules.find? (fun R => decide (R.applies s r c)) = none := by
    rw [List.find?_eq_none]
    intro Q hQ
    simp [h Q hQ]
  rw [this]

open Classical in
/-- If some rule applies, and all rules that apply have the same format, the cell has this format. -/
theorem shown_of_forall {s : Sheet} {r c : ℕ} {f : CellFormat} (h1 : ∃ Q ∈ s.rules, Q.applies s r c)
    (h2 : ∀ Q ∈ s.rules, Q.applies s r c → Q.format = f) : s.shown r c = f := by
  unfold Sheet.shown
  cases hf : s.rules.find? (fun R => decide (R.applies s r c)) with
  | none =>
    rw [List.find?_eq_none] at hf
    obtain ⟨Q, hQ, ha⟩ := h1
    exact absurd ha (by simpa using hf Q hQ)
  | some R =>
    have hm := List.mem_of_find?_eq_some hf
    have ha := List.find?_some hf
    exact h2 R hm (by simpa using ha)

theorem mem_bothSigns {a b c : ℕ} {f : CellFormat} {R : CondRule} (h : R ∈ bothSigns a b c f) :
    R.first = a ∧ R.last = b ∧ R.col = c ∧ R.format = f := by
  simp only [bothSigns, List.mem_cons, List.not_mem_nil, or_false] at h
  rcases h with rfl | rfl <;> exact ⟨rfl, rfl, rfl, rfl⟩

theorem bothSigns_applies {s : Sheet} {a b c : ℕ} {f : CellFormat} {r : ℕ} (h1 : a ≤ r) (h2 : r ≤ b) :
    ∃ R ∈ bothSigns a b c f, R.applies s r c := by
  rcases hc : s.content r c with x | t | _
  · rcases le_or_gt 0 x with h | h
    · refine ⟨⟨a, b, c, .ge0, f⟩, by simp [bothSigns], h1, h2, rfl, ?_⟩
      rw [hc]; exact h
    · refine ⟨⟨a, b, c, .lt0, f⟩, by simp [bothSigns], h1, h2, rfl, ?_⟩
      rw [hc]; exact h
  · refine ⟨⟨a, b, c, .ge0, f⟩, by simp [bothSigns], h1, h2, rfl, ?_⟩
    rw [hc]; trivial
  · refine ⟨⟨a, b, c, .ge0, f⟩, by simp [bothSigns], h1, h2, rfl, ?_⟩
    rw [hc]; trivial

/-- Where the rules of a column of `Components` apply, and their format. -/
theorem mem_componentRules {m i : ℕ} {name : String} {R : CondRule} (h : R ∈ componentRules m i name) :
    R.col = i ∧ ((R.format = .cog ∧ Contains "COG" name) ∨ (R.format = .cow ∧ Contains "COW" name) ∨
      name = "Camber_estimate") := by
  simp only [componentRules, List.mem_append] at h
  rcases h with (h | h) | h
  · split_ifs at h with hm
    · have := mem_bothSigns h
      exact ⟨this.2.2.1, .inl ⟨this.2.2.2, mentions_iff.1 hm⟩⟩
    · simp at h
  · split_ifs at h with hm
    · have := mem_bothSigns h
      exact ⟨this.2.2.1, .inr (.inl ⟨this.2.2.2, mentions_iff.1 hm⟩)⟩
    · simp at h
  · split_ifs at h with hm
    · exact ⟨(mem_bothSigns h).2.2.1, .inr (.inr hm)⟩
    · simp at h

theorem mem_components_rules {t : Frame} {R : CondRule} (h : R ∈ (componentsSheet t).rules) :
    ∃ (i : ℕ) (col : String × List Cell), t[i]? = some col ∧ R ∈ componentRules t.rows i col.1 := by
  simp only [componentsSheet, List.mem_flatMap] at h
  obtain ⟨c, hc, hR⟩ := h
  exact ⟨c.2, c.1, by rw [List.mem_zipIdx_iff_getElem?] at hc; exact hc, hR⟩

theorem components_rules_mem {t : Frame} {R : CondRule} {i : ℕ} {col : String × List Cell} (h : t[i]? = some col)
    (hR : R ∈ componentRules t.rows i col.1) : R ∈ (componentsSheet t).rules := by
  simp only [componentsSheet, List.mem_flatMap]
  exact ⟨(col, i), by rw [List.mem_zipIdx_iff_getElem?]; exact h, hR⟩

/-- The colour of the data cells of a column of `Components`. -/
theorem components_shown {t : Frame} {i r : ℕ} {col : String × List Cell} (hi : t[i]? = some col) (hr : r < t.rows)
    (hn : col.1 ≠ "Camber_estimate") {f : CellFormat} (hf : ColourOf col.1 f) :
    (componentsSheet t).shown (r + 1) i = f := by
  have hall : ∀ Q ∈ (componentsSheet t).rules, Q.applies (componentsSheet t) (r + 1) i →
      (Q.format = .cog ∧ Contains "COG" col.1) ∨ (Q.format = .cow ∧ Contains "COW" col.1) := by
    intro Q hQ ha
    obtain ⟨j, c, hj, hR⟩ := mem_components_rules hQ
    obtain ⟨hcol, h⟩ := mem_componentRules hR
    have hij : j = i := by rw [← hcol]; exact ha.2.2.1
    subst hij
    have : c = col := by simpa [hi] using hj.symm
    subst this
    rcases h with h | h | h
    · exact .inl h
    · exact .inr h
    · exact absurd h hn
  cases hf with
  | cog h1 h2 =>
    refine shown_of_forall ?_ fun Q hQ ha => ?_
    · obtain ⟨R, hR, ha⟩ := bothSigns_applies (s := componentsSheet t) (a := 1) (b := t.rows) (c := i) (f := .cog)
        (r := r + 1) (by omega) (by omega)
      refine ⟨R, components_rules_mem hi ?_, ha⟩
      simp only [componentRules, List.mem_append]
      left; left
      rw [if_pos (mentions_iff.2 h1)]; exact hR
    · rcases hall Q hQ ha with h | h
      · exact h.1
      · exact absurd h.2 h2
  | cow h1 h2 =>
    refine shown_of_forall ?_ fun Q hQ ha => ?_
    · obtain ⟨R, hR, ha⟩ := bothSigns_applies (s := componentsSheet t) (a := 1) (b := t.rows) (c := i) (f := .cow)
        (r := r + 1) (by omega) (by omega)
      refine ⟨R, components_rules_mem hi ?_, ha⟩
      simp only [componentRules, List.mem_append]
      left; right
      rw [if_pos (mentions_iff.2 h1)]; exact hR
    · rcases hall Q hQ ha with h | h
      · exact absurd h.2 h2
      · exact h.1
  | none h1 h2 =>
    refine shown_none fun Q hQ ha => ?_
    rcases hall Q hQ ha with h | h
    · exact h1 h.2
    · exact h2 h.2

theorem mem_summaryRules {i : ℕ} {q : String} {R : CondRule} (h : R ∈ summaryRules i q) :
    R.last = i + 1 ∧ ((R.format = .cog ∧ Contains "COG" q) ∨ (R.format = .cow ∧ Contains "COW" q)) := by
  simp only [summaryRules, List.mem_append] at h
  rcases h with h | h
  · split_ifs at h with hm
    · rw [List.mem_cons] at h
      rcases h with rfl | h
      · exact ⟨rfl, .inl ⟨rfl, mentions_iff.1 hm⟩⟩
      · have := mem_bothSigns h
        exact ⟨this.2.1, .inl ⟨this.2.2.2, mentions_iff.1 hm⟩⟩
    · simp at h
  · split_ifs at h with hm
    · rw [List.mem_cons] at h
      rcases h with rfl | h
      · exact ⟨rfl, .inr ⟨rfl, mentions_iff.1 hm⟩⟩
      · have := mem_bothSigns h
        exact ⟨this.2.1, .inr ⟨this.2.2.2, mentions_iff.1 hm⟩⟩
    · simp at h

theorem contains_nonblank {w s : String} (h : Contains w s) (hw : ∃ ch ∈ w.toList, ch ≠ ' ') :
    ∃ ch ∈ s.toList, ch ≠ ' ' := by
  obtain ⟨a, b, hs⟩ := h
  obtain ⟨ch, h1, h2⟩ := hw
  exact ⟨ch, by rw [hs]; simp [h1], h2⟩

/-- Some rule of a tagged row applies to every cell of the two columns up to this row. -/
theorem summaryRules_applies {s : Sheet} {i j c : ℕ} {q : String} {f : CellFormat} (hf : ColourOf q f)
    (hg : f ≠ .general) (hij : i ≤ j) (hc : c < 2)
    (h0 : ∃ t : String, s.content (i + 1) 0 = .text t ∧ ∃ ch ∈ t.toList, ch ≠ ' ') :
    ∃ R ∈ summaryRules j q, R.applies s (i + 1) c := by
  obtain ⟨t, ht, hch⟩ := h0
  cases hf with
  | cog h1 h2 =>
    simp only [summaryRules, mentions_iff.2 h1, if_true]
    interval_cases c
    · refine ⟨⟨1, j + 1, 0, .noBlanks, .cog⟩, by simp, by show 1 ≤ i + 1; omega, by show i + 1 ≤ j + 1; omega, rfl, ?_⟩
      rw [ht]; exact hch
    · obtain ⟨R, hR, ha⟩ := bothSigns_applies (s := s) (a := 0) (b := j + 1) (c := 1) (f := .cog)
        (r := i + 1) (by omega) (by omega)
      exact ⟨R, by simp [hR], ha⟩
  | cow h1 h2 =>
    simp only [summaryRules, mentions_iff.2 h1, if_true]
    interval_cases c
    · refine ⟨⟨1, j + 1, 0, .noBlanks, .cow⟩, by simp, by show 1 ≤ i + 1; omega, by show i + 1 ≤ j + 1; omega, rfl, ?_⟩
      rw [ht]; exact hch
    · obtain ⟨R, hR, ha⟩ := bothSigns_applies (s := s) (a := 0) (b := j + 1) (c := 1) (f := .cow)
        (r := i + 1) (by omega) (by omega)
      exact ⟨R, by simp [hR], ha⟩
  | none => exact absurd rfl hg

open Classical in
/-- If a block of rules contains one that applies, all that apply in it have format `f`, and no earlier
rule applies, then the cell has the format `f`. -/
theorem shown_of_block {s : Sheet} {r c : ℕ} {A M B : List CondRule} {f : CellFormat} (hs : s.rules = A ++ M ++ B)
    (hA : ∀ Q ∈ A, ¬ Q.applies s r c) (hM : ∃ Q ∈ M, Q.applies s r c)
    (hf : ∀ Q ∈ M, Q.applies s r c → Q.format = f) : s.shown r c = f := by
  unfold Sheet.shown
  have h1 : A.find? (fun R => decide (R.applies s r c)) = none := by
    rw [List.find?_eq_none]
    intro Q hQ
    simp [hA Q hQ]
  rw [hs, List.append_assoc, List.find?_append, h1, Option.none_or, List.find?_append]
  cases hfd : M.find? (fun R => decide (R.applies s r c)) with
  | none =>
    rw [List.find?_eq_none] at hfd
    obtain ⟨Q, hQ, ha⟩ := hM
    exact absurd ha (by simpa using hfd Q hQ)
  | some R =>
    have hm := List.mem_of_find?_eq_some hfd
    have ha := List.find?_some hfd
    exact hf R hm (by simpa using ha)

/-- The colour of row `i` of a summary sheet is that of the first row `j ≥ i` with a coordinate system. -/
theorem summary_shown {rows : List (String × ℝ)} {i j c : ℕ} {qi qj : String × ℝ} (hi : rows[i]? = some qi)
    (hj : rows[j]? = some qj) (hij : i ≤ j) (hc : c < 2) (hblank : ∃ ch ∈ qi.1.toList, ch ≠ ' ') {f : CellFormat}
    (hf : ColourOf qj.1 f) (hg : f ≠ .general)
    (hbetween : ∀ k, i ≤ k → k < j → ∀ q, rows[k]? = some q → ColourOf q.1 .general) :
    (summarySheet rows).shown (i + 1) c = f := by
  obtain ⟨hjl, hjv⟩ := List.getElem?_eq_some_iff.1 hj
  have hsplit : rows.zipIdx = (rows.zipIdx.take j) ++ (qj, j) :: rows.zipIdx.drop (j + 1) := by
    have hl : j < rows.zipIdx.length := by simpa using hjl
    conv_lhs => rw [← List.take_append_drop j rows.zipIdx, List.drop_eq_getElem_cons hl]
    simp [hjv]
  have hcontent : (summarySheet rows).content (i + 1) 0 = .text qi.1 := by
    simp [summarySheet, hi]
  refine shown_of_block (A := (rows.zipIdx.take j).flatMap fun q => summaryRules q.2 q.1.1)
    (M := summaryRules j qj.1) (B := (rows.zipIdx.drop (j + 1)).flatMap fun q => summaryRules q.2 q.1.1) ?_ ?_ ?_ ?_
  · conv_lhs => rw [show (summarySheet rows).rules = rows.zipIdx.flatMap fun q => summaryRules q.2 q.1.1 from rfl,
      hsplit, List.flatMap_append, List.flatMap_cons]
    rw [List.append_assoc]
  · intro Q hQ ha
    rw [List.mem_flatMap] at hQ
    obtain ⟨⟨q, k⟩, hk, hR⟩ := hQ
    obtain ⟨hl, h⟩ := mem_summaryRules hR
    dsimp only at hl h
    obtain ⟨m, hm, he⟩ := List.mem_take_iff_getElem.1 hk
    simp only [List.getElem_zipIdx, Prod.mk.injEq, zero_add] at he
    obtain ⟨hv, rfl⟩ := he
    have hmj : m < j := by simp only [List.length_zipIdx, lt_min_iff] at hm; exact hm.1
    have hml : m < rows.length := by simp only [List.length_zipIdx, lt_min_iff] at hm; exact hm.2
    have h2 := ha.2.1
    rw [hl] at h2
    have := hbetween m (by omega) hmj q (by rw [List.getElem?_eq_getElem hml, hv])
    cases this with
    | none h3 h4 =>
      rcases h with h | h
      · exact h3 h.2
      · exact h4 h.2
  · exact summaryRules_applies hf hg hij hc ⟨_, hcontent, hblank⟩
  · intro Q hQ _
    rcases (mem_summaryRules hQ).2 with h | h
    · cases hf with
      | cog h1 h2 => exact h.1
      | cow h1 h2 => exact absurd h.2 h2
      | none h1 h2 => exact absurd rfl hg
    · cases hf with
      | cog h1 h2 => exact absurd h.2 h2
      | cow h1 h2 => exact h.1
      | none h1 h2 => exact absurd rfl hg

/-- A row after which no row has a coordinate system is not coloured. -/
theorem summary_unshaded {rows : List (String × ℝ)} {i c : ℕ}
    (h : ∀ k, i ≤ k → ∀ q, rows[k]? = some q → ColourOf q.1 .general) :
    (summarySheet rows).shown (i + 1) c = .general := by
  refine shown_none fun Q hQ ha => ?_
  simp only [summarySheet, List.mem_flatMap] at hQ
  obtain ⟨q, hq, hR⟩ := hQ
  rw [List.mem_zipIdx_iff_getElem?] at hq
  obtain ⟨hl, h'⟩ := mem_summaryRules hR
  have h2 := ha.2.1
  rw [hl] at h2
  have := h q.2 (by omega) q.1 hq
  cases this with
  | none h3 h4 =>
    rcases h' with h' | h'
    · exact h3 h'.2
    · exact h4 h'.2

/-! ## Tables from dictionaries -/

theorem isDictTable_unique {d : PyDict} {r1 r2 : List (String × ℝ)} (h1 : IsDictTable d r1) (h2 : IsDictTable d r2) :
    r1 = r2 := by
  have hn : ∀ r, IsDictTable d r → r.Nodup := fun r h => h.1.imp fun hab he => by
    rw [he] at hab; exact String.lt_irrefl _ hab
  have hp : r1.Perm r2 := (List.perm_ext_iff_of_nodup (hn _ h1) (hn _ h2)).2 fun q => by
    rw [show q = (q.1, q.2) from rfl, h1.2, h2.2]
  exact hp.eq_of_pairwise (fun a b _ _ hab hba => absurd hab (String.lt_asymm hba)) h1.1 h2.1

theorem isDictTable_exists {d : PyDict} (keys : List String) (h : ∀ k, d k ≠ none → k ∈ keys) :
    ∃ rows, IsDictTable d rows := by
  classical
  let ks := (keys.toFinset.filter fun k => d k ≠ none).sort (· ≤ ·)
  refine ⟨ks.filterMap fun k => (d k).map fun v => (k, v), ?_, ?_⟩
  · rw [List.pairwise_filterMap]
    refine (Finset.sortedLT_sort _).pairwise.imp ?_
    rintro a b hab q hq q' hq'
    rw [Option.map_eq_some_iff] at hq hq'
    obtain ⟨_, _, rfl⟩ := hq
    obtain ⟨_, _, rfl⟩ := hq'
    exact hab
  · intro k v
    rw [List.mem_filterMap]
    constructor
    · rintro ⟨k', _, hk'⟩
      rw [Option.map_eq_some_iff] at hk'
      obtain ⟨v', h1, h2⟩ := hk'
      cases h2; exact h1
    · intro hk
      refine ⟨k, ?_, by simp [hk]⟩
      rw [Finset.mem_sort, Finset.mem_filter, List.mem_toFinset]
      exact ⟨h k (by simp [hk]), by simp [hk]⟩

theorem sortRows_perm (rows : List (String × ℝ)) : (sortRows rows).Perm rows := List.perm_insertionSort _ _

theorem sortRows_pairwise (rows : List (String × ℝ)) : (sortRows rows).Pairwise fun a b => a.1 ≤ b.1 := by
  unfold sortRows
  haveI : Std.Total fun a b : String × ℝ => a.1 ≤ b.1 := ⟨fun a b => le_total a.1 b.1⟩
  haveI : IsTrans (String × ℝ) fun a b => a.1 ≤ b.1 := ⟨fun a b c h h' => le_trans h h'⟩
  exact List.pairwise_insertionSort (fun a b : String × ℝ => a.1 ≤ b.1) rows

/-- The sorted table is the only arrangement of the rows with increasing names. -/
theorem sortRows_eq {rows sorted : List (String × ℝ)} (hp : sorted.Perm rows)
    (hs : (sorted.map Prod.fst).Pairwise (· < ·)) : sortRows rows = sorted := by
  have hs' : sorted.Pairwise fun a b => a.1 < b.1 := List.pairwise_map.1 hs
  have hinj : ∀ a ∈ sorted, ∀ b ∈ sorted, a.1 = b.1 → a = b := by
    have hnd : (sorted.map Prod.fst).Nodup := hs.imp fun h he => by rw [he] at h; exact lt_irrefl _ h
    exact fun a ha b hb h => List.inj_on_of_nodup_map hnd ha hb h
  have h1 := sortRows_pairwise rows
  have hperm : (sortRows rows).Perm sorted := (sortRows_perm rows).trans hp.symm
  refine hperm.eq_of_pairwise (fun a b ha hb hab hba => ?_) h1 (hs'.imp fun h => le_of_lt h)
  exact hinj a (hperm.subset ha) b hb (le_antisymm hab hba)

/-! ## Keys of a dictionary -/

/-- All keys of `d` are in `l`. -/
def KeysIn (d : PyDict) (l : List String) : Prop := ∀ k, d k ≠ none → k ∈ l

/-- The three keys of a vector. -/
def vecKeys (key : String) : List String := [key ++ ".x", key ++ ".y", key ++ ".z"]

/-- The four keys of a moment. -/
def momentKeys (key : String) : List String :=
  [key ++ ".x (heel)", key ++ ".y (pitch)", key ++ ".z (yaw)", key ++ ".z (yaw - JG sign)"]

/-- The six keys of a sail. -/
def sailKeys (name : String) : List String :=
  vecKeys ("F_" ++ name ++ "_total_COG") ++ vecKeys ("M_" ++ name ++ "_total_COG")

theorem KeysIn.empty : KeysIn PyDict.empty [] := fun _ h => absurd rfl h

theorem KeysIn.set {d : PyDict} {l : List String} (h : KeysIn d l) (key : String) (v : ℝ) :
    KeysIn (d.set key v) (key :: l) := by
  intro k hk
  by_cases he : k = key
  · simp [he]
  · rw [PyDict.set, Function.update_of_ne he] at hk
    exact List.mem_cons_of_mem _ (h k hk)

theorem KeysIn.mono {d : PyDict} {l m : List String} (h : KeysIn d l) (hs : l ⊆ m) : KeysIn d m :=
  fun k hk => hs (h k hk)

theorem KeysIn.setVec {d : PyDict} {l : List String} (h : KeysIn d l) (key : String) (v : V3) :
    KeysIn (d.setVec key v) (l ++ vecKeys key) := by
  refine (((h.set (key ++ ".x") v.x).set (key ++ ".y") v.y).set (key ++ ".z") v.z).mono ?_
  intro k hk
  simp only [vecKeys, List.mem_append, List.mem_cons, List.not_mem_nil, or_false] at hk ⊢
  tauto

theorem KeysIn.setMomentCow {d : PyDict} {l : List String} (h : KeysIn d l) (key : String) (v : V3) :
    KeysIn (d.setMomentCow key v) (l ++ momentKeys key) := by
  refine ((((h.set (key ++ ".x (heel)") v.x).set (key ++ ".y (pitch)") v.y).set (key ++ ".z (yaw)") v.z).set
    (key ++ ".z (yaw - JG sign)") (-v.z)).mono ?_
  intro k hk
  simp only [momentKeys, List.mem_append, List.mem_cons, List.not_mem_nil, or_false] at hk ⊢
  tauto

theorem KeysIn.update {d e : PyDict} {l m : List String} (hd : KeysIn d l) (he : KeysIn e m) :
    KeysIn (d.update e) (l ++ m) := by
  intro k hk
  rw [List.mem_append]
  by_cases h : e k = none
  · left
    apply hd
    simpa [PyDict.update, h] using hk
  · exact .inr (he k h)

theorem KeysIn.flowSails : ∀ {ss : List SailGeom} {Fs rs : List (List V3)} {d d' : PyDict} {l : List String},
    PySailing.flowSails ss Fs rs d = .ok d' → KeysIn d l →
    KeysIn d' (l ++ ss.flatMap fun s => sailKeys s.name)
  | [], _, _, d, d', l, h, hd => by
    rw [PySailing.flowSails] at h
    injection h with h
    subst h
    simpa using hd
  | s :: ss, [], _, _, _, _, h, _ => by rw [PySailing.flowSails.eq_def] at h; cases h
  | s :: ss, _ :: _, [], _, _, _, h, _ => by rw [PySailing.flowSails.eq_def] at h; cases h
  | s :: ss, F :: Fs, r :: rs, d, d', l, h, hd => by
    rw [PySailing.flowSails] at h
    simp only [bind, Except.bind] at h
    split at h
    · cases h
    rename_i d1 h1
    unfold flowSail at h1
    simp only [bind, Except.bind] at h1
    split at h1
    · cases h1
    injection h1 with h1
    have := KeysIn.flowSails h (h1 ▸ (hd.setVec _ _).setVec _ _)
    refine this.mono ?_
    intro k hk
    simp only [sailKeys, List.flatMap_cons, List.mem_append] at hk ⊢
    tauto

/-- The keys of the sheet `Integrals` for sails with the given names. -/
def integralKeys (names : List String) : List String :=
  vecKeys "F_sails_total_COG" ++ vecKeys "F_sails_total_COW" ++ vecKeys "M_sails_total_COG" ++
  momentKeys "M_sails_total_COW" ++ vecKeys "M_keel_total_COG" ++ momentKeys "M_keel_total_COW" ++
  vecKeys "M_total_COG" ++ momentKeys "M_total_COW" ++ names.flatMap sailKeys

theorem keysIn_toDfIntegral {o : FlowObject} {names : List String} (h : KeysIn o.res.dyn (names.flatMap sailKeys)) :
    KeysIn o.toDfIntegral (integralKeys names) := by
  unfold FlowObject.toDfIntegral
  have h1 := (((KeysIn.empty.setVec "F_sails_total_COG" o.res.forceTotal).setVec "F_sails_total_COW"
    o.res.forceClTotal).setVec "M_sails_total_COG" o.res.momentTotal).setMomentCow "M_sails_total_COW"
    o.res.momentClTotal
  cases hk : o.keel with
  | none =>
    refine (h1.update h).mono ?_
    intro k hk
    simp only [integralKeys, List.mem_append, List.not_mem_nil, false_or] at hk ⊢
    tauto
  | some m =>
    obtain ⟨a, b⟩ := m
    have h2 := (((KeysIn.empty.setVec "M_keel_total_COG" a).setMomentCow "M_keel_total_COW" b).setVec
        "M_total_COG" (o.res.momentTotal + a)).setMomentCow "M_total_COW" (o.res.momentClTotal + b)
    refine ((h1.update h2).update h).mono ?_
    intro k hk
    simp only [integralKeys, List.mem_append, List.not_mem_nil, false_or] at hk ⊢
    tauto

end PySailing
