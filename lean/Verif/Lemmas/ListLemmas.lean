import Verif.Model.Mesh

/-!
# List lemmas: grids, `mapM` in `Except`
-/

namespace PySailing

variable {α β γ : Type}

theorem grid_length (n0 n1 : ℕ) (f : ℕ → ℕ → α) :
    ((List.range n0).flatMap fun i => (List.range n1).map fun j => f i j).length = n0 * n1 := by
  induction n0 with
  | zero => simp
  | succ n ih => rw [List.range_succ, List.flatMap_append, List.length_append, ih]; simp; ring

theorem grid_getElem? (n0 n1 : ℕ) (f : ℕ → ℕ → α) {i j : ℕ} (hi : i < n0) (hj : j < n1) :
    ((List.range n0).flatMap fun i => (List.range n1).map fun j => f i j)[i * n1 + j]?
      = some (f i j) := by
  induction n0 with
  | zero => omega
  | succ n ih =>
    rw [List.range_succ, List.flatMap_append]
    by_cases h : i < n
    · rw [List.getElem?_append_left, ih h]
      rw [grid_length]
      calc i * n1 + j < i * n1 + n1 := by omega
        _ = (i + 1) * n1 := by ring
        _ ≤ n * n1 := Nat.mul_le_mul_right _ h
    · have : i = n := by omega
      subst this
      rw [List.getElem?_append_right (by rw [grid_length]; omega), grid_length]
      simp [hj]

theorem grid_getD (n0 n1 : ℕ) (f : ℕ → ℕ → α) (d : α) {i j : ℕ} (hi : i < n0) (hj : j < n1) :
    ((List.range n0).flatMap fun i => (List.range n1).map fun j => f i j).getD (i * n1 + j) d
      = f i j := by
  rw [List.getD_eq_getElem?_getD, grid_getElem? n0 n1 f hi hj]; rfl

/-- Every index of a grid list is `i * n1 + j` with `i`, `j` in range. -/
theorem grid_index {n0 n1 k : ℕ} (h : k < n0 * n1) :
    ∃ i j, i < n0 ∧ j < n1 ∧ k = i * n1 + j := by
  have hn : 0 < n1 := by
    rcases Nat.eq_zero_or_pos n1 with h0 | h0
    · subst h0; simp at h
    · exact h0
  refine ⟨k / n1, k % n1, Nat.div_lt_of_lt_mul (by rwa [Nat.mul_comm] at h), Nat.mod_lt _ hn, ?_⟩
  rw [Nat.mul_comm]; exact (Nat.div_add_mod k n1).symm

theorem grid_index_unique {n1 i j i' j' : ℕ} (hj : j < n1) (hj' : j' < n1)
    (h : i * n1 + j = i' * n1 + j') : i = i' ∧ j = j' := by
  have hn : 0 < n1 := by omega
  have h1 : (i * n1 + j) / n1 = i := by
    rw [Nat.mul_comm, Nat.mul_add_div hn, Nat.div_eq_of_lt hj]; simp
  have h2 : (i' * n1 + j') / n1 = i' := by
    rw [Nat.mul_comm, Nat.mul_add_div hn, Nat.div_eq_of_lt hj']; simp
  have hi : i = i' := by rw [← h1, ← h2, h]
  subst hi
  exact ⟨rfl, by omega⟩

/-! ### `mapM` in `Except` -/

theorem mapM_ok {ε : Type} {f : α → Except ε β} {g : α → β} {l : List α}
    (h : ∀ a ∈ l, f a = .ok (g a)) : l.mapM f = .ok (l.map g) := by
  induction l with
  | nil => rfl
  | cons a l ih =>
    rw [List.mapM_cons, h a (by simp), ih fun b hb => h b (by simp [hb])]
    rfl

theorem mapM_ok_inv {ε : Type} {f : α → Except ε β} {l : List α} {r : List β}
    (h : l.mapM f = .ok r) : r.length = l.length ∧
      ∀ i (hi : i < l.length), ∃ b, r[i]? = some b ∧ f l[i] = .ok b := by
  induction l generalizing r with
  | nil =>
    have : r = [] := by
      have h' : (Except.ok [] : Except ε (List β)) = .ok r := h
      exact (Except.ok.inj h').symm
    subst this
    simp
  | cons a l ih =>
    rw [List.mapM_cons] at h
    cases hf : f a with
    | error e => rw [hf] at h; cases h
    | ok b =>
      rw [hf] at h
      cases hm : l.mapM f with
      | error e => rw [hm] at h; cases h
      | ok bs =>
        rw [hm] at h
        have : r = b :: bs := (Except.ok.inj h).symm
        subst this
        obtain ⟨h1, h2⟩ := ih hm
        refine ⟨by simp [h1], ?_⟩
        intro i hi
        cases i with
        | zero => exact ⟨b, by simp, by simpa using hf⟩
        | succ i =>
          obtain ⟨c, hc, hc'⟩ := h2 i (by simpa using hi)
          exact ⟨c, by simpa using hc, by simpa using hc'⟩

theorem mapM_error {ε : Type} {f : α → Except ε β} {l : List α} {e : ε}
    (h : ∃ i, ∃ hi : i < l.length, f l[i] = .error e ∧
      ∀ j (hj : j < i), ∃ b, f (l[j]) = .ok b) : l.mapM f = .error e := by
  induction l with
  | nil => obtain ⟨i, hi, _⟩ := h; simp at hi
  | cons a l ih =>
    obtain ⟨i, hi, h1, h2⟩ := h
    rw [List.mapM_cons]
    cases i with
    | zero =>
      have h1' : f a = .error e := by simpa using h1
      rw [h1']
      rfl
    | succ i =>
      obtain ⟨b, hb⟩ := h2 0 (by omega)
      have hb' : f a = .ok b := by simpa using hb
      rw [hb', ih ⟨i, by simpa using hi, by simpa using h1, fun j hj => by
        simpa using h2 (j + 1) (by omega)⟩]
      rfl

theorem idx_ok {xs : List α} {i : ℕ} (h : i < xs.length) : idx xs i = .ok xs[i] := by
  simp [idx, h]

theorem idx_error {xs : List α} {i : ℕ} (h : xs.length ≤ i) : idx xs i = .error .indexError := by
  have : xs[i]? = none := by simp [h]
  simp [idx, this]

/-! ### `discreteSegment`, `linspace01` -/

theorem discreteSegment_length (p1 p2 : V3) (n : ℕ) : (discreteSegment p1 p2 n).length = n + 1 := by
  simp [discreteSegment]

theorem discreteSegment_getElem? (p1 p2 : V3) {n i : ℕ} (hn : 0 < n) (hi : i ≤ n) :
    (discreteSegment p1 p2 n)[i]? = some (p1 + ((i : ℝ) / n) • (p2 - p1)) := by
  unfold discreteSegment
  rcases Nat.lt_or_ge i n with h | h
  · rw [List.getElem?_append_left (by simpa using h)]
    simp only [List.getElem?_map, List.getElem?_range h, Option.map_some, smul_smul]
    congr 4
    ring
  · have : i = n := by omega
    subst this
    rw [List.getElem?_append_right (by simp)]
    have : (i : ℝ) ≠ 0 := by positivity
    simp [div_self this]

theorem linspace01_length (n : ℕ) : (linspace01 n).length = n := by
  unfold linspace01; split_ifs with h <;> simp [h]

theorem linspace01_getElem? {n i : ℕ} (h : i < n + 1) :
    (linspace01 (n + 1))[i]? = some ((i : ℝ) / n) := by
  unfold linspace01
  split_ifs with h1
  · have : n = 0 := by omega
    subst this
    have : i = 0 := by omega
    subst this
    simp
  · simp [List.getElem?_range h]

theorem linspace01_mem {n : ℕ} {x : ℝ} (h : x ∈ linspace01 n) : 0 ≤ x ∧ x ≤ 1 := by
  obtain ⟨i, hi, rfl⟩ := List.getElem_of_mem h
  rw [linspace01_length] at hi
  obtain ⟨m, rfl⟩ : ∃ m, n = m + 1 := ⟨n - 1, by omega⟩
  have := linspace01_getElem? hi
  rw [List.getElem?_eq_getElem (by rwa [linspace01_length])] at this
  rw [Option.some.inj this]
  constructor
  · positivity
  · apply div_le_one_of_le₀
    · exact_mod_cast Nat.lt_succ_iff.1 hi
    · positivity

end PySailing
