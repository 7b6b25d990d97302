import Verif.Spec.Args

/-!
# Lemmas on the command line
-/

namespace PySailing

open PySailing.Spec

theorem splitEq_none {w : Word} (h : '=' ∉ w) : splitEq w = (w, none) := by
  have : w.dropWhile (· ≠ '=') = [] := by
    have h1 : ∀ x ∈ w, (decide (x ≠ '=')) = true := by
      intro x hx
      simp only [ne_eq, decide_eq_true_eq]
      rintro rfl
      exact h hx
    have := List.dropWhile_append_of_pos (p := fun x => decide (x ≠ '=')) (l₂ := []) h1
    simpa using this
  unfold splitEq
  rw [this]

theorem splitEq_some {o : Word} (h : '=' ∉ o) (v : Word) : splitEq (o ++ '=' :: v) = (o, some v) := by
  have h1 : ∀ x ∈ o, (decide (x ≠ '=')) = true := by
    intro x hx
    simp only [ne_eq, decide_eq_true_eq]
    rintro rfl
    exact h hx
  unfold splitEq
  rw [List.dropWhile_append_of_pos h1, List.takeWhile_append_of_pos h1]
  simp

theorem word_split (w : Word) : '=' ∉ w ∨ ∃ o v, '=' ∉ o ∧ w = o ++ '=' :: v := by
  by_cases h : '=' ∈ w
  · right
    obtain ⟨o, v, hw, ho⟩ := List.eq_append_cons_of_mem h
    exact ⟨o, v, ho, hw⟩
  · exact Or.inl h

theorem digits_iff {w : Word} : digits w = true ↔ w ≠ [] ∧ ∀ c ∈ w, c.isDigit := by
  unfold digits
  cases w <;> simp

theorem mem_takeWhile_digit : ∀ (w : Word), ∀ c ∈ w.takeWhile Char.isDigit, c.isDigit
  | [] => by simp
  | a :: w => by
    intro c hc
    rw [List.takeWhile_cons] at hc
    split at hc
    · rename_i ha
      rcases List.mem_cons.1 hc with rfl | hc
      · exact ha
      · exact mem_takeWhile_digit w c hc
    · simp at hc

theorem isNumber_iff {w : Word} : isNumber w = true ↔ NegativeNumber ('-' :: w) := by
  constructor
  · intro h
    unfold isNumber at h
    rw [Bool.or_eq_true] at h
    rcases h with h | h
    · obtain ⟨h1, h2⟩ := digits_iff.1 h
      exact ⟨[], w, by simp, h2, h1, Or.inl rfl⟩
    · split at h
      · rename_i r hr
        obtain ⟨h1, h2⟩ := digits_iff.1 h
        refine ⟨w.takeWhile Char.isDigit, r, mem_takeWhile_digit w, h2, h1, Or.inr ?_⟩
        rw [List.cons_append, ← hr, List.takeWhile_append_dropWhile]
      · cases h
  · rintro ⟨a, b, ha, hb, hb0, h | h⟩
    · obtain rfl := (List.cons.inj h).2
      unfold isNumber
      rw [Bool.or_eq_true]
      exact Or.inl (digits_iff.2 ⟨hb0, hb⟩)
    · obtain rfl := (List.cons.inj h).2
      unfold isNumber
      rw [Bool.or_eq_true]
      right
      have e : (a ++ '.' :: b).dropWhile Char.isDigit = '.' :: b := by
        rw [List.dropWhile_append_of_pos ha]
        rfl
      split
      · rename_i r hr
        obtain rfl := (List.cons.inj (e.symm.trans hr)).2
        exact digits_iff.2 ⟨hb0, hb⟩
      · rename_i hn
        exact absurd e (hn b)

theorem notOption_plain {w : Word} : notOption w = .plain ↔ (isNumber w.tail ∨ ' ' ∈ w) := by
  unfold notOption
  split_ifs with h <;> simp [h]

theorem notOption_cases (w : Word) : notOption w = .plain ∨ notOption w = .unknown := by
  unfold notOption
  split_ifs <;> simp

theorem not_number_dash {w : Word} : ¬ NegativeNumber ('-' :: '-' :: w) := by
  rintro ⟨a, b, ha, hb, hb0, h | h⟩
  · obtain rfl := (List.cons.inj h).2
    exact absurd (hb '-' (by simp)) (by decide)
  · have h := (List.cons.inj h).2
    cases a with
    | nil => exact absurd (List.cons.inj h).1 (by decide)
    | cons x a =>
      have hx := (List.cons.inj h).1
      exact absurd (ha x (by simp)) (by rw [← hx]; decide)

/-- The parts of `--t` before the first `=`. -/
theorem not_both {o' : Word} (h1 : o' <+: ['h', 'e', 'l', 'p']) (h2 : o' <+: ['d', 'v', 'a', 'r', 's']) : o' = [] := by
  cases o' with
  | nil => rfl
  | cons x o =>
    obtain ⟨r, hr⟩ := h1
    obtain ⟨s, hs⟩ := h2
    have e1 := (List.cons.inj hr).1
    have e2 := (List.cons.inj hs).1
    exact absurd (e1.symm.trans e2) (by decide)

theorem prefix_dashes {o l : Word} : ('-' :: '-' :: o) <+: ('-' :: '-' :: l) ↔ o <+: l := by
  rw [List.prefix_cons_inj, List.prefix_cons_inj]

/-- The cases of `classify` for a word `--…`, by the part `--o` before the first `=`. -/
theorem classify_long {t o : Word} {v : Option Word} (h : splitEq ('-' :: '-' :: t) = ('-' :: '-' :: o, v)) :
    (o = [] ∧ classify ('-' :: '-' :: t) = .ambiguous) ∨
    (o ≠ [] ∧ o <+: ['h', 'e', 'l', 'p'] ∧ classify ('-' :: '-' :: t) = .help (if v = none then [] else ['='])) ∨
    (o ≠ [] ∧ o <+: ['d', 'v', 'a', 'r', 's'] ∧ classify ('-' :: '-' :: t) = .dvars v) ∨
    (¬ o <+: ['h', 'e', 'l', 'p'] ∧ ¬ o <+: ['d', 'v', 'a', 'r', 's'] ∧
      classify ('-' :: '-' :: t) = notOption ('-' :: '-' :: t)) := by
  simp only [classify, h, helpLong, optLong, prefix_dashes]
  by_cases h1 : o <+: ['h', 'e', 'l', 'p'] <;> by_cases h2 : o <+: ['d', 'v', 'a', 'r', 's']
  · exact Or.inl ⟨not_both h1 h2, by simp [h1, h2]⟩
  · right; left
    refine ⟨?_, h1, ?_⟩
    · rintro rfl; exact h2 (List.nil_prefix)
    · rw [if_neg (fun h => h2 h.2), if_pos h1]
      cases v <;> simp
  · right; right; left
    refine ⟨?_, h2, ?_⟩
    · rintro rfl; exact h1 (List.nil_prefix)
    · rw [if_neg (fun h => h1 h.1), if_neg h1, if_pos h2]
  · right; right; right
    exact ⟨h1, h2, by rw [if_neg (fun h => h1 h.1), if_neg h1, if_neg h2]⟩

/-- A word `--…` and the part before the first `=`. -/
theorem split_long (t : Word) : ∃ o v, splitEq ('-' :: '-' :: t) = ('-' :: '-' :: o, v) ∧
    ((v = none ∧ t = o ∧ '=' ∉ o) ∨ ∃ x, v = some x ∧ t = o ++ '=' :: x ∧ '=' ∉ o) := by
  rcases word_split t with h | ⟨o, x, ho, rfl⟩
  · exact ⟨t, none, splitEq_none (by simp [h]), Or.inl ⟨rfl, rfl, h⟩⟩
  · exact ⟨o, some x, splitEq_some (o := '-' :: '-' :: o) (by simp [ho]) x, Or.inr ⟨x, rfl, rfl, ho⟩⟩

theorem longName_iff {o : Word} : LongName o ↔ ∃ t, o = '-' :: '-' :: t ∧ t ≠ [] ∧ t <+: ['d', 'v', 'a', 'r', 's'] := by
  constructor
  · rintro ⟨h1, h2⟩
    match o, h1 with
    | a :: b :: c :: r, _ =>
      obtain ⟨s, hs⟩ := h2
      have e : (a :: b :: c :: r) ++ s = ['-', '-', 'd', 'v', 'a', 'r', 's'] := hs
      simp only [List.cons_append, List.cons.injEq] at e
      obtain ⟨rfl, rfl, e⟩ := e
      exact ⟨_, rfl, by simp, ⟨s, by simpa using e⟩⟩
  · rintro ⟨t, rfl, h1, h2⟩
    refine ⟨?_, prefix_dashes.2 h2⟩
    cases t with
    | nil => exact absurd rfl h1
    | cons a t => simp

theorem longHelp_iff {o : Word} : LongHelp o ↔ ∃ t, o = '-' :: '-' :: t ∧ t ≠ [] ∧ t <+: ['h', 'e', 'l', 'p'] := by
  constructor
  · rintro ⟨h1, h2⟩
    match o, h1 with
    | a :: b :: c :: r, _ =>
      obtain ⟨s, hs⟩ := h2
      have e : (a :: b :: c :: r) ++ s = ['-', '-', 'h', 'e', 'l', 'p'] := hs
      simp only [List.cons_append, List.cons.injEq] at e
      obtain ⟨rfl, rfl, e⟩ := e
      exact ⟨_, rfl, by simp, ⟨s, by simpa using e⟩⟩
  · rintro ⟨t, rfl, h1, h2⟩
    refine ⟨?_, prefix_dashes.2 h2⟩
    cases t with
    | nil => exact absurd rfl h1
    | cons a t => simp

theorem eq_not_mem_dvars {t : Word} (h : t <+: ['d', 'v', 'a', 'r', 's']) : '=' ∉ t := fun hm => by
  have := h.subset hm
  revert this
  decide

theorem eq_not_mem_help {t : Word} (h : t <+: ['h', 'e', 'l', 'p']) : '=' ∉ t := fun hm => by
  have := h.subset hm
  revert this
  decide

/-- Uniqueness of the part before the first `=`. -/
theorem split_unique {o o' x x' : Word} (h : '=' ∉ o) (h' : '=' ∉ o') (e : o ++ '=' :: x = o' ++ '=' :: x') :
    o = o' ∧ x = x' := by
  have := splitEq_some h x
  rw [e, splitEq_some h' x'] at this
  simp only [Prod.mk.injEq, Option.some.injEq] at this
  exact ⟨this.1.symm, this.2.symm⟩

/-- The shapes of a word. -/
theorem word_shapes (w : Word) : w = [] ∨ w = ['-'] ∨ (∃ c t, w = c :: t ∧ c ≠ '-') ∨ (∃ t, w = '-' :: '-' :: t) ∨
    (∃ t, w = '-' :: 'h' :: t) ∨ w = ['-', 'd'] ∨
    (∃ c t, w = '-' :: c :: t ∧ c ≠ '-' ∧ c ≠ 'h' ∧ w ≠ ['-', 'd']) := by
  match w with
  | [] => exact Or.inl rfl
  | [c] =>
    by_cases h : c = '-'
    · exact Or.inr (Or.inl (by rw [h]))
    · exact Or.inr (Or.inr (Or.inl ⟨c, [], rfl, h⟩))
  | a :: c :: t =>
    by_cases h : a = '-'
    · subst h
      by_cases h1 : c = '-'
      · subst h1; exact Or.inr (Or.inr (Or.inr (Or.inl ⟨t, rfl⟩)))
      by_cases h2 : c = 'h'
      · subst h2; exact Or.inr (Or.inr (Or.inr (Or.inr (Or.inl ⟨t, rfl⟩))))
      by_cases h3 : '-' :: c :: t = ['-', 'd']
      · exact Or.inr (Or.inr (Or.inr (Or.inr (Or.inr (Or.inl h3)))))
      · exact Or.inr (Or.inr (Or.inr (Or.inr (Or.inr (Or.inr ⟨c, t, rfl, h1, h2, h3⟩)))))
    · exact Or.inr (Or.inr (Or.inl ⟨a, c :: t, rfl, h⟩))

theorem classify_other {c : Char} {t : Word} (h1 : c ≠ '-') (h2 : c ≠ 'h') (h3 : '-' :: c :: t ≠ ['-', 'd']) :
    classify ('-' :: c :: t) =
      if (splitEq ('-' :: c :: t)).1 = optShort then .dvars (splitEq ('-' :: c :: t)).2 else notOption ('-' :: c :: t) := by
  unfold classify
  split
  · rename_i heq; simp only [List.cons.injEq] at heq; exact absurd heq.2.1 h1
  · rename_i heq; simp only [List.cons.injEq] at heq; exact absurd heq.2.1 h2
  · rename_i heq; exact absurd heq h3
  · rfl
  · rename_i h; exact absurd rfl (h _ _)

theorem classify_plain_head {c : Char} {t : Word} (h : c ≠ '-') : classify (c :: t) = .plain := by
  unfold classify
  split <;> first | rfl | (rename_i heq; simp only [List.cons.injEq] at heq; exact absurd heq.1 h)

theorem classify_dvars_none {w : Word} : classify w = .dvars none ↔ OptionName w := by
  constructor
  · intro h
    rcases word_shapes w with rfl | rfl | ⟨c, t, rfl, hc⟩ | ⟨t, rfl⟩ | ⟨t, rfl⟩ | rfl | ⟨c, t, rfl, h1, h2, h3⟩
    · cases h
    · cases h
    · rw [classify_plain_head hc] at h; cases h
    · obtain ⟨o, v, hs, ho⟩ := split_long t
      rcases classify_long hs with ⟨-, e⟩ | ⟨-, -, e⟩ | ⟨h0, hp, e⟩ | ⟨-, -, e⟩
      · rw [e] at h; cases h
      · rw [e] at h; cases h
      · rw [e] at h
        injection h with h
        rcases ho with ⟨-, rfl, -⟩ | ⟨x, hx, -⟩
        · exact Or.inr (Or.inr (longName_iff.2 ⟨_, rfl, h0, hp⟩))
        · rw [h] at hx; cases hx
      · rw [e] at h
        rcases notOption_cases ('-' :: '-' :: t) with e | e <;> (rw [e] at h; cases h)
    · cases h
    · exact Or.inr (Or.inl rfl)
    · rw [classify_other h1 h2 h3] at h
      split_ifs at h with hs
      · injection h with h
        rcases word_split ('-' :: c :: t) with hn | ⟨o, x, ho, hw⟩
        · rw [splitEq_none hn] at hs
          exact Or.inl hs
        · rw [hw, splitEq_some ho] at h; cases h
      · rcases notOption_cases ('-' :: c :: t) with e | e <;> (rw [e] at h; cases h)
  · rintro (rfl | rfl | h)
    · decide
    · decide
    · obtain ⟨t, rfl, h0, hp⟩ := longName_iff.1 h
      have hs : splitEq ('-' :: '-' :: t) = ('-' :: '-' :: t, none) :=
        splitEq_none (by simp [eq_not_mem_dvars hp])
      rcases classify_long hs with ⟨e, -⟩ | ⟨-, hq, e⟩ | ⟨-, -, e⟩ | ⟨-, hq, e⟩
      · exact absurd e h0
      · exact absurd (not_both hq hp) h0
      · exact e
      · exact absurd hp hq

theorem classify_dvars_some {w v : Word} : classify w = .dvars (some v) ↔ ∃ o, JoinedName o ∧ w = o ++ '=' :: v := by
  constructor
  · intro h
    rcases word_shapes w with rfl | rfl | ⟨c, t, rfl, hc⟩ | ⟨t, rfl⟩ | ⟨t, rfl⟩ | rfl | ⟨c, t, rfl, h1, h2, h3⟩
    · cases h
    · cases h
    · rw [classify_plain_head hc] at h; cases h
    · obtain ⟨o, v', hs, ho⟩ := split_long t
      rcases classify_long hs with ⟨-, e⟩ | ⟨-, -, e⟩ | ⟨h0, hp, e⟩ | ⟨-, -, e⟩
      · rw [e] at h; cases h
      · rw [e] at h; cases h
      · rw [e] at h
        injection h with h
        rcases ho with ⟨hx, -, -⟩ | ⟨x, hx, rfl, -⟩
        · rw [h] at hx; cases hx
        · rw [h] at hx
          injection hx with hx
          subst hx
          exact ⟨'-' :: '-' :: o, Or.inr (longName_iff.2 ⟨_, rfl, h0, hp⟩), rfl⟩
      · rw [e] at h
        rcases notOption_cases ('-' :: '-' :: t) with e | e <;> (rw [e] at h; cases h)
    · cases h
    · cases h
    · rw [classify_other h1 h2 h3] at h
      split_ifs at h with hs
      · injection h with h
        rcases word_split ('-' :: c :: t) with hn | ⟨o, x, ho, hw⟩
        · rw [splitEq_none hn] at h; cases h
        · rw [hw, splitEq_some ho] at h hs
          injection h with h
          exact ⟨o, Or.inl hs, by rw [hw, h]⟩
      · rcases notOption_cases ('-' :: c :: t) with e | e <;> (rw [e] at h; cases h)
  · rintro ⟨o, rfl | h, rfl⟩
    · have e : "-dv".toList = ['-', 'd', 'v'] := rfl
      rw [e, List.cons_append, List.cons_append, classify_other (by decide) (by decide) (by simp)]
      rw [← List.cons_append, ← List.cons_append, splitEq_some (o := ['-', 'd', 'v']) (by decide) v]
      rfl
    · obtain ⟨t, rfl, h0, hp⟩ := longName_iff.1 h
      have hs : splitEq ('-' :: '-' :: (t ++ '=' :: v)) = ('-' :: '-' :: t, some v) :=
        splitEq_some (o := '-' :: '-' :: t) (by simp [eq_not_mem_dvars hp]) v
      rcases classify_long hs with ⟨e, -⟩ | ⟨-, hq, e⟩ | ⟨-, -, e⟩ | ⟨-, hq, e⟩
      · exact absurd e h0
      · exact absurd (not_both hq hp) h0
      · exact e
      · exact absurd hp hq

theorem classify_help {w tail : Word} (h : classify w = .help tail) (h0 : helpStatus tail = 0) : HelpWord w := by
  rcases word_shapes w with rfl | rfl | ⟨c, t, rfl, hc⟩ | ⟨t, rfl⟩ | ⟨t, rfl⟩ | rfl | ⟨c, t, rfl, h1, h2, h3⟩
  · cases h
  · cases h
  · rw [classify_plain_head hc] at h; cases h
  · obtain ⟨o, v, hs, ho⟩ := split_long t
    rcases classify_long hs with ⟨-, e⟩ | ⟨hn, hp, e⟩ | ⟨-, -, e⟩ | ⟨-, -, e⟩
    · rw [e] at h; cases h
    · rw [e] at h
      injection h with h
      rcases ho with ⟨-, rfl, -⟩ | ⟨x, hx, -⟩
      · exact Or.inr (longHelp_iff.2 ⟨_, rfl, hn, hp⟩)
      · rw [hx, if_neg (by simp)] at h
        subst h
        exact absurd h0 (by decide)
    · rw [e] at h; cases h
    · rw [e] at h
      rcases notOption_cases ('-' :: '-' :: t) with e | e <;> (rw [e] at h; cases h)
  · exact Or.inl ⟨t, rfl⟩
  · cases h
  · rw [classify_other h1 h2 h3] at h
    split_ifs at h with hs
    rcases notOption_cases ('-' :: c :: t) with e | e <;> (rw [e] at h; cases h)

theorem helpStatus_cases : ∀ w : Word, helpStatus w = 0 ∨ helpStatus w = 2
  | [] => Or.inl rfl
  | c :: rest => by
    unfold helpStatus
    split
    · exact Or.inl rfl
    · rename_i r hr
      have := helpStatus_cases rest
      rwa [(List.cons.inj hr).2] at this
    · exact Or.inr rfl
    · exact Or.inr rfl
    · exact Or.inl rfl

theorem optionLike_long {t : Word} (h : OptionLike ('-' :: '-' :: t)) :
    classify ('-' :: '-' :: t) ≠ .plain := by
  rcases h with ⟨r, hr⟩ | ⟨o, x, h, hw⟩
  · have e : '-' :: 'h' :: r = '-' :: '-' :: t := hr
    simp only [List.cons.injEq] at e
    exact absurd e.2.1 (by decide)
  · have key : ∀ o', o = '-' :: '-' :: o' → o' <+: ['h', 'e', 'l', 'p'] ∨ o' <+: ['d', 'v', 'a', 'r', 's'] →
        '=' ∉ o' → classify ('-' :: '-' :: t) ≠ .plain := by
      rintro o' rfl ho hn
      have ht : t = o' ++ '=' :: x := by simpa using hw
      subst ht
      have hs : splitEq ('-' :: '-' :: (o' ++ '=' :: x)) = ('-' :: '-' :: o', some x) :=
        splitEq_some (o := '-' :: '-' :: o') (by simp [hn]) x
      rcases classify_long hs with ⟨-, e⟩ | ⟨-, -, e⟩ | ⟨-, -, e⟩ | ⟨h1, h2, -⟩
      · rw [e]; simp
      · rw [e]; simp
      · rw [e]; simp
      · exact absurd ho (by simp [h1, h2])
    rcases h with (rfl | h) | h | rfl
    · have e : '-' :: 'd' :: 'v' :: '=' :: x = '-' :: '-' :: t := hw.symm
      simp only [List.cons.injEq] at e
      exact absurd e.2.1 (by decide)
    · obtain ⟨o', rfl, -, hp⟩ := longName_iff.1 h
      exact key o' rfl (Or.inr hp) (eq_not_mem_dvars hp)
    · obtain ⟨o', rfl, -, hp⟩ := longHelp_iff.1 h
      exact key o' rfl (Or.inl hp) (eq_not_mem_help hp)
    · exact key [] rfl (Or.inl List.nil_prefix) (by simp)

theorem classify_plain {w : Word} : classify w = .plain ↔ ValueWord w := by
  rcases word_shapes w with rfl | rfl | ⟨c, t, rfl, hc⟩ | ⟨t, rfl⟩ | ⟨t, rfl⟩ | rfl | ⟨c, t, rfl, h1, h2, h3⟩
  · exact ⟨fun _ => Or.inl (by simp), fun _ => rfl⟩
  · exact ⟨fun _ => Or.inr (Or.inl rfl), fun _ => rfl⟩
  · exact ⟨fun _ => Or.inl (by simpa using hc), fun _ => classify_plain_head hc⟩
  · constructor
    · intro h
      right; right; right
      refine ⟨?_, fun ho => optionLike_long ho h⟩
      obtain ⟨o, v, hs, -⟩ := split_long t
      rcases classify_long hs with ⟨-, e⟩ | ⟨-, -, e⟩ | ⟨-, -, e⟩ | ⟨-, -, e⟩
      · rw [e] at h; cases h
      · rw [e] at h; cases h
      · rw [e] at h; cases h
      · rw [e] at h
        rcases notOption_plain.1 h with h | h
        · exact absurd (isNumber_iff.1 h) not_number_dash
        · exact h
    · rintro (h | h | h | ⟨h, hn⟩)
      · simp at h
      · have e : '-' :: '-' :: t = ['-'] := h
        simp at e
      · exact absurd h not_number_dash
      · obtain ⟨o, v, hs, ho⟩ := split_long t
        have no : ∀ o' : Word, ' ' ∈ o' → (o' <+: ['h', 'e', 'l', 'p'] ∨ o' <+: ['d', 'v', 'a', 'r', 's']) → False := by
          rintro o' hm (hp | hp)
          · exact absurd (hp.subset hm) (by decide)
          · exact absurd (hp.subset hm) (by decide)
        have hx : ∀ x, t = o ++ '=' :: x → ¬ (o = [] ∨ (o ≠ [] ∧ o <+: ['h', 'e', 'l', 'p']) ∨
            (o ≠ [] ∧ o <+: ['d', 'v', 'a', 'r', 's'])) := by
          rintro x rfl hc
          refine hn (Or.inr ⟨'-' :: '-' :: o, x, ?_, rfl⟩)
          rcases hc with rfl | ⟨h1, h2⟩ | ⟨h1, h2⟩
          · exact Or.inr (Or.inr rfl)
          · exact Or.inr (Or.inl (longHelp_iff.2 ⟨_, rfl, h1, h2⟩))
          · exact Or.inl (Or.inr (longName_iff.2 ⟨_, rfl, h1, h2⟩))
        have hsp : t = o → ' ' ∈ o := by rintro rfl; simpa using h
        rcases classify_long hs with ⟨e, -⟩ | ⟨e1, e2, -⟩ | ⟨e1, e2, -⟩ | ⟨-, -, e⟩
        · rcases ho with ⟨-, ht, -⟩ | ⟨x, -, ht, -⟩
          · have := hsp ht; rw [e] at this; simp at this
          · exact absurd (Or.inl e) (hx x ht)
        · rcases ho with ⟨-, ht, -⟩ | ⟨x, -, ht, -⟩
          · exact absurd (no o (hsp ht) (Or.inl e2)) id
          · exact absurd (Or.inr (Or.inl ⟨e1, e2⟩)) (hx x ht)
        · rcases ho with ⟨-, ht, -⟩ | ⟨x, -, ht, -⟩
          · exact absurd (no o (hsp ht) (Or.inr e2)) id
          · exact absurd (Or.inr (Or.inr ⟨e1, e2⟩)) (hx x ht)
        · rw [e]; exact notOption_plain.2 (Or.inr h)
  · constructor
    · intro h; cases h
    · rintro (h | h | h | ⟨-, hn⟩)
      · simp at h
      · have e : '-' :: 'h' :: t = ['-'] := h
        simp at e
      · exfalso
        obtain ⟨a, b, ha, hb, hb0, h | h⟩ := h
        · obtain rfl := (List.cons.inj h).2
          exact absurd (hb 'h' (by simp)) (by decide)
        · have h := (List.cons.inj h).2
          cases a with
          | nil => exact absurd (List.cons.inj h).1 (by decide)
          | cons x a =>
            have hx := (List.cons.inj h).1
            exact absurd (ha x (by simp)) (by rw [← hx]; decide)
      · exact absurd (Or.inl ⟨t, rfl⟩) hn
  · constructor
    · intro h; cases h
    · rintro (h | h | h | ⟨h, -⟩)
      · simp at h
      · exact absurd h (by decide)
      · exact absurd (isNumber_iff.2 h) (by decide)
      · exact absurd h (by decide)
  · rw [classify_other h1 h2 h3]
    constructor
    · intro h
      split_ifs at h with hs
      right; right
      by_cases hnum : NegativeNumber ('-' :: c :: t)
      · exact Or.inl hnum
      right
      refine ⟨(notOption_plain.1 h).resolve_left fun h => hnum (isNumber_iff.1 h), ?_⟩
      rintro (⟨r, hr⟩ | ⟨o, x, ho, hw⟩)
      · have e : '-' :: 'h' :: r = '-' :: c :: t := hr
        simp only [List.cons.injEq] at e
        exact h2 e.2.1.symm
      · have long : ∀ o', o ≠ '-' :: '-' :: o' := by
          rintro o' rfl
          simp only [List.cons_append, List.cons.injEq] at hw
          exact h1 hw.2.1
        rcases ho with (rfl | ho) | ho | rfl
        · rw [hw, splitEq_some (by decide)] at hs
          exact hs rfl
        · obtain ⟨o', rfl, -⟩ := longName_iff.1 ho
          exact long _ rfl
        · obtain ⟨o', rfl, -⟩ := longHelp_iff.1 ho
          exact long _ rfl
        · exact long [] rfl
    · rintro (h | h | h | ⟨h, hn⟩)
      · simp at h
      · have e : '-' :: c :: t = ['-'] := h
        simp at e
      · have hnum := isNumber_iff.2 h
        rw [if_neg, notOption_plain]
        · exact Or.inl hnum
        · intro hs
          have hd : c = 'd' := by
            rcases word_split ('-' :: c :: t) with hn | ⟨o, x, ho, hw⟩
            · rw [splitEq_none hn] at hs
              exact (List.cons.inj (List.cons.inj hs).2).1
            · rw [hw, splitEq_some ho] at hs
              simp only at hs
              rw [hs] at hw
              exact (List.cons.inj (List.cons.inj hw).2).1
          rw [hd] at hnum
          unfold isNumber at hnum
          have e : ('d' :: t).dropWhile Char.isDigit = 'd' :: t := rfl
          rw [Bool.or_eq_true] at hnum
          rcases hnum with hnum | hnum
          · exact absurd ((digits_iff.1 hnum).2 'd' (by simp)) (by decide)
          · split at hnum
            · rename_i r hr
              exact absurd (List.cons.inj (e.symm.trans hr)).1 (by decide)
            · cases hnum
      · rw [if_neg, notOption_plain]
        · exact Or.inr h
        · intro hs
          rcases word_split ('-' :: c :: t) with hn' | ⟨o, x, ho, hw⟩
          · rw [splitEq_none hn'] at hs
            simp only at hs
            rw [hs] at h
            exact absurd h (by decide)
          · rw [hw, splitEq_some ho] at hs
            simp only at hs
            exact hn (Or.inr ⟨o, x, Or.inl (Or.inl hs), hw⟩)

end PySailing
