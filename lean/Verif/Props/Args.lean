import Verif.Lemmas.Args
import Verif.Props.Cli

/-!
# The command line (C103)
-/

namespace PySailing.Props

open PySailing PySailing.Spec

theorem classify_ne_end {w : Word} (h : classify w ≠ .ambiguous) : w ≠ endOfOptions := by
  rintro rfl
  exact h (by decide)

theorem mem_takeWhile_ne (l : List Word) (y : Word) (h : y ∈ l.takeWhile (· ≠ endOfOptions)) : y ≠ endOfOptions := by
  induction l with
  | nil => simp at h
  | cons a l ih =>
    rw [List.takeWhile_cons] at h
    split at h
    · rename_i ha
      rcases List.mem_cons.1 h with rfl | h
      · simpa using ha
      · exact ih h
    · simp at h

theorem option_or_or (a b c : Option Word) : (a.or b).or c = a.or (b.or c) := by
  cases a <;> simp

theorem parseLoop_ok : ∀ (n : ℕ) (ws : List Word), ws.length ≤ n → ∀ (d r : Option Word) (extra : Bool),
    (parseLoop ws d extra = .ok r ↔ extra = false ∧ ∃ s, Selects ws s ∧ r = s.or d)
  | n, [], _, d, r, extra => by
    constructor
    · intro h
      unfold parseLoop at h
      split_ifs at h with he
      injection h with h
      exact ⟨by simpa using he, none, .nothing, by simpa using h.symm⟩
    · rintro ⟨rfl, s, hs, rfl⟩
      cases hs
      simp [parseLoop]
  | 0, w :: ws, hn, _, _, _ => by simp at hn
  | n + 1, w :: ws, hn, d, r, extra => by
    have hn' : ws.length ≤ n := by simpa using hn
    constructor
    · intro h
      unfold parseLoop at h
      split_ifs at h with he
      cases hc : classify w with
      | plain =>
        simp only [hc] at h
        have := ((parseLoop_ok n ws hn' d r true).1 h).1
        cases this
      | unknown =>
        simp only [hc] at h
        have := ((parseLoop_ok n ws hn' d r true).1 h).1
        cases this
      | ambiguous => simp only [hc] at h; cases h
      | help t => simp only [hc] at h; cases h
      | dvars v =>
        cases v with
        | some v =>
          simp only [hc] at h
          obtain ⟨hx, s, hs, rfl⟩ := (parseLoop_ok n ws hn' (some v) r extra).1 h
          obtain ⟨o, ho, rfl⟩ := classify_dvars_some.1 hc
          refine ⟨hx, _, .joined o v ws s ho hs, ?_⟩
          rw [option_or_or]; rfl
        | none =>
          simp only [hc] at h
          cases ws with
          | nil => cases h
          | cons v ws' =>
            simp only at h
            split_ifs at h with hv
            obtain ⟨hx, s, hs, rfl⟩ := (parseLoop_ok n ws' (by simp at hn'; omega) (some v) r extra).1 h
            refine ⟨hx, _, .apart w v ws' s (classify_dvars_none.1 hc) (classify_plain.1 hv.2) hs, ?_⟩
            rw [option_or_or]; rfl
    · rintro ⟨rfl, s, hs, rfl⟩
      cases hs with
      | apart _ v rest r' ho hv hr =>
        have hc := classify_dvars_none.2 ho
        have hp := classify_plain.2 hv
        have he := classify_ne_end (w := w) (by rw [hc]; simp)
        have hve := classify_ne_end (w := v) (by rw [hp]; simp)
        unfold parseLoop
        rw [if_neg he]
        simp only [hc]
        rw [if_pos ⟨hve, hp⟩]
        refine (parseLoop_ok n rest (by simp at hn'; omega) (some v) _ false).2 ⟨rfl, r', hr, ?_⟩
        rw [option_or_or]; rfl
      | joined o v _ r' ho hr =>
        have hc := (classify_dvars_some (v := v)).2 ⟨o, ho, rfl⟩
        have he := classify_ne_end (w := o ++ '=' :: v) (by rw [hc]; simp)
        unfold parseLoop
        rw [if_neg he]
        simp only [hc]
        refine (parseLoop_ok n ws hn' (some v) _ false).2 ⟨rfl, r', hr, ?_⟩
        rw [option_or_or]; rfl

theorem selects_classified {ws : List Word} {s : Option Word} (h : Selects ws s) :
    ∀ w ∈ ws, classify w ≠ .ambiguous := by
  induction h with
  | nothing => simp
  | apart o v rest r ho hv _ ih =>
    intro w hw
    simp only [List.mem_cons] at hw
    rcases hw with rfl | rfl | hw
    · rw [classify_dvars_none.2 ho]; simp
    · rw [classify_plain.2 hv]; simp
    · exact ih w hw
  | joined o v rest r ho _ ih =>
    intro w hw
    simp only [List.mem_cons] at hw
    rcases hw with rfl | hw
    · rw [classify_dvars_some.2 ⟨o, ho, rfl⟩]; simp
    · exact ih w hw

/-- **C103.**  The program takes exactly the command lines that consist of the option, in any of its spellings and any
number of times, with a value each; it then uses the last value, or the working directory if there is none. -/
theorem C103_accepted (cwd : String) (words : List Word) (d : String) :
    parseCli cwd words = .ok d ↔ ∃ s, Selects words s ∧ d = (s.map String.ofList).getD cwd := by
  constructor
  · intro h
    unfold parseCli at h
    split_ifs at h
    cases hp : parseLoop words none false with
    | error e => rw [hp] at h; cases h
    | ok r =>
      rw [hp] at h
      injection h with h
      obtain ⟨-, s, hs, rfl⟩ := (parseLoop_ok _ words le_rfl none r false).1 hp
      exact ⟨s, hs, by rw [← h]; simp⟩
  · rintro ⟨s, hs, rfl⟩
    unfold parseCli
    rw [if_neg, (parseLoop_ok _ words le_rfl none s false).2 ⟨rfl, s, hs, by simp⟩]
    · rfl
    · intro h
      obtain ⟨w, hw, hc⟩ := List.mem_map.1 h
      exact selects_classified hs w ((List.takeWhile_prefix _).subset hw) hc

/-- Non-vacuity: `--dvar=a -d b`. -/
example : Selects ["--dvar=a".toList, "-d".toList, "b".toList] (some "b".toList) := by
  have h := Selects.joined "--dvar".toList "a".toList _ _ (Or.inr (longName_iff.2 ⟨['d', 'v', 'a', 'r'], rfl, by decide,
    by decide⟩)) (Selects.apart "-d".toList "b".toList [] none (Or.inr (Or.inl rfl)) (Or.inl (by decide)) .nothing)
  exact h

/-- Non-vacuity: a directory `-my case` after the option is a value, `-mycase` is not. -/
example : ValueWord "-my case".toList ∧ ¬ ValueWord "-mycase".toList :=
  ⟨classify_plain.1 (by decide), fun h => absurd (classify_plain.2 h) (by decide)⟩

theorem parseLoop_error : ∀ (n : ℕ) (ws : List Word), ws.length ≤ n → ∀ (d : Option Word) (extra : Bool) (e : PyErr),
    parseLoop ws d extra = .error e → e = .sysExit 2 ∨ (e = .sysExit 0 ∧ ∃ w ∈ ws, HelpWord w)
  | n, [], _, d, extra, e => by
    intro h
    unfold parseLoop at h
    split_ifs at h
    injection h with h
    exact Or.inl h.symm
  | 0, w :: ws, hn, _, _, _ => by simp at hn
  | n + 1, w :: ws, hn, d, extra, e => by
    have hn' : ws.length ≤ n := by simpa using hn
    have tail : ∀ {ws' : List Word} {d : Option Word} {x : Bool}, ws'.length ≤ n → (∀ w' ∈ ws', w' ∈ w :: ws) →
        parseLoop ws' d x = .error e → e = .sysExit 2 ∨ (e = .sysExit 0 ∧ ∃ w' ∈ w :: ws, HelpWord w') := by
      intro ws' d x hl hsub h
      rcases parseLoop_error n ws' hl d x e h with h | ⟨h, w', hw', hh⟩
      · exact Or.inl h
      · exact Or.inr ⟨h, w', hsub w' hw', hh⟩
    intro h
    unfold parseLoop at h
    split_ifs at h with he
    · injection h with h
      exact Or.inl h.symm
    cases hc : classify w with
    | plain => simp only [hc] at h; exact tail hn' (fun _ hw => by simp [hw]) h
    | unknown => simp only [hc] at h; exact tail hn' (fun _ hw => by simp [hw]) h
    | ambiguous =>
      simp only [hc] at h
      injection h with h
      exact Or.inl h.symm
    | help t =>
      simp only [hc] at h
      injection h with h
      rcases helpStatus_cases t with h0 | h0
      · rw [h0] at h
        exact Or.inr ⟨h.symm, w, by simp, classify_help hc h0⟩
      · rw [h0] at h
        exact Or.inl h.symm
    | dvars v =>
      cases v with
      | some v => simp only [hc] at h; exact tail hn' (fun _ hw => by simp [hw]) h
      | none =>
        simp only [hc] at h
        cases ws with
        | nil =>
          injection h with h
          exact Or.inl h.symm
        | cons v ws' =>
          simp only at h
          split_ifs at h with hv
          · exact tail (by simp at hn'; omega) (fun _ hw => by simp [hw]) h
          · injection h with h
            exact Or.inl h.symm

/-- **C103.**  Every other command line ends the program before anything is read or written: with status 2, or with
status 0 if a word asks for help. -/
theorem C103_rejected (spline : SplineFn) (py : PythonFn) (cwd : String) (second : ℕ) (words : List Word) (p : Process)
    (disk : Disk) (h : ∀ s, ¬ Selects words s) :
    ∃ x, callProgram spline py cwd second words p disk = (p, disk, x) ∧
      (x.status = 2 ∨ (x.status = 0 ∧ ∃ w ∈ words, HelpWord w)) := by
  unfold callProgram
  cases hp : parseCli cwd words with
  | ok d =>
    obtain ⟨s, hs, -⟩ := (C103_accepted cwd words d).1 hp
    exact absurd hs (h s)
  | error e =>
    refine ⟨.raised e, rfl, ?_⟩
    unfold parseCli at hp
    split_ifs at hp with ha
    · injection hp with hp
      subst hp
      exact Or.inl rfl
    cases hl : parseLoop words none false with
    | ok r => rw [hl] at hp; cases hp
    | error e' =>
      rw [hl] at hp
      injection hp with hp
      subst hp
      rcases parseLoop_error _ words le_rfl none false e' hl with rfl | ⟨rfl, hw⟩
      · exact Or.inl rfl
      · exact Or.inr ⟨rfl, hw⟩

/-- Non-vacuity: a directory without the option. -/
example : ∀ s, ¬ Selects ["cases".toList] s := by
  intro s h
  have := (C103_accepted "" _ _).2 ⟨s, h, rfl⟩
  have e : parseCli "" ["cases".toList] = .error (.sysExit 2) := by decide
  rw [e] at this
  cases this

/-- An accepted command line runs `main()` with the directory it names. -/
theorem C103_runs (spline : SplineFn) (py : PythonFn) (cwd : String) (second : ℕ) (words : List Word) (p : Process)
    (disk : Disk) (s : Option Word) (h : Selects words s) :
    callProgram spline py cwd second words p disk =
      callMain spline py cwd second ((s.map String.ofList).getD cwd) p disk := by
  unfold callProgram
  rw [(C103_accepted cwd words _).2 ⟨s, h, rfl⟩]

theorem parseLoop_help : ∀ (n : ℕ) (ws : List Word), ws.length ≤ n → ∀ (s : Option Word), Selects ws s →
    ∀ (d : Option Word) (extra : Bool) (w : Word) (rest : List Word), classify w = .help [] →
    parseLoop (ws ++ w :: rest) d extra = .error (.sysExit 0)
  | n, [], _, s, _, d, extra, w, rest, hw => by
    rw [List.nil_append]
    unfold parseLoop
    rw [if_neg (classify_ne_end (by rw [hw]; simp))]
    simp only [hw]
    rfl
  | 0, _ :: _, hn, _, _, _, _, _, _, _ => by simp at hn
  | n + 1, a :: ws, hn, s, hs, d, extra, w, rest, hw => by
    have hn' : ws.length ≤ n := by simpa using hn
    cases hs with
    | apart _ v rest' r' ho hv hr =>
      have hc := classify_dvars_none.2 ho
      have hp := classify_plain.2 hv
      have he := classify_ne_end (w := a) (by rw [hc]; simp)
      have hve := classify_ne_end (w := v) (by rw [hp]; simp)
      rw [List.cons_append, List.cons_append]
      unfold parseLoop
      rw [if_neg he]
      simp only [hc]
      rw [if_pos ⟨hve, hp⟩]
      exact parseLoop_help n rest' (by simp at hn'; omega) r' hr _ _ w rest hw
    | joined o v _ r' ho hr =>
      have hc := (classify_dvars_some (v := v)).2 ⟨o, ho, rfl⟩
      have he := classify_ne_end (w := o ++ '=' :: v) (by rw [hc]; simp)
      rw [List.cons_append]
      unfold parseLoop
      rw [if_neg he]
      simp only [hc]
      exact parseLoop_help n ws hn' r' hr _ _ w rest hw

theorem classify_ambiguous {w : Word} (h : classify w = .ambiguous) : w = "--".toList ∨ "--=".toList <+: w := by
  rcases word_shapes w with rfl | rfl | ⟨c, t, rfl, hc⟩ | ⟨t, rfl⟩ | ⟨t, rfl⟩ | rfl | ⟨c, t, rfl, h1, h2, h3⟩
  · cases h
  · cases h
  · rw [classify_plain_head hc] at h; cases h
  · obtain ⟨o, v, hs, ho⟩ := split_long t
    rcases classify_long hs with ⟨e, -⟩ | ⟨-, -, e⟩ | ⟨-, -, e⟩ | ⟨-, -, e⟩
    · subst e
      rcases ho with ⟨-, rfl, -⟩ | ⟨x, -, rfl, -⟩
      · exact Or.inl rfl
      · exact Or.inr ⟨x, rfl⟩
    · rw [e] at h; cases h
    · rw [e] at h; cases h
    · rw [e] at h
      rcases notOption_cases ('-' :: '-' :: t) with e | e <;> (rw [e] at h; cases h)
  · cases h
  · cases h
  · rw [classify_other h1 h2 h3] at h
    split_ifs at h with hs
    rcases notOption_cases ('-' :: c :: t) with e | e <;> (rw [e] at h; cases h)

/-- `-h` or `--help` (also abbreviated) after a correct beginning: status 0, whatever follows, and nothing is read or
written.  Excluded is `--=…`, which abbreviates both options. -/
theorem C103_help (spline : SplineFn) (py : PythonFn) (cwd : String) (second : ℕ) (before rest : List Word) (w : Word)
    (s : Option Word) (hs : Selects before s) (hw : w = "-h".toList ∨ LongHelp w)
    (ha : ∀ x ∈ rest, ¬ "--=".toList <+: x) (p : Process) (disk : Disk) :
    callProgram spline py cwd second (before ++ w :: rest) p disk = (p, disk, .raised (.sysExit 0)) := by
  have hc : classify w = .help [] := by
    rcases hw with rfl | hw
    · decide
    · obtain ⟨t, rfl, h0, hp⟩ := longHelp_iff.1 hw
      have hsp : splitEq ('-' :: '-' :: t) = ('-' :: '-' :: t, none) :=
        splitEq_none (by simp [eq_not_mem_help hp])
      rcases classify_long hsp with ⟨e, -⟩ | ⟨-, -, e⟩ | ⟨-, hq, -⟩ | ⟨hq, -, -⟩
      · exact absurd e h0
      · simpa using e
      · exact absurd (not_both hp hq) h0
      · exact absurd hp hq
  unfold callProgram parseCli
  rw [if_neg]
  · rw [parseLoop_help _ before le_rfl s hs none false w rest hc]
    rfl
  · intro h
    obtain ⟨x, hx, hxc⟩ := List.mem_map.1 h
    have hmem := (List.takeWhile_prefix _).subset hx
    rcases List.mem_append.1 hmem with hb | hb
    · exact selects_classified hs x hb hxc
    rcases List.mem_cons.1 hb with rfl | hb
    · rw [hc] at hxc; cases hxc
    · rcases classify_ambiguous hxc with rfl | hp
      · have := mem_takeWhile_ne _ _ hx
        exact absurd rfl this
      · exact ha x hb hp

/-- Non-vacuity. -/
example : LongHelp "--hel".toList := longHelp_iff.2 ⟨['h', 'e', 'l'], rfl, by decide, by decide⟩

end PySailing.Props
