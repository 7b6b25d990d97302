import Verif.Spec.Report
import Verif.Lemmas.Excel
import Mathlib.Data.Nat.Digits.Lemmas
import Mathlib.Tactic.Linarith
import Mathlib.Tactic.FieldSimp

/-!
# Lemmas about printed numbers
-/

namespace PySailing

open Spec

theorem digitChar_props : ∀ n < 10, (Nat.digitChar n).toNat - 48 = n ∧ (Nat.digitChar n).isDigit = true ∧
    Nat.digitChar n ≠ '.' ∧ Nat.digitChar n ≠ '-' ∧ (Nat.digitChar n = '0' → n = 0) := by decide

theorem readNat_append (l : List Char) (c : Char) : readNat (l ++ [c]) = 10 * readNat l + (c.toNat - 48) := by
  simp [readNat]

theorem readNat_digits (l : List ℕ) (h : ∀ x ∈ l, x < 10) : readNat (l.reverse.map Nat.digitChar) = Nat.ofDigits 10 l := by
  induction l with
  | nil => rfl
  | cons a l ih =>
    rw [List.reverse_cons, List.map_append, List.map_singleton, readNat_append,
      ih fun x hx => h x (List.mem_cons_of_mem _ hx), (digitChar_props a (h a List.mem_cons_self)).1, Nat.ofDigits_cons]
    ring

theorem readNat_natText (n : ℕ) : readNat (natText n) = n := by
  unfold natText
  split_ifs with h
  · rw [h]; rfl
  · rw [readNat_digits _ fun x hx => Nat.digits_lt_base (by norm_num) hx, Nat.ofDigits_digits]

theorem padText_length (d n : ℕ) : (padText d n).length = d := by
  induction d with
  | zero => rfl
  | succ d ih => simp [padText, ih]

theorem padText_last (d n : ℕ) : padText (d + 1) n = padText d (n / 10) ++ [Nat.digitChar (n % 10)] := by
  induction d with
  | zero => simp [padText]
  | succ d ih =>
    rw [padText, ih, padText, List.cons_append]
    congr 3
    rw [pow_succ', Nat.div_div_eq_div_mul]

theorem readNat_padText (d n : ℕ) : readNat (padText d n) = n % 10 ^ d := by
  induction d generalizing n with
  | zero => simp [padText, readNat, Nat.mod_one]
  | succ d ih =>
    rw [padText_last, readNat_append, ih, (digitChar_props _ (Nat.mod_lt _ (by norm_num))).1, pow_succ',
      Nat.mod_mul]
    ring

theorem padText_mem {d n : ℕ} {c : Char} (h : c ∈ padText d n) : ∃ k < 10, c = Nat.digitChar k := by
  induction d with
  | zero => simp [padText] at h
  | succ d ih =>
    rw [padText, List.mem_cons] at h
    rcases h with h | h
    · exact ⟨_, Nat.mod_lt _ (by norm_num), h⟩
    · exact ih h

theorem natText_mem {n : ℕ} {c : Char} (h : c ∈ natText n) : ∃ k < 10, c = Nat.digitChar k := by
  unfold natText at h
  split_ifs at h
  · exact ⟨0, by norm_num, List.mem_singleton.1 h⟩
  · obtain ⟨k, hk, rfl⟩ := List.mem_map.1 h
    exact ⟨k, Nat.digits_lt_base (by norm_num) (List.mem_reverse.1 hk), rfl⟩

theorem natText_ne_nil (n : ℕ) : natText n ≠ [] := by
  unfold natText
  split_ifs with h
  · simp
  · rw [Ne, List.map_eq_nil_iff, List.reverse_eq_nil_iff]
    exact Nat.digits_ne_nil_iff_ne_zero.2 h

theorem natText_head (n : ℕ) (h : (natText n).head? = some '0') : natText n = ['0'] := by
  by_cases hn : n = 0
  · rw [hn]; rfl
  · exfalso
    unfold natText at h
    rw [if_neg hn, List.head?_map, List.head?_reverse, List.getLast?_eq_getLast_of_ne_nil (Nat.digits_ne_nil_iff_ne_zero.2 hn)] at h
    simp only [Option.map_some, Option.some.injEq] at h
    have hl := Nat.getLast_digit_ne_zero 10 hn
    exact hl ((digitChar_props _ (Nat.digits_lt_base (by norm_num) (List.getLast_mem _))).2.2.2.2 h)

theorem nearestInt_sign (y : ℝ) : (0 ≤ y → 0 ≤ nearestInt y) ∧ (y < 0 → nearestInt y ≤ 0) := by
  unfold nearestInt
  have hf := Int.floor_add_fract y
  constructor
  · intro h
    have h0 : 0 ≤ ⌊y⌋ := Int.floor_nonneg.2 h
    split_ifs
    · exact h0
    · omega
    · exact Int.floor_nonneg.2 (by linarith)
  · intro h
    have h0 : ⌊y⌋ < 0 := Int.floor_lt.2 (by simpa using h)
    split_ifs
    · omega
    · omega
    · exact Int.lt_add_one_iff.1 (Int.floor_lt.2 (by push_cast; linarith))

theorem formatFloat_eq (d : ℕ) (x : ℝ) : formatFloat d x = (nearestInt (x * 10 ^ d) : ℝ) / 10 ^ d := rfl

theorem fixed_toList (d : ℕ) (x : ℝ) : (fixed d x).toList = (if x < 0 then ['-'] else []) ++
    natText ((nearestInt (x * 10 ^ d)).natAbs / 10 ^ d) ++ '.' :: padText d (nearestInt (x * 10 ^ d)).natAbs := by
  classical
  unfold fixed
  dsimp only
  rw [String.toList_ofList]

theorem readUnsigned_text (d n : ℕ) : readUnsigned (natText (n / 10 ^ d) ++ '.' :: padText d n) = n / 10 ^ d := by
  have hall : ∀ c ∈ natText (n / 10 ^ d), (decide (c ≠ '.')) = true := fun c hc => by
    obtain ⟨k, hk, rfl⟩ := natText_mem hc
    exact decide_eq_true (digitChar_props k hk).2.2.1
  have e1 : (natText (n / 10 ^ d) ++ '.' :: padText d n).takeWhile (· ≠ '.') = natText (n / 10 ^ d) := by
    rw [List.takeWhile_append_of_pos hall]
    simp
  have e2 : (natText (n / 10 ^ d) ++ '.' :: padText d n).dropWhile (· ≠ '.') = '.' :: padText d n := by
    rw [List.dropWhile_append_of_pos hall]
    simp
  unfold readUnsigned
  rw [e1, e2, List.drop_succ_cons, List.drop_zero, readNat_natText, readNat_padText, padText_length]
  have h10 : (0 : ℝ) < 10 ^ d := by positivity
  have := Nat.div_add_mod n (10 ^ d)
  have h2 : (10 : ℝ) ^ d * ((n / 10 ^ d : ℕ) : ℝ) + ((n % 10 ^ d : ℕ) : ℝ) = n := by exact_mod_cast this
  rw [← h2]
  field_simp

/-- The printed text stands for the rounded number. -/
theorem readDecimal_fixed (d : ℕ) (x : ℝ) : readDecimal (fixed d x) = formatFloat d x := by
  have h10 : (0 : ℝ) < 10 ^ d := by positivity
  unfold readDecimal
  rw [fixed_toList, formatFloat_eq]
  have hs := nearestInt_sign (x * 10 ^ d)
  by_cases hx : x < 0
  · have h1 := hs.2 (mul_neg_of_neg_of_pos hx h10)
    simp only [if_pos hx, List.cons_append, List.nil_append, List.head?_cons, List.drop_succ_cons, List.drop_zero]
    rw [if_pos trivial, readUnsigned_text]
    have : ((nearestInt (x * 10 ^ d)).natAbs : ℝ) = -(nearestInt (x * 10 ^ d) : ℝ) := by
      rw [← Int.cast_natCast, Int.ofNat_natAbs_of_nonpos h1, Int.cast_neg]
    rw [this]
    ring
  · have h1 := hs.1 (mul_nonneg (not_lt.1 hx) h10.le)
    simp only [if_neg hx, List.nil_append]
    rw [if_neg, readUnsigned_text]
    · have : ((nearestInt (x * 10 ^ d)).natAbs : ℝ) = (nearestInt (x * 10 ^ d) : ℝ) := by
        rw [← Int.cast_natCast, Int.natAbs_of_nonneg h1]
      rw [this]
    · intro hh
      obtain ⟨c, l, hc⟩ := List.exists_cons_of_ne_nil (natText_ne_nil ((nearestInt (x * 10 ^ d)).natAbs / 10 ^ d))
      rw [hc, List.cons_append, List.head?_cons] at hh
      obtain ⟨k, hk, e⟩ := natText_mem (hc ▸ List.mem_cons_self : c ∈ natText ((nearestInt (x * 10 ^ d)).natAbs / 10 ^ d))
      exact (digitChar_props k hk).2.2.2.1 (e ▸ Option.some.inj hh)

theorem fixed_decimalText (d : ℕ) (x : ℝ) : DecimalText d (fixed d x) := by
  refine ⟨_, _, _, fixed_toList d x, by split_ifs <;> simp, natText_ne_nil _, padText_length _ _, ?_, natText_head _⟩
  intro c hc
  rcases List.mem_append.1 hc with hc | hc
  · obtain ⟨k, hk, rfl⟩ := natText_mem hc
    exact (digitChar_props k hk).2.1
  · obtain ⟨k, hk, rfl⟩ := padText_mem hc
    exact (digitChar_props k hk).2.1

end PySailing
