import Verif.Lemmas.TaperSail
import Verif.Spec.Runner
import Verif.Spec.Interpolation

/-!
# Sails designed with a polygon of chords
-/

namespace PySailing.Taper

open Spec Set

/-- Line through sections `i` and `i + 1`. -/
noncomputable def chordLine (xs ys : ℕ → ℝ) (i : ℕ) (t : ℝ) : ℝ := ys i + (t - xs i) / (xs (i + 1) - xs i) * (ys (i + 1) - ys i)

/-- The lowest of these lines. -/
noncomputable def hull (m : ℕ) (hm : 0 < m) (xs ys : ℕ → ℝ) (t : ℝ) : ℝ :=
  (Finset.range m).inf' (Finset.nonempty_range_iff.2 hm.ne') fun i => chordLine xs ys i t

variable {m : ℕ} {xs ys : ℕ → ℝ}

/-- Every position between the first and the last section is between two neighbours. -/
theorem exists_segment (hm : 0 < m) {t : ℝ} (h0 : xs 0 ≤ t) (h1 : t ≤ xs m) : ∃ i < m, xs i ≤ t ∧ t ≤ xs (i + 1) := by
  induction m with
  | zero => omega
  | succ m ih =>
    by_cases h : t ≤ xs m
    · rcases Nat.eq_zero_or_pos m with rfl | hm'
      · exact ⟨0, by omega, h0, h1⟩
      · obtain ⟨i, hi, h2⟩ := ih hm' h
        exact ⟨i, by omega, h2⟩
    · exact ⟨m, by omega, (not_le.1 h).le, h1⟩

theorem chordLine_between {a b c d t : ℝ} (hab : a < b) (h1 : a ≤ t) (h2 : t ≤ b) (f : ℝ → ℝ) (hf : ∀ x, f x = f a + (x - a) / (b - a) * (f b - f a))
    (hc : c ≤ f a) (hd : d ≤ f b) : c + (t - a) / (b - a) * (d - c) ≤ f t := by
  have hp := sub_pos.2 hab
  have h0 : 0 ≤ (t - a) / (b - a) := div_nonneg (by linarith) hp.le
  have h3 : (t - a) / (b - a) ≤ 1 := by rw [div_le_one hp]; linarith
  rw [hf t]
  generalize (t - a) / (b - a) = q at *
  nlinarith

theorem hull_eq (hm : 0 < m) (hinc : ∀ i < m, xs i < xs (i + 1))
    (hout : ∀ i < m, ∀ k ≤ m, ys k ≤ chordLine xs ys i (xs k)) {t : ℝ} {k : ℕ} (hk : k < m) (h1 : xs k ≤ t) (h2 : t ≤ xs (k + 1)) :
    hull m hm xs ys t = chordLine xs ys k t := by
  apply le_antisymm
  · exact Finset.inf'_le _ (Finset.mem_range.2 hk)
  · refine Finset.le_inf' _ _ fun i hi => ?_
    have hi := Finset.mem_range.1 hi
    refine chordLine_between (hinc k hk) h1 h2 (chordLine xs ys i) (fun x => ?_) (hout i hi k hk.le) (hout i hi (k + 1) hk)
    have a := sub_pos.2 (hinc i hi)
    have b := sub_pos.2 (hinc k hk)
    unfold chordLine
    field_simp
    ring

theorem hull_concave (hm : 0 < m) (S : Set ℝ) (hS : Convex ℝ S) : ConcaveOn ℝ S (hull m hm xs ys) := by
  refine ⟨hS, fun x _ y _ a b ha hb hab => ?_⟩
  refine Finset.le_inf' _ _ fun i hi => ?_
  have h1 : hull m hm xs ys x ≤ chordLine xs ys i x := Finset.inf'_le _ hi
  have h2 : hull m hm xs ys y ≤ chordLine xs ys i y := Finset.inf'_le _ hi
  have e : chordLine xs ys i (a • x + b • y) = a * chordLine xs ys i x + b * chordLine xs ys i y := by
    have e : b = 1 - a := by linarith
    subst e
    unfold chordLine
    simp only [smul_eq_mul]
    ring
  rw [e, smul_eq_mul, smul_eq_mul]
  exact add_le_add (mul_le_mul_of_nonneg_left h1 ha) (mul_le_mul_of_nonneg_left h2 hb)

theorem hull_antitone (hm : 0 < m) (hinc : ∀ i < m, xs i < xs (i + 1)) {X q : ℝ} (hq : 0 ≤ q)
    (hl : ∀ i < m, X * (xs (i + 1) - xs i) + q * (ys (i + 1) - ys i) ≤ 0) {t t' : ℝ} (h : t ≤ t') :
    X * t' + q * hull m hm xs ys t' ≤ X * t + q * hull m hm xs ys t := by
  obtain ⟨i, hi, e⟩ := Finset.exists_mem_eq_inf' (Finset.nonempty_range_iff.2 hm.ne') fun i => chordLine xs ys i t
  have hi := Finset.mem_range.1 hi
  have e' : hull m hm xs ys t = chordLine xs ys i t := e
  have h1 : hull m hm xs ys t' ≤ chordLine xs ys i t' := Finset.inf'_le _ (Finset.mem_range.2 hi)
  have h2 := mul_le_mul_of_nonneg_left h1 hq
  rw [e']
  have hp := sub_pos.2 (hinc i hi)
  have h3 : X * t' + q * chordLine xs ys i t' ≤ X * t + q * chordLine xs ys i t := by
    have e1 : (X * t + q * chordLine xs ys i t) - (X * t' + q * chordLine xs ys i t') =
        -((X * (xs (i + 1) - xs i) + q * (ys (i + 1) - ys i)) * ((t' - t) / (xs (i + 1) - xs i))) := by
      unfold chordLine
      field_simp
      ring
    have h4 : 0 ≤ (t' - t) / (xs (i + 1) - xs i) := div_nonneg (by linarith) hp.le
    have := mul_nonneg (neg_nonneg.2 (hl i hi)) h4
    linarith
  linarith

theorem hull_ge (hm : 0 < m) (hinc : ∀ i < m, xs i < xs (i + 1)) (hout : ∀ i < m, ∀ k ≤ m, ys k ≤ chordLine xs ys i (xs k)) {w : ℝ}
    (hw : ∀ k ≤ m, w ≤ ys k) {t : ℝ} (h0 : xs 0 ≤ t) (h1 : t ≤ xs m) : w ≤ hull m hm xs ys t := by
  obtain ⟨k, hk, a, b⟩ := exists_segment hm h0 h1
  rw [hull_eq hm hinc hout hk a b]
  have := chordLine_between (c := w) (d := w) (hinc k hk) a b (chordLine xs ys k) (fun x => ?_) ?_ ?_
  · simpa using this
  · have b := sub_pos.2 (hinc k hk)
    unfold chordLine
    field_simp
    ring
  · unfold chordLine; simpa using hw k hk.le
  · have b := sub_pos.2 (hinc k hk)
    unfold chordLine
    rw [div_self b.ne']
    linarith [hw (k + 1) hk]

/-- A sail designed with such data. -/
theorem designed {ns nc : ℕ} {csys : Csys} {girths chords di : List ℝ} {tack head : V3} {τ : ℝ} {s : SailInput × (ℕ → ℝ)}
    (hok : SailOk s.1 s.2) (h : DesignedSail "linear" ns nc csys girths chords (List.replicate girths.length τ)
      (List.replicate girths.length 0) di tack head s) (hcsys : csys.heelDeg = 0)
    (hinc : ∀ i, i + 1 < girths.length → girths.getD i 0 < girths.getD (i + 1) 0)
    (hτ : ∀ {v : ℝ} {r : ℕ}, r ≤ ns → CurveValue "linear" (girths.length - 1) (fun i => girths.getD i 0)
      (fun i => (List.replicate girths.length τ).getD i 0) ((r : ℝ) / ns) v → v = τ)
    (h0 : ∀ {v : ℝ} {r : ℕ}, r ≤ ns → CurveValue "linear" (girths.length - 1) (fun i => girths.getD i 0)
      (fun i => (List.replicate girths.length 0).getD i 0) ((r : ℝ) / ns) v → v = 0)
    (T : TaperedShape nc ns girths chords tack head τ) : ∃ chord, TaperedSail s.1 s.2 chord τ := by
  have hm : 0 < girths.length - 1 := by
    by_contra hc
    have e : girths.length - 1 = 0 := by omega
    have a := T.top
    rw [e] at a
    linarith [T.bottom]
  have hns0 := hok.ns_pos
  have hnc0 := hok.nc_pos
  have ens := h.ns_eq
  have enc := h.nc_eq
  rw [ens] at hns0
  rw [enc] at hnc0
  have hns : (0 : ℝ) < ns := by exact_mod_cast hns0
  have hnc : (0 : ℝ) < nc := by exact_mod_cast hnc0
  have hup := sub_pos.2 T.up
  have inc : ∀ i < girths.length - 1, (fun i => girths.getD i 0) i < (fun i => girths.getD i 0) (i + 1) := fun i hi => hinc i (by omega)
  have out : ∀ i < girths.length - 1, ∀ k ≤ girths.length - 1, (fun i => chords.getD i 0) k ≤
      chordLine (fun i => girths.getD i 0) (fun i => chords.getD i 0) i ((fun i => girths.getD i 0) k) :=
    fun i hi k hk => T.outward i k (by omega) (by omega)
  have hfrac : ∀ r : ℕ, r ≤ ns → 0 ≤ (r : ℝ) / ns ∧ (r : ℝ) / ns ≤ 1 := fun r hr =>
    ⟨by positivity, by rw [div_le_one hns]; exact_mod_cast hr⟩
  have ht : s.1.tack = tack := h.tack_eq
  have hh : s.1.head = head := h.head_eq
  refine ⟨fun z => hull (girths.length - 1) hm (fun i => girths.getD i 0) (fun i => chords.getD i 0) ((z - tack.z) / (head.z - tack.z)), {
    ok := hok
    upright := by rw [h.csys_eq]; exact hcsys
    luff := by rw [ht, hh]; exact T.luff
    up := by rw [ht, hh]; exact T.up
    concave := ?concave
    leech := ?leech
    chords := fun r hr => ?chords
    camber := fun r hr => h0 (ens ▸ hr) (h.camber.2 r (ens ▸ hr))
    twist := fun r hr => hτ (ens ▸ hr) (h.twist r (ens ▸ hr))
    high := by rw [ht, hh, ens]; exact T.high
    wide := fun z hz => ?wide }⟩
  case concave =>
    refine ⟨convex_Icc _ _, fun x _ y _ a b ha hb hab => ?_⟩
    have := (hull_concave (xs := fun i => girths.getD i 0) (ys := fun i => chords.getD i 0) hm univ convex_univ).2
      (mem_univ ((x - tack.z) / (head.z - tack.z))) (mem_univ ((y - tack.z) / (head.z - tack.z))) ha hb hab
    refine this.trans (le_of_eq ?_)
    congr 1
    have e : b = 1 - a := by linarith
    subst e
    simp only [smul_eq_mul]
    field_simp
    ring
  case leech =>
    intro z _ z' _ hzz
    have ht' : (z - tack.z) / (head.z - tack.z) ≤ (z' - tack.z) / (head.z - tack.z) :=
      div_le_div_of_nonneg_right (by linarith) hup.le
    have := hull_antitone (xs := fun i => girths.getD i 0) (ys := fun i => chords.getD i 0) hm inc (X := head.x - tack.x)
      (q := 1 + 1 / (4 * (nc : ℝ))) (by positivity) (fun i hi => T.leech i (by omega)) ht'
    simp only [aftEdge, luffAt, ht, hh, enc]
    linarith
  case chords =>
    have hr' : r ≤ ns := ens ▸ hr
    obtain ⟨f0, f1⟩ := hfrac r hr'
    have hc := h.chords.2 r hr'
    have e : (s.1.tack.z + (r : ℝ) / s.1.ns * (s.1.head.z - s.1.tack.z) - tack.z) / (head.z - tack.z) = (r : ℝ) / ns := by
      rw [ht, hh, ens]; field_simp; ring
    obtain ⟨k, hk, a, b⟩ := exists_segment (xs := fun i => girths.getD i 0) (t := (r : ℝ) / ns) hm (T.bottom.trans f0) (f1.trans T.top)
    rcases hc with ⟨-, hc⟩ | ⟨hc, -⟩
    · simp only [e]
      rw [hull_eq hm inc out hk a b, hc.between k hk a b]
      rfl
    · exact absurd hc (by decide)
  case wide =>
    rw [ht, hh] at hz
    have w := hull_ge (xs := fun i => girths.getD i 0) (ys := fun i => chords.getD i 0) hm inc out (w := 0.04 * nc)
      (fun k hk => by have := T.wide k (by omega); rwa [le_div_iff₀ hnc] at this) (t := (z - tack.z) / (head.z - tack.z))
      (T.bottom.trans (div_nonneg (by linarith [hz.1]) hup.le))
      (le_trans (by rw [div_le_one hup]; linarith [hz.2]) T.top)
    rw [enc, le_div_iff₀ hnc]
    exact w

end PySailing.Taper
