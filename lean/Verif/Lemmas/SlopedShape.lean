import Verif.Lemmas.TaperSail
import Verif.Spec.Runner

/-!
# Sails with a leech of bounded slope, given by their rows
-/

namespace PySailing.Taper

open Spec Set

/-- The part of `[k, k + 1]` below `t`. -/
noncomputable def ramp (k : ℕ) (t : ℝ) : ℝ := max 0 (min 1 (t - k))

/-- The polygon through the points `(k, ys k)`. -/
noncomputable def polygon (n : ℕ) (ys : ℕ → ℝ) (t : ℝ) : ℝ := ys 0 + ∑ k ∈ Finset.range n, ramp k t * (ys (k + 1) - ys k)

theorem ramp_low {k : ℕ} {t : ℝ} (h : t ≤ k) : ramp k t = 0 := by
  unfold ramp
  rw [min_eq_right (by linarith), max_eq_left (by linarith)]

theorem ramp_high {k : ℕ} {t : ℝ} (h : (k : ℝ) + 1 ≤ t) : ramp k t = 1 := by
  unfold ramp
  rw [min_eq_left (by linarith), max_eq_right (by linarith)]

theorem ramp_mid {k : ℕ} {t : ℝ} (h : (k : ℝ) ≤ t) (h' : t ≤ k + 1) : ramp k t = t - k := by
  unfold ramp
  rw [min_eq_right (by linarith), max_eq_right (by linarith)]

theorem ramp_mono (k : ℕ) {t t' : ℝ} (h : t ≤ t') : ramp k t ≤ ramp k t' :=
  max_le_max_left _ (min_le_min_left _ (by linarith))

theorem polygon_succ (n : ℕ) (ys : ℕ → ℝ) (t : ℝ) : polygon (n + 1) ys t = polygon n ys t + ramp n t * (ys (n + 1) - ys n) := by
  unfold polygon
  rw [Finset.sum_range_succ, add_assoc]

/-- Behind its last point the polygon is constant. -/
theorem polygon_end (n : ℕ) (ys : ℕ → ℝ) {t : ℝ} (h : (n : ℝ) ≤ t) : polygon n ys t = ys n := by
  induction n with
  | zero => simp [polygon]
  | succ n ih =>
    push_cast at h
    rw [polygon_succ, ih (by linarith), ramp_high h]
    ring

theorem polygon_low (n : ℕ) (ys : ℕ → ℝ) {t : ℝ} (h : t ≤ n) : polygon (n + 1) ys t = polygon n ys t := by
  rw [polygon_succ, ramp_low h, zero_mul, add_zero]

theorem polygon_row {n r : ℕ} (ys : ℕ → ℝ) (h : r ≤ n) : polygon n ys r = ys r := by
  induction n with
  | zero => obtain rfl : r = 0 := by omega
            simp [polygon]
  | succ n ih =>
    by_cases hr : r ≤ n
    · rw [polygon_low n ys (by exact_mod_cast hr), ih hr]
    · obtain rfl : r = n + 1 := by omega
      exact polygon_end _ _ le_rfl

theorem polygon_ge {n : ℕ} {ys : ℕ → ℝ} {w : ℝ} (hw : ∀ r ≤ n, w ≤ ys r) {t : ℝ} (h1 : t ≤ n) : w ≤ polygon n ys t := by
  induction n with
  | zero => simpa [polygon] using hw 0 le_rfl
  | succ n ih =>
    push_cast at h1
    rcases le_total t n with h | h
    · rw [polygon_low n ys h]
      exact ih (fun r hr => hw r (by omega)) h
    · rw [polygon_succ, polygon_end n ys h, ramp_mid h h1]
      have a := hw n (by omega)
      have b := hw (n + 1) le_rfl
      nlinarith

theorem sum_ramp (n : ℕ) {t : ℝ} (h0 : 0 ≤ t) (h1 : t ≤ n) : ∑ k ∈ Finset.range n, ramp k t = t := by
  induction n with
  | zero => push_cast at h1; simp; linarith
  | succ n ih =>
    push_cast at h1
    rw [Finset.sum_range_succ]
    rcases le_total t n with h | h
    · rw [ramp_low h, add_zero, ih h]
    · have : ∑ k ∈ Finset.range n, ramp k t = n := by
        rw [Finset.sum_congr rfl (g := fun _ => (1 : ℝ)) fun k hk => ramp_high ?_]
        · simp
        · have : (k : ℝ) + 1 ≤ n := by exact_mod_cast Finset.mem_range.1 hk
          linarith
      rw [this, ramp_mid h h1]
      ring

/-- Slope of a polygon plus a linear function. -/
theorem polygon_slope {n : ℕ} {ys : ℕ → ℝ} {m q D : ℝ} (hD : ∀ r < n, |m + q * (ys (r + 1) - ys r)| ≤ D) {t t' : ℝ} (h0 : 0 ≤ t) (h : t ≤ t')
    (h1 : t' ≤ n) : |(m * t' + q * polygon n ys t') - (m * t + q * polygon n ys t)| ≤ D * (t' - t) := by
  have e : (m * t' + q * polygon n ys t') - (m * t + q * polygon n ys t) =
      ∑ k ∈ Finset.range n, (ramp k t' - ramp k t) * (m + q * (ys (k + 1) - ys k)) := by
    have s1 := sum_ramp n h0 (h.trans h1)
    have s2 := sum_ramp n (h0.trans h) h1
    have : ∑ k ∈ Finset.range n, (ramp k t' - ramp k t) * (m + q * (ys (k + 1) - ys k)) =
        m * (∑ k ∈ Finset.range n, ramp k t') - m * (∑ k ∈ Finset.range n, ramp k t) +
        q * (∑ k ∈ Finset.range n, ramp k t' * (ys (k + 1) - ys k)) - q * (∑ k ∈ Finset.range n, ramp k t * (ys (k + 1) - ys k)) := by
      rw [Finset.mul_sum, Finset.mul_sum, Finset.mul_sum, Finset.mul_sum, ← Finset.sum_sub_distrib, ← Finset.sum_add_distrib,
        ← Finset.sum_sub_distrib]
      exact Finset.sum_congr rfl fun k _ => by ring
    rw [this, s1, s2]
    unfold polygon
    ring
  rw [e]
  refine (Finset.abs_sum_le_sum_abs _ _).trans ?_
  have e2 : D * (t' - t) = ∑ k ∈ Finset.range n, (ramp k t' - ramp k t) * D := by
    rw [← Finset.sum_mul, Finset.sum_sub_distrib, sum_ramp n h0 (h.trans h1), sum_ramp n (h0.trans h) h1]
    ring
  rw [e2]
  refine Finset.sum_le_sum fun k hk => ?_
  have := sub_nonneg.2 (ramp_mono k h)
  rw [abs_mul, abs_of_nonneg this]
  exact mul_le_mul_of_nonneg_left (hD k (Finset.mem_range.1 hk)) this

/-- A sail designed with such data. -/
theorem sloped {kind : String} {ns nc : ℕ} {csys : Csys} {girths chords di : List ℝ} {tack head : V3} {τ Q : ℝ} {s : SailInput × (ℕ → ℝ)}
    (hok : SailOk s.1 s.2) (h : DesignedSail kind ns nc csys girths chords (List.replicate girths.length τ)
      (List.replicate girths.length 0) di tack head s) (hcsys : csys.heelDeg = 0)
    (hτ : ∀ {v : ℝ} {r : ℕ}, r ≤ ns → CurveValue kind (girths.length - 1) (fun i => girths.getD i 0)
      (fun i => (List.replicate girths.length τ).getD i 0) ((r : ℝ) / ns) v → v = τ)
    (h0 : ∀ {v : ℝ} {r : ℕ}, r ≤ ns → CurveValue kind (girths.length - 1) (fun i => girths.getD i 0)
      (fun i => (List.replicate girths.length 0).getD i 0) ((r : ℝ) / ns) v → v = 0)
    (T : SlopedShape kind nc ns girths chords tack head τ Q) : ∃ chord, SlopedSail s.1 s.2 chord τ Q := by
  have hns0 := hok.ns_pos
  have hnc0 := hok.nc_pos
  have ens := h.ns_eq
  have enc := h.nc_eq
  rw [ens] at hns0
  rw [enc] at hnc0
  have hns : (0 : ℝ) < ns := by exact_mod_cast hns0
  have hnc : (0 : ℝ) < nc := by exact_mod_cast hnc0
  have hup := sub_pos.2 T.up
  have ht : s.1.tack = tack := h.tack_eq
  have hh : s.1.head = head := h.head_eq
  have hpar : ∀ {z : ℝ}, z ∈ Icc tack.z head.z → 0 ≤ (z - tack.z) / (head.z - tack.z) * ns ∧ (z - tack.z) / (head.z - tack.z) * ns ≤ ns := by
    intro z hz
    have a : 0 ≤ (z - tack.z) / (head.z - tack.z) := div_nonneg (by linarith [hz.1]) hup.le
    have b : (z - tack.z) / (head.z - tack.z) ≤ 1 := by rw [div_le_one hup]; linarith [hz.2]
    exact ⟨by positivity, by nlinarith⟩
  refine ⟨fun z => polygon ns (fun r => s.1.chords.getD r 0) ((z - tack.z) / (head.z - tack.z) * ns), {
    ok := hok
    upright := by rw [h.csys_eq]; exact hcsys
    luff := by rw [ht, hh]; exact T.luff
    up := by rw [ht, hh]; exact T.up
    slope_nonneg := T.slope_nonneg
    slope := ?slope
    chords := fun r hr => ?chords
    camber := fun r hr => h0 (ens ▸ hr) (h.camber.2 r (ens ▸ hr))
    twist := fun r hr => hτ (ens ▸ hr) (h.twist r (ens ▸ hr))
    high := by rw [ht, hh, ens]; exact T.high
    wide := fun z hz => ?wide }⟩
  case slope =>
    have key : ∀ z ∈ Icc tack.z head.z, ∀ z' ∈ Icc tack.z head.z, z ≤ z' →
        |aftEdge s.1 (fun z => polygon ns (fun r => s.1.chords.getD r 0) ((z - tack.z) / (head.z - tack.z) * ns)) z' -
          aftEdge s.1 (fun z => polygon ns (fun r => s.1.chords.getD r 0) ((z - tack.z) / (head.z - tack.z) * ns)) z| ≤ Q * (z' - z) := by
      intro z hz z' hz' hle
      have hD : ∀ r < ns, |(head.x - tack.x) / ns + (1 + 1 / (4 * (nc : ℝ))) *
          ((fun r => s.1.chords.getD r 0) (r + 1) - (fun r => s.1.chords.getD r 0) r)| ≤ Q * ((head.z - tack.z) / ns) :=
        fun r hr => T.slope r hr _ _ (h.chords.2 r hr.le) (h.chords.2 (r + 1) hr)
      have := polygon_slope (ys := fun r => s.1.chords.getD r 0) (m := (head.x - tack.x) / ns) (q := 1 + 1 / (4 * (nc : ℝ)))
        (D := Q * ((head.z - tack.z) / ns)) hD (hpar hz).1 (t' := (z' - tack.z) / (head.z - tack.z) * ns)
        (by gcongr) (hpar hz').2
      have e1 : Q * ((head.z - tack.z) / ns) * ((z' - tack.z) / (head.z - tack.z) * ns - (z - tack.z) / (head.z - tack.z) * ns) = Q * (z' - z) := by
        field_simp
        ring
      rw [e1] at this
      refine le_trans (le_of_eq ?_) this
      congr 1
      simp only [aftEdge, luffAt, ht, hh, enc]
      field_simp
      ring
    rw [ht, hh]
    intro z hz z' hz'
    rcases le_total z z' with hle | hle
    · rw [abs_sub_comm, abs_sub_comm z z', abs_of_nonneg (sub_nonneg.2 hle)]
      exact key z hz z' hz' hle
    · rw [abs_of_nonneg (sub_nonneg.2 hle)]
      exact key z' hz' z hz hle
  case chords =>
    have hr' : r ≤ ns := ens ▸ hr
    have e : (s.1.tack.z + (r : ℝ) / s.1.ns * (s.1.head.z - s.1.tack.z) - tack.z) / (head.z - tack.z) * ns = (r : ℝ) := by
      rw [ht, hh, ens]; field_simp; ring
    simp only [e]
    rw [polygon_row _ hr']
  case wide =>
    rw [ht, hh] at hz
    rw [enc, le_div_iff₀ hnc]
    refine polygon_ge (fun r hr => ?_) (hpar hz).2
    have := T.wide r hr _ (h.chords.2 r hr)
    rwa [le_div_iff₀ hnc] at this

end PySailing.Taper
