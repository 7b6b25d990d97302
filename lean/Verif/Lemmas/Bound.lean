import Verif.Lemmas.Decay

/-!
# Bounds of the vortex kernels by the distance from the filament
-/

namespace PySailing

open Spec

/-- Norm of the velocity of a finite filament. -/
theorem vortexLine_norm {p p1 p2 : V3} (γ : ℝ) (h : ¬ coreTest p p1 p2) :
    ∃ n1 n2 d C R : ℝ, n1 = (p - p1).norm ∧ n2 = (p - p2).norm ∧ d = (p - p1).dot (p - p2) ∧
      C = (V3.cross (p - p1) (p - p2)).norm ∧ R = (p2 - p1).norm ∧
      0 < n1 ∧ 0 < n2 ∧ 0 < C ∧ 0 ≤ R ∧ C ^ 2 = (n1 * n2 - d) * (n1 * n2 + d) ∧ R ^ 2 = n1 ^ 2 + n2 ^ 2 - 2 * d ∧
      0 < n1 * n2 - d ∧ 0 < n1 * n2 + d ∧
      (vortexLine p p1 p2 γ).norm * (n1 * n2 * C) = |γ| / (4 * Real.pi) * ((n1 + n2) * (n1 * n2 - d)) := by
  have hn := not_core_cross h
  rw [vortexLine_regular γ h, V3.norm_smul, V3.norm_smul]
  refine ⟨_, _, _, _, _, rfl, rfl, rfl, rfl, rfl, ?_⟩
  have e0 : p2 - p1 = (p - p1) - (p - p2) := by abel
  rw [e0]
  generalize p - p1 = a at *
  generalize p - p2 = b at *
  have ha0 : 0 < a.norm := V3.norm_pos (by rintro rfl; simp at hn)
  have hb0 : 0 < b.norm := V3.norm_pos (by rintro rfl; simp at hn)
  have hc := V3.norm_pos hn
  have hlag := V3.cross_dot_self a b
  rw [← V3.norm_sq, ← V3.norm_sq, ← V3.norm_sq] at hlag
  have hC : (V3.cross a b).norm ^ 2 = (a.norm * b.norm - a.dot b) * (a.norm * b.norm + a.dot b) := by rw [hlag]; ring
  have hR : (a - b).norm ^ 2 = a.norm ^ 2 + b.norm ^ 2 - 2 * a.dot b := by
    rw [V3.norm_sq, V3.norm_sq, V3.norm_sq, V3.dot_sub_left, V3.dot_sub_right, V3.dot_sub_right, V3.dot_comm b a]
    ring
  have hN := mul_pos ha0 hb0
  have hpos : 0 < (a.norm * b.norm - a.dot b) * (a.norm * b.norm + a.dot b) := by rw [← hC]; positivity
  have hle := V3.dot_le_norm a b
  have h1 : 0 < a.norm * b.norm - a.dot b := lt_of_le_of_ne (by linarith) fun h0 => by
    rw [← h0, zero_mul] at hpos; exact lt_irrefl _ hpos
  have h2 : 0 < a.norm * b.norm + a.dot b := (mul_pos_iff_of_pos_left h1).1 hpos
  refine ⟨ha0, hb0, hc, V3.norm_nonneg _, hC, hR, h1, h2, ?_⟩
  rw [abs_div, abs_of_pos (by positivity : (0 : ℝ) < 4 * Real.pi),
    abs_of_pos (by positivity : 0 < (a.norm + b.norm) / (a.norm * b.norm * (a.norm * b.norm + a.dot b)))]
  have : |γ| / (4 * Real.pi) * ((a.norm + b.norm) / (a.norm * b.norm * (a.norm * b.norm + a.dot b)) * (V3.cross a b).norm) *
      (a.norm * b.norm * (V3.cross a b).norm) = |γ| / (4 * Real.pi) * ((a.norm + b.norm) * (V3.cross a b).norm ^ 2 /
        (a.norm * b.norm + a.dot b)) := by
    field_simp
  rw [this, hC]
  field_simp

theorem bound_inside {n1 n2 d R : ℝ} (h1 : 0 < n1) (h2 : 0 < n2) (hR : 0 ≤ R) (hR2 : R ^ 2 = n1 ^ 2 + n2 ^ 2 - 2 * d)
    (hm : 0 < n1 * n2 - d) (hp : 0 < n1 * n2 + d) : (n1 + n2) * (n1 * n2 - d) ≤ 2 * (n1 * n2) * R := by
  have hN := mul_pos h1 h2
  refine abs_le_of_sq_le_sq' ?_ (by positivity) |>.2
  have e : (2 * (n1 * n2) * R) ^ 2 - ((n1 + n2) * (n1 * n2 - d)) ^ 2 =
      (n1 - n2) ^ 2 * ((n1 * n2 + d) * (2 * (n1 * n2) + (n1 * n2 - d))) + 4 * (n1 * n2) * (n1 * n2 - d) * (n1 * n2 + d) := by
    rw [mul_pow, hR2]; ring
  have : 0 ≤ (2 * (n1 * n2) * R) ^ 2 - ((n1 + n2) * (n1 * n2 - d)) ^ 2 := by rw [e]; positivity
  linarith

theorem bound_outside {n1 n2 d C : ℝ} (h1 : 0 < n1) (h2 : 0 < n2) (hC : 0 < C)
    (hC2 : C ^ 2 = (n1 * n2 - d) * (n1 * n2 + d)) (hm : 0 < n1 * n2 - d) (hd : n1 ^ 2 ≤ d) :
    (n1 + n2) * (n1 * n2 - d) * n1 ≤ 2 * (n1 * n2) * C := by
  have h12 : n1 ≤ n2 := le_of_mul_le_mul_left (by nlinarith : n1 * n1 ≤ n1 * n2) h1
  have hle : n1 * n2 - d ≤ C := abs_le_of_sq_le_sq' (by rw [hC2]; nlinarith [sq_nonneg n1]) hC.le |>.2
  nlinarith [mul_le_mul (by linarith : n1 + n2 ≤ 2 * n2) hle hm.le (by positivity)]

/-- A filament with all its points at distance `δ` or more from `p` induces at most `|γ| / (2 π δ)` there. -/
theorem vortexLine_near_bound (p p1 p2 : V3) (γ : ℝ) {δ : ℝ} (hδ : 0 < δ)
    (h : ∀ t : ℝ, 0 ≤ t → t ≤ 1 → δ ≤ (p - (p1 + t • (p2 - p1))).norm) :
    (vortexLine p p1 p2 γ).norm ≤ |γ| / (2 * Real.pi * δ) := by
  have hpi := Real.pi_pos
  by_cases hc : coreTest p p1 p2
  · rw [vortexLine_core γ hc]
    simp only [V3.norm_zero]
    positivity
  obtain ⟨n1, n2, d, C, R, e1, e2, e3, e4, e5, h1, h2, hC, hR, hC2, hR2, hm, hp, hv⟩ := vortexLine_norm γ hc
  have hr : p2 - p1 = (p - p1) - (p - p2) := by abel
  have key : (n1 + n2) * (n1 * n2 - d) * δ ≤ 2 * (n1 * n2) * C := by
    by_cases c1 : n1 ^ 2 ≤ d
    · have hδ1 : δ ≤ n1 := by
        have := h 0 le_rfl zero_le_one
        rwa [zero_smul, add_zero, ← e1] at this
      have hq : 0 ≤ (n1 + n2) * (n1 * n2 - d) := by positivity
      nlinarith [bound_outside h1 h2 hC hC2 hm c1]
    by_cases c2 : n2 ^ 2 ≤ d
    · have hδ2 : δ ≤ n2 := by
        have := h 1 zero_le_one le_rfl
        rw [one_smul, add_sub_cancel, ← e2] at this
        exact this
      have hq : 0 ≤ (n1 + n2) * (n1 * n2 - d) := by positivity
      have hb := bound_outside (n1 := n2) (n2 := n1) (d := d) h2 h1 hC (by rw [hC2]; ring) (by linarith) c2
      nlinarith
    · push Not at c1 c2
      have hR0 : 0 < R ^ 2 := by rw [hR2]; linarith
      have hRp : 0 < R := lt_of_le_of_ne hR fun h0 => by rw [← h0] at hR0; simp at hR0
      have ht := h ((n1 ^ 2 - d) / R ^ 2) (div_nonneg (by linarith) hR0.le) (by rw [div_le_one hR0, hR2]; linarith)
      have hsq : (p - (p1 + ((n1 ^ 2 - d) / R ^ 2) • (p2 - p1))).norm ^ 2 = C ^ 2 / R ^ 2 := by
        obtain ⟨t, htt⟩ : ∃ t, t = (n1 ^ 2 - d) / R ^ 2 := ⟨_, rfl⟩
        rw [← htt]
        have e : p - (p1 + t • (p2 - p1)) = (1 - t) • (p - p1) + t • (p - p2) := by
          ext <;> simp <;> ring
        rw [e, V3.norm_sq, V3.dot_add_left, V3.dot_add_right, V3.dot_add_right]
        simp only [V3.dot_smul_left, V3.dot_smul_right]
        rw [V3.dot_comm (p - p2) (p - p1), ← V3.norm_sq, ← V3.norm_sq, ← e1, ← e2, ← e3, hC2, eq_div_iff hR0.ne']
        have ht2 : t * R ^ 2 = n1 ^ 2 - d := by rw [htt]; field_simp
        have hR3 := hR2
        obtain ⟨Q, hQ⟩ : ∃ Q, Q = R ^ 2 := ⟨_, rfl⟩
        rw [← hQ] at ht2 hR3 ⊢
        linear_combination (t * Q - (n1 ^ 2 - d)) * ht2 + (n1 ^ 2 - t ^ 2 * Q) * hR3
      have hδC : δ * R ≤ C := by
        refine abs_le_of_sq_le_sq' ?_ hC.le |>.2
        have : δ ^ 2 ≤ C ^ 2 / R ^ 2 := by rw [← hsq]; exact pow_le_pow_left₀ hδ.le ht 2
        rw [le_div_iff₀ hR0] at this
        rwa [mul_pow]
      have hb := bound_inside h1 h2 hR hR2 hm hp
      have hq : 0 ≤ 2 * (n1 * n2) := by positivity
      nlinarith
  have hK : 0 < n1 * n2 * C := by positivity
  rw [le_div_iff₀ (by positivity)]
  refine le_of_mul_le_mul_right ?_ hK
  calc (vortexLine p p1 p2 γ).norm * (2 * Real.pi * δ) * (n1 * n2 * C)
      = (vortexLine p p1 p2 γ).norm * (n1 * n2 * C) * (2 * Real.pi * δ) := by ring
    _ = |γ| / 2 * ((n1 + n2) * (n1 * n2 - d) * δ) := by rw [hv]; field_simp; ring
    _ ≤ |γ| / 2 * (2 * (n1 * n2) * C) := mul_le_mul_of_nonneg_left key (by positivity)
    _ = |γ| * (n1 * n2 * C) := by ring

/-- A filament induces nowhere more than its length times `|γ| / (2 π 10⁻⁴)`: the core of the program cuts
the singularity off. -/
theorem vortexLine_bounded (p p1 p2 : V3) (γ : ℝ) :
    (vortexLine p p1 p2 γ).norm ≤ |γ| * (p2 - p1).norm / (2 * Real.pi * 1e-4) := by
  have hpi := Real.pi_pos
  by_cases hc : coreTest p p1 p2
  · rw [vortexLine_core γ hc]
    simp only [V3.norm_zero]
    have := (p2 - p1).norm_nonneg
    positivity
  have hcc : (1e-4 : ℝ) ≤ (V3.cross (p - p1) (p - p2)).norm := by
    have h3 : ¬ (V3.cross (p - p1) (p - p2)).norm ^ 2 < 1e-8 := fun h3 => hc (by simp only [coreTest]; tauto)
    exact abs_le_of_sq_le_sq' (by push Not at h3; norm_num at h3 ⊢; linarith) (V3.norm_nonneg _) |>.2
  obtain ⟨n1, n2, d, C, R, e1, e2, e3, e4, e5, h1, h2, hC, hR, hC2, hR2, hm, hp, hv⟩ := vortexLine_norm γ hc
  rw [← e4] at hcc
  rw [← e5]
  have hb := bound_inside h1 h2 hR hR2 hm hp
  have hK : 0 < n1 * n2 * C := by positivity
  rw [le_div_iff₀ (by positivity)]
  refine le_of_mul_le_mul_right ?_ hK
  calc (vortexLine p p1 p2 γ).norm * (2 * Real.pi * 1e-4) * (n1 * n2 * C)
      = (vortexLine p p1 p2 γ).norm * (n1 * n2 * C) * (2 * Real.pi * 1e-4) := by ring
    _ = |γ| / 2 * ((n1 + n2) * (n1 * n2 - d)) * 1e-4 := by rw [hv]; field_simp; ring
    _ ≤ |γ| / 2 * (2 * (n1 * n2) * R) * C :=
        mul_le_mul (mul_le_mul_of_nonneg_left hb (by positivity)) hcc (by norm_num) (by positivity)
    _ = |γ| * R * (n1 * n2 * C) := by ring

/-- A trailing vortex with all its points at distance `δ` or more from `P` induces at most `|γ| / (2 π δ)` there. -/
theorem vortexInfiniteLine_near_bound (P A r0 : V3) (γ : ℝ) {δ : ℝ} (hδ : 0 < δ)
    (h : ∀ t : ℝ, 0 ≤ t → δ ≤ (P - (A + t • r0)).norm) :
    (vortexInfiniteLine P A r0 γ).norm ≤ |γ| / (2 * Real.pi * δ) := by
  have hpi := Real.pi_pos
  by_cases hr : r0 = 0
  · have : vortexInfiniteLine P A r0 γ = 0 := by
      rw [hr]
      simp only [vortexInfiniteLine, smul_zero]
      ext <;> simp
    rw [this, V3.norm_zero]
    positivity
  have hr0 := V3.norm_pos hr
  obtain ⟨u, hu⟩ : ∃ u, u = (1 / r0.norm) • r0 := ⟨_, rfl⟩
  have huu : u.norm = 1 := by
    rw [hu, V3.norm_smul, abs_of_pos (by positivity)]
    field_simp
  have hray : ∀ t : ℝ, 0 ≤ t → δ ≤ (P - A - t • u).norm := fun t ht => by
    have := h (t * (1 / r0.norm)) (by positivity)
    rwa [← smul_smul, ← hu, ← sub_sub] at this
  simp only [vortexInfiniteLine, ← hu]
  rw [V3.norm_smul, V3.norm_smul]
  generalize P - A = a at *
  have hn := hray 0 le_rfl
  rw [zero_smul, sub_zero] at hn
  have hna : 0 < a.norm := lt_of_lt_of_le hδ hn
  have hlag := V3.cross_dot_self u a
  rw [← V3.norm_sq, ← V3.norm_sq, ← V3.norm_sq, huu] at hlag
  have hle := V3.dot_le_norm u a
  rw [huu, one_mul] at hle
  obtain ⟨n, hn'⟩ : ∃ n, n = a.norm := ⟨_, rfl⟩
  obtain ⟨s, hs⟩ : ∃ s, s = u.dot a := ⟨_, rfl⟩
  obtain ⟨H, hH⟩ : ∃ H, H = (V3.cross u a).norm := ⟨_, rfl⟩
  have hH0 : 0 ≤ H := by rw [hH]; exact V3.norm_nonneg _
  rw [← hn', ← hs, ← hH] at hlag
  rw [← hn', ← hs] at hle
  rw [← hn'] at hn hna
  rw [← hn', ← hs, ← hH]
  have hH2 : H ^ 2 = (n - s) * (n + s) := by rw [hlag]; ring
  have key : H * δ ≤ 2 * (n * (n - s)) ∧ n - s ≠ 0 := by
    by_cases c : s ≤ 0
    · refine ⟨?_, by linarith⟩
      have : H ≤ n := abs_le_of_sq_le_sq' (by rw [hlag]; nlinarith [sq_nonneg s]) hna.le |>.2
      nlinarith [mul_le_mul this hn hδ.le hna.le]
    · push Not at c
      have hd := hray s c.le
      have hsq : (a - s • u).norm ^ 2 = H ^ 2 := by
        rw [V3.norm_sq, V3.dot_sub_left, V3.dot_sub_right, V3.dot_sub_right]
        simp only [V3.dot_smul_left, V3.dot_smul_right]
        rw [V3.dot_comm a u, ← V3.norm_sq, ← V3.norm_sq, huu, ← hn', ← hs, hlag]
        ring
      have hdH : δ ≤ H := abs_le_of_sq_le_sq' (by rw [← hsq]; exact pow_le_pow_left₀ hδ.le hd 2) hH0 |>.2
      have hHp : 0 < H := lt_of_lt_of_le hδ hdH
      have hns : 0 < n - s := lt_of_le_of_ne (by linarith) fun h0 => by
        rw [← h0, zero_mul] at hH2; exact hHp.ne' (by simpa using hH2)
      refine ⟨?_, hns.ne'⟩
      have : H * δ ≤ H ^ 2 := by nlinarith
      rw [hH2] at this
      nlinarith
  obtain ⟨key, hns⟩ := key
  have hnsp : 0 < n - s := lt_of_le_of_ne (by linarith) (Ne.symm hns)
  rw [abs_div, abs_of_pos (by positivity : (0 : ℝ) < 4 * Real.pi), abs_of_pos (by positivity : 0 < 1 / (n * (n - s))),
    le_div_iff₀ (by positivity)]
  calc |γ| / (4 * Real.pi) * (1 / (n * (n - s)) * H) * (2 * Real.pi * δ)
      = |γ| / 2 * (H * δ / (n * (n - s))) := by field_simp; ring
    _ ≤ |γ| / 2 * 2 := by
        refine mul_le_mul_of_nonneg_left ?_ (by positivity)
        rw [div_le_iff₀ (by positivity)]
        exact key
    _ = |γ| := by ring

end PySailing
