import Verif.Spec.Potential
import Verif.Lemmas.Kernels

/-!
# Decay of the vortex kernels
-/

namespace PySailing

open Spec

theorem V3.dot_le_norm (a b : V3) : a.dot b ≤ a.norm * b.norm := by
  have h := V3.cross_dot_self a b
  have h0 := V3.dot_self_nonneg (V3.cross a b)
  rw [h, ← V3.norm_sq, ← V3.norm_sq] at h0
  exact (le_abs_self _).trans (abs_le_of_sq_le_sq (by nlinarith) (mul_nonneg a.norm_nonneg b.norm_nonneg))

theorem V3.norm_add_le (a b : V3) : (a + b).norm ≤ a.norm + b.norm := by
  have h := V3.dot_le_norm a b
  have ha := a.norm_nonneg
  have hb := b.norm_nonneg
  refine abs_le_of_sq_le_sq' ?_ (by positivity) |>.2
  rw [V3.norm_sq, V3.dot_add_left, V3.dot_add_right, V3.dot_add_right, V3.dot_comm b a, ← V3.norm_mul_self, ← V3.norm_mul_self]
  nlinarith

theorem V3.norm_sub_ge (p a : V3) : p.norm - a.norm ≤ (p - a).norm := by
  have h := V3.norm_add_le (p - a) a
  rw [sub_add_cancel] at h
  linarith

/-- On the set `S` the field `v` decays at least like the inverse of the distance. -/
def FarBound (S : V3 → Prop) (v : V3 → V3) : Prop :=
  ∃ C R : ℝ, 0 < R ∧ ∀ p, S p → R ≤ p.norm → (v p).norm * p.norm ≤ C

namespace FarBound

variable {S T : V3 → Prop} {v w : V3 → V3}

theorem mono (h : FarBound S v) (hs : ∀ p, T p → S p) : FarBound T v := by
  obtain ⟨C, R, hR, hp⟩ := h
  exact ⟨C, R, hR, fun p hT => hp p (hs p hT)⟩

theorem zero : FarBound S (fun _ => 0) := ⟨0, 1, one_pos, by simp⟩

theorem add (hv : FarBound S v) (hw : FarBound S w) : FarBound S fun p => v p + w p := by
  obtain ⟨C, R, hR, hp⟩ := hv
  obtain ⟨C', R', -, hp'⟩ := hw
  refine ⟨C + C', max R R', lt_max_of_lt_left hR, fun p hs h => ?_⟩
  have h1 := hp p hs (le_trans (le_max_left _ _) h)
  have h2 := hp' p hs (le_trans (le_max_right _ _) h)
  have h3 := V3.norm_add_le (v p) (w p)
  have h4 := p.norm_nonneg
  nlinarith

theorem smul (c : ℝ) (hv : FarBound S v) : FarBound S fun p => c • v p := by
  obtain ⟨C, R, hR, hp⟩ := hv
  refine ⟨|c| * C, R, hR, fun p hs h => ?_⟩
  rw [V3.norm_smul, mul_assoc]
  exact mul_le_mul_of_nonneg_left (hp p hs h) (abs_nonneg c)

theorem sum {ι : Type} (s : Finset ι) {f : ι → V3 → V3} (h : ∀ i ∈ s, FarBound S (f i)) :
    FarBound S fun p => ∑ i ∈ s, f i p := by
  classical
  induction s using Finset.induction_on with
  | empty => simpa using zero
  | insert i s hi ih =>
    have := (h i (Finset.mem_insert_self _ _)).add (ih fun j hj => h j (Finset.mem_insert_of_mem hj))
    simpa [Finset.sum_insert hi] using this

end FarBound

theorem vortexLine_bound {p p1 p2 : V3} (γ : ℝ) (h : ¬ coreTest p p1 p2)
    (h1 : (p2 - p1).norm ≤ (p - p1).norm) (h2 : (p2 - p1).norm ≤ (p - p2).norm) :
    (vortexLine p p1 p2 γ).norm ≤ |γ / (4 * Real.pi)| * ((p2 - p1).norm *
      (1 / (p - p1).norm + 1 / (p - p2).norm) * (1 / (p - p1).norm)) := by
  have hn := not_core_cross h
  rw [vortexLine_regular γ h, V3.norm_smul]
  refine mul_le_mul_of_nonneg_left ?_ (abs_nonneg _)
  obtain ⟨a, ha⟩ : ∃ a, a = p - p1 := ⟨_, rfl⟩
  obtain ⟨b, hb⟩ : ∃ b, b = p - p2 := ⟨_, rfl⟩
  obtain ⟨r, hr⟩ : ∃ r, r = p2 - p1 := ⟨_, rfl⟩
  have hrab : r = a - b := by rw [ha, hb, hr]; abel
  rw [← hr, ← ha] at h1
  rw [← hr, ← hb] at h2
  rw [← ha, ← hb] at hn
  rw [← ha, ← hb, ← hr]
  have ha0 : 0 < a.norm := V3.norm_pos (by rintro rfl; simp at hn)
  have hb0 : 0 < b.norm := V3.norm_pos (by rintro rfl; simp at hn)
  have hr0 := r.norm_nonneg
  have hc : (V3.cross a b).norm ≤ r.norm * b.norm := by
    have : V3.cross a b = V3.cross r b := by rw [hrab]; ext <;> simp <;> ring
    rw [this]; exact V3.cross_norm_le r b
  have hD : a.norm * b.norm ≤ a.norm * b.norm + a.dot b := by
    have e : r.norm ^ 2 = a.norm ^ 2 + b.norm ^ 2 - 2 * a.dot b := by
      rw [V3.norm_sq, V3.norm_sq, V3.norm_sq, hrab, V3.dot_sub_left, V3.dot_sub_right, V3.dot_sub_right, V3.dot_comm b a]
      ring
    nlinarith [mul_le_mul h1 h2 hr0 ha0.le, sq_nonneg (a.norm - b.norm)]
  have hab : 0 < a.norm * b.norm := mul_pos ha0 hb0
  have hq : 0 ≤ (a.norm + b.norm) / (a.norm * b.norm * (a.norm * b.norm + a.dot b)) := by
    have : 0 < a.norm * b.norm + a.dot b := by linarith
    positivity
  rw [V3.norm_smul, abs_of_nonneg hq]
  calc (a.norm + b.norm) / (a.norm * b.norm * (a.norm * b.norm + a.dot b)) * (V3.cross a b).norm
      ≤ (a.norm + b.norm) / (a.norm * b.norm * (a.norm * b.norm)) * (r.norm * b.norm) := by
        refine mul_le_mul ?_ hc (V3.norm_nonneg _) (by positivity)
        exact div_le_div_of_nonneg_left (by positivity) (by positivity) (mul_le_mul_of_nonneg_left hD hab.le)
    _ = r.norm * (1 / a.norm + 1 / b.norm) * (1 / a.norm) := by field_simp; ring

theorem vortexLine_far_bound (p1 p2 : V3) (γ : ℝ) : FarBound (fun _ => True) fun p => vortexLine p p1 p2 γ := by
  obtain ⟨A, hA⟩ : ∃ A, A = |γ / (4 * Real.pi)| := ⟨_, rfl⟩
  have hA0 : 0 ≤ A := by rw [hA]; exact abs_nonneg _
  obtain ⟨l, hl⟩ : ∃ l, l = (p2 - p1).norm := ⟨_, rfl⟩
  have hl0 : 0 ≤ l := by rw [hl]; exact V3.norm_nonneg _
  have n1 := p1.norm_nonneg
  have n2 := p2.norm_nonneg
  refine ⟨A * (l * 8), 2 * (p1.norm + p2.norm + l) + 1, by positivity, fun p _ hp => ?_⟩
  beta_reduce
  by_cases h : coreTest p p1 p2
  · rw [vortexLine_core _ h]
    simp; positivity
  have g1 := V3.norm_sub_ge p p1
  have g2 := V3.norm_sub_ge p p2
  have hb := vortexLine_bound γ h (by rw [← hl]; linarith) (by rw [← hl]; linarith)
  rw [← hA, ← hl] at hb
  obtain ⟨x, hx⟩ : ∃ x, x = p.norm := ⟨_, rfl⟩
  rw [← hx] at hp g1 g2 ⊢
  have hx1 : 1 ≤ x := by linarith
  have i1 : 1 / (p - p1).norm ≤ 2 / x := by
    rw [div_le_div_iff₀ (by linarith) (by linarith)]; linarith
  have i2 : 1 / (p - p2).norm ≤ 2 / x := by
    rw [div_le_div_iff₀ (by linarith) (by linarith)]; linarith
  have j1 : 0 ≤ 1 / (p - p1).norm := by have := V3.norm_nonneg (p - p1); positivity
  have j2 : 0 ≤ 1 / (p - p2).norm := by have := V3.norm_nonneg (p - p2); positivity
  calc (vortexLine p p1 p2 γ).norm * x ≤ A * (l * (1 / (p - p1).norm + 1 / (p - p2).norm) * (1 / (p - p1).norm)) * x := by
        exact mul_le_mul_of_nonneg_right hb (by linarith)
    _ ≤ A * (l * (2 / x + 2 / x) * (2 / x)) * x := by gcongr
    _ = A * (l * 8) * (1 / x) := by field_simp; ring
    _ ≤ A * (l * 8) * 1 := by
        refine mul_le_mul_of_nonneg_left ?_ (by positivity)
        rw [div_le_one (by linarith)]; exact hx1
    _ = A * (l * 8) := mul_one _

theorem wake_far_bound (A V : V3) (γ : ℝ) :
    FarBound (fun p => (p - A).dot V ≤ 0) fun p => vortexInfiniteLine p A V γ := by
  obtain ⟨k, hk⟩ : ∃ k, k = |γ / (4 * Real.pi)| := ⟨_, rfl⟩
  have hk0 : 0 ≤ k := by rw [hk]; exact abs_nonneg _
  have n1 := A.norm_nonneg
  refine ⟨k * 2, 2 * A.norm + 1, by positivity, fun p hs hp => ?_⟩
  beta_reduce at hs ⊢
  have g := V3.norm_sub_ge p A
  unfold vortexInfiniteLine
  simp only
  obtain ⟨u, hu⟩ : ∃ u, u = (1 / V.norm) • V := ⟨_, rfl⟩
  obtain ⟨a, ha⟩ : ∃ a, a = p - A := ⟨_, rfl⟩
  rw [← ha] at hs g
  rw [← hu, ← ha, V3.norm_smul, V3.norm_smul, ← hk]
  have hun : u.norm ≤ 1 := by
    have hv := V.norm_nonneg
    rw [hu, V3.norm_smul, abs_of_nonneg (by positivity)]
    rcases hv.eq_or_lt with h | h
    · rw [← h]; simp
    · rw [one_div, inv_mul_cancel₀ h.ne']
  have hua : u.dot a ≤ 0 := by
    rw [hu, V3.dot_smul_left, V3.dot_comm]
    have hv := V.norm_nonneg
    exact mul_nonpos_of_nonneg_of_nonpos (by positivity) hs
  have ha0 : 0 < a.norm := by linarith
  have hden : a.norm * a.norm ≤ a.norm * (a.norm - u.dot a) := mul_le_mul_of_nonneg_left (by linarith) ha0.le
  have hpos : 0 < a.norm * (a.norm - u.dot a) := lt_of_lt_of_le (mul_pos ha0 ha0) hden
  have hc : (V3.cross u a).norm ≤ a.norm :=
    (V3.cross_norm_le u a).trans (by nlinarith [V3.norm_nonneg a])
  rw [abs_of_nonneg (one_div_nonneg.2 hpos.le)]
  have hx0 : 0 ≤ p.norm := by linarith
  calc k * (1 / (a.norm * (a.norm - u.dot a)) * (V3.cross u a).norm) * p.norm
      ≤ k * (1 / (a.norm * a.norm) * a.norm) * p.norm := by
        have : 1 / (a.norm * (a.norm - u.dot a)) ≤ 1 / (a.norm * a.norm) :=
          one_div_le_one_div_of_le (mul_pos ha0 ha0) hden
        have h3 := V3.norm_nonneg (V3.cross u a)
        gcongr
    _ = k * (p.norm / a.norm) := by field_simp
    _ ≤ k * 2 := by
        refine mul_le_mul_of_nonneg_left ?_ hk0
        rw [div_le_iff₀ ha0]; linarith

variable {K : ℕ}

theorem lattice_far_bound (L : Fin K → PanelVars) (te : Fin K → Bool) (V : Fin K → V3) (g : ℝ) (γ : Fin K → ℝ) :
    FarBound (fun p => eachFilament L te V (fun _ _ => True) fun a w => (p - a).dot w ≤ 0)
      (latticeVelocity L te V g γ) := by
  have hj : ∀ j, FarBound (fun p => eachFilament L te V (fun _ _ => True) fun a w => (p - a).dot w ≤ 0)
      (fun p => γ j • (if te j then
        vortexHorseshoeV2 p (L j).ring.A (L j).ring.B (L j).ring.C (L j).ring.D (V j) g
      else vortexRing p (L j).ring.A (L j).ring.B (L j).ring.C (L j).ring.D g)) := fun j => by
    refine FarBound.smul (γ j) ?_
    have hl (a b : V3) : FarBound (fun p => eachFilament L te V (fun _ _ => True) fun a w => (p - a).dot w ≤ 0)
      (fun p => vortexLine p a b g) := (vortexLine_far_bound a b g).mono fun _ _ => trivial
    by_cases ht : te j = true
    · simp only [ht, if_true]
      have hA (γ : ℝ) := (wake_far_bound (L j).ring.A (V j) γ).mono
        (T := fun p => eachFilament L te V (fun _ _ => True) fun a w => (p - a).dot w ≤ 0)
        fun p hp => by have := (hp j).2.2.2; rw [if_pos ht] at this; exact this.1
      have hD (γ : ℝ) := (wake_far_bound (L j).ring.D (V j) γ).mono
        (T := fun p => eachFilament L te V (fun _ _ => True) fun a w => (p - a).dot w ≤ 0)
        fun p hp => by have := (hp j).2.2.2; rw [if_pos ht] at this; exact this.2
      exact ((((hl _ _).add (hl _ _)).add (hl _ _)).add (hD g)).add (hA (-1 * g))
    · simp only [ht, if_false, Bool.false_eq_true]
      exact (((hl _ _).add (hl _ _)).add (hl _ _)).add (hl _ _)
  exact FarBound.sum Finset.univ fun j _ => hj j

end PySailing
