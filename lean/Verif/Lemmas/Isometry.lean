import Verif.Spec.Isometry
import Verif.Lemmas.Csys

/-! # Isometries -/

namespace PySailing

open Spec

namespace Spec.IsIsometry

variable {R : V3 → V3} {ε : ℝ} (h : IsIsometry R ε)
include h

theorem map_zero : R 0 = 0 := by
  have := h.map_smul 0 0
  simpa using this

theorem map_neg (a : V3) : R (-a) = -R a := by
  have := h.map_smul (-1) a
  simpa using this

theorem map_sub (a b : V3) : R (a - b) = R a - R b := by
  rw [sub_eq_add_neg, h.map_add, h.map_neg, sub_eq_add_neg]

theorem norm (a : V3) : (R a).norm = a.norm := by rw [V3.norm, h.dot, V3.norm]

theorem sq_one : ε * ε = 1 := by rcases h.sign with h | h <;> rw [h] <;> norm_num

theorem ne_zero : ε ≠ 0 := by rcases h.sign with h | h <;> rw [h] <;> norm_num

theorem abs_one : |ε| = 1 := by rcases h.sign with h | h <;> rw [h] <;> norm_num

theorem cross_norm (a b : V3) : (V3.cross (R a) (R b)).norm = (V3.cross a b).norm := by
  rw [h.cross, V3.norm_smul, h.abs_one, one_mul, h.norm]

theorem injective : Function.Injective R := by
  intro a b hab
  have h1 : R (a - b) = 0 := by rw [h.map_sub, hab, sub_self]
  have h2 : (a - b).norm = 0 := by rw [← h.norm, h1, V3.norm_zero]
  exact sub_eq_zero.1 (V3.norm_eq_zero.1 h2)

theorem eq_zero_iff (a : V3) : R a = 0 ↔ a = 0 := by
  constructor
  · intro h0; apply h.injective; rw [h0, h.map_zero]
  · rintro rfl; exact h.map_zero

theorem move_sub (t a b : V3) : move R t a - move R t b = R (a - b) := by
  rw [move, move, h.map_sub]; abel

theorem map_sum (l : List V3) : (l.map R).sum = R l.sum := by
  induction l with
  | nil => simp [h.map_zero]
  | cons a l ih => simp [ih, h.map_add]

end Spec.IsIsometry

theorem isIsometry_rodrigues (u : V3) (hu : u.dot u = 1) (θ : ℝ) :
    IsIsometry (rodrigues u θ) 1 where
  map_add := rodrigues_add u θ
  map_smul := rodrigues_smul u θ
  dot := rodrigues_dot u θ hu
  cross a b := by rw [rodrigues_cross u θ hu, one_smul]
  sign := .inl rfl

theorem isIsometry_mirror : IsIsometry mirror (-1) where
  map_add a b := by ext <;> simp [mirror]; ring
  map_smul s a := by ext <;> simp [mirror]
  dot a b := by simp [mirror, V3.dot]
  cross a b := by ext <;> simp [mirror] <;> ring
  sign := .inr rfl

theorem isIsometry_id : IsIsometry id 1 where
  map_add _ _ := rfl
  map_smul _ _ := rfl
  dot _ _ := rfl
  cross a b := by simp
  sign := .inl rfl

theorem mirror_mirror (p : V3) : mirror (mirror p) = p := by ext <;> simp [mirror]

end PySailing
