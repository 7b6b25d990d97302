import Verif.Lemmas.FlatSail
import Verif.Lemmas.Continuity

/-!
# Rectangular lattices lie on no switching surface
-/

namespace PySailing

open Spec

namespace PlaneFrame

variable {e s : V3} {O : V3}

theorem norm_sq (F : PlaneFrame e s) (x y x' y' : ℝ) :
    (planePt O e s x y - planePt O e s x' y').norm ^ 2 = (x - x') ^ 2 + (y - y') ^ 2 := by
  have h1 := F.ee
  have h2 := F.ss
  have h3 := F.es
  rw [PlanarBlocks.planePt_sub, V3.norm_sq]
  simp only [V3.dot, V3.add_x, V3.add_y, V3.add_z, V3.smul_x, V3.smul_y, V3.smul_z] at *
  linear_combination (x - x') ^ 2 * h1 + (y - y') ^ 2 * h2 + 2 * (x - x') * (y - y') * h3

theorem cross_norm_sq (F : PlaneFrame e s) (x y x1 y1 x2 y2 : ℝ) :
    (V3.cross (planePt O e s x y - planePt O e s x1 y1) (planePt O e s x y - planePt O e s x2 y2)).norm ^ 2 =
      ((y - y1) * (x - x2) - (x - x1) * (y - y2)) ^ 2 := by
  rw [PlanarBlocks.planePt_sub, PlanarBlocks.planePt_sub, PlaneFrame.cross, V3.norm_sq, V3.dot_smul_left, V3.dot_comm, V3.dot_smul_left,
    F.nn]
  ring

theorem off {x y x1 y1 x2 y2 : ℝ} (F : PlaneFrame e s) (h1 : 1e-8 < |y - y1|) (h2 : 1e-8 < |y - y2|)
    (h3 : (y - y1) * (x - x2) - (x - x1) * (y - y2) = 0 ∨ 1e-4 < |(y - y1) * (x - x2) - (x - x1) * (y - y2)|) :
    ¬ OnCoreBoundary (planePt O e s x y) (planePt O e s x1 y1) (planePt O e s x2 y2) := by
  have key : ∀ {a b : ℝ}, 1e-8 < |a| → (b ^ 2 + a ^ 2 : ℝ) ≠ 1e-8 ^ 2 := fun {a b} h e => by
    have : (1e-8 : ℝ) ^ 2 < |a| ^ 2 := pow_lt_pow_left₀ h (by norm_num) (by norm_num)
    rw [sq_abs] at this
    nlinarith [sq_nonneg b]
  rintro (h | h | h)
  · apply key h1 (b := x - x1)
    rw [← F.norm_sq (O := O), h]
  · apply key h2 (b := x - x2)
    rw [← F.norm_sq (O := O), h]
  · rw [F.cross_norm_sq] at h
    rcases h3 with h3 | h3
    · rw [h3] at h; norm_num at h
    · have : (1e-4 : ℝ) ^ 2 < |(y - y1) * (x - x2) - (x - x1) * (y - y2)| ^ 2 := pow_lt_pow_left₀ h3 (by norm_num) (by norm_num)
      rw [sq_abs, h] at this
      norm_num at this

/-- No filament of a ring has a point beside it on the boundary of its core, if the point is at least half a panel away
sideways, and in line with the cross filaments or at least half a panel away. -/
theorem off_ring {x y x1 x2 y1 y2 δ w : ℝ} (F : PlaneFrame e s) (hδ : 0 < δ) (hw : 2e-8 < w) (hbig : 2e-4 < δ * w) (h1 : w / 2 ≤ |y - y1|)
    (h2 : w / 2 ≤ |y - y2|) (hx : δ ≤ |x1 - x2|) (hy : w ≤ |y1 - y2|) (h3 : x = x1 ∨ δ / 2 ≤ |x - x1|) (h4 : x = x2 ∨ δ / 2 ≤ |x - x2|)
    {v : PanelVars} (hv : v.ring = ⟨planePt O e s x2 y1, planePt O e s x1 y1, planePt O e s x1 y2, planePt O e s x2 y2⟩) :
    OffCores (planePt O e s x y) v := by
  have a1 : (1e-8 : ℝ) < |y - y1| := by linarith
  have a2 : (1e-8 : ℝ) < |y - y2| := by linarith
  have span : ∀ {x' : ℝ}, (x = x' ∨ δ / 2 ≤ |x - x'|) → (y - y1) * (x - x') - (x - x') * (y - y2) = 0 ∨
      1e-4 < |(y - y1) * (x - x') - (x - x') * (y - y2)| := by
    intro x' h
    rcases h with h | h
    · left; rw [h]; ring
    · right
      rw [show (y - y1) * (x - x') - (x - x') * (y - y2) = (x - x') * (-(y1 - y2)) by ring, abs_mul, abs_neg]
      have := mul_le_mul h hy (by linarith) (abs_nonneg _)
      linarith
  have along : ∀ {y' : ℝ}, w / 2 ≤ |y - y'| → 1e-4 < |(y - y') * (x - x2) - (x - x1) * (y - y')| := by
    intro y' h
    rw [show (y - y') * (x - x2) - (x - x1) * (y - y') = (y - y') * (x1 - x2) by ring, abs_mul]
    have := mul_le_mul h hx hδ.le (abs_nonneg _)
    linarith
  have flip : ∀ {a b c d : ℝ}, (a * b - c * d = 0 ∨ 1e-4 < |a * b - c * d|) → (d * c - b * a = 0 ∨ 1e-4 < |d * c - b * a|) := by
    intro a b c d h
    rw [show d * c - b * a = -(a * b - c * d) by ring, abs_neg, neg_eq_zero]
    exact h
  unfold OffCores
  rw [hv]
  refine ⟨F.off a1 a1 (flip (Or.inr (along h1))), F.off a1 a2 (span h3), F.off a2 a2 (Or.inr (along h2)), F.off a2 a1 (flip ?_)⟩
  exact span h4

end PlaneFrame

namespace PlanarBlocks

variable {O e s : V3} {δ : ℝ} {nc ns : ℕ} {ζ : ℕ → ℕ → ℝ} {blocks : List (ℕ → ℕ → V3)}

theorem mem_vars {g : ℝ} {v : PanelVars} (hv : v ∈ vars g nc ns blocks) :
    ∃ (b i j : ℕ) (hb : b < blocks.length), i < nc ∧ j < ns ∧ v = meshVars g nc blocks[b] i j := by
  obtain ⟨k, hk, rfl⟩ := List.getElem_of_mem hv
  have hk' := hk
  rw [vars_length] at hk'
  obtain ⟨b, i, j, hb, hi, hj, rfl⟩ := panelNo_surj hk'
  have := blocks_get blocks (meshVars g nc) hb hi hj
  exact ⟨b, i, j, hb, hi, hj, (List.getElem?_eq_some_iff.1 this).2⟩

theorem half_le (P : PlanarBlocks O e s δ nc ns ζ blocks) {b j b' j' : ℕ} (hb : b < blocks.length) (hj : j < ns)
    (hb' : b' < blocks.length) (hj' : j' < ns) :
    (ζ b (j + 1) - ζ b j) / 2 ≤ |(ζ b j + ζ b (j + 1)) / 2 - ζ b' j'| ∧
      (ζ b (j + 1) - ζ b j) / 2 ≤ |(ζ b j + ζ b (j + 1)) / 2 - ζ b' (j' + 1)| := by
  have l1 := P.lt b j hb hj
  have l2 := P.lt b' j' hb' hj'
  by_cases h : (b, j) = (b', j')
  · obtain ⟨rfl, rfl⟩ := Prod.ext_iff.1 h
    exact ⟨le_abs.2 (Or.inl (by linarith)), le_abs.2 (Or.inr (by linarith))⟩
  · rcases P.disj b j b' j' hb hj hb' hj' h with h | h
    · exact ⟨le_abs.2 (Or.inr (by linarith)), le_abs.2 (Or.inr (by linarith))⟩
    · exact ⟨le_abs.2 (Or.inl (by linarith)), le_abs.2 (Or.inl (by linarith))⟩

theorem row_dist (hδ : 0 < δ) {a : ℝ} (i j : ℕ) (h : a = 0 ∨ a = 1 / 2) (c : ℝ) :
    ((i : ℝ) + (c + a)) * δ = (j + c) * δ ∨ δ / 2 ≤ |((i : ℝ) + (c + a)) * δ - (j + c) * δ| := by
  rw [show ((i : ℝ) + (c + a)) * δ - (j + c) * δ = ((i : ℝ) - j + a) * δ by ring, abs_mul, abs_of_pos hδ]
  rcases Nat.lt_trichotomy i j with hij | hij | hij
  · right
    have : (i : ℝ) + 1 ≤ j := by exact_mod_cast hij
    have : 1 / 2 ≤ |(i : ℝ) - j + a| := le_abs.2 (Or.inr (by rcases h with h | h <;> linarith))
    nlinarith
  · subst hij
    rcases h with rfl | rfl
    · left; ring
    · right
      rw [sub_self, zero_add, abs_of_pos (by norm_num)]
      linarith
  · right
    have : (j : ℝ) + 1 ≤ i := by exact_mod_cast hij
    have : 1 / 2 ≤ |(i : ℝ) - j + a| := le_abs.2 (Or.inl (by rcases h with h | h <;> linarith))
    nlinarith

/-- In a lattice of rectangular panels in one plane, all of the height `w`, no control point or pressure point is on the boundary
of a vortex core. -/
theorem offCores (P : PlanarBlocks O e s δ nc ns ζ blocks) {w : ℝ} (hw : ∀ b j, b < blocks.length → j < ns → ζ b (j + 1) - ζ b j = w)
    (h1 : 2e-8 < w) (h2 : 2e-4 < δ * w) (g : ℝ) :
    ∀ v ∈ vars g nc ns blocks, ∀ v' ∈ vars g nc ns blocks, OffCores v.ctrP v' ∧ OffCores v.cp v' := by
  intro v hv v' hv'
  obtain ⟨b, i, j, hb, hi, hj, rfl⟩ := mem_vars hv
  obtain ⟨b', i', j', hb', hi', hj', rfl⟩ := mem_vars hv'
  obtain ⟨-, e1, e2, -⟩ := P.meshVars_eq g hb hi hj
  obtain ⟨-, -, -, e3⟩ := P.meshVars_eq g hb' hi' hj'
  have hδ := P.pos
  obtain ⟨d1, d2⟩ := P.half_le hb hj hb' hj'
  rw [hw b j hb hj] at d1 d2
  have dx : δ ≤ |((i' : ℝ) + 1 / 4) * δ - (i' + 5 / 4) * δ| := by
    rw [show ((i' : ℝ) + 1 / 4) * δ - (i' + 5 / 4) * δ = -δ by ring, abs_neg]; exact le_abs_self _
  have dy : w ≤ |ζ b' j' - ζ b' (j' + 1)| := by
    rw [← hw b' j' hb' hj', abs_sub_comm]; exact le_abs_self _
  have r1 := row_dist hδ i i' (a := 1 / 2) (Or.inr rfl) (1 / 4)
  have r2 := row_dist hδ i i' (a := 0) (Or.inl rfl) (1 / 4)
  have r3 := row_dist hδ i (i' + 1) (a := 1 / 2) (Or.inr rfl) (1 / 4)
  have r4 := row_dist hδ i (i' + 1) (a := 0) (Or.inl rfl) (1 / 4)
  have n1 : (1 / 4 + 1 / 2 : ℝ) = 3 / 4 := by norm_num
  have n2 : ((i' + 1 : ℕ) : ℝ) + 1 / 4 = i' + 5 / 4 := by push_cast; ring
  rw [n1] at r1 r3
  rw [add_zero] at r2 r4
  rw [n2] at r3 r4
  rw [e1, e2]
  exact ⟨P.frame.off_ring hδ h1 h2 d1 d2 dx dy r1 r3 e3, P.frame.off_ring hδ h1 h2 d1 d2 dx dy r2 r4 e3⟩

end PlanarBlocks

end PySailing
