import Verif.Lemmas.PlanarBlocks
import Verif.Lemmas.Wing

/-!
# A rectangular wing is a planar lattice
-/

namespace PySailing

open Spec

theorem AircraftInput.planar (a : AircraftInput) (hc : 0 < a.chord) (hb : 0 < a.half) (hnc : 0 < a.nc) (hns : 0 < a.ns)
    (hbig : 2e-4 ≤ a.chord / a.nc * (2 * a.half / a.ns)) :
    PlanarBlocks 0 (chordDirection a.aoaDeg) ⟨0, 0, 1⟩ (a.chord / a.nc) a.nc a.ns
      (fun _ r => a.half * (2 * ((r : ℝ) / a.ns) - 1)) [wingPoint a.chord a.half a.aoaDeg a.nc a.ns] := by
  have hncR : (0 : ℝ) < a.nc := by exact_mod_cast hnc
  have hnsR : (0 : ℝ) < a.ns := by exact_mod_cast hns
  set t := a.aoaDeg * (Real.pi / 180) with ht
  have hcs := Real.cos_sq_add_sin_sq t
  exact {
    frame := ⟨by
        unfold chordDirection; simp only [V3.dot]; rw [← ht]; linear_combination hcs, by simp [V3.dot], by
        simp [V3.dot, chordDirection]⟩
    pos := by positivity
    pts := by
      intro b hb' r k _ _
      have : b = 0 := by simpa using hb'
      subst this
      simp only [List.getElem_cons_zero]
      unfold wingPoint planePt chordDirection
      ext <;> simp only [V3.add_x, V3.add_y, V3.add_z, V3.smul_x, V3.smul_y, V3.smul_z, V3.zero_x, V3.zero_y, V3.zero_z] <;> ring
    lt := by
      intro b r _ _
      have : (r : ℝ) / a.ns < ((r + 1 : ℕ) : ℝ) / a.ns := by
        apply div_lt_div_of_pos_right _ hnsR; push_cast; linarith
      exact mul_lt_mul_of_pos_left (by linarith) hb
    disj := by
      intro b r b' r' h1 _ h2 _ hne
      have e1 : b = 0 := by simpa using h1
      have e2 : b' = 0 := by simpa using h2
      subst e1 e2
      have hne' : r ≠ r' := fun h => hne (by rw [h])
      have mono : ∀ p q : ℕ, p ≤ q → a.half * (2 * ((p : ℝ) / a.ns) - 1) ≤ a.half * (2 * ((q : ℝ) / a.ns) - 1) := by
        intro p q hpq
        have : (p : ℝ) / a.ns ≤ (q : ℝ) / a.ns := by
          apply div_le_div_of_nonneg_right _ hnsR.le; exact_mod_cast hpq
        exact mul_le_mul_of_nonneg_left (by linarith) hb.le
      rcases Nat.lt_or_gt_of_ne hne' with h | h
      · exact Or.inl (mono _ _ h)
      · exact Or.inr (mono _ _ h)
    big := by
      intro b r _ _
      refine hbig.trans (le_of_eq ?_)
      push_cast
      field_simp
      ring }

theorem wing_normal (t : ℝ) : V3.cross ⟨0, 0, 1⟩ (chordDirection t) = wingNormal t := by
  unfold chordDirection wingNormal; ext <;> simp

/-- A wind across the span in the frame of the wing. -/
theorem AircraftInput.wind_frame (a : AircraftInput) (hV : a.V ≠ 0) (hz : a.V.z = 0) :
    a.V = a.V.norm • ((a.V.dot (chordDirection a.aoaDeg) / a.V.norm) • chordDirection a.aoaDeg +
      (a.V.dot (wingNormal a.aoaDeg) / a.V.norm) • V3.cross ⟨0, 0, 1⟩ (chordDirection a.aoaDeg)) ∧
      (a.V.dot (chordDirection a.aoaDeg) / a.V.norm) ^ 2 + (a.V.dot (wingNormal a.aoaDeg) / a.V.norm) ^ 2 = 1 := by
  set t := a.aoaDeg * (Real.pi / 180) with ht
  have hcs := Real.cos_sq_add_sin_sq t
  have hn := wing_normal a.aoaDeg
  have hl : 0 < a.V.norm := V3.norm_pos hV
  set C := a.V.dot (chordDirection a.aoaDeg) / a.V.norm
  set S := a.V.dot (wingNormal a.aoaDeg) / a.V.norm
  have hCl : a.V.norm * C = a.V.dot (chordDirection a.aoaDeg) := by simp only [C]; field_simp
  have hSl : a.V.norm * S = a.V.dot (wingNormal a.aoaDeg) := by simp only [S]; field_simp
  have hdecomp : a.V = a.V.norm • (C • chordDirection a.aoaDeg + S • V3.cross ⟨0, 0, 1⟩ (chordDirection a.aoaDeg)) := by
    rw [hn, smul_add, smul_smul, smul_smul, hCl, hSl]
    unfold chordDirection wingNormal
    simp only [V3.dot]
    rw [← ht]
    ext
    · simp only [V3.add_x, V3.smul_x]; linear_combination (-a.V.x) * hcs
    · simp only [V3.add_y, V3.smul_y]; linear_combination (-a.V.y) * hcs
    · simp [hz]
  have hu : C ^ 2 + S ^ 2 = 1 := by
    have h2 : (a.V.norm * C) ^ 2 + (a.V.norm * S) ^ 2 = a.V.norm ^ 2 := by
      rw [hCl, hSl, V3.norm_sq]
      unfold chordDirection wingNormal
      simp only [V3.dot, hz]
      rw [← ht]
      linear_combination (a.V.x ^ 2 + a.V.y ^ 2) * hcs
    have h3 : a.V.norm ^ 2 * (C ^ 2 + S ^ 2) = a.V.norm ^ 2 * 1 := by linear_combination h2
    exact mul_left_cancel₀ (by positivity) h3
  exact ⟨hdecomp, hu⟩

theorem AircraftInput.theory (a : AircraftInput) (hc : 0 < a.chord) (hb : 0 < a.half) :
    ∃ th, getCLCDFreeWing (2 * a.half / a.chord) a.aoaDeg = .ok th := by
  unfold getCLCDFreeWing
  have hpi := Real.pi_pos
  have h1 : Real.pi * (2 * a.half / a.chord) * 0.8 ≠ 0 := by positivity
  have h2 : 1 + 2 * Real.pi / (Real.pi * (2 * a.half / a.chord) * 0.8) ≠ 0 := by positivity
  simp only [if_neg h1, if_neg h2]
  exact ⟨_, rfl⟩

end PySailing
