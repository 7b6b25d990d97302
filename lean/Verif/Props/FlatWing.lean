import Verif.Lemmas.PlanarWing

/-!
# C109: every flat rectangular wing can be calculated
-/

namespace PySailing.Props

open PySailing PySailing.Spec

/-- **C109.** A rectangular wing with a chord and a span, any number of panels (each of an area of at least `2e-4`, so
that no control point is inside a vortex core), in a free stream without component along the span that does not come
from behind the trailing edge, at any angle of attack: `Aircraft` always returns.  All circulations have the same
sign (with orientation `g = 1` the opposite of the wind component normal to the wing) and vanish with that component;
none exceeds the circulation `π c |V·n|` of a flat plate of infinite span. -/
theorem C109_wing (a : AircraftInput) (hc : 0 < a.chord) (hb : 0 < a.half) (hnc : 0 < a.nc) (hns : 0 < a.ns)
    (hbig : 2e-4 ≤ a.chord / a.nc * (2 * a.half / a.ns)) (hrho : a.rho ≠ 0) (hg : a.g ≠ 0)
    (hV : a.V ≠ 0) (hz : a.V.z = 0) (hfront : 0 ≤ a.V.dot (chordDirection a.aoaDeg)) :
    ∃ w, aircraft a = .ok w ∧ (List.ofFn w.gamma).length = a.nc * a.ns ∧ ∀ γ ∈ List.ofFn w.gamma,
      (0 < a.V.dot (wingNormal a.aoaDeg) → a.g * γ < 0) ∧ (a.V.dot (wingNormal a.aoaDeg) < 0 → 0 < a.g * γ) ∧
      |a.g * γ| ≤ Real.pi * a.chord * |a.V.dot (wingNormal a.aoaDeg)| := by
  have hncR : (0 : ℝ) < a.nc := by exact_mod_cast hnc
  have hnsR : (0 : ℝ) < a.ns := by exact_mod_cast hns
  have hl : 0 < a.V.norm := V3.norm_pos hV
  have P := a.planar hc hb hnc hns hbig
  obtain ⟨hdecomp, hu⟩ := a.wind_frame hV hz
  set C := a.V.dot (chordDirection a.aoaDeg) / a.V.norm
  set S := a.V.dot (wingNormal a.aoaDeg) / a.V.norm with hS0
  have hSl : a.V.norm * S = a.V.dot (wingNormal a.aoaDeg) := by simp only [S]; field_simp
  have hC : 0 ≤ C := div_nonneg hfront hl.le
  obtain ⟨sol, hsol, hγ⟩ := P.solved (g := a.g) (rho := a.rho) (M := a.V.norm) hnc (by simp) hg hrho (V := fun _ => a.V) (l := fun _ => a.V.norm)
    (fun _ => hl) (fun _ => le_rfl) (fun _ => hdecomp) hu hC
  obtain ⟨th, hth⟩ := a.theory hc hb
  have hq : 0.5 * a.rho * a.V.norm ^ 2 * a.S ≠ 0 := by
    unfold AircraftInput.S
    positivity
  obtain ⟨w, hw, hwg, -, -⟩ := aircraft_of hc.ne' hnc hns hq hth (P.varsOk a.g hnc hns (by simp)) hsol
  refine ⟨w, hw, ?_, ?_⟩
  · rw [hwg, List.length_ofFn, PlanarBlocks.vars_length]; simp
  intro γ h
  rw [hwg, List.mem_ofFn] at h
  obtain ⟨i, rfl⟩ := h
  obtain ⟨h1, h2⟩ := hγ i
  have hA : |a.V.dot (wingNormal a.aoaDeg)| = a.V.norm * |S| := by rw [← hSl, abs_mul, abs_of_pos hl]
  refine ⟨fun h => ?_, fun h => ?_, ?_⟩
  · have hS : 0 < S := div_pos h hl
    have := h1 hS.ne'
    by_contra hcon
    have := mul_nonneg hS.le (not_lt.1 hcon)
    linarith
  · have hS : S < 0 := div_neg_of_neg_of_pos h hl
    have := h1 hS.ne
    by_contra hcon
    have := mul_nonneg_of_nonpos_of_nonpos hS.le (not_lt.1 hcon)
    linarith
  · rw [hA]
    refine h2.trans (le_of_eq ?_)
    field_simp

/-- The hypotheses are met: a wing of aspect ratio 10 with 4 by 20 panels at five degrees. -/
example : ∃ w, aircraft ⟨1, 5, 5, 20, 4, ⟨10, 0, 0⟩, 1.225, 1⟩ = .ok w := by
  have hcos : 0 ≤ Real.cos (5 * (Real.pi / 180)) :=
    Real.cos_nonneg_of_mem_Icc ⟨by have := Real.pi_pos; linarith, by have := Real.pi_pos; linarith⟩
  obtain ⟨w, hw, -⟩ := C109_wing ⟨1, 5, 5, 20, 4, ⟨10, 0, 0⟩, 1.225, 1⟩ (by norm_num) (by norm_num) (by norm_num) (by norm_num)
    (by norm_num) (by norm_num) (by norm_num) (by simp [V3.ext_iff]) rfl (by
      unfold chordDirection
      simp only [V3.dot]
      linarith)
  exact ⟨w, hw⟩

end PySailing.Props
