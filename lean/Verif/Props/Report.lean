import Verif.Lemmas.Report
import Verif.Props.Aircraft
import Verif.Props.Coefs

/-!
# C130: the printed report of a wing
-/

namespace PySailing.Props

open PySailing Spec

/-- **C130**, numbers printed with a fixed number of decimals: the text is a decimal number with exactly `d` decimals, and the
number one reads in it is the given one rounded to `d` decimals. -/
theorem C130_text (d : ℕ) (x : ℝ) : DecimalText d (fixed d x) ∧ Rounded d x (readDecimal (fixed d x)) :=
  ⟨fixed_decimalText d x, readDecimal_fixed d x ▸ formatFloat_rounded d x⟩

/-- **C130.** For every wing that `Aircraft` can calculate, the report has seven parts: a heading, the circulations, a mark, the
aspect ratio, a line with the expected and one with the calculated coefficients, each a text with six decimals that reads as the
coefficient to within half a unit of the last decimal, and the total force, which is `Cxyz` times dynamic pressure and area.  The
expected coefficients of a wing of positive aspect ratio are those of the lifting line formula with span efficiency 0.8. -/
theorem C130_report (a : AircraftInput) (w : Aircraft) (h : aircraft a = .ok w) :
    ∃ cle cde cl cd F c, w.getInfo = [[.text "gamma_magnitude: \n"], [.array (List.ofFn w.gamma)], [.text "DONE"],
        [.text "\nAspect Ratio ", .number (2 * a.half / a.chord)],
        [.text ("CL_expected " ++ cle ++ " \t CD_ind_expected " ++ cde)],
        [.text ("CL_vlm      " ++ cl ++ "  \t CD_vlm          " ++ cd)], [.text "\n\ntotal_F ", .vector F]] ∧
      (∀ s ∈ [cle, cde, cl, cd], DecimalText 6 s) ∧
      w.Cxyz = .ok c ∧ F = (0.5 * a.rho * a.V.dot a.V * (2 * a.half * a.chord)) • c ∧
      |readDecimal cl - c.z| ≤ 5e-7 ∧ |readDecimal cd - c.x| ≤ 5e-7 ∧
      (0 < 2 * a.half / a.chord → ∀ AR CL, AR = 2 * a.half / a.chord →
        CL = 2 * Real.pi * AR * 0.8 * (a.aoaDeg * Real.pi / 180) / (AR * 0.8 + 2) →
        |readDecimal cle - CL| ≤ 5e-7 ∧ |readDecimal cde - CL ^ 2 / (Real.pi * AR * 0.8)| ≤ 5e-7) := by
  obtain ⟨-, c, hc, hF, hx, hz⟩ := C41_coefficients_partial a w h
  obtain ⟨-, -, -, -, -, hAR, hth, -⟩ := aircraft_inv h
  have hr : ∀ x, |readDecimal (fixed 6 x) - x| ≤ 5e-7 := fun x => by
    refine (C130_text 6 x).2.2.trans (le_of_eq ?_)
    norm_num
  refine ⟨fixed 6 w.CLTheoretical, fixed 6 w.CDTheoretical, fixed 6 w.CL, fixed 6 w.CD, (List.ofFn w.force).sum, c, ?_, ?_, hc,
    hF.symm, ?_, ?_, ?_⟩
  · rw [← hAR]
    rfl
  · intro s hs
    simp only [List.mem_cons, List.not_mem_nil, or_false] at hs
    rcases hs with rfl | rfl | rfl | rfl <;> exact (C130_text 6 _).1
  · rw [← hz]; exact hr _
  · rw [← hx]; exact hr _
  · rintro hpos AR CL rfl rfl
    obtain ⟨CL, CD, e, rfl, rfl⟩ := C55_formula (2 * a.half / a.chord) a.aoaDeg hpos
    rw [hAR, e] at hth
    obtain ⟨e1, e2⟩ := Prod.mk.inj (Except.ok.inj hth)
    rw [e2, e1]
    exact ⟨hr _, hr _⟩

/-- **C130**, what a user sees: in a free stream without spanwise component, whatever wing and angle of attack, the report shows
`CL_vlm      0.000000` (see `C41_CL_is_zero`; the lift is in the `y` component of the total force). -/
theorem C130_CL_line (a : AircraftInput) (w : Aircraft) (h : aircraft a = .ok w) (hV : a.V.z = 0) :
    ∃ cd, w.getInfo[5]? = some [.text ("CL_vlm      0.000000  \t CD_vlm          " ++ cd)] := by
  refine ⟨fixed 6 w.CD, ?_⟩
  have e : fixed 6 w.CL = "0.000000" := by
    rw [C41_CL_is_zero a w h hV]
    apply String.toList_injective
    rw [fixed_toList, if_neg (lt_irrefl _)]
    have : nearestInt (0 * 10 ^ 6) = 0 := by
      unfold nearestInt
      norm_num
    rw [this]
    rfl
  unfold Aircraft.getInfo
  rw [e]
  rfl

/-- Non-vacuity: a wing with a report, and some texts. -/
example : ∃ (a : AircraftInput) (w : Aircraft), aircraft a = .ok w ∧ a.V.z = 0 ∧ w.getInfo.length = 7 := by
  obtain ⟨w, hw, -⟩ := Demo.wing_ok
  exact ⟨_, w, hw, rfl, rfl⟩

example : fixed 6 (-12.3456785) = "-12.345678" ∧ fixed 6 (1 / 3) = "0.333333" ∧ fixed 2 (-0.001) = "-0.00" := by
  refine ⟨?_, ?_, ?_⟩ <;> apply String.toList_injective <;> rw [fixed_toList]
  · have : nearestInt (-12.3456785 * 10 ^ 6) = -12345678 := by
      unfold nearestInt
      have e : ⌊(-12.3456785 * 10 ^ 6 : ℝ)⌋ = -12345679 := by rw [Int.floor_eq_iff]; norm_num
      rw [if_pos (by unfold Int.fract; rw [e]; norm_num), e, if_neg (by decide)]
      norm_num
    rw [this, if_pos (by norm_num)]
    rfl
  · have : nearestInt (1 / 3 * 10 ^ 6) = 333333 := by
      unfold nearestInt
      have e : ⌊(1 / 3 * 10 ^ 6 : ℝ)⌋ = 333333 := by rw [Int.floor_eq_iff]; norm_num
      rw [if_neg (by unfold Int.fract; rw [e]; norm_num), Int.floor_eq_iff]
      norm_num
    rw [this, if_neg (by norm_num)]
    rfl
  · have : nearestInt (-0.001 * 10 ^ 2) = 0 := by
      unfold nearestInt
      have e : ⌊(-0.001 * 10 ^ 2 : ℝ)⌋ = -1 := by rw [Int.floor_eq_iff]; norm_num
      rw [if_neg (by unfold Int.fract; rw [e]; norm_num), Int.floor_eq_iff]
      norm_num
    rw [this, if_pos (by norm_num)]
    rfl

end PySailing.Props
