import Verif.Spec.WindData
import Verif.Props.SameWind

/-!
# C155: the data of wind profiles that are not selected have no influence
-/

namespace PySailing.Props

open Spec

/-- **C155.**  A run does not change when those data of the wind change which the selected profile does not use. -/
theorem C155_unused (spline : SplineFn) (c : Config) (w : WindConditions) (h : SameUsedData w c.wind) :
    run spline { c with wind := w } = run spline c := by
  have hg : windGetProfile w = windGetProfile c.wind := by
    unfold windGetProfile
    rw [← h.alphaDeg, ← h.twsRef, ← h.sog, ← h.profile]
    by_cases h1 : w.profile = "exponential"
    · obtain ⟨a, b, d⟩ := h.exponential h1
      rw [if_pos h1, if_pos h1, a, b, d]
    · rw [if_neg h1, if_neg h1]
      by_cases h2 : w.profile = "flat"
      · rw [if_pos h2, if_pos h2]
      · obtain ⟨a, b⟩ := h.logarithmic h1 h2
        rw [if_neg h2, if_neg h2, a, b]
  have hp : windPostInit w = windPostInit c.wind := by
    unfold windPostInit
    obtain ⟨a, b, d⟩ := h.given
    simp only [← h.profile, a, b]
    by_cases h1 : w.profile = "logarithmic"
    · simp only [d h1]
    · simp only [h1, false_and, if_false]
  exact C98_same_run spline c w ⟨fun _ _ => by rw [hg], by rw [hg]⟩ hp fun _ => by rw [hg]

/-- Non-vacuity: a flat profile and an exponential profile, with other unused data. -/
example : SameUsedData ⟨50, 5, 3, "flat", some 2, some 7, none, some 1⟩ ⟨50, 5, 3, "flat", some 0, some 10, some 0, none⟩ ∧
    SameUsedData ⟨50, 5, 3, "exponential", some 2, some 7, some 0, some 1⟩ ⟨50, 5, 3, "exponential", some 2, some 7, some 0, none⟩ := by
  constructor <;> constructor <;> simp

end PySailing.Props
