import Verif.Props.Sail
import Verif.Props.Rotations
import Verif.Lemmas.MirrorExact

/-!
# Where exactly the underwater sail is the mirror image (C17) and the centreline components are right (C08)
-/

namespace PySailing.Props

open PySailing PySailing.Spec

/-- **C17, exactly where it holds.**  The underwater sail is the mirror image of the sail (panel by panel, S and
N exchanged) if and only if for each row: the sail has no chord or no camber there, or it has a single chordwise
panel, or the camber positions of this row and of the row at the same distance from the other end are equal, or
the sail has two chordwise panels and these positions are symmetric about half chord. -/
theorem C17_exact (s : SailInput) (θ : ℕ → ℝ) (h : SailOk s θ) :
    ∃ g, sailGeometry s = .ok g ∧
      ((∀ i j, i < s.nc → j < s.ns → ∃ q, g.panelsAbove[i * s.ns + (s.ns - 1 - j)]? = some q ∧
          g.panelsUnder[i * s.ns + j]? = some (mirrorPanel q)) ↔
        ∀ r, r ≤ s.ns → s.chords.getD r 0 = 0 ∨ s.camber.getD r 0 = 0 ∨ s.nc = 1 ∨
          s.distance.getD r 0 = s.distance.getD (s.ns - r) 0 ∨
          (s.nc = 2 ∧ s.distance.getD r 0 + s.distance.getD (s.ns - r) 0 = 1)) := by
  obtain ⟨g, hg, -, -, -, -, ha, hu, -, -, -, -⟩ := sailGeometry_ok h
  refine ⟨g, hg, ?_⟩
  have hns := h.ns_pos
  have hnc := h.nc_pos
  -- all panels mirrored means all points mirrored
  have hpts : (∀ i j, i < s.nc → j < s.ns → ∃ q, g.panelsAbove[i * s.ns + (s.ns - 1 - j)]? = some q ∧
      g.panelsUnder[i * s.ns + j]? = some (mirrorPanel q)) ↔
      ∀ r, r ≤ s.ns → ∀ k, k ≤ s.nc → s.underTwisted θ r k = mirror (s.aboveTwisted θ (s.ns - r) k) := by
    constructor
    · intro hall r hr k hk
      -- the panel that has this point as a corner
      have key : ∀ i j, i < s.nc → j < s.ns →
          s.underTwisted θ j (i + 1) = mirror (s.aboveTwisted θ (s.ns - j) (i + 1)) ∧
          s.underTwisted θ j i = mirror (s.aboveTwisted θ (s.ns - j) i) ∧
          s.underTwisted θ (j + 1) i = mirror (s.aboveTwisted θ (s.ns - (j + 1)) i) ∧
          s.underTwisted θ (j + 1) (i + 1) = mirror (s.aboveTwisted θ (s.ns - (j + 1)) (i + 1)) := by
        intro i j hi hj
        obtain ⟨q, hq, hq'⟩ := hall i j hi hj
        rw [ha, panelGrid_getElem? _ hi (by omega : s.ns - 1 - j < s.ns), Option.some_inj] at hq
        rw [hu, panelGrid_getElem? _ hi hj, Option.some_inj, ← hq] at hq'
        have e1 : s.ns - 1 - j + 1 = s.ns - j := by omega
        have e2 : s.ns - 1 - j = s.ns - (j + 1) := by omega
        simp only [mirrorPanel, e1] at hq'
        rw [e2] at hq'
        injection hq' with c1 c2 c3 c4
        exact ⟨c1, c2, c3, c4⟩
      rcases Nat.lt_or_ge r s.ns with hr' | hr'
      · rcases Nat.lt_or_ge k s.nc with hk' | hk'
        · exact (key k r hk' hr').2.1
        · obtain ⟨i, rfl⟩ : ∃ i, k = i + 1 := ⟨k - 1, by omega⟩
          exact (key i r (by omega) hr').1
      · obtain ⟨j, rfl⟩ : ∃ j, r = j + 1 := ⟨r - 1, by omega⟩
        rcases Nat.lt_or_ge k s.nc with hk' | hk'
        · exact (key k j hk' (by omega)).2.2.1
        · obtain ⟨i, rfl⟩ : ∃ i, k = i + 1 := ⟨k - 1, by omega⟩
          exact (key i j (by omega) (by omega)).2.2.2
    · intro hall i j hi hj
      rw [ha, hu]
      refine ⟨_, panelGrid_getElem? _ hi (by omega), ?_⟩
      rw [panelGrid_getElem? _ hi hj]
      have e1 : s.ns - 1 - j + 1 = s.ns - j := by omega
      have e2 : s.ns - (j + 1) = s.ns - 1 - j := by omega
      simp only [mirrorPanel, hall j (by omega) _ (show i + 1 ≤ s.nc by omega),
        hall j (by omega) _ (show i ≤ s.nc by omega),
        hall (j + 1) (by omega) _ (show i ≤ s.nc by omega),
        hall (j + 1) (by omega) _ (show i + 1 ≤ s.nc by omega), e1, e2]
  rw [hpts]
  -- row by row
  have hrow : ∀ r, r ≤ s.ns → ((∀ k, k ≤ s.nc → s.underTwisted θ r k =
      mirror (s.aboveTwisted θ (s.ns - r) k)) ↔ (s.chords.getD (s.ns - r) 0 = 0 ∨
        s.camber.getD (s.ns - r) 0 = 0 ∨ s.nc = 1 ∨
          s.distance.getD r 0 = s.distance.getD (s.ns - r) 0 ∨
          (s.nc = 2 ∧ s.distance.getD r 0 + s.distance.getD (s.ns - r) 0 = 1))) := by
    intro r hr
    have hd := h.pos_lt hr
    have hd' := h.pos_lt (Nat.sub_le s.ns r)
    rw [← camber_row_iff hnc hd.1 hd.2 hd'.1 hd'.2]
    by_cases hc : s.chords.getD (s.ns - r) 0 = 0
    · simp only [hc, true_or, iff_true]
      intro k _
      rw [h.underTwisted_mirror_iff hr, hc, zero_mul, zero_mul]
    · simp only [hc, false_or]
      refine forall₂_congr fun k _ => ?_
      rw [h.underTwisted_mirror_iff hr, mul_right_inj' hc]
  have hsym : ∀ r, r ≤ s.ns → s.ns - (s.ns - r) = r := fun r hr => by omega
  constructor
  · intro hall r hr
    have := (hrow (s.ns - r) (Nat.sub_le _ _)).1 (hall _ (Nat.sub_le _ _))
    rw [hsym r hr] at this
    rcases this with h1 | h1 | h1 | h1 | ⟨h1, h2⟩
    · exact Or.inl h1
    · exact Or.inr (Or.inl h1)
    · exact Or.inr (Or.inr (Or.inl h1))
    · exact Or.inr (Or.inr (Or.inr (Or.inl h1.symm)))
    · exact Or.inr (Or.inr (Or.inr (Or.inr ⟨h1, by linarith⟩)))
  · intro hall r hr
    refine (hrow r hr).2 ?_
    have := hall (s.ns - r) (Nat.sub_le _ _)
    rw [hsym r hr] at this
    rcases this with h1 | h1 | h1 | h1 | ⟨h1, h2⟩
    · exact Or.inl h1
    · exact Or.inr (Or.inl h1)
    · exact Or.inr (Or.inr (Or.inl h1))
    · exact Or.inr (Or.inr (Or.inr (Or.inl h1.symm)))
    · exact Or.inr (Or.inr (Or.inr (Or.inr ⟨h1, by linarith⟩)))

/-- Non-vacuity: with two chordwise panels, positions 1/4 at the foot and 3/4 at the head give a mirror image
although they differ; with three they do not (`C17_exact` applies to both sails). -/
example : SailOk (demoSail 2 [0.1, 0.1] [0.25, 0.75] none none) (fun _ => 0) ∧
    SailOk (demoSail 3 [0.1, 0.1] [0.25, 0.75] none none) (fun _ => 0) := by
  constructor <;> apply demoSail_ok <;> first | exact twistOk_none _ _ _ _ | norm_num

/-- **C08, exactly where it holds.**  The components reported for a vector in the centreline system are its
components along the axes of the yacht (the vector turned back by the leeway) if and only if the vector is
vertical or the leeway is a multiple of 180 degrees. -/
theorem C08_exact (c : Csys) (v : V3) :
    c.fromXyzToCenterline [v] = [⟨Real.cos (deg2rad c.leewayDeg) * v.x +
        Real.sin (deg2rad c.leewayDeg) * v.y,
      Real.cos (deg2rad c.leewayDeg) * v.y - Real.sin (deg2rad c.leewayDeg) * v.x, v.z⟩] ↔
      (v.x = 0 ∧ v.y = 0) ∨ Real.sin (deg2rad c.leewayDeg) = 0 := by
  obtain ⟨S, hS⟩ : ∃ S, S = Real.sin (deg2rad c.leewayDeg) := ⟨_, rfl⟩
  obtain ⟨C, hC⟩ : ∃ C, C = Real.cos (deg2rad c.leewayDeg) := ⟨_, rfl⟩
  simp only [Csys.fromXyzToCenterline, List.map_cons, List.map_nil, List.cons.injEq, and_true,
    Csys.leeway_mulVec, ← hS, ← hC]
  constructor
  · intro h
    have hx := congrArg V3.x h
    have hy := congrArg V3.y h
    simp only at hx hy
    by_cases h0 : S = 0
    · exact Or.inr h0
    · left
      have h1 : S * v.y = 0 := by linarith
      have h2 : S * v.x = 0 := by linarith
      exact ⟨(mul_eq_zero.1 h2).resolve_left h0, (mul_eq_zero.1 h1).resolve_left h0⟩
  · rintro (⟨hx, hy⟩ | h0)
    · ext <;> simp [hx, hy]
    · ext <;> simp [h0]

/-- Non-vacuity: the x axis with 90 degrees of leeway is on neither side of the alternative. -/
example : ¬ (((⟨1, 0, 0⟩ : V3).x = 0 ∧ (⟨1, 0, 0⟩ : V3).y = 0) ∨ Real.sin (deg2rad 90) = 0) := by
  rw [deg2rad_90]; simp

end PySailing.Props
