import Verif.Props.Sail
import Verif.Props.Reference
import Mathlib.Tactic.Linarith
import Mathlib.Tactic.Positivity

/-!
# The hull in the picture (C104)
-/

namespace PySailing.Props

open PySailing PySailing.Spec

theorem camberThickness_nonneg {t x : ℝ} (ht : 0 ≤ t) (h0 : 0 ≤ x) (h1 : x ≤ 1) : 0 ≤ camberThickness t x := by
  have hs : x ≤ Real.sqrt x := by
    rw [Real.le_sqrt h0 h0]
    nlinarith
  have hx1 : 0 ≤ 1 - x := by linarith
  unfold camberThickness
  split_ifs
  · refine mul_nonneg (by linarith) ?_
    have : 0.2969 * x + -0.126 * x + -0.3516 * x * x + 0.2843 * x * x * x + -0.1036 * x * x * x * x =
        x * ((1 - x) * (0.1709 - 0.1807 * x + 0.1036 * x ^ 2)) := by ring
    have h2 : 0 ≤ 0.1709 - 0.1807 * x + 0.1036 * x ^ 2 := by nlinarith [sq_nonneg (x - 0.8721)]
    have h3 := mul_nonneg h0 (mul_nonneg hx1 h2)
    nlinarith
  · refine mul_nonneg (by linarith) ?_
    have : 0.2969 * x + -0.126 * x + -0.3516 * x * x + 0.2843 * x * x * x + -0.1015 * x * x * x * x =
        x * ((1 - x) * (0.1688 - 0.1828 * x + 0.1015 * x ^ 2) + 0.0021) := by ring
    have h2 : 0 ≤ 0.1688 - 0.1828 * x + 0.1015 * x ^ 2 := by nlinarith [sq_nonneg (x - 0.9005)]
    have h3 : 0 ≤ x * ((1 - x) * (0.1688 - 0.1828 * x + 0.1015 * x ^ 2) + 0.0021) :=
      mul_nonneg h0 (by linarith [mul_nonneg hx1 h2])
    nlinarith

theorem camberThickness_one (t : ℝ) : camberThickness t 1 = 0 := by
  unfold camberThickness
  rw [if_pos (by norm_num)]
  norm_num

theorem camberThickness_zero (t : ℝ) : camberThickness t 0 = 0 := by
  unfold camberThickness
  rw [if_neg (by norm_num)]
  simp

theorem camberCurve_zero (m x : ℝ) (h : 0 ≤ x) : camberCurve m 0 x = m * (1 - x ^ 2) := by
  unfold camberCurve
  rw [if_neg (not_lt.2 h)]
  ring

theorem reverse_getElem? {α : Type} {n k : ℕ} (l : List α) (hl : l.length = n + 1) (hk : k ≤ n) :
    l.reverse[k]? = l[n - k]? := by
  rw [List.getElem?_reverse (by omega)]
  congr 1
  omega

/-- Points of the deck lines before heel and leeway. -/
theorem hull_points (sheer base : ℝ) (c : Csys) (clr : V3) (hull : Hull) (h : hullGeometry sheer base c clr = .ok hull)
    (k : ℕ) (hk : k ≤ 50) : ∃ X Y : ℝ, X = (k : ℝ) / 50 ∧ Y = ((50 - k : ℕ) : ℝ) / 50 ∧
      hull.deckCenterline[k]? = some (c.rotatePointWithMirror ⟨-1.1 * base + base * 3 * X, 0, sheer⟩) ∧
      hull.deckPort[k]? = some (c.rotatePointWithMirror ⟨-1.1 * base + base * 3 *
          (X - camberThickness 0.28 X * Real.sin (Real.arctan (slope 0.01 0.0 X))),
        base * 3 * (camberCurve 0.01 0.0 Y + camberThickness 0.28 Y * Real.cos (Real.arctan (slope 0.01 0.0 Y))),
        sheer⟩) ∧
      hull.deckStarboard[k]? = some (c.rotatePointWithMirror ⟨-1.1 * base + base * 3 *
          (X + camberThickness 0.28 X * Real.sin (Real.arctan (slope 0.01 0.0 X))),
        base * 3 * (camberCurve 0.01 0.0 Y - camberThickness 0.28 Y * Real.cos (Real.arctan (slope 0.01 0.0 Y))),
        sheer⟩) := by
  have hfoil := vlmAirfoil_ok (m := 0.01) (p := 0.0) (t := 0.28) (by norm_num) (by norm_num)
    (by norm_num) (by norm_num) (by norm_num) (by norm_num) 51
  unfold hullGeometry at h
  rw [hfoil] at h
  injection h with h
  subst h
  have hx : (linspace01 51)[k]? = some ((k : ℝ) / (50 : ℕ)) := linspace01_getElem? (n := 50) (by omega)
  have hy : (linspace01 51)[50 - k]? = some (((50 - k : ℕ) : ℝ) / (50 : ℕ)) := linspace01_getElem? (n := 50) (by omega)
  have hr : ∀ f : ℝ → ℝ, ((linspace01 51).map f).reverse[k]? = some (f (((50 - k : ℕ) : ℝ) / (50 : ℕ))) := by
    intro f
    rw [reverse_getElem? (n := 50) _ (by simp [linspace01_length]) hk, List.getElem?_map, hy]
    rfl
  have hc : (List.replicate 51 (0 : ℝ))[k]? = some 0 := by
    rw [List.getElem?_replicate]
    simp; omega
  refine ⟨(k : ℝ) / (50 : ℕ), ((50 - k : ℕ) : ℝ) / (50 : ℕ), by norm_num, by norm_num, ?_, ?_, ?_⟩
  · simp only [deckLine, List.getElem?_map, List.getElem?_zipWith, hx, hc, Option.map_some]
  · simp only [deckLine, List.getElem?_map, List.getElem?_zipWith, hx, hr, Option.map_some]
  · simp only [deckLine, List.getElem?_map, List.getElem?_zipWith, hx, hr, Option.map_some]

/-- **C104** (partial: up to 3 percent of the base of the foretriangle).  The deck lines are the heel and leeway
rotation of lines at deck height; the centreline runs from `1.1` bases before the origin to `1.9` behind it; the points
of the two edges with the same number are on the same station and on the two sides of a middle line, which is to
one side of the centreline by at most 3 percent of the base; at the bow the edges meet on the centreline.  Missing:
symmetry about the centreline, see `C104_refuted`. -/
theorem C104_deck_partial (sheer base : ℝ) (hb : 0 ≤ base) (c : Csys) (clr : V3) (hull : Hull)
    (h : hullGeometry sheer base c clr = .ok hull) (k : ℕ) (hk : k ≤ 50) :
    ∃ m p s : V3, hull.deckCenterline[k]? = some (c.rotatePointWithMirror m) ∧
      hull.deckPort[k]? = some (c.rotatePointWithMirror p) ∧
      hull.deckStarboard[k]? = some (c.rotatePointWithMirror s) ∧
      m = ⟨-1.1 * base + 3 * base * (k / 50), 0, sheer⟩ ∧ p.z = sheer ∧ s.z = sheer ∧
      (p.x + s.x) / 2 = m.x ∧ s.y ≤ (p.y + s.y) / 2 ∧ (p.y + s.y) / 2 ≤ p.y ∧
      0 ≤ (p.y + s.y) / 2 ∧ (p.y + s.y) / 2 ≤ 0.03 * base ∧
      (k = 0 → p = m ∧ s = m) := by
  obtain ⟨X, Y, hX, hY, hm, hp, hs⟩ := hull_points sheer base c clr hull h k hk
  refine ⟨_, _, _, hm, hp, hs, ?_, rfl, rfl, ?_⟩
  · simp only [V3.mk.injEq, and_true, true_and, hX]
    ring
  have hY0 : 0 ≤ Y := by rw [hY]; positivity
  have hY1 : Y ≤ 1 := by
    rw [hY, div_le_one (by norm_num)]
    have : ((50 - k : ℕ) : ℝ) ≤ ((50 : ℕ) : ℝ) := by exact_mod_cast Nat.sub_le 50 k
    simpa using this
  have ht : 0 ≤ camberThickness 0.28 Y * Real.cos (Real.arctan (slope 0.01 0.0 Y)) :=
    mul_nonneg (camberThickness_nonneg (by norm_num) hY0 hY1) (Real.cos_arctan_pos _).le
  have hc : camberCurve 0.01 0.0 Y = 0.01 * (1 - Y ^ 2) := by
    have e : (0.0 : ℝ) = 0 := by norm_num
    rw [e]; exact camberCurve_zero _ _ hY0
  have h0 : k = 0 → X = 0 ∧ Y = 1 := by
    rintro rfl
    exact ⟨by rw [hX]; norm_num, by rw [hY]; norm_num⟩
  have hYs : 0 ≤ 1 - Y ^ 2 := by nlinarith
  have hbt : 0 ≤ base * (camberThickness 0.28 Y * Real.cos (Real.arctan (slope 0.01 0.0 Y))) := mul_nonneg hb ht
  have hby : 0 ≤ base * (1 - Y ^ 2) := mul_nonneg hb hYs
  have hby2 : 0 ≤ base * Y ^ 2 := by positivity
  simp only
  refine ⟨by ring, ?_, ?_, ?_, ?_, ?_⟩
  · linarith
  · linarith
  · rw [hc]; linarith
  · rw [hc]; linarith
  · intro hk0
    obtain ⟨rfl, rfl⟩ := h0 hk0
    rw [hc, camberThickness_one, camberThickness_zero]
    constructor <;> ext <;> norm_num

/-- Non-vacuity: the hull is always built. -/
example : ∃ hull, hullGeometry 1.2 1 ⟨10, 5, 0⟩ ⟨0, 0, -1⟩ = .ok hull :=
  let ⟨hull, h, _⟩ := C57_hull 1.2 1 ⟨10, 5, 0⟩ ⟨0, 0, -1⟩
  ⟨hull, h⟩

/-- **C104 refuted**: the airfoil used as deck outline is cambered and not closed at its nose, so both edges end at
the stern in a point which is off the end of the centreline, by 3 percent of the base, for every hull, heel and
leeway. -/
theorem C104_refuted (sheer base : ℝ) (hs : 0 < sheer) (hb : 0 < base) (c : Csys) (clr : V3) (hull : Hull)
    (h : hullGeometry sheer base c clr = .ok hull) :
    ∃ m e : V3, hull.deckCenterline[50]? = some m ∧ hull.deckPort[50]? = some e ∧ hull.deckStarboard[50]? = some e ∧
      (e - m).norm = 0.03 * base := by
  obtain ⟨X, Y, hX, hY, hm, hp, hst⟩ := hull_points sheer base c clr hull h 50 le_rfl
  have hX1 : X = 1 := by rw [hX]; norm_num
  have hY1 : Y = 0 := by rw [hY]; norm_num
  subst hX1; subst hY1
  have hc : camberCurve 0.01 0.0 0 = 0.01 := by
    have e : (0.0 : ℝ) = 0 := by norm_num
    rw [e, camberCurve_zero _ _ le_rfl]
    norm_num
  rw [hc, camberThickness_one, camberThickness_zero] at hp hst
  refine ⟨_, _, hm, hp, ?_, ?_⟩
  · rw [hst]
    congr 2
    ext <;> simp
  · rw [c.rotatePointWithMirror_pos hs, c.rotatePointWithMirror_pos hs, ← M3.mulVec_sub, ← M3.mulVec_sub, c.leeway_norm,
      c.heeling_norm]
    have e : ((⟨-1.1 * base + base * 3 * (1 - 0 * Real.sin (Real.arctan (slope 0.01 0.0 1))),
        base * 3 * (0.01 + 0 * Real.cos (Real.arctan (slope 0.01 0.0 0))), sheer⟩ : V3) -
        ⟨-1.1 * base + base * 3 * 1, 0, sheer⟩) = (0.03 * base) • (⟨0, 1, 0⟩ : V3) := by
      ext <;> simp
      ring
    rw [e, V3.norm_smul, abs_of_pos (by positivity)]
    have : (⟨0, 1, 0⟩ : V3).norm = 1 := by simp [V3.norm, V3.dot]
    rw [this, mul_one]

/-- **C104.**  In the picture of a run with the deck above the water there are five lines for the hull of the settings:
centreline and deck edges, and, with a quarter of the opacity, the mirror images of the edges. -/
theorem C104_drawn (spline : SplineFn) (c : Config) (s : Scene) (h : .picture (some s) ∈ (run spline c).1)
    (hs : 0 < c.rig.sheer) :
    ∃ base hull, c.rig.base = some base ∧
      hullGeometry c.rig.sheer base ⟨c.heelDeg, c.leewayDeg, c.vRef⟩ c.clrUpright = .ok hull ∧
      s.hullLines = [(hull.deckCenterline, 1), (hull.deckPort, 1), (hull.deckStarboard, 1),
        (hull.deckPort.map mirror, 1 / 4), (hull.deckStarboard.map mirror, 1 / 4)] := by
  obtain ⟨p, hp, hd⟩ := run_picture h
  obtain ⟨main, jib, base, -, -, hcs, -, -, -, hbase, hh, -⟩ := prepare_ok hp
  rw [C59_csys_constructor_total] at hcs
  injection hcs with hcs
  rw [← hcs] at hh
  refine ⟨base, p.hull, hbase, hh, ?_⟩
  obtain ⟨hull', h', -, -, -, -, -, hm⟩ := C57_hull c.rig.sheer base ⟨c.heelDeg, c.leewayDeg, c.vRef⟩ c.clrUpright
  rw [hh] at h'
  injection h' with h'
  subst h'
  unfold displayScene at hd
  simp only [bind, Except.bind] at hd
  split at hd
  · cases hd
  split at hd
  · cases hd
  split at hd
  · cases hd
  injection hd with hd
  rw [← hd, ← (hm hs).1, ← (hm hs).2]
  norm_num [displayHull]

/-- Non-vacuity: a run with a picture and the deck above the water. -/
example (spline : SplineFn) : (∃ s, .picture (some s) ∈ (run spline Demo.config).1) ∧ 0 < Demo.config.rig.sheer := by
  obtain ⟨p, s, -, hs, -⟩ := demo_picture spline
  exact ⟨⟨s, hs⟩, by norm_num [Demo.config, demoRig]⟩

end PySailing.Props
