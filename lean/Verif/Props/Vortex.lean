import Verif.Lemmas.Kernels
import Verif.Lemmas.BiotSavart

/-!
# C25 - C29, C60: vortex kernels
-/

namespace PySailing.Props

open PySailing PySailing.Spec

/-! ## C25 -/

/-- **C25.** Outside of the core, `vortex_line` is the Biot-Savart line integral over the
segment; inside the core (point within `1e-8` of an end, or `|r1 x r2|² < 1e-8`) it is zero. -/
theorem C25_vortex_line_biot_savart (p p1 p2 : V3) (γ : ℝ) :
    (1e-8 ≤ (p - p1).norm → 1e-8 ≤ (p - p2).norm →
      1e-8 ≤ (V3.cross (p - p1) (p - p2)).norm ^ 2 →
      vortexLine p p1 p2 γ = biotSavart p p1 p2 γ) ∧
    ((p - p1).norm < 1e-8 ∨ (p - p2).norm < 1e-8 ∨
      (V3.cross (p - p1) (p - p2)).norm ^ 2 < 1e-8 → vortexLine p p1 p2 γ = 0) := by
  refine ⟨fun h1 h2 h3 => ?_, fun h => vortexLine_core γ h⟩
  have hc : ¬ coreTest p p1 p2 := by
    unfold coreTest; push Not; exact ⟨h1, h2, h3⟩
  rw [vortexLine_out γ hc, biotSavart_closed p p1 p2 γ (not_core_cross hc)]

/-- Non-vacuity of the first branch: a point one unit beside a segment. -/
example : ¬ coreTest ⟨1, 0, 0⟩ 0 ⟨0, 1, 0⟩ := by
  unfold coreTest
  push Not
  refine ⟨?_, ?_, ?_⟩
  · apply le_of_sq_le_sq _ (V3.norm_nonneg _)
    rw [V3.norm_sq]; norm_num [V3.dot]
  · apply le_of_sq_le_sq _ (V3.norm_nonneg _)
    rw [V3.norm_sq]; norm_num [V3.dot]
  · rw [V3.norm_sq]; norm_num [V3.dot]

/-! ## C26 -/

/-- **C26.** Symmetries of the finite segment: linear in the strength, odd under reversal,
orthogonal to the filament and to the separation, equivariant under every rigid motion (with the
orientation sign for reflections). -/
theorem C26_vortex_line_symmetries (p p1 p2 : V3) (γ : ℝ) :
    (∀ a b : ℝ, vortexLine p p1 p2 (a * γ + b)
      = a • vortexLine p p1 p2 γ + vortexLine p p1 p2 b) ∧
    vortexLine p p2 p1 γ = -vortexLine p p1 p2 γ ∧
    (vortexLine p p1 p2 γ).dot (p2 - p1) = 0 ∧
    (vortexLine p p1 p2 γ).dot (p - p1) = 0 ∧
    (∀ R ε t, IsIsometry R ε →
      vortexLine (move R t p) (move R t p1) (move R t p2) γ = ε • R (vortexLine p p1 p2 γ)) := by
  refine ⟨fun a b => ?_, vortexLine_swap p p1 p2 γ, ?_, ?_,
    fun R ε t h => vortexLine_move h t p p1 p2 γ⟩
  · rw [vortexLine_gamma p p1 p2 (a * γ + b), vortexLine_gamma p p1 p2 γ,
      vortexLine_gamma p p1 p2 b, add_smul, mul_smul]
  · by_cases h : coreTest p p1 p2
    · rw [vortexLine_core γ h]; simp
    · rw [vortexLine_out γ h, V3.dot_smul_left, V3.dot_smul_left, V3.dot_smul_left,
        show p2 - p1 = (p - p1) - (p - p2) by abel, V3.dot_sub_right (V3.cross (p - p1) (p - p2)),
        V3.dot_cross_left, V3.dot_cross_right]
      ring
  · by_cases h : coreTest p p1 p2
    · rw [vortexLine_core γ h]; simp
    · rw [vortexLine_out γ h, V3.dot_smul_left, V3.dot_smul_left, V3.dot_smul_left,
        V3.dot_cross_left]
      ring

/-- **C26** for the semi-infinite filament: the same call succeeds or fails on the moved data,
and the value moves along; it is linear in the strength, orthogonal to the filament, and
depends on the wind only through its direction. -/
theorem C26_vortex_infinite_line_symmetries (P A V : V3) (γ : ℝ) :
    (∀ R ε t, IsIsometry R ε →
      vortexInfiniteLineCall (move R t P) (move R t A) (R V) γ
        = (vortexInfiniteLineCall P A V γ).map fun v => ε • R v) ∧
    (∀ a b : ℝ, vortexInfiniteLineCall P A V (a * γ + b)
      = (do let v ← vortexInfiniteLineCall P A V γ
            let w ← vortexInfiniteLineCall P A V b
            return a • v + w)) ∧
    (∀ s : ℝ, 0 < s → vortexInfiniteLineCall P A (s • V) γ = vortexInfiniteLineCall P A V γ) ∧
    (∀ v, vortexInfiniteLineCall P A V γ = .ok v → v.dot V = 0 ∧ v.dot (P - A) = 0) := by
  refine ⟨fun R ε t h => ?_, fun a b => ?_, fun s hs => ?_, fun v hv => ?_⟩
  · unfold vortexInfiniteLineCall
    by_cases hw : wakeDefined P A V
    · rw [if_pos hw, if_pos ((wakeDefined_move h t P A V).2 hw), vortexInfiniteLine_move h]
      rfl
    · rw [if_neg hw, if_neg (mt (wakeDefined_move h t P A V).1 hw)]
      rfl
  · unfold vortexInfiniteLineCall
    by_cases hw : wakeDefined P A V
    · simp only [if_pos hw]
      rw [vortexInfiniteLine_gamma P A V (a * γ + b), vortexInfiniteLine_gamma P A V γ,
        vortexInfiniteLine_gamma P A V b, add_smul, mul_smul]
      rfl
    · simp only [if_neg hw]
      rfl
  · unfold vortexInfiniteLineCall
    rw [vortexInfiniteLine_smul_wind P A V γ hs]
    by_cases hw : wakeDefined P A V
    · rw [if_pos hw, if_pos ((wakeDefined_smul_wind P A V hs).2 hw)]
    · rw [if_neg hw, if_neg (mt (wakeDefined_smul_wind P A V hs).1 hw)]
  · unfold vortexInfiniteLineCall at hv
    split_ifs at hv with hw
    simp only [Except.ok.injEq] at hv
    subst hv
    constructor
    · have h0 : (V3.cross ((1 / V.norm) • V) (P - A)).dot V = 0 := by
        rw [V3.cross_smul_left, V3.dot_smul_left, V3.dot_cross_left, mul_zero]
      simp only [vortexInfiniteLine]
      rw [V3.dot_smul_left, V3.dot_smul_left, h0]
      ring
    · simp only [vortexInfiniteLine]
      rw [V3.dot_smul_left, V3.dot_smul_left, V3.dot_cross_right]
      ring

/-- Non-vacuity: rotations and the water mirror are instances of the rigid motions above. -/
example : IsIsometry (rodrigues ⟨0, 0, 1⟩ 2) 1 ∧ IsIsometry mirror (-1) :=
  ⟨isIsometry_rodrigues (u := ⟨0, 0, 1⟩) (by simp [V3.dot]) 2, isIsometry_mirror⟩

/-! ## C60 -/

/-- **C60.** `vortex_infinite_line` returns a finite vector exactly when there is wind and the
point is not on the closed downstream ray `A + s V, s ≥ 0`; in particular upstream points on the
axis are fine. -/
theorem C60_infinite_line_finite_iff (P A V : V3) (γ : ℝ) :
    (∃ v, vortexInfiniteLineCall P A V γ = .ok v) ↔
      V ≠ 0 ∧ ∀ s : ℝ, 0 ≤ s → P ≠ A + s • V := by
  rw [← wakeDefined_iff]
  unfold vortexInfiniteLineCall
  split_ifs with h
  · simp [h]
  · simp [h]

/-! ## C27 -/

/-- **C27.** At every point off the filament's line (and not within `1e-8` of its start), the
call succeeds and its value is the limit of the finite segments from `A` to `A + s V`, as
`s → ∞`. -/
theorem C27_infinite_line_is_limit (P A V : V3) (γ : ℝ) (hoff : V3.cross V (P - A) ≠ 0)
    (hA : 1e-8 ≤ (P - A).norm) :
    ∃ v, vortexInfiniteLineCall P A V γ = .ok v ∧
      TendstoV (fun s => vortexLine P A (A + s • V) γ) v := by
  refine ⟨vortexInfiniteLine P A V γ, ?_, tendsto_vortexLine_infinite γ hoff hA⟩
  rw [vortexInfiniteLineCall, if_pos (wakeDefined_of_cross hoff)]

/-- Non-vacuity. -/
example : V3.cross ⟨1, 0, 0⟩ ((⟨0, 1, 0⟩ : V3) - 0) ≠ 0 ∧ 1e-8 ≤ ((⟨0, 1, 0⟩ : V3) - 0).norm := by
  constructor
  · intro h; have := congrArg V3.z h; simp at this
  · apply le_of_sq_le_sq _ (V3.norm_nonneg _)
    rw [V3.norm_sq]; norm_num [V3.dot]

/-! ## C28 -/

/-- **C28**, rings: cyclic relabelling, reversal, and cancellation of a shared edge `C D` of two
rings of equal strength (what is left is the closed outer hexagon). -/
theorem C28_rings (p A B C D E F : V3) (γ : ℝ) :
    vortexRing p B C D A γ = vortexRing p A B C D γ ∧
    vortexRing p D C B A γ = -vortexRing p A B C D γ ∧
    vortexRing p A B C D γ + vortexRing p D C E F γ
      = vortexLine p A B γ + vortexLine p B C γ + vortexLine p C E γ + vortexLine p E F γ
        + vortexLine p F D γ + vortexLine p D A γ := by
  unfold vortexRing
  refine ⟨by abel, ?_, ?_⟩
  · rw [vortexLine_swap p C D, vortexLine_swap p B C, vortexLine_swap p A B,
      vortexLine_swap p D A]
    abel
  · rw [vortexLine_swap p C D]; abel

/-- **C28**, horseshoe as a limit: a horseshoe is the limit of the rings whose rear edge recedes
downwind, and `vortex_horseshoe_v2` the limit of a ring plus such a receding wake ring. -/
theorem C28_horseshoe_is_limit_of_rings (p A B C D V : V3) (γ : ℝ)
    (hA : V3.cross V (p - A) ≠ 0) (hA' : 1e-8 ≤ (p - A).norm)
    (hB : V3.cross V (p - B) ≠ 0) (hB' : 1e-8 ≤ (p - B).norm)
    (hC : V3.cross V (p - C) ≠ 0) (hC' : 1e-8 ≤ (p - C).norm)
    (hD : V3.cross V (p - D) ≠ 0) (hD' : 1e-8 ≤ (p - D).norm) :
    TendstoV (fun s => vortexRing p (B + s • V) B C (C + s • V) γ) (vortexHorseshoe p B C V γ) ∧
    TendstoV (fun s => vortexRing p A B C D γ + vortexRing p (A + s • V) A D (D + s • V) γ)
      (vortexHorseshoeV2 p A B C D V γ) := by
  have hV : V ≠ 0 := by rintro rfl; simp at hA
  have lB := tendsto_vortexLine_infinite γ hB hB'
  have lC := tendsto_vortexLine_infinite γ hC hC'
  have lA := tendsto_vortexLine_infinite γ hA hA'
  have lD := tendsto_vortexLine_infinite γ hD hD'
  have far1 := tendsto_far_edge p C B V hV γ
  have far2 := tendsto_far_edge p D A V hV γ
  have neg1 : ∀ X, vortexInfiniteLine p X V (-1 * γ) = -vortexInfiniteLine p X V γ := by
    intro X
    rw [vortexInfiniteLine_gamma p X V (-1 * γ), vortexInfiniteLine_gamma p X V γ, mul_smul,
      neg_smul, one_smul]
  constructor
  · have := ((lB.neg.add (TendstoV.const (vortexLine p B C γ))).add lC).add far1
    have e : vortexHorseshoe p B C V γ
        = -vortexInfiniteLine p B V γ + vortexLine p B C γ + vortexInfiniteLine p C V γ + 0 := by
      rw [vortexHorseshoe, neg1]; abel
    rw [e]
    simp only [vortexRing]
    simpa only [← vortexLine_swap] using this
  · have := (TendstoV.const (vortexRing p A B C D γ)).add
      (((lA.neg.add (TendstoV.const (vortexLine p A D γ))).add lD).add far2)
    have e : vortexHorseshoeV2 p A B C D V γ = vortexRing p A B C D γ
        + (-vortexInfiniteLine p A V γ + vortexLine p A D γ + vortexInfiniteLine p D V γ + 0) := by
      rw [vortexHorseshoeV2, neg1, vortexRing, vortexLine_swap p D A]; abel
    rw [e]
    simp only [vortexRing] at this ⊢
    simpa only [← vortexLine_swap] using this

/-- **C28**, agreement of the two horseshoes when the chordwise legs `B A` and `C D` run along
the wind (legs outside the core of the evaluation point). -/
theorem C28_horseshoes_agree (p B C V : V3) (γ s t : ℝ) (hs : 0 < s) (ht : 0 < t)
    (hB : 1e-8 ≤ (p - B).norm) (hB' : 1e-8 ≤ (p - (B + s • V)).norm)
    (hB'' : 1e-8 ≤ (V3.cross (p - B) (p - (B + s • V))).norm ^ 2)
    (hC : 1e-8 ≤ (p - C).norm) (hC' : 1e-8 ≤ (p - (C + t • V)).norm)
    (hC'' : 1e-8 ≤ (V3.cross (p - C) (p - (C + t • V))).norm ^ 2) :
    vortexHorseshoeV2 p (B + s • V) B C (C + t • V) V γ = vortexHorseshoe p B C V γ := by
  have hb : ¬ coreTest p B (B + s • V) := by unfold coreTest; push Not; exact ⟨hB, hB', hB''⟩
  have hc : ¬ coreTest p C (C + t • V) := by unfold coreTest; push Not; exact ⟨hC, hC', hC''⟩
  rw [vortexHorseshoe, vortexHorseshoeV2, vortexInfiniteLine_split γ ht hc,
    vortexInfiniteLine_split (-1 * γ) hs hb, vortexLine_gamma p B (B + s • V) (-1 * γ),
    mul_smul, neg_smul, one_smul, ← vortexLine_gamma, vortexLine_swap p (B + s • V) B, ]
  abel

/-- Non-vacuity: unit horseshoe with legs along x seen from above. -/
example : let p : V3 := ⟨0, 0, 1⟩; let B : V3 := ⟨0, 1, 0⟩; let C : V3 := ⟨0, 2, 0⟩
    let V : V3 := ⟨1, 0, 0⟩
    V3.cross V (p - B) ≠ 0 ∧ V3.cross V (p - C) ≠ 0 ∧ 1e-8 ≤ (p - B).norm ∧
      1e-8 ≤ (p - (C + (1:ℝ) • V)).norm ∧
      1e-8 ≤ (V3.cross (p - B) (p - (B + (1:ℝ) • V))).norm ^ 2 := by
  refine ⟨?_, ?_, ?_, ?_, ?_⟩
  · intro h; have := congrArg V3.y h; norm_num at this
  · intro h; have := congrArg V3.y h; norm_num at this
  · apply le_of_sq_le_sq _ (V3.norm_nonneg _)
    rw [V3.norm_sq]; norm_num [V3.dot]
  · apply le_of_sq_le_sq _ (V3.norm_nonneg _)
    rw [V3.norm_sq]; norm_num [V3.dot]
  · rw [V3.norm_sq]; norm_num [V3.dot]

/-! ## C29 -/

/-- **C29** (partial): scaling the geometry by `s > 0` divides the induced velocity by `s`, when
the point is outside of the (absolute, `1e-8`) core at both scales. -/
theorem C29_scaling_partial (p p1 p2 : V3) (γ s : ℝ) (hs : 0 < s)
    (h : ¬ ((p - p1).norm < 1e-8 ∨ (p - p2).norm < 1e-8 ∨
      (V3.cross (p - p1) (p - p2)).norm ^ 2 < 1e-8))
    (h' : ¬ ((s • p - s • p1).norm < 1e-8 ∨ (s • p - s • p2).norm < 1e-8 ∨
      (V3.cross (s • p - s • p1) (s • p - s • p2)).norm ^ 2 < 1e-8)) :
    vortexLine (s • p) (s • p1) (s • p2) γ = (1 / s) • vortexLine p p1 p2 γ :=
  vortexLine_scale γ hs h h'

/-- **C29** for the semi-infinite filament has no core and scales without exception. -/
theorem C29_scaling_infinite (P A V : V3) (γ s : ℝ) (hs : 0 < s) :
    vortexInfiniteLineCall (s • P) (s • A) V γ
      = (vortexInfiniteLineCall P A V γ).map fun v => (1 / s) • v := by
  have e : ∀ d : V3, s • P - s • A = s • (P - A) := fun _ => by rw [smul_sub]
  have hw : wakeDefined (s • P) (s • A) V ↔ wakeDefined P A V := by
    unfold wakeDefined
    rw [e 0, V3.norm_smul, abs_of_pos hs, V3.dot_smul_right]
    rw [show s * (P - A).norm * (s * (P - A).norm - s * ((1 / V.norm) • V).dot (P - A))
      = (s * s) * ((P - A).norm * ((P - A).norm - ((1 / V.norm) • V).dot (P - A))) by ring]
    have : s * s ≠ 0 := by positivity
    simp [this]
  unfold vortexInfiniteLineCall
  by_cases h : wakeDefined P A V
  · rw [if_pos h, if_pos (hw.2 h)]
    simp only [Except.map]
    congr 1
    unfold vortexInfiniteLine
    simp only
    rw [e 0, V3.norm_smul, abs_of_pos hs, V3.dot_smul_right, V3.cross_smul_right]
    simp only [smul_smul]
    congr 1
    have h2 := h.2
    rw [show s * (P - A).norm * (s * (P - A).norm - s * ((1 / V.norm) • V).dot (P - A))
      = (s * s) * ((P - A).norm * ((P - A).norm - ((1 / V.norm) • V).dot (P - A))) by ring]
    generalize (P - A).norm * ((P - A).norm - ((1 / V.norm) • V).dot (P - A)) = m at *
    field_simp
  · rw [if_neg h, if_neg (mt hw.1 h)]
    rfl

/-- **C29 is false in general**: the core radius is absolute, so a unit-size configuration shrunk
by `1e-5` induces nothing, while the original induces a non-zero velocity. -/
theorem C29_refuted :
    ∃ (p p1 p2 : V3) (γ s : ℝ), 0 < s ∧
      vortexLine (s • p) (s • p1) (s • p2) γ ≠ (1 / s) • vortexLine p p1 p2 γ := by
  refine ⟨⟨1, 0, 0⟩, 0, ⟨0, 1, 0⟩, 1, 1e-5, by norm_num, ?_⟩
  have hcore : coreTest ((1e-5 : ℝ) • (⟨1, 0, 0⟩ : V3)) ((1e-5 : ℝ) • (0 : V3))
      ((1e-5 : ℝ) • (⟨0, 1, 0⟩ : V3)) := by
    right; right
    rw [V3.norm_sq]; norm_num [V3.dot]
  have hout : ¬ coreTest ⟨1, 0, 0⟩ 0 ⟨0, 1, 0⟩ := by
    unfold coreTest
    push Not
    refine ⟨?_, ?_, ?_⟩
    · apply le_of_sq_le_sq _ (V3.norm_nonneg _)
      rw [V3.norm_sq]; norm_num [V3.dot]
    · apply le_of_sq_le_sq _ (V3.norm_nonneg _)
      rw [V3.norm_sq]; norm_num [V3.dot]
    · rw [V3.norm_sq]; norm_num [V3.dot]
  rw [vortexLine_core 1 hcore, vortexLine_regular 1 hout]
  intro h
  have hz := congrArg V3.z h
  have n1 : ((⟨1, 0, 0⟩ : V3) - 0).norm = 1 := by
    rw [V3.norm, Real.sqrt_eq_one]; norm_num [V3.dot]
  have n2 : 0 < ((⟨1, 0, 0⟩ : V3) - ⟨0, 1, 0⟩).norm := by
    apply V3.norm_pos; intro h; have := congrArg V3.x h; simp at this
  have hd : ((⟨1, 0, 0⟩ : V3) - 0).dot ((⟨1, 0, 0⟩ : V3) - ⟨0, 1, 0⟩) = 1 := by
    norm_num [V3.dot]
  rw [n1, hd] at hz
  simp only [V3.smul_z, V3.cross_z, V3.zero_z, V3.sub_x, V3.sub_y, V3.zero_x, V3.zero_y] at hz
  generalize ((⟨1, 0, 0⟩ : V3) - ⟨0, 1, 0⟩).norm = n at hz n2
  have hp := Real.pi_pos
  have : 0 < (1 / 1e-5 : ℝ) * (1 / (4 * Real.pi) * ((1 + n) / (1 * n * (1 * n + 1)) *
      ((1 - 0) * (1 - 0) - (0 - 0) * (1 - 0)))) := by
    have : ((1 - 0) * (1 - 0) - (0 - 0) * (1 - 0) : ℝ) = 1 := by norm_num
    rw [this]
    positivity
  have h2 : ((1 - 0) * (0 - 1) - (0 - 0) * (1 - 0) : ℝ) = -1 := by norm_num
  have h3 : ((1 - 0) * (1 - 0) - (0 - 0) * (1 - 0) : ℝ) = 1 := by norm_num
  rw [h2] at hz
  rw [h3] at this
  linarith

end PySailing.Props
