import Verif.Lemmas.LatticeVars
import Verif.Lemmas.Sail
import Verif.Lemmas.Solver

/-!
# The arrays of a sail set are meshed blocks
-/

namespace PySailing

open Spec

theorem blockFlags_append (nc ns n m : ℕ) (row : ℕ → Bool) :
    blockFlags nc ns n row ++ blockFlags nc ns m row = blockFlags nc ns (n + m) row := by
  unfold blockFlags
  rw [List.replicate_add, List.flatten_append]

theorem blockPanels_append (nc ns : ℕ) (b c : List (ℕ → ℕ → V3)) :
    blockPanels nc ns b ++ blockPanels nc ns c = blockPanels nc ns (b ++ c) := by
  unfold blockPanels
  rw [List.map_append, List.flatten_append]

/-- `sail` is what `SailGeometry` returns for the well-formed arguments `s` with twists `θ`, and has
`nc` by `ns` panels on each side. -/
def Spec.BuiltFrom (nc ns : ℕ) (s : SailInput × (ℕ → ℝ)) (sail : SailGeom) : Prop :=
  SailOk s.1 s.2 ∧ s.1.nc = nc ∧ s.1.ns = ns ∧ sailGeometry s.1 = .ok sail

/-- Points above the water of the sail with arguments `s`. -/
noncomputable def Spec.abovePoints (s : SailInput × (ℕ → ℝ)) : ℕ → ℕ → V3 := s.1.aboveTwisted s.2

/-- Points of its underwater image. -/
noncomputable def Spec.underPoints (s : SailInput × (ℕ → ℝ)) : ℕ → ℕ → V3 := s.1.underTwisted s.2

theorem builtFrom_fields {nc ns : ℕ} {s : SailInput × (ℕ → ℝ)} {sail : SailGeom}
    (h : BuiltFrom nc ns s sail) :
    sail.panelsAbove = panelGrid nc ns (abovePoints s) ∧
    sail.panelsUnder = panelGrid nc ns (underPoints s) ∧
    sail.te = ((List.range nc).flatMap fun i => (List.range ns).map fun _ => decide (i + 1 = nc)) ∧
    sail.le = ((List.range nc).flatMap fun i => (List.range ns).map fun _ =>
      decide (i = 0 ∧ 2 ≤ nc)) := by
  obtain ⟨hok, rfl, rfl, hg⟩ := h
  obtain ⟨g, hg', -, -, -, -, h1, h2, -, -, h3, h4⟩ := sailGeometry_ok hok
  rw [hg] at hg'
  injection hg' with e
  subst e
  refine ⟨h1, h2, ?_, ?_⟩
  · rw [h3]
    apply grid_congr
    intro i j _ _
    by_cases hi : i + 1 = s.1.nc <;> simp [hi]
  · rw [h4]
    apply grid_congr
    intro i j hi _
    by_cases h1 : i + 1 = s.1.nc
    · simp [h1]; omega
    · by_cases h0 : i = 0
      · have : 2 ≤ s.1.nc := by omega
        simp [h0, this]; omega
      · simp [h0]

theorem sailSet_blocks {nc ns : ℕ} {ss : List (SailInput × (ℕ → ℝ))} {sails : List SailGeom}
    (h : List.Forall₂ (BuiltFrom nc ns) ss sails) {set : SailSet} (hs : sailSet sails = .ok set) :
    set.panels = blockPanels nc ns (ss.map abovePoints ++ ss.map underPoints) ∧
    set.te = trailingFlags nc ns (2 * ss.length) ∧ set.le = leadingFlags nc ns (2 * ss.length) := by
  have hab : ((sails.map SailGeom.panelsAbove).flatten = blockPanels nc ns (ss.map abovePoints)) ∧
      ((sails.map SailGeom.panelsUnder).flatten = blockPanels nc ns (ss.map underPoints)) ∧
      ((sails.map SailGeom.te).flatten = trailingFlags nc ns ss.length) ∧
      ((sails.map SailGeom.le).flatten = leadingFlags nc ns ss.length) := by
    clear hs
    induction h with
    | nil => simp [blockPanels, trailingFlags, leadingFlags, blockFlags]
    | cons hb _ ih =>
      obtain ⟨h1, h2, h3, h4⟩ := builtFrom_fields hb
      obtain ⟨i1, i2, i3, i4⟩ := ih
      simp only [List.map_cons, List.flatten_cons, i1, i2, i3, i4, h1, h2, h3, h4]
      refine ⟨rfl, rfl, ?_, ?_⟩
      · simp only [trailingFlags, blockFlags, List.length_cons, List.replicate_succ,
          List.flatten_cons]
      · simp only [leadingFlags, blockFlags, List.length_cons, List.replicate_succ,
          List.flatten_cons]
  unfold sailSet at hs
  by_cases h0 : sails = []
  · rw [if_pos h0] at hs; cases hs
  rw [if_neg h0] at hs
  injection hs with hs
  subst hs
  obtain ⟨h1, h2, h3, h4⟩ := hab
  simp only [h1, h2, h3, h4]
  refine ⟨blockPanels_append _ _ _ _, ?_, ?_⟩
  · rw [two_mul]; exact blockFlags_append _ _ _ _ _
  · rw [two_mul]; exact blockFlags_append _ _ _ _ _

/-! ### Flags -/

section flags

variable {nc ns n K : ℕ}

theorem leading_at {b i j : ℕ} (hb : b < n) (hi : i < nc) (hj : j < ns) :
    (leadingFlags nc ns n).getD (panelNo nc ns b i j) false = decide (i = 0 ∧ 2 ≤ nc) := by
  rw [List.getD_eq_getElem?_getD]
  unfold leadingFlags
  rw [blockFlags_get _ hb hi hj]
  rfl

theorem case1x1_flags (hnc : 0 < nc) (hns : 0 < ns) (hn : 0 < n) (hK : K = n * (nc * ns)) :
    case1x1 (fun i : Fin K => (leadingFlags nc ns n).getD i false) = decide (nc = 1) := by
  by_cases h : nc = 1
  · simp only [h, decide_true]
    unfold case1x1
    rw [Bool.not_eq_true', List.any_eq_false]
    intro k _
    obtain ⟨b, i, j, hb, hi, hj, hk⟩ := panelNo_surj (n := n) (nc := 1) (ns := ns)
      (by rw [← h, ← hK]; exact k.isLt)
    rw [hk, leading_at hb hi hj]
    simp
  · simp only [h, decide_false]
    unfold case1x1
    rw [Bool.not_eq_false', List.any_eq_true]
    have hlt : panelNo nc ns 0 0 0 < K := by rw [hK]; exact panelNo_lt hn hnc hns
    refine ⟨⟨_, hlt⟩, List.mem_finRange _, ?_⟩
    simp only
    rw [leading_at hn hnc hns]
    simp; omega

/-- Own circulation in the first row. -/
theorem gammaForForce_first (hK : K = n * (nc * ns)) (γ : Fin K → ℝ) {b j : ℕ} (hb : b < n)
    (hi : 0 < nc) (hj : j < ns) (k : Fin K) (hk : k.val = panelNo nc ns b 0 j) :
    gammaForForce (fun i : Fin K => (leadingFlags nc ns n).getD i false) γ ns k = γ k := by
  unfold gammaForForce
  rw [if_pos]
  rw [case1x1_flags hi (by omega) (by omega) hK]
  simp only [hk, leading_at hb hi hj]
  simp; omega

theorem panelNo_pred {b i j : ℕ} : panelNo nc ns b (i + 1) j = panelNo nc ns b i j + ns := by
  unfold panelNo; ring

theorem gammaForForce_next (hK : K = n * (nc * ns)) (γ : Fin K → ℝ) {b i j : ℕ} (hb : b < n)
    (hi : i + 1 < nc) (hj : j < ns) (k k' : Fin K) (hk : k.val = panelNo nc ns b (i + 1) j)
    (hk' : k'.val = panelNo nc ns b i j) :
    gammaForForce (fun i : Fin K => (leadingFlags nc ns n).getD i false) γ ns k = γ k - γ k' := by
  have hw : wrapIndex k ns = k' := by
    apply Fin.ext
    unfold wrapIndex
    simp only [hk, hk', panelNo_pred]
    rw [show panelNo nc ns b i j + ns + K - ns = panelNo nc ns b i j + K by omega,
      Nat.add_mod_right, Nat.mod_eq_of_lt]
    rw [← hk']; exact k'.isLt
  unfold gammaForForce
  rw [if_neg, hw]
  rw [case1x1_flags (by omega) (by omega) (by omega) hK]
  simp only [hk, leading_at hb hi hj]
  simp; omega

theorem indexOk_flags (hnc : 0 < nc) (hn : 0 < n) (hK : K = n * (nc * ns)) :
    IndexOk (fun i : Fin K => (leadingFlags nc ns n).getD i false) ns := by
  intro k _
  have : ns ≤ K := by
    rw [hK]
    calc ns = 1 * (1 * ns) := by ring
      _ ≤ n * (nc * ns) := Nat.mul_le_mul hn (Nat.mul_le_mul hnc le_rfl)
  omega

end flags

end PySailing
