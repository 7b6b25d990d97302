import Verif.Lemmas.PlanarExtend
import Verif.Lemmas.StripRow
import Verif.Lemmas.KernelConvex

/-!
# A planar lattice of equal strips side by side
-/

namespace PySailing

namespace PlanarLattice

/-- One side of a panel, with the wake of a panel of the last row. -/
noncomputable def edgeKernel (C δ : ℝ) (nc k k' : ℕ) (y : ℝ) : ℝ :=
  side (gap δ k k') (gap δ k (k' + 1)) y + (if k' + 1 = nc then wakeKernel C (gap δ k nc) y else 0)

theorem edgeKernel_neg (C δ : ℝ) (nc k k' : ℕ) (y : ℝ) : edgeKernel C δ nc k k' (-y) = -edgeKernel C δ nc k k' y := by
  unfold edgeKernel
  rw [side_neg, wakeKernel_neg]
  split_ifs <;> ring

theorem edgeKernel_zero (C δ : ℝ) (nc k k' : ℕ) : edgeKernel C δ nc k k' 0 = 0 := by
  unfold edgeKernel
  rw [side_zero, wakeKernel_zero]
  simp

theorem edgeKernel_convex {C δ : ℝ} (hC : 0 ≤ C) (hδ : 0 < δ) {nc k : ℕ} (hk : k < nc) (k' : ℕ) :
    ConvexOn ℝ (Set.Ioi 0) (edgeKernel C δ nc k k') := by
  unfold edgeKernel
  have h1 := side_convex (gap_ne hδ k k') (gap_ne hδ k (k' + 1)) (by linarith [gap_succ_sub δ k k'])
  split_ifs with h
  · exact h1.add ((wakeKernel_convex hC (gap_pos hδ hk)).subset Set.Ioi_subset_Ici_self (convex_Ioi 0))
  · simpa using h1

theorem edgeKernel_convex_line {C δ : ℝ} (hC : 0 ≤ C) (hδ : 0 < δ) {nc k k' : ℕ} (hk : k < nc) (hkk : k ≠ k') :
    ConvexOn ℝ (Set.Ici 0) (edgeKernel C δ nc k k') := by
  unfold edgeKernel
  have hp : 0 < gap δ k k' * gap δ k (k' + 1) := by
    rcases Nat.lt_or_ge k k' with h | h
    · exact mul_pos (gap_pos hδ h) (gap_pos hδ (by omega))
    · exact mul_pos_of_neg_of_neg (gap_neg hδ h) (gap_neg hδ (by omega))
  have h1 := side_convex_line hp (by linarith [gap_succ_sub δ k k'])
  split_ifs with h
  · exact h1.add (wakeKernel_convex hC (gap_pos hδ hk))
  · simpa using h1

theorem edgeKernel_antitone {C δ : ℝ} (hC : 0 ≤ C) (hδ : 0 < δ) {nc k : ℕ} (hk : k < nc) (k' : ℕ) {y z : ℝ} (hy : 0 < y) (hyz : y ≤ z) :
    edgeKernel C δ nc k k' z ≤ edgeKernel C δ nc k k' y := by
  have h1 := ringKernel_beside_pos (xf := gap δ k k') (xr := gap δ k (k' + 1)) (by linarith [gap_succ_sub δ k k'])
    (gap_ne hδ k k') (gap_ne hδ k (k' + 1)) hy hyz
  have h2 := wakeKernel_antitone hC (gap_pos hδ hk) hyz
  unfold ringKernel at h1
  unfold edgeKernel side
  split_ifs <;> linarith

theorem edgeKernel_line {C δ : ℝ} (hC : 0 ≤ C) (hδ : 0 < δ) {nc k k' : ℕ} (hk : k < nc) (hkk : k ≠ k') {y : ℝ} (hy : 0 < y) :
    edgeKernel C δ nc k k' y ≤ 0 := by
  have h1 := ringKernel_inLine (xf := gap δ k k') (xr := gap δ k (k' + 1)) (y1 := -y) (y2 := y) (by linarith [gap_succ_sub δ k k'])
    (by linarith) hy.ne' (by linarith) (by
      rcases Nat.lt_or_ge k k' with h | h
      · exact Or.inl (gap_pos hδ h)
      · exact Or.inr (gap_neg hδ (by omega)))
  have h2 := wakeKernel_antitone hC (gap_pos hδ hk) (y1 := -y) (y2 := y) (by linarith)
  rw [wakeKernel_neg] at h2
  unfold ringKernel at h1
  rw [corner_neg_right, corner_neg_right] at h1
  unfold edgeKernel side
  split_ifs <;> linarith

/-- Influence of a panel of row `k'` on the control point of row `k`, `n` strips of width `w` further. -/
noncomputable def stripEntry (C δ w : ℝ) (nc : ℕ) (k k' : Fin nc) (n : ℕ) : ℝ :=
  edgeKernel C δ nc k k' ((n + 1 / 2) * w) - edgeKernel C δ nc k k' ((n - 1 / 2) * w)

theorem stripEntry_off {C δ w : ℝ} (hC : 0 ≤ C) (hδ : 0 < δ) (hw : 0 < w) {nc : ℕ} (k k' : Fin nc) (n : ℕ) (h : n ≠ 0 ∨ k ≠ k') :
    stripEntry C δ w nc k k' n ≤ 0 := by
  unfold stripEntry
  rcases Nat.eq_zero_or_pos n with h0 | h0
  · subst h0
    have hkk : (k : ℕ) ≠ k' := fun e => h.resolve_left (by simp) (Fin.ext e)
    have := edgeKernel_line hC hδ k.isLt hkk (half_pos hw)
    have e1 : ((0 : ℕ) + 1 / 2 : ℝ) * w = w / 2 := by push_cast; ring
    have e2 : ((0 : ℕ) - 1 / 2 : ℝ) * w = -(w / 2) := by push_cast; ring
    rw [e1, e2, edgeKernel_neg]
    linarith
  · have hn : (1 : ℝ) ≤ n := by exact_mod_cast h0
    have := edgeKernel_antitone hC hδ k.isLt (k' : ℕ) (y := ((n : ℝ) - 1 / 2) * w) (z := ((n : ℝ) + 1 / 2) * w)
      (mul_pos (by linarith) hw) (mul_le_mul_of_nonneg_right (by linarith) hw.le)
    linarith

theorem stripEntry_weaker {C δ w : ℝ} (hC : 0 ≤ C) (hδ : 0 < δ) (hw : 0 < w) {nc : ℕ} (k k' : Fin nc) (n : ℕ) (h : n ≠ 0 ∨ k ≠ k') :
    stripEntry C δ w nc k k' n ≤ stripEntry C δ w nc k k' (n + 1) := by
  unfold stripEntry
  rcases Nat.eq_zero_or_pos n with h0 | h0
  · subst h0
    have hkk : (k : ℕ) ≠ k' := fun e => h.resolve_left (by simp) (Fin.ext e)
    have hc := edgeKernel_convex_line hC hδ k.isLt hkk
    have i1 := hc.increments (y := 0) (z := w / 2) (w := w / 2) (by linarith) (by linarith) (by simp) (by simp only [Set.mem_Ici]; linarith)
    have i2 := hc.increments (y := 0) (z := w) (w := w / 2) (by linarith) (by linarith) (by simp) (by simp only [Set.mem_Ici]; linarith)
    have e1 : ((0 : ℕ) + 1 / 2 : ℝ) * w = w / 2 := by push_cast; ring
    have e2 : ((0 : ℕ) - 1 / 2 : ℝ) * w = -(w / 2) := by push_cast; ring
    have e3 : (((0 + 1 : ℕ) : ℝ) + 1 / 2) * w = w + w / 2 := by push_cast; ring
    have e4 : (((0 + 1 : ℕ) : ℝ) - 1 / 2) * w = w / 2 := by push_cast; ring
    have e5 : w / 2 + w / 2 = w := by ring
    rw [edgeKernel_zero, zero_add] at i1 i2
    rw [e5] at i1
    rw [e1, e2, e3, e4, edgeKernel_neg]
    linarith
  · have hn : (1 : ℝ) ≤ n := by exact_mod_cast h0
    have hc := edgeKernel_convex hC hδ k.isLt (k' : ℕ)
    have i1 := hc.increments (y := ((n : ℝ) - 1 / 2) * w) (z := ((n : ℝ) + 1 / 2) * w) (w := w) hw.le
      (mul_le_mul_of_nonneg_right (by linarith) hw.le) (mul_pos (by linarith) hw) (by
        simp only [Set.mem_Ioi]
        have : 0 < ((n : ℝ) + 1 / 2) * w := mul_pos (by linarith) hw
        linarith)
    have e1 : ((n : ℝ) - 1 / 2) * w + w = ((n : ℝ) + 1 / 2) * w := by ring
    have e2 : ((n : ℝ) + 1 / 2) * w + w = (((n + 1 : ℕ) : ℝ) + 1 / 2) * w := by push_cast; ring
    have e3 : (((n + 1 : ℕ) : ℝ) - 1 / 2) * w = ((n : ℝ) + 1 / 2) * w := by push_cast; ring
    rw [e1, e2] at i1
    rw [e3]
    exact i1

variable {K nc N : ℕ} {κ : Type} [Fintype κ] [DecidableEq κ] {O e s : V3} {δ w y0 : ℝ} {lo hi : κ → ℝ} {φ : Fin K ≃ κ × Fin nc}
  {L : Fin K → PanelVars} {te : Fin K → Bool} {V : Fin K → V3} {g C S : ℝ} {l : ℝ}

theorem entry_strip (σ : κ ≃ Fin N) (hlo : ∀ c, lo c = y0 + (σ c : ℕ) * w) (hhi : ∀ c, hi c = lo c + w) (c c' : κ) (k k' : Fin nc) :
    entry C δ lo hi nc c k c' k' = stripEntry C δ w nc k k' (steps (σ c) (σ c')) := by
  have base : entry C δ lo hi nc c k c' k' =
      edgeKernel C δ nc k k' (hi c' - mid lo hi c) - edgeKernel C δ nc k k' (lo c' - mid lo hi c) := by
    unfold entry edgeKernel side ringKernel
    split_ifs <;> ring
  rw [base]
  unfold stripEntry
  rcases le_total (σ c : ℕ) (σ c' : ℕ) with h | h
  · have hs : ((steps (σ c) (σ c') : ℕ) : ℝ) = (σ c' : ℕ) - (σ c : ℕ) := by
      have : steps (σ c) (σ c') = (σ c' : ℕ) - (σ c : ℕ) := by unfold steps; omega
      rw [this, Nat.cast_sub h]
    rw [hs]
    congr 2
    · unfold mid; rw [hhi, hhi, hlo, hlo]; ring
    · unfold mid; rw [hhi, hlo, hlo]; ring
  · have hs : ((steps (σ c) (σ c') : ℕ) : ℝ) = (σ c : ℕ) - (σ c' : ℕ) := by
      have : steps (σ c) (σ c') = (σ c : ℕ) - (σ c' : ℕ) := by unfold steps; omega
      rw [this, Nat.cast_sub h]
    rw [hs]
    have e1 : hi c' - mid lo hi c = -((((σ c : ℕ) : ℝ) - (σ c' : ℕ) - 1 / 2) * w) := by unfold mid; rw [hhi, hhi, hlo, hlo]; ring
    have e2 : lo c' - mid lo hi c = -((((σ c : ℕ) : ℝ) - (σ c' : ℕ) + 1 / 2) * w) := by unfold mid; rw [hhi, hlo, hlo]; ring
    rw [e1, e2, edgeKernel_neg, edgeKernel_neg]
    ring

theorem sum_strips (φ : Fin K ≃ κ × Fin nc) (σ : κ ≃ Fin N) (F : ℕ → Fin nc → ℝ) :
    ∑ j, F (σ (φ j).1) (φ j).2 = ∑ j ∈ Finset.range N, ∑ k', F j k' := by
  rw [φ.sum_comp (fun q => F (σ q.1) q.2), Fintype.sum_prod_type, σ.sum_comp (fun j : Fin N => ∑ k', F j k'),
    ← Fin.sum_univ_eq_sum_range (fun j => ∑ k', F j k')]

theorem influence_strips (P : PlanarLattice O e s δ lo hi φ L te) (σ : κ ≃ Fin N) (hlo : ∀ c, lo c = y0 + (σ c : ℕ) * w)
    (hhi : ∀ c, hi c = lo c + w) (hw : 0 < w) (hC : 0 ≤ C) (hC1 : C ≤ 1) : StripInfluence (stripEntry C δ w nc) N := by
  refine ⟨stripEntry_off hC P.pos hw, stripEntry_weaker hC P.pos hw, fun i k hi' => ?_⟩
  have h := P.kernel_sum_pos hC hC1 (φ.symm (σ.symm ⟨i, hi'⟩, k))
  unfold kernel at h
  simp only [Equiv.apply_symm_apply, entry_strip σ hlo hhi] at h
  rwa [sum_strips φ σ (fun j k' => stripEntry C δ w nc k k' (steps i j))] at h

/-- Circulation (scaled) of the panel of strip `j` and row `k`. -/
noncomputable def stripGamma (φ : Fin K ≃ κ × Fin nc) (σ : κ ≃ Fin N) (x : Fin K → ℝ) (j : ℕ) (k : Fin nc) : ℝ :=
  if h : j < N then x (φ.symm (σ.symm ⟨j, h⟩, k)) else 0

theorem stripGamma_at (φ : Fin K ≃ κ × Fin nc) (σ : κ ≃ Fin N) (x : Fin K → ℝ) (i : Fin K) :
    stripGamma φ σ x (σ (φ i).1) (φ i).2 = x i := by
  unfold stripGamma
  rw [dif_pos (σ (φ i).1).isLt]
  simp

/-- In a uniform wind the circulations of all panels have the same sign. -/
theorem kernel_abs (P : PlanarLattice O e s δ lo hi φ L te) (hg : g ≠ 0) (hl : 0 < l)
    (hV : ∀ i, V i = l • (C • e + S • V3.cross s e)) (hu : C ^ 2 + S ^ 2 = 1) (hC : 0 ≤ C) (i : Fin K) :
    ∑ j, kernel C δ lo hi φ i j * |g * coreGamma L te g V j| = 4 * Real.pi * |S| * l := by
  have h := P.kernel_gamma hg (fun _ => hl) hV hu hC i
  have hb := fun j => (P.gamma_bounds hg (fun _ => hl) (M := l) (fun _ => le_rfl) hV hu hC j).1
  rcases lt_trichotomy S 0 with hS | hS | hS
  · have e : ∀ j, |g * coreGamma L te g V j| = g * coreGamma L te g V j := fun j => abs_of_pos (by
      by_contra hn
      have := mul_nonneg_of_nonpos_of_nonpos hS.le (not_lt.1 hn)
      linarith [hb j hS.ne])
    simp only [e]
    rw [h, abs_of_neg hS]; ring
  · subst hS
    have e : ∀ j, coreGamma L te g V j = 0 := P.gamma_zero hg (fun _ => hl) (M := l) (fun _ => le_rfl) hV hu hC rfl
    simp [e]
  · have e : ∀ j, |g * coreGamma L te g V j| = -(g * coreGamma L te g V j) := fun j => abs_of_neg (by
      by_contra hn
      have := mul_nonneg hS.le (not_lt.1 hn)
      linarith [hb j hS.ne'])
    simp only [e, mul_neg, Finset.sum_neg_distrib]
    rw [h, abs_of_pos hS]; ring

theorem strip_equations (P : PlanarLattice O e s δ lo hi φ L te) (σ : κ ≃ Fin N) (hlo : ∀ c, lo c = y0 + (σ c : ℕ) * w)
    (hhi : ∀ c, hi c = lo c + w) (hg : g ≠ 0) (hl : 0 < l) (hV : ∀ i, V i = l • (C • e + S • V3.cross s e)) (hu : C ^ 2 + S ^ 2 = 1)
    (hC : 0 ≤ C) : StripEquations (stripEntry C δ w nc) N (4 * Real.pi * |S| * l)
      (stripGamma φ σ fun j => |g * coreGamma L te g V j|) := by
  intro i k hi'
  have h := P.kernel_abs hg hl hV hu hC (φ.symm (σ.symm ⟨i, hi'⟩, k))
  unfold kernel at h
  simp only [Equiv.apply_symm_apply, entry_strip σ hlo hhi] at h
  rw [← h, ← sum_strips φ σ (fun j k' => stripEntry C δ w nc k k' (steps i j) * stripGamma φ σ (fun j => |g * coreGamma L te g V j|) j k')]
  refine Finset.sum_congr rfl fun j _ => ?_
  rw [stripGamma_at]

end PlanarLattice

namespace PlanarBlocks

/-- Strips of several blocks numbered from the first strip of the last block to the last strip of the first block. -/
noncomputable def stripNo (n ns : ℕ) : Fin n × Fin ns ≃ Fin (n * ns) :=
  (Fin.revPerm.prodCongr (Equiv.refl _)).trans finProdFinEquiv

theorem stripNo_val (n ns : ℕ) (c : Fin n × Fin ns) : (stripNo n ns c : ℕ) = (n - 1 - c.1) * ns + c.2 := by
  simp only [stripNo, Equiv.trans_apply, Equiv.prodCongr_apply, Prod.map, Fin.revPerm_apply, Equiv.refl_apply, finProdFinEquiv_apply_val,
    Fin.val_rev]
  rw [show n - ((c.1 : ℕ) + 1) = n - 1 - c.1 by omega]
  ring

variable {O e s : V3} {δ : ℝ} {nc ns : ℕ} {ζ : ℕ → ℕ → ℝ} {blocks : List (ℕ → ℕ → V3)}

/-- Circulations of equal strips side by side in a uniform wind. -/
theorem row (P : PlanarBlocks O e s δ nc ns ζ blocks) {y0 w : ℝ} (hw : 0 < w)
    (hζ : ∀ b r, b < blocks.length → r ≤ ns → ζ b r = y0 + (((blocks.length - 1 - b) * ns + r : ℕ) : ℝ) * w) {g C S l : ℝ} (hg : g ≠ 0)
    (hl : 0 < l) {V : Fin (vars g nc ns blocks).length → V3} (hV : ∀ i, V i = l • (C • e + S • V3.cross s e)) (hu : C ^ 2 + S ^ 2 = 1)
    (hC : 0 ≤ C) :
    ∃ x : ℕ → Fin nc → ℝ, StripInfluence (PlanarLattice.stripEntry C δ w nc) (blocks.length * ns) ∧
      StripEquations (PlanarLattice.stripEntry C δ w nc) (blocks.length * ns) (4 * Real.pi * |S| * l) x ∧
      ∀ b i j, ∀ (hb : b < blocks.length) (hi : i < nc) (hj : j < ns), x ((blocks.length - 1 - b) * ns + j) ⟨i, hi⟩ =
        |g * gammaOf g nc ns blocks V (panelIx g nc ns blocks hb hi hj)| := by
  have T := P.lattice g
  have hlo : ∀ c : Fin blocks.length × Fin ns, ζ c.1 c.2 = y0 + (stripNo blocks.length ns c : ℕ) * w := fun c => by
    rw [hζ _ _ c.1.isLt c.2.isLt.le, stripNo_val]
  have hhi : ∀ c : Fin blocks.length × Fin ns, ζ c.1 (c.2 + 1) = ζ c.1 c.2 + w := fun c => by
    rw [hζ _ _ c.1.isLt c.2.isLt, hζ _ _ c.1.isLt c.2.isLt.le]
    push_cast
    ring
  refine ⟨_, T.influence_strips (stripNo blocks.length ns) hlo hhi hw hC (PlanarLattice.le_one hu),
    T.strip_equations (stripNo blocks.length ns) hlo hhi hg hl hV hu hC, fun b i j hb hi hj => ?_⟩
  have h := PlanarLattice.stripGamma_at (index blocks.length nc ns (vars_length g nc ns blocks)) (stripNo blocks.length ns)
    (fun j => |g * gammaOf g nc ns blocks V j|) (panelIx g nc ns blocks hb hi hj)
  rw [index_panelIx, stripNo_val] at h
  exact h

end PlanarBlocks

end PySailing
