import Verif.Lemmas.FlatSail
import Verif.Lemmas.PlanarRow

/-!
# A flat sail standing on the water in a uniform wind
-/

namespace PySailing

open Spec

theorem Spec.UniformWind.along {w : WindObj} {u : V3} {M lo hi : ℝ} (h : UniformWind w u M lo hi) : WindAlong w u M lo hi :=
  ⟨h.1, h.2.1, fun x h1 h2 => by
    obtain ⟨v, e1, e2⟩ := h.2.2.2 x h1 h2
    exact ⟨v, M, e1, h.2.2.1, le_rfl, e2⟩⟩

namespace Spec.FlatSail

variable {s : SailInput} {θ : ℕ → ℝ} {chord τ : ℝ}

/-- Sail and image are strips side by side. -/
theorem rows_row (F : FlatSail s θ chord τ) (h0 : s.tack.z = 0) (b r : ℕ) (hb : b < (blocks s θ).length) :
    rows s b r = -s.head.z + ((((blocks s θ).length - 1 - b) * s.ns + r : ℕ) : ℝ) * ((s.head.z - s.tack.z) / s.ns) := by
  have hns : (s.ns : ℝ) ≠ 0 := F.ok.toSailArgs.ns_ne
  have : b = 0 ∨ b = 1 := by simp [blocks] at hb; omega
  have hl : (blocks s θ).length = 2 := rfl
  rw [hl]
  unfold rows
  rcases this with rfl | rfl
  · simp only [if_true, h0]
    push_cast
    field_simp
    ring
  · simp only [one_ne_zero, if_false, h0]
    push_cast
    field_simp
    ring

/-- The circulations as solution of the equations of a row of equal strips. -/
theorem row (F : FlatSail s θ chord τ) (h0 : s.tack.z = 0) (hbig : 2e-4 ≤ chord / s.nc * ((s.head.z - s.tack.z) / s.ns))
    {w : WindObj} {W : ℝ → V3} {u : V3} {M : ℝ} (hu1 : u.norm = 1) (huz : u.z = 0) (hM : 0 < M)
    (hl : ∀ h, s.tack.z < h → h < s.head.z → W h + ⟨w.vYacht, 0, 0⟩ = M • u) (hfront : 0 ≤ u.dot (leechDirection s.csys.leewayDeg τ))
    {g : ℝ} (rho : ℝ) (hg : g ≠ 0) {n : ℕ} (hn : s.nc = n) :
    ∃ x : ℕ → Fin n → ℝ,
      StripInfluence (PlanarLattice.stripEntry (u.dot (leechDirection s.csys.leewayDeg τ)) (chord / s.nc) ((s.head.z - s.tack.z) / s.ns) n)
        (2 * s.ns) ∧
      StripEquations (PlanarLattice.stripEntry (u.dot (leechDirection s.csys.leewayDeg τ)) (chord / s.nc) ((s.head.z - s.tack.z) / s.ns) n)
        (2 * s.ns) (4 * Real.pi * |u.dot (sailNormal s.csys.leewayDeg τ)| * M) x ∧
      ∀ b i j, ∀ (hb : b < (blocks s θ).length) (hi : i < s.nc) (hj : j < s.ns), x ((1 - b) * s.ns + j) ⟨i, hn ▸ hi⟩ =
        |g * PlanarBlocks.gammaOf g s.nc s.ns (blocks s θ) (winds g rho s θ w W) (PlanarBlocks.panelIx g s.nc s.ns (blocks s θ) hb hi hj)| := by
  subst hn
  have hns : (0 : ℝ) < s.ns := by exact_mod_cast F.ok.ns_pos
  exact (F.planar hbig).row (div_pos (sub_pos.2 F.up) hns) (fun b r hb _ => F.rows_row h0 b r hb) hg hM
    (F.winds_speed hbig g rho hu1 huz (l := fun _ => M) hl) (decompose hu1 huz _ _).2 hfront

/-- The lift of a strip in terms of the circulation of its last panel. -/
theorem strip_norm (F : FlatSail s θ chord τ) (hbig : 2e-4 ≤ chord / s.nc * ((s.head.z - s.tack.z) / s.ns)) {set : SailSet} {w : WindObj}
    {W : ℝ → V3} {u : V3} {M : ℝ} (hM : 0 < M) (hu1 : u.norm = 1) (huz : u.z = 0)
    (hl : ∀ h, s.tack.z < h → h < s.head.z → W h + ⟨w.vYacht, 0, 0⟩ = M • u) {rho : ℝ} (hrho : 0 < rho) (g : ℝ)
    {b j : ℕ} (hb : b < (blocks s θ).length) (hj : j < s.ns) :
    (∑ i ∈ Finset.range s.nc, (List.ofFn (result set g rho s θ w W).sol.lift).getD (panelNo s.nc s.ns b i j) 0).norm =
      rho * M * ((s.head.z - s.tack.z) / s.ns) * |g * PlanarBlocks.gammaOf g s.nc s.ns (blocks s θ) (winds g rho s θ w W)
        (PlanarBlocks.panelIx g s.nc s.ns (blocks s θ) hb (Nat.sub_lt F.ok.nc_pos one_pos) hj)| := by
  have hns : (0 : ℝ) < s.ns := by exact_mod_cast F.ok.ns_pos
  have hwd : 0 < (s.head.z - s.tack.z) / s.ns := div_pos (sub_pos.2 F.up) hns
  have ha : (⟨-u.y, u.x, 0⟩ : V3).norm = 1 := by
    rw [← hu1]
    unfold V3.norm V3.dot
    rw [huz]
    congr 1
    ring
  rw [F.strip hbig hu1 huz (l := fun _ => M) hl rho g hb hj, V3.norm_smul, ha, mul_one, abs_neg, abs_mul, abs_mul, abs_mul (_ / _), abs_of_pos hrho,
    abs_of_pos hM, abs_of_pos hwd]
  ring

end Spec.FlatSail

theorem abs_sum_same_sign {ι : Type*} (t : Finset ι) {f : ι → ℝ} (h : (∀ j ∈ t, 0 ≤ f j) ∨ ∀ j ∈ t, f j ≤ 0) :
    |∑ j ∈ t, f j| = ∑ j ∈ t, |f j| := by
  rcases h with h | h
  · rw [abs_of_nonneg (Finset.sum_nonneg h)]
    exact Finset.sum_congr rfl fun j hj => (abs_of_nonneg (h j hj)).symm
  · rw [abs_of_nonpos (Finset.sum_nonpos h), ← Finset.sum_neg_distrib]
    exact Finset.sum_congr rfl fun j hj => (abs_of_nonpos (h j hj)).symm

end PySailing
