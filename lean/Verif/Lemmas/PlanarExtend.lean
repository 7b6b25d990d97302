import Verif.Lemmas.FlatSail

/-!
# Part of a lattice in one plane
-/

namespace PySailing

open Spec

namespace PlanarLattice

variable {K K' nc : ℕ} {κ κ' : Type} [Fintype κ] [DecidableEq κ] [Fintype κ'] [DecidableEq κ'] {O e s O' e' s' : V3} {δ : ℝ} {lo hi : κ → ℝ}
  {lo' hi' : κ' → ℝ} {φ : Fin K ≃ κ × Fin nc} {φ' : Fin K' ≃ κ' × Fin nc} {L : Fin K → PanelVars} {te : Fin K → Bool}
  {L' : Fin K' → PanelVars} {te' : Fin K' → Bool}

/-- The panel of the second lattice that corresponds to a panel of the first. -/
def carry (φ : Fin K ≃ κ × Fin nc) (φ' : Fin K' ≃ κ' × Fin nc) (ι : κ → κ') (i : Fin K) : Fin K' := φ'.symm (ι (φ i).1, (φ i).2)

theorem carry_injective {ι : κ → κ'} (hι : Function.Injective ι) : Function.Injective (carry φ φ' ι) := by
  intro i j h
  have := φ'.symm.injective h
  rw [Prod.mk.injEq] at this
  exact φ.injective (Prod.ext (hι this.1) this.2)

theorem kernel_carry (C : ℝ) {ι : κ → κ'} {t : ℝ} (hlo : ∀ c, lo' (ι c) = lo c + t) (hhi : ∀ c, hi' (ι c) = hi c + t) (i j : Fin K) :
    kernel C δ lo' hi' φ' (carry φ φ' ι i) (carry φ φ' ι j) = kernel C δ lo hi φ i j := by
  unfold kernel carry entry mid
  simp only [Equiv.apply_symm_apply, hlo, hhi]
  congr 1
  · congr 1 <;> ring
  · split_ifs
    · congr 2 <;> ring
    · rfl

/-- Circulations of a part of a lattice by itself: nowhere larger than in the whole lattice, if the wind is not either. -/
theorem gamma_extend (P : PlanarLattice O e s δ lo hi φ L te) (P' : PlanarLattice O' e' s' δ lo' hi' φ' L' te') {ι : κ → κ'}
    (hι : Function.Injective ι) {t : ℝ} (hlo : ∀ c, lo' (ι c) = lo c + t) (hhi : ∀ c, hi' (ι c) = hi c + t) {g C S : ℝ} (hg : g ≠ 0)
    {V : Fin K → V3} {l : Fin K → ℝ} {V' : Fin K' → V3} {l' : Fin K' → ℝ} (hl : ∀ i, 0 < l i) (hl' : ∀ i, 0 < l' i)
    (hle : ∀ i, l i ≤ l' (carry φ φ' ι i))
    (hV : ∀ i, V i = l i • (C • e + S • V3.cross s e)) (hV' : ∀ i, V' i = l' i • (C • e' + S • V3.cross s' e'))
    (hu : C ^ 2 + S ^ 2 = 1) (hC : 0 ≤ C) (i : Fin K) :
    -(S * (g * coreGamma L te g V i)) ≤ -(S * (g * coreGamma L' te' g V' (carry φ φ' ι i))) := by
  have hpi := Real.pi_pos
  set x' : Fin K' → ℝ := fun j => -(S * (g * coreGamma L' te' g V' j)) with hx'
  have hrow' := P'.kernel_gamma_scaled hg hl' hV' hu hC
  have h0 : ∀ j, 0 ≤ x' j := solution_nonneg (P'.kernel_off hC) (P'.kernel_sum_pos hC (le_one hu)) (fun k => by
    rw [hrow']
    have := hl' k
    positivity)
  have hinj := carry_injective (φ := φ) (φ' := φ') hι
  refine solution_le_of (P.kernel_off hC) (P.kernel_sum_pos hC (le_one hu)) (x := fun j => -(S * (g * coreGamma L te g V j)))
    (z := fun j => x' (carry φ φ' ι j)) (fun k => ?_) i
  rw [P.kernel_gamma_scaled hg hl hV hu hC]
  have h1 : ∑ j, kernel C δ lo hi φ k j * x' (carry φ φ' ι j) =
      ∑ j ∈ Finset.univ.image (carry φ φ' ι), kernel C δ lo' hi' φ' (carry φ φ' ι k) j * x' j := by
    rw [Finset.sum_image (fun a _ b _ h => hinj h)]
    exact Finset.sum_congr rfl fun j _ => by rw [kernel_carry C hlo hhi]
  rw [h1]
  have h2 : ∑ j, kernel C δ lo' hi' φ' (carry φ φ' ι k) j * x' j ≤
      ∑ j ∈ Finset.univ.image (carry φ φ' ι), kernel C δ lo' hi' φ' (carry φ φ' ι k) j * x' j := by
    rw [← Finset.sum_add_sum_compl (Finset.univ.image (carry φ φ' ι))]
    have : ∑ j ∈ (Finset.univ.image (carry φ φ' ι))ᶜ, kernel C δ lo' hi' φ' (carry φ φ' ι k) j * x' j ≤ 0 := by
      refine Finset.sum_nonpos fun j hj => mul_nonpos_of_nonpos_of_nonneg (P'.kernel_off hC _ _ ?_) (h0 j)
      rintro rfl
      exact Finset.mem_compl.1 hj (Finset.mem_image_of_mem _ (Finset.mem_univ _))
    linarith
  refine le_trans ?_ h2
  rw [hrow']
  apply mul_le_mul_of_nonneg_left (hle k)
  positivity

/-- The same with the two numbers of rows and the two chords written differently. -/
theorem gamma_extend_cast {nc' : ℕ} {φ' : Fin K' ≃ κ' × Fin nc'} {δ' : ℝ} (hnc : nc = nc') (hδ : δ' = δ)
    (P : PlanarLattice O e s δ lo hi φ L te) (P' : PlanarLattice O' e' s' δ' lo' hi' φ' L' te') {ι : κ → κ'}
    (hι : Function.Injective ι) {t : ℝ} (hlo : ∀ c, lo' (ι c) = lo c + t) (hhi : ∀ c, hi' (ι c) = hi c + t) {g C S : ℝ} (hg : g ≠ 0)
    {V : Fin K → V3} {l : Fin K → ℝ} {V' : Fin K' → V3} {l' : Fin K' → ℝ} (hl : ∀ i, 0 < l i) (hl' : ∀ i, 0 < l' i)
    (hle : ∀ i, l i ≤ l' (φ'.symm (ι (φ i).1, Fin.cast hnc (φ i).2)))
    (hV : ∀ i, V i = l i • (C • e + S • V3.cross s e)) (hV' : ∀ i, V' i = l' i • (C • e' + S • V3.cross s' e'))
    (hu : C ^ 2 + S ^ 2 = 1) (hC : 0 ≤ C) (i : Fin K) :
    -(S * (g * coreGamma L te g V i)) ≤ -(S * (g * coreGamma L' te' g V' (φ'.symm (ι (φ i).1, Fin.cast hnc (φ i).2)))) := by
  subst hnc hδ
  exact P.gamma_extend P' hι hlo hhi hg hl hl' hle hV hV' hu hC i

/-- Equal lattices have equal circulations. -/
theorem gamma_carry (P : PlanarLattice O e s δ lo hi φ L te) (P' : PlanarLattice O' e' s' δ lo' hi' φ' L' te') {ι : κ ≃ κ'}
    {t : ℝ} (hlo : ∀ c, lo' (ι c) = lo c + t) (hhi : ∀ c, hi' (ι c) = hi c + t) {g C S : ℝ} (hg : g ≠ 0)
    {V : Fin K → V3} {l : Fin K → ℝ} {V' : Fin K' → V3} {l' : Fin K' → ℝ} (hl : ∀ i, 0 < l i) (hl' : ∀ i, 0 < l' i)
    (hle : ∀ i, l i = l' (carry φ φ' ι i))
    (hV : ∀ i, V i = l i • (C • e + S • V3.cross s e)) (hV' : ∀ i, V' i = l' i • (C • e' + S • V3.cross s' e'))
    (hu : C ^ 2 + S ^ 2 = 1) (hC : 0 ≤ C) (i : Fin K) :
    coreGamma L te g V i = coreGamma L' te' g V' (carry φ φ' ι i) := by
  have hdet := P.regular hg hl hV hu hC
  have hsol : (influence L te V g).mulVec (fun j => coreGamma L' te' g V' (carry φ φ' ι j)) = fun i => -((V i).dot (L i).normal) := by
    have hVn : ∀ i, (V i).dot (L i).normal = l i * S := by
      intro i
      rw [hV, P.normal, V3.dot_smul_left, V3.dot_add_left, V3.dot_smul_left, V3.dot_smul_left, P.frame.nn, PlaneFrame.en]
      ring
    funext i
    have h := P'.kernel_gamma hg hl' hV' hu hC (carry φ φ' ι i)
    have hb : Function.Bijective (carry φ φ' ι) := by
      refine ⟨carry_injective ι.injective, fun j => ⟨φ.symm (ι.symm (φ' j).1, (φ' j).2), ?_⟩⟩
      unfold carry
      rw [Equiv.apply_symm_apply]
      simp
    rw [← hb.sum_comp, ← hle] at h
    rw [hVn, P.influence_kernel hl hV hu hC, Matrix.smul_mulVec, Pi.smul_apply, smul_eq_mul]
    have hpi := Real.pi_pos
    have h2 : ∑ j, kernel C δ lo' hi' φ' (carry φ φ' ι i) (carry φ φ' ι j) * (g * coreGamma L' te' g V' (carry φ φ' ι j)) =
        g * (kernel C δ lo hi φ).mulVec (fun j => coreGamma L' te' g V' (carry φ φ' ι j)) i := by
      unfold Matrix.mulVec dotProduct
      rw [Finset.mul_sum]
      exact Finset.sum_congr rfl fun j _ => by rw [kernel_carry C hlo hhi]; ring
    rw [h2] at h
    field_simp
    linarith
  exact (congrFun (coreGamma_unique hdet hsol) i).symm

end PlanarLattice

namespace PlanarBlocks

theorem index_panelIx (g : ℝ) (nc ns : ℕ) (blocks : List (ℕ → ℕ → V3)) {b i j : ℕ} (hb : b < blocks.length) (hi : i < nc) (hj : j < ns) :
    index blocks.length nc ns (vars_length g nc ns blocks) (panelIx g nc ns blocks hb hi hj) = ((⟨b, hb⟩, ⟨j, hj⟩), ⟨i, hi⟩) := by
  rw [← Equiv.eq_symm_apply]
  rfl

end PlanarBlocks

namespace Spec.FlatSail

variable {s s' : SailInput} {θ θ' : ℕ → ℝ} {chord τ τ' : ℝ}

theorem rows_part {a : ℕ} (F : FlatSail s θ chord τ) (F' : FlatSail s' θ' chord τ') (hp : PartOf s s' a) {b r : ℕ} (hb : b < 2) :
    rows s' b (r + if b = 0 then a else s'.ns - s.ns - a) = rows s b r := by
  have h1 : (s.ns : ℝ) ≠ 0 := F.ok.toSailArgs.ns_ne
  have h2 : (s'.ns : ℝ) ≠ 0 := F'.ok.toSailArgs.ns_ne
  have hh := hp.height
  have ht := hp.tack
  have hst := hp.strips
  set d := (s'.head.z - s'.tack.z) / s'.ns with hd
  have e1 : s.head.z - s.tack.z = s.ns * d := by rw [← hh]; field_simp
  have e2 : s'.head.z - s'.tack.z = s'.ns * d := by rw [hd]; field_simp
  have hb : b = 0 ∨ b = 1 := by omega
  unfold rows
  rw [e1, e2]
  have hc : ((s'.ns - s.ns - a : ℕ) : ℝ) = s'.ns - s.ns - a := by
    rw [Nat.cast_sub (by omega), Nat.cast_sub (by omega)]
  rcases hb with rfl | rfl
  · simp only [if_true]
    push_cast
    field_simp
    linarith
  · simp only [one_ne_zero, if_false]
    push_cast
    rw [hc]
    field_simp
    linarith

/-- The part is between tack and head of the whole sail. -/
theorem part_range {a : ℕ} (F : FlatSail s θ chord τ) (F' : FlatSail s' θ' chord τ') (hp : PartOf s s' a) :
    ∀ h, s.tack.z < h → h < s.head.z → s'.tack.z < h ∧ h < s'.head.z := by
  intro h h1 h2
  have m1 := F'.rows_mem (r := a) (by have := hp.strips; omega)
  have m2 := F'.rows_mem (r := s.ns + a) (by have := hp.strips; omega)
  have n1 := F.rows_part F' hp (b := 0) (r := 0) (by norm_num)
  have n2 := F.rows_part F' hp (b := 0) (r := s.ns) (by norm_num)
  simp only [if_true, zero_add] at n1 n2
  have q1 : rows s 0 0 = s.tack.z := by simp [rows]
  have q2 : rows s 0 s.ns = s.head.z := by
    have : (s.ns : ℝ) ≠ 0 := F.ok.toSailArgs.ns_ne
    simp [rows, this]
  constructor <;> linarith

/-- Circulations in a part of a flat sail by itself and in the whole sail. -/
theorem gamma_part (F : FlatSail s θ chord τ) (F' : FlatSail s' θ' chord τ') {a : ℕ} (hp : PartOf s s' a)
    (hdir : s.csys.leewayDeg + τ = s'.csys.leewayDeg + τ') (hbig : 2e-4 ≤ chord / s.nc * ((s.head.z - s.tack.z) / s.ns))
    {w : WindObj} {W : ℝ → V3} {l : ℝ → ℝ} {u : V3} {M : ℝ} (hu1 : u.norm = 1) (huz : u.z = 0)
    (hl : ∀ h, s'.tack.z < h → h < s'.head.z → W h + ⟨w.vYacht, 0, 0⟩ = l h • u) (hpos : ∀ h, s'.tack.z < h → h < s'.head.z → 0 < l h)
    (hM : ∀ h, s'.tack.z < h → h < s'.head.z → l h ≤ M)
    (hfront : 0 ≤ u.dot (leechDirection s.csys.leewayDeg τ)) {g : ℝ} (rho rho' : ℝ) (hg : g ≠ 0)
    {b i j : ℕ} (hb : b < 2) (hi : i < s.nc) (hj : j < s.ns) (hi' : i < s'.nc) (hj' : (j + if b = 0 then a else s'.ns - s.ns - a) < s'.ns) :
    |g * PlanarBlocks.gammaOf g s.nc s.ns (blocks s θ) (winds g rho s θ w W) (PlanarBlocks.panelIx g s.nc s.ns (blocks s θ) hb hi hj)| ≤
      |g * PlanarBlocks.gammaOf g s'.nc s'.ns (blocks s' θ') (winds g rho' s' θ' w W)
        (PlanarBlocks.panelIx g s'.nc s'.ns (blocks s' θ') hb hi' hj')| := by
  have hle : leechDirection s'.csys.leewayDeg τ' = leechDirection s.csys.leewayDeg τ := by unfold leechDirection; rw [hdir]
  have hns : sailNormal s'.csys.leewayDeg τ' = sailNormal s.csys.leewayDeg τ := by unfold sailNormal; rw [hdir]
  have hin := F.part_range F' hp
  have hl1 := fun h h1 h2 => hl h (hin h h1 h2).1 (hin h h1 h2).2
  have hpos1 := fun h h1 h2 => hpos h (hin h h1 h2).1 (hin h h1 h2).2
  have hM1 := fun h h1 h2 => hM h (hin h h1 h2).1 (hin h h1 h2).2
  have hbig' : 2e-4 ≤ chord / s'.nc * ((s'.head.z - s'.tack.z) / s'.ns) := by rw [← hp.height, ← hp.rows]; exact hbig
  obtain ⟨a1, a2, a3⟩ := F.gamma_bounds hbig hu1 huz hl1 hpos1 hM1 hfront rho hg (PlanarBlocks.panelIx g s.nc s.ns (blocks s θ) hb hi hj)
  have hm : -(u.dot (sailNormal s.csys.leewayDeg τ) * (g * PlanarBlocks.gammaOf g s.nc s.ns (blocks s θ) (winds g rho s θ w W)
        (PlanarBlocks.panelIx g s.nc s.ns (blocks s θ) hb hi hj))) ≤
      -(u.dot (sailNormal s.csys.leewayDeg τ) * (g * PlanarBlocks.gammaOf g s'.nc s'.ns (blocks s' θ') (winds g rho' s' θ' w W)
        (PlanarBlocks.panelIx g s'.nc s'.ns (blocks s' θ') hb hi' hj'))) := by
    have hsp := F.speeds_mem hbig g (p := fun x => 0 < x) hpos1
    have hsp' := F'.speeds_mem hbig' g (p := fun x => 0 < x) hpos
    have hw1 := F.winds_speed hbig g rho hu1 huz hl1
    have hw2 := F'.winds_speed hbig' g rho' hu1 huz hl
    have hr := fun {b r : ℕ} (hb : b < 2) => F.rows_part F' hp (b := b) (r := r) hb
    have hcp := fun {b i j : ℕ} (hb) (hi) (hj) => F'.cp_height hbig' g (b := b) (i := i) (j := j) hb hi hj
    rw [hle, hns] at hw2
    have P := (F.planar hbig).lattice g
    have P' := (F'.planar hbig').lattice g
    have hst := hp.strips
    have hnc := hp.rows
    rw [hle] at P'
    let ι : Fin (blocks s θ).length × Fin s.ns → Fin (blocks s' θ').length × Fin s'.ns := fun c =>
      (⟨c.1, c.1.isLt⟩, ⟨c.2 + if (c.1 : ℕ) = 0 then a else s'.ns - s.ns - a, by have := c.2.isLt; split_ifs <;> omega⟩)
    have hιi : Function.Injective ι := by
      rintro ⟨c1, c2⟩ ⟨d1, d2⟩ h
      simp only [ι, Prod.mk.injEq, Fin.mk.injEq] at h
      obtain ⟨h1, h2⟩ := h
      have h1 : c1 = d1 := Fin.ext (congrArg Fin.val h1)
      subst h1
      exact Prod.ext rfl (Fin.ext (Nat.add_right_cancel h2))
    have hcarry : ∀ {b i j : ℕ} (hb : b < 2) (hi : i < s.nc) (hi' : i < s'.nc) (hj : j < s.ns)
        (hj' : (j + if b = 0 then a else s'.ns - s.ns - a) < s'.ns),
        (PlanarBlocks.index (blocks s' θ').length s'.nc s'.ns (PlanarBlocks.vars_length g s'.nc s'.ns (blocks s' θ'))).symm
          (ι (PlanarBlocks.index (blocks s θ).length s.nc s.ns (PlanarBlocks.vars_length g s.nc s.ns (blocks s θ))
            (PlanarBlocks.panelIx g s.nc s.ns (blocks s θ) hb hi hj)).1,
          Fin.cast hnc (PlanarBlocks.index (blocks s θ).length s.nc s.ns (PlanarBlocks.vars_length g s.nc s.ns (blocks s θ))
            (PlanarBlocks.panelIx g s.nc s.ns (blocks s θ) hb hi hj)).2) =
        PlanarBlocks.panelIx g s'.nc s'.ns (blocks s' θ') hb hi' hj' := by
      intro b i j hb hi hi' hj hj'
      rw [PlanarBlocks.index_panelIx g s.nc s.ns (blocks s θ) hb hi hj]
      rfl
    have := PlanarLattice.gamma_extend_cast (δ' := chord / s'.nc) hnc (by rw [hnc]) P P' (ι := ι) hιi (t := 0)
      (fun c => by rw [add_zero]; exact hr c.1.isLt)
      (fun c => by
        rw [add_zero]
        have := hr (r := (c.2 : ℕ) + 1) c.1.isLt
        rw [← this]
        simp only [ι]
        congr 1
        omega) hg hsp hsp' (fun k => by
        obtain ⟨b, i, j, hb, hi, hj, rfl⟩ := panel_cases g s θ k
        have hj' : (j + if b = 0 then a else s'.ns - s.ns - a) < s'.ns := by split_ifs <;> omega
        rw [hcarry hb hi (hnc ▸ hi) hj hj']
        unfold speeds
        rw [F.cp_height hbig g hb hi hj, hcp hb (hnc ▸ hi) hj']
        unfold midHeight
        rw [hr hb, show j + (if b = 0 then a else s'.ns - s.ns - a) + 1 = (j + 1) + (if b = 0 then a else s'.ns - s.ns - a) by omega, hr hb])
      hw1 hw2 (decompose hu1 huz _ _).2 hfront (PlanarBlocks.panelIx g s.nc s.ns (blocks s θ) hb hi hj)
    rw [hcarry hb hi hi' hj hj'] at this
    exact this
  rcases lt_trichotomy (u.dot (sailNormal s.csys.leewayDeg τ)) 0 with h | h | h
  · have b1 := a2 h
    have : g * PlanarBlocks.gammaOf g s.nc s.ns (blocks s θ) (winds g rho s θ w W) (PlanarBlocks.panelIx g s.nc s.ns (blocks s θ) hb hi hj) ≤
        g * PlanarBlocks.gammaOf g s'.nc s'.ns (blocks s' θ') (winds g rho' s' θ' w W)
          (PlanarBlocks.panelIx g s'.nc s'.ns (blocks s' θ') hb hi' hj') := by
      by_contra hc
      have := mul_lt_mul_of_neg_left (not_le.1 hc) h
      linarith
    rw [abs_of_pos b1, abs_of_pos (b1.trans_le this)]
    exact this
  · rw [h, abs_zero, mul_zero, mul_zero] at a3
    exact a3.trans (abs_nonneg _)
  · have b1 := a1 h
    have : g * PlanarBlocks.gammaOf g s'.nc s'.ns (blocks s' θ') (winds g rho' s' θ' w W)
          (PlanarBlocks.panelIx g s'.nc s'.ns (blocks s' θ') hb hi' hj') ≤
        g * PlanarBlocks.gammaOf g s.nc s.ns (blocks s θ) (winds g rho s θ w W) (PlanarBlocks.panelIx g s.nc s.ns (blocks s θ) hb hi hj) := by
      by_contra hc
      have := mul_lt_mul_of_pos_left (not_le.1 hc) h
      linarith
    rw [abs_of_neg b1, abs_of_neg (this.trans_lt b1)]
    linarith

end Spec.FlatSail

end PySailing
