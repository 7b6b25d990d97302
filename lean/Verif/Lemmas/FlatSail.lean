import Verif.Lemmas.PlanarBlocks
import Verif.Lemmas.SailBlocks
import Verif.Lemmas.Motion
import Verif.Spec.FlatSail

/-!
# A flat sail and its mirror image are in one plane
-/

namespace PySailing

open Spec

theorem camberCurve_flat (p x : ℝ) : camberCurve 0 p x = 0 := by
  unfold camberCurve; split_ifs <;> simp

/-- Rotation about a vertical line. -/
theorem rotateAboutLine_vertical {p1 p2 : V3} (hx : p2.x = p1.x) (hy : p2.y = p1.y) (hz : p1.z < p2.z) (t : ℝ) (p : V3) :
    rotateAboutLine p1 p2 t p = ⟨p1.x + (Real.cos t * (p.x - p1.x) - Real.sin t * (p.y - p1.y)),
      p1.y + (Real.sin t * (p.x - p1.x) + Real.cos t * (p.y - p1.y)), p.z⟩ := by
  have h1 : (p2 - p1) = (p2.z - p1.z) • (⟨0, 0, 1⟩ : V3) := by ext <;> simp [hx, hy]
  have hu : unit (p2 - p1) = ⟨0, 0, 1⟩ := by
    have h := sub_pos.2 hz
    unfold unit
    have hn : (⟨0, 0, 1⟩ : V3).norm = 1 := by simp [V3.norm, V3.dot]
    rw [h1, V3.norm_smul, hn, abs_of_pos h, smul_smul]
    rw [show 1 / ((p2.z - p1.z) * 1) * (p2.z - p1.z) = 1 by field_simp, one_smul]
  unfold rotateAboutLine
  rw [hu]
  unfold rodrigues
  ext
  · simp [V3.cross, V3.dot]; ring
  · simp [V3.cross, V3.dot]; ring
  · simp [V3.cross, V3.dot]; ring

namespace Spec.FlatSail

variable {s : SailInput} {θ : ℕ → ℝ} {chord τ : ℝ}

theorem leechDirection_frame (a b : ℝ) : PlaneFrame (leechDirection a b) ⟨0, 0, 1⟩ := by
  have := Real.cos_sq_add_sin_sq ((a + b) * (Real.pi / 180))
  refine ⟨?_, by simp [V3.dot], by simp [V3.dot, leechDirection]⟩
  unfold leechDirection
  simp only [V3.dot]
  linear_combination this

/-- The point of the luff line at the water level. -/
noncomputable def origin (s : SailInput) : V3 :=
  ⟨Real.cos (deg2rad s.csys.leewayDeg) * s.tack.x, Real.sin (deg2rad s.csys.leewayDeg) * s.tack.x, 0⟩

theorem upright_rot (F : FlatSail s θ chord τ) (p : V3) : s.csys.rotatePointWithMirror p = s.csys.leeway.mulVec p := by
  rw [s.csys.rotatePointWithMirror_upright (by rw [F.upright]; simp [deg2rad]), s.csys.heeling_mulVec, F.upright]
  congr 1
  ext <;> simp [deg2rad]

theorem deg_add (a b : ℝ) : deg2rad a + deg2rad b = (a + b) * (Real.pi / 180) := by unfold deg2rad; ring

theorem above (F : FlatSail s θ chord τ) {r : ℕ} (hr : r ≤ s.ns) (k : ℕ) :
    s.aboveTwisted θ r k = planePt (origin s) (leechDirection s.csys.leewayDeg τ) ⟨0, 0, 1⟩ (k * (chord / s.nc))
      (s.tack.z + (r : ℝ) / s.ns * (s.head.z - s.tack.z)) := by
  have hpt : ∀ r, r ≤ s.ns → ∀ k, s.abovePt r k = ⟨Real.cos (deg2rad s.csys.leewayDeg) * (s.tack.x + chord * ((k : ℝ) / s.nc)),
      Real.sin (deg2rad s.csys.leewayDeg) * (s.tack.x + chord * ((k : ℝ) / s.nc)),
      s.tack.z + (r : ℝ) / s.ns * (s.head.z - s.tack.z)⟩ := by
    intro r hr k
    unfold SailInput.abovePt
    rw [F.upright_rot, s.csys.leeway_mulVec]
    unfold sailPoint
    rw [F.chords r hr, F.camber r hr, camberCurve_flat]
    simp [lerp, F.vertical]
  have hns : (s.ns : ℝ) ≠ 0 := F.ok.toSailArgs.ns_ne
  have hup := F.up
  unfold SailInput.aboveTwisted
  rw [hpt 0 (Nat.zero_le _) 0, hpt _ le_rfl 0, hpt r hr k, F.twist r hr,
    rotateAboutLine_vertical (by simp) (by simp) (by simp only [Nat.cast_zero, zero_div, zero_mul, div_self hns]; linarith)]
  unfold planePt origin leechDirection
  rw [← deg_add, Real.cos_add, Real.sin_add]
  ext
  · simp only [V3.add_x, V3.smul_x]; ring
  · simp only [V3.add_y, V3.smul_y]; ring
  · simp

theorem under (F : FlatSail s θ chord τ) {r : ℕ} (hr : r ≤ s.ns) (k : ℕ) :
    s.underTwisted θ r k = planePt (origin s) (leechDirection s.csys.leewayDeg τ) ⟨0, 0, 1⟩ (k * (chord / s.nc))
      (-s.head.z + (r : ℝ) / s.ns * (s.head.z - s.tack.z)) := by
  have hrev : ∀ l : List ℝ, l.length = s.ns + 1 → ∀ r, r ≤ s.ns → l.reverse.getD r 0 = l.getD (s.ns - r) 0 := by
    intro l hl r hr
    rw [List.getD_eq_getElem?_getD, List.getD_eq_getElem?_getD, List.getElem?_reverse (by omega)]
    congr 2; omega
  have hpt : ∀ r, r ≤ s.ns → ∀ k, s.underPt r k = ⟨Real.cos (deg2rad s.csys.leewayDeg) * (s.tack.x + chord * ((k : ℝ) / s.nc)),
      Real.sin (deg2rad s.csys.leewayDeg) * (s.tack.x + chord * ((k : ℝ) / s.nc)),
      -s.head.z + (r : ℝ) / s.ns * (s.head.z - s.tack.z)⟩ := by
    intro r hr k
    unfold SailInput.underPt
    rw [F.upright_rot, s.csys.leeway_mulVec]
    unfold sailPoint
    rw [hrev _ F.ok.valid.chords_len r hr, hrev _ F.ok.camber_len r hr, F.chords _ (Nat.sub_le _ _), F.camber _ (Nat.sub_le _ _),
      camberCurve_flat]
    ext <;> simp [lerp, F.vertical, mirror]
    left; ring
  have hns : (s.ns : ℝ) ≠ 0 := F.ok.toSailArgs.ns_ne
  have hup := F.up
  unfold SailInput.underTwisted
  rw [hpt 0 (Nat.zero_le _) 0, hpt _ le_rfl 0, hpt r hr k, F.twist _ (Nat.sub_le _ _),
    rotateAboutLine_vertical (by simp) (by simp) (by simp only [Nat.cast_zero, zero_div, zero_mul, div_self hns]; linarith)]
  unfold planePt origin leechDirection
  rw [← deg_add, Real.cos_add, Real.sin_add]
  ext
  · simp only [V3.add_x, V3.smul_x]; ring
  · simp only [V3.add_y, V3.smul_y]; ring
  · simp

/-- Heights of the rows of the sail and of its image. -/
noncomputable def rows (s : SailInput) (b r : ℕ) : ℝ :=
  (if b = 0 then s.tack.z else -s.head.z) + (r : ℝ) / s.ns * (s.head.z - s.tack.z)

theorem rows_mem (F : FlatSail s θ chord τ) {r : ℕ} (hr : r ≤ s.ns) : s.tack.z ≤ rows s 0 r ∧ rows s 0 r ≤ s.head.z ∧
    -s.head.z ≤ rows s 1 r ∧ rows s 1 r ≤ -s.tack.z := by
  have hns : (0 : ℝ) < s.ns := by exact_mod_cast F.ok.ns_pos
  have h0 : 0 ≤ (r : ℝ) / s.ns := by positivity
  have h1 : (r : ℝ) / s.ns ≤ 1 := by rw [div_le_one hns]; exact_mod_cast hr
  have hup := sub_pos.2 F.up
  have a := mul_nonneg h0 hup.le
  have b := mul_le_mul_of_nonneg_right h1 hup.le
  unfold rows
  simp only [if_true, one_ne_zero, if_false]
  refine ⟨by linarith, by linarith, by linarith, by linarith⟩

theorem rows_succ (F : FlatSail s θ chord τ) (b r : ℕ) :
    rows s b (r + 1) = rows s b r + (s.head.z - s.tack.z) / s.ns := by
  have hns : (s.ns : ℝ) ≠ 0 := F.ok.toSailArgs.ns_ne
  unfold rows
  push_cast
  field_simp
  ring

theorem rows_mono (F : FlatSail s θ chord τ) (b : ℕ) : StrictMono (rows s b) := by
  apply strictMono_nat_of_lt_succ
  intro r
  have hns : (0 : ℝ) < s.ns := by exact_mod_cast F.ok.ns_pos
  have := div_pos (sub_pos.2 F.up) hns
  rw [F.rows_succ]
  linarith

/-- The sail and its image. -/
noncomputable def blocks (s : SailInput) (θ : ℕ → ℝ) : List (ℕ → ℕ → V3) := [s.aboveTwisted θ, s.underTwisted θ]

theorem planar (F : FlatSail s θ chord τ) (hbig : 2e-4 ≤ chord / s.nc * ((s.head.z - s.tack.z) / s.ns)) :
    PlanarBlocks (origin s) (leechDirection s.csys.leewayDeg τ) ⟨0, 0, 1⟩ (chord / s.nc) s.nc s.ns (rows s)
      (blocks s θ) where
  frame := leechDirection_frame _ _
  pos := div_pos F.chord_pos (by exact_mod_cast F.ok.nc_pos)
  pts := by
    intro b hb r k hr _
    have : b = 0 ∨ b = 1 := by simp [blocks] at hb; omega
    rcases this with rfl | rfl
    · exact F.above hr k
    · exact F.under hr k
  lt := fun b r _ _ => F.rows_mono b (Nat.lt_succ_self r)
  disj := by
    intro b r b' r' hb hr hb' hr' hne
    have h0 := F.ok.tack_z
    have e : b = 0 ∨ b = 1 := by simp [blocks] at hb; omega
    have e' : b' = 0 ∨ b' = 1 := by simp [blocks] at hb'; omega
    by_cases hbb : b = b'
    · subst hbb
      have hne' : r ≠ r' := fun h => hne (by rw [h])
      rcases Nat.lt_or_gt_of_ne hne' with h | h
      · exact Or.inl ((F.rows_mono b).monotone h)
      · exact Or.inr ((F.rows_mono b).monotone h)
    · rcases e with rfl | rfl <;> rcases e' with rfl | rfl
      · exact absurd rfl hbb
      · right
        have := (F.rows_mem (r := r' + 1) (by omega)).2.2.2
        have := (F.rows_mem (r := r) (by omega)).1
        linarith
      · left
        have := (F.rows_mem (r := r + 1) (by omega)).2.2.2
        have := (F.rows_mem (r := r') (by omega)).1
        linarith
      · exact absurd rfl hbb
  big := by
    intro b r _ _
    rw [F.rows_succ, add_sub_cancel_left]
    exact hbig

/-! ### The calculation -/

/-- The centres of pressure. -/
noncomputable def cps (g : ℝ) (s : SailInput) (θ : ℕ → ℝ) : List V3 := (PlanarBlocks.vars g s.nc s.ns (blocks s θ)).map PanelVars.cp

/-- The winds at the centres of pressure, for a true wind `W`. -/
noncomputable def winds (g rho : ℝ) (s : SailInput) (θ : ℕ → ℝ) (w : WindObj) (W : ℝ → V3) :
    Fin (PlanarBlocks.vars g s.nc s.ns (blocks s θ)).length → V3 :=
  fun i => (inletOf w rho (cps g s θ) ((cps g s θ).map fun p => W |p.z|)).vAppInfs.getD i 0

/-- What the solver returns. -/
noncomputable def result (set : SailSet) (g rho : ℝ) (s : SailInput) (θ : ℕ → ℝ) (w : WindObj) (W : ℝ → V3) : Vlm :=
  ⟨⟨set.panels, s.nc, s.ns, rho, w, set.te, set.le, g⟩, getPanelsArea set.panels, PlanarBlocks.vars g s.nc s.ns (blocks s θ),
    inletOf w rho (cps g s θ) ((cps g s θ).map fun p => W |p.z|),
    PlanarBlocks.solutionOf g rho s.nc s.ns (blocks s θ) (winds g rho s θ w W)⟩

theorem normal_eq (a b : ℝ) : V3.cross ⟨0, 0, 1⟩ (leechDirection a b) = sailNormal a b := by
  unfold leechDirection sailNormal; ext <;> simp

/-- A horizontal unit vector in the frame of the sail. -/
theorem decompose {u : V3} (hu1 : u.norm = 1) (huz : u.z = 0) (a b : ℝ) :
    u = u.dot (leechDirection a b) • leechDirection a b + u.dot (sailNormal a b) • V3.cross ⟨0, 0, 1⟩ (leechDirection a b) ∧
      (u.dot (leechDirection a b)) ^ 2 + (u.dot (sailNormal a b)) ^ 2 = 1 := by
  have hcs := Real.cos_sq_add_sin_sq ((a + b) * (Real.pi / 180))
  constructor
  · rw [normal_eq]
    unfold leechDirection sailNormal
    simp only [V3.dot]
    ext
    · simp only [V3.add_x, V3.smul_x]; linear_combination (-u.x) * hcs
    · simp only [V3.add_y, V3.smul_y]; linear_combination (-u.y) * hcs
    · simp [huz]
  · have h2 : (u.dot (leechDirection a b)) ^ 2 + (u.dot (sailNormal a b)) ^ 2 = u.norm ^ 2 := by
      rw [V3.norm_sq]
      unfold leechDirection sailNormal
      simp only [V3.dot, huz]
      linear_combination (u.x ^ 2 + u.y ^ 2) * hcs
    rw [h2, hu1]; norm_num

/-- Height of the middle of strip `j` of block `b`. -/
noncomputable def midHeight (s : SailInput) (b j : ℕ) : ℝ := |(rows s b j + rows s b (j + 1)) / 2|

theorem midHeight_mem (F : FlatSail s θ chord τ) {b j : ℕ} (hb : b < 2) (hj : j < s.ns) :
    s.tack.z < midHeight s b j ∧ midHeight s b j < s.head.z := by
  have h0 := F.ok.tack_z
  have hlt := F.rows_mono b (Nat.lt_succ_self j)
  have h1 := F.rows_mem (r := j) (by omega)
  have h2 := F.rows_mem (r := j + 1) (by omega)
  unfold midHeight
  have hb : b = 0 ∨ b = 1 := by omega
  rcases hb with rfl | rfl
  · simp only [Nat.succ_eq_add_one] at hlt
    rw [abs_of_pos (by linarith)]
    constructor <;> linarith
  · simp only [Nat.succ_eq_add_one] at hlt
    rw [abs_of_neg (by linarith)]
    constructor <;> linarith

theorem cp_height (F : FlatSail s θ chord τ) (hbig : 2e-4 ≤ chord / s.nc * ((s.head.z - s.tack.z) / s.ns)) (g : ℝ)
    {b i j : ℕ} (hb : b < (blocks s θ).length) (hi : i < s.nc) (hj : j < s.ns) :
    |((PlanarBlocks.latOf g s.nc s.ns (blocks s θ) (PlanarBlocks.panelIx g s.nc s.ns (blocks s θ) hb hi hj)).cp).z| = midHeight s b j := by
  have P := F.planar hbig
  rw [PlanarBlocks.latOf_panelIx, (P.meshVars_eq g hb hi hj).2.2.1]
  simp [planePt, origin, leechDirection, midHeight]

theorem winds_eq (F : FlatSail s θ chord τ) (hbig : 2e-4 ≤ chord / s.nc * ((s.head.z - s.tack.z) / s.ns)) (g rho : ℝ)
    (w : WindObj) (W : ℝ → V3) {b i j : ℕ} (hb : b < (blocks s θ).length) (hi : i < s.nc) (hj : j < s.ns) :
    winds g rho s θ w W (PlanarBlocks.panelIx g s.nc s.ns (blocks s θ) hb hi hj) = W (midHeight s b j) + ⟨w.vYacht, 0, 0⟩ := by
  have hlt := (PlanarBlocks.panelIx g s.nc s.ns (blocks s θ) hb hi hj).isLt
  rw [← F.cp_height hbig g hb hi hj]
  simp only [winds, cps, inletOf, List.getD_eq_getElem?_getD, List.getElem?_map, List.getElem?_eq_getElem hlt, Option.map_some,
      Option.getD_some, WindObj.appInfs]
  simp only [PlanarBlocks.latOf]
  ext <;> simp

/-- Every panel is in some strip. -/
theorem panel_cases (g : ℝ) (s : SailInput) (θ : ℕ → ℝ) (k : Fin (PlanarBlocks.vars g s.nc s.ns (blocks s θ)).length) :
    ∃ b i j, ∃ (hb : b < (blocks s θ).length) (hi : i < s.nc) (hj : j < s.ns),
      k = PlanarBlocks.panelIx g s.nc s.ns (blocks s θ) hb hi hj := by
  obtain ⟨b, i, j, hb, hi, hj, h⟩ := panelNo_surj (k.isLt.trans_eq (PlanarBlocks.vars_length g s.nc s.ns (blocks s θ)))
  exact ⟨b, i, j, hb, hi, hj, Fin.ext h⟩

/-- The speed at a panel. -/
noncomputable def speeds (g : ℝ) (s : SailInput) (θ : ℕ → ℝ) (l : ℝ → ℝ) (k : Fin (PlanarBlocks.vars g s.nc s.ns (blocks s θ)).length) : ℝ :=
  l |((PlanarBlocks.latOf g s.nc s.ns (blocks s θ) k).cp).z|

theorem winds_speed (F : FlatSail s θ chord τ) (hbig : 2e-4 ≤ chord / s.nc * ((s.head.z - s.tack.z) / s.ns)) (g rho : ℝ)
    {w : WindObj} {W : ℝ → V3} {l : ℝ → ℝ} {u : V3} (hu1 : u.norm = 1) (huz : u.z = 0)
    (hl : ∀ h, s.tack.z < h → h < s.head.z → W h + ⟨w.vYacht, 0, 0⟩ = l h • u)
    (k : Fin (PlanarBlocks.vars g s.nc s.ns (blocks s θ)).length) :
    winds g rho s θ w W k = speeds g s θ l k • (u.dot (leechDirection s.csys.leewayDeg τ) • leechDirection s.csys.leewayDeg τ +
      u.dot (sailNormal s.csys.leewayDeg τ) • V3.cross ⟨0, 0, 1⟩ (leechDirection s.csys.leewayDeg τ)) := by
  obtain ⟨b, i, j, hb, hi, hj, rfl⟩ := panel_cases g s θ k
  obtain ⟨h1, h2⟩ := F.midHeight_mem hb hj
  rw [F.winds_eq hbig g rho w W hb hi hj, hl _ h1 h2, ← (decompose hu1 huz _ _).1]
  unfold speeds
  rw [F.cp_height hbig g hb hi hj]

theorem speeds_mem (F : FlatSail s θ chord τ) (hbig : 2e-4 ≤ chord / s.nc * ((s.head.z - s.tack.z) / s.ns)) (g : ℝ) {l : ℝ → ℝ}
    {p : ℝ → Prop} (hp : ∀ h, s.tack.z < h → h < s.head.z → p (l h)) (k : Fin (PlanarBlocks.vars g s.nc s.ns (blocks s θ)).length) :
    p (speeds g s θ l k) := by
  obtain ⟨b, i, j, hb, hi, hj, rfl⟩ := panel_cases g s θ k
  obtain ⟨h1, h2⟩ := F.midHeight_mem hb hj
  unfold speeds
  rw [F.cp_height hbig g hb hi hj]
  exact hp _ h1 h2

/-- Sign and size of the circulations. -/
theorem gamma_bounds (F : FlatSail s θ chord τ) (hbig : 2e-4 ≤ chord / s.nc * ((s.head.z - s.tack.z) / s.ns))
    {w : WindObj} {W : ℝ → V3} {l : ℝ → ℝ} {u : V3} {M : ℝ} (hu1 : u.norm = 1) (huz : u.z = 0)
    (hl : ∀ h, s.tack.z < h → h < s.head.z → W h + ⟨w.vYacht, 0, 0⟩ = l h • u) (hpos : ∀ h, s.tack.z < h → h < s.head.z → 0 < l h)
    (hM : ∀ h, s.tack.z < h → h < s.head.z → l h ≤ M) (hfront : 0 ≤ u.dot (leechDirection s.csys.leewayDeg τ)) {g : ℝ} (rho : ℝ)
    (hg : g ≠ 0) (k : Fin (PlanarBlocks.vars g s.nc s.ns (blocks s θ)).length) :
    (0 < u.dot (sailNormal s.csys.leewayDeg τ) → g * PlanarBlocks.gammaOf g s.nc s.ns (blocks s θ) (winds g rho s θ w W) k < 0) ∧
    (u.dot (sailNormal s.csys.leewayDeg τ) < 0 → 0 < g * PlanarBlocks.gammaOf g s.nc s.ns (blocks s θ) (winds g rho s θ w W) k) ∧
    |g * PlanarBlocks.gammaOf g s.nc s.ns (blocks s θ) (winds g rho s θ w W) k| ≤
      Real.pi * chord * (M * |u.dot (sailNormal s.csys.leewayDeg τ)|) := by
  have P := F.planar hbig
  obtain ⟨h1, h2⟩ := (P.lattice g).gamma_bounds hg (F.speeds_mem hbig g (p := fun x => 0 < x) hpos)
    (F.speeds_mem hbig g (p := fun x => x ≤ M) hM) (F.winds_speed hbig g rho hu1 huz hl) (decompose hu1 huz _ _).2 hfront k
  change _ → 0 < -(_ * (g * PlanarBlocks.gammaOf g s.nc s.ns (blocks s θ) (winds g rho s θ w W) k)) at h1
  change |g * PlanarBlocks.gammaOf g s.nc s.ns (blocks s θ) (winds g rho s θ w W) k| ≤ _ at h2
  have hncR : (0 : ℝ) < s.nc := by exact_mod_cast F.ok.nc_pos
  refine ⟨fun h => ?_, fun h => ?_, ?_⟩
  · have := h1 h.ne'
    by_contra hcon
    have := mul_nonneg h.le (not_lt.1 hcon)
    linarith
  · have := h1 h.ne
    by_contra hcon
    have := mul_nonneg_of_nonpos_of_nonpos h.le (not_lt.1 hcon)
    linarith
  · refine h2.trans (le_of_eq ?_)
    field_simp

/-- More wind, more circulation. -/
theorem gamma_mono (F : FlatSail s θ chord τ) (hbig : 2e-4 ≤ chord / s.nc * ((s.head.z - s.tack.z) / s.ns))
    {w w' : WindObj} {W W' : ℝ → V3} {l l' : ℝ → ℝ} {u : V3} {M : ℝ} (hu1 : u.norm = 1) (huz : u.z = 0)
    (hl : ∀ h, s.tack.z < h → h < s.head.z → W h + ⟨w.vYacht, 0, 0⟩ = l h • u) (hpos : ∀ h, s.tack.z < h → h < s.head.z → 0 < l h)
    (hl' : ∀ h, s.tack.z < h → h < s.head.z → W' h + ⟨w'.vYacht, 0, 0⟩ = l' h • u)
    (hM : ∀ h, s.tack.z < h → h < s.head.z → l h ≤ M)
    (hle : ∀ h, s.tack.z < h → h < s.head.z → l h ≤ l' h) (hfront : 0 ≤ u.dot (leechDirection s.csys.leewayDeg τ)) {g : ℝ} (rho rho' : ℝ)
    (hg : g ≠ 0) (k : Fin (PlanarBlocks.vars g s.nc s.ns (blocks s θ)).length) :
    |g * PlanarBlocks.gammaOf g s.nc s.ns (blocks s θ) (winds g rho s θ w W) k| ≤
      |g * PlanarBlocks.gammaOf g s.nc s.ns (blocks s θ) (winds g rho' s θ w' W') k| := by
  have P := F.planar hbig
  have hkl : ∀ k, speeds g s θ l k ≤ speeds g s θ l' k := by
    intro k
    obtain ⟨b, i, j, hb, hi, hj, rfl⟩ := panel_cases g s θ k
    obtain ⟨h1, h2⟩ := F.midHeight_mem hb hj
    unfold speeds
    rw [F.cp_height hbig g hb hi hj]
    exact hle _ h1 h2
  have hm := (P.lattice g).gamma_mono hg (F.speeds_mem hbig g (p := fun x => 0 < x) hpos) hkl
    (F.winds_speed hbig g rho hu1 huz hl) (F.winds_speed hbig g rho' hu1 huz hl') (decompose hu1 huz _ _).2 hfront k
  change -(_ * (g * PlanarBlocks.gammaOf g s.nc s.ns (blocks s θ) (winds g rho s θ w W) k)) ≤
    -(_ * (g * PlanarBlocks.gammaOf g s.nc s.ns (blocks s θ) (winds g rho' s θ w' W') k)) at hm
  obtain ⟨a1, a2, a3⟩ := F.gamma_bounds hbig hu1 huz hl hpos hM hfront rho hg k
  rcases lt_trichotomy (u.dot (sailNormal s.csys.leewayDeg τ)) 0 with h | h | h
  · have b1 := a2 h
    have : g * PlanarBlocks.gammaOf g s.nc s.ns (blocks s θ) (winds g rho s θ w W) k ≤
        g * PlanarBlocks.gammaOf g s.nc s.ns (blocks s θ) (winds g rho' s θ w' W') k := by
      by_contra hc
      have := mul_lt_mul_of_neg_left (not_le.1 hc) h
      linarith
    rw [abs_of_pos b1, abs_of_pos (b1.trans_le this)]
    exact this
  · rw [h, abs_zero, mul_zero, mul_zero] at a3
    exact a3.trans (abs_nonneg _)
  · have b1 := a1 h
    have : g * PlanarBlocks.gammaOf g s.nc s.ns (blocks s θ) (winds g rho' s θ w' W') k ≤
        g * PlanarBlocks.gammaOf g s.nc s.ns (blocks s θ) (winds g rho s θ w W) k := by
      by_contra hc
      have := mul_lt_mul_of_pos_left (not_le.1 hc) h
      linarith
    rw [abs_of_neg b1, abs_of_neg (this.trans_lt b1)]
    linarith

/-- The solver returns `result`. -/
theorem solved (F : FlatSail s θ chord τ) (hbig : 2e-4 ≤ chord / s.nc * ((s.head.z - s.tack.z) / s.ns))
    {sail : SailGeom} (hs : sailGeometry s = .ok sail) {set : SailSet} (hset : sailSet [sail] = .ok set) {w : WindObj}
    {W : ℝ → V3} {l : ℝ → ℝ} {u : V3} (hu1 : u.norm = 1) (huz : u.z = 0)
    (hW : ∀ h, s.tack.z < h → h < s.head.z → w.trueWindAt h = .ok (W h))
    (hl : ∀ h, s.tack.z < h → h < s.head.z → W h + ⟨w.vYacht, 0, 0⟩ = l h • u) (hpos : ∀ h, s.tack.z < h → h < s.head.z → 0 < l h)
    (hfront : 0 ≤ u.dot (leechDirection s.csys.leewayDeg τ)) {rho g : ℝ} (hrho : rho ≠ 0) (hg : g ≠ 0) :
    vlm ⟨set.panels, s.nc, s.ns, rho, w, set.te, set.le, g⟩ = .ok (result set g rho s θ w W) := by
  have hnc : 0 < s.nc := F.ok.nc_pos
  have hns : 0 < s.ns := F.ok.ns_pos
  have P := F.planar hbig
  have hf : List.Forall₂ (BuiltFrom s.nc s.ns) [(s, θ)] [sail] := List.Forall₂.cons ⟨F.ok, rfl, rfl, hs⟩ List.Forall₂.nil
  obtain ⟨hp, hte, hle⟩ := sailSet_blocks hf hset
  have hp' : set.panels = blockPanels s.nc s.ns (blocks s θ) := hp
  have hte' : set.te = trailingFlags s.nc s.ns (blocks s θ).length := hte
  have hle' : set.le = leadingFlags s.nc s.ns (blocks s θ).length := hle
  have hne : blocks s θ ≠ [] := by simp [blocks]
  have hvl := PlanarBlocks.vars_length g s.nc s.ns (blocks s θ)
  have hcpne : cps g s θ ≠ [] := by
    intro h
    have h1 : (cps g s θ).length = 0 := by rw [h]; rfl
    rw [cps, List.length_map, hvl] at h1
    have : 0 < (blocks s θ).length * (s.nc * s.ns) := by simp [blocks]; exact ⟨hnc, hns⟩
    omega
  have hinlet := inletConditions_of (w := w) (cps := cps g s θ) (tws := (cps g s θ).map fun p => W |p.z|) rho hcpne (mapM_ok fun p hp => by
    rw [cps, List.mem_map] at hp
    obtain ⟨v, hv, rfl⟩ := hp
    obtain ⟨k, hk, rfl⟩ := List.getElem_of_mem hv
    exact F.speeds_mem hbig g (l := id) (p := fun h => w.trueWindAt h = .ok (W h)) (fun h h1 h2 => hW h h1 h2) ⟨k, hk⟩)
  have hsol := P.core (g := g) (rho := rho) hnc hne hg hrho (F.speeds_mem hbig g (p := fun x => 0 < x) hpos)
    (F.winds_speed hbig g rho hu1 huz hl) (decompose hu1 huz _ _).2 hfront
  refine (vlm_ok_iff _ _).2 ⟨rfl, rfl, ?_, hinlet, ?_⟩
  · simp only [result, hp', hte']
    exact P.varsOk g hnc hns hne
  · simp only [vlmSolve, result, hp', hte', hle']
    exact hsol

/-- The lift of a strip with the circulations `γ`. -/
theorem strip_of (F : FlatSail s θ chord τ) (hbig : 2e-4 ≤ chord / s.nc * ((s.head.z - s.tack.z) / s.ns)) {w : WindObj}
    {W : ℝ → V3} {l : ℝ → ℝ} {u : V3} (hu1 : u.norm = 1) (huz : u.z = 0)
    (hl : ∀ h, s.tack.z < h → h < s.head.z → W h + ⟨w.vYacht, 0, 0⟩ = l h • u) (rho g : ℝ)
    (γ : Fin (PlanarBlocks.vars g s.nc s.ns (blocks s θ)).length → ℝ) {b j : ℕ} (hb : b < (blocks s θ).length) (hj : j < s.ns) :
    ∑ i ∈ Finset.range s.nc, (List.ofFn (panelForce (PlanarBlocks.latOf g s.nc s.ns (blocks s θ)) (PlanarBlocks.leOf s.nc s.ns (blocks s θ) _) s.ns rho γ
        (winds g rho s θ w W))).getD (panelNo s.nc s.ns b i j) 0 =
      (-(rho * (l (midHeight s b j) * ((s.head.z - s.tack.z) / s.ns * (g * γ
        (PlanarBlocks.panelIx g s.nc s.ns (blocks s θ) hb (Nat.sub_lt F.ok.nc_pos one_pos) hj)))))) • (⟨-u.y, u.x, 0⟩ : V3) := by
  have P := F.planar hbig
  obtain ⟨m1, m2⟩ := F.midHeight_mem hb hj
  have h := P.strip_lift (g := g) (rho := rho) (C := u.dot (leechDirection s.csys.leewayDeg τ)) (S := u.dot (sailNormal s.csys.leewayDeg τ))
    (w := l (midHeight s b j)) γ hb hj
    (V := winds g rho s θ w W) (fun i hi => by rw [F.winds_eq hbig g rho w W hb hi hj, hl _ m1 m2, ← (decompose hu1 huz _ _).1])
    (Nat.sub_lt F.ok.nc_pos one_pos)
  rw [Nat.sub_add_cancel (Nat.one_le_of_lt F.ok.nc_pos), F.rows_succ, add_sub_cancel_left] at h
  refine h.trans ?_
  have hd : u.dot (sailNormal s.csys.leewayDeg τ) • leechDirection s.csys.leewayDeg τ -
      u.dot (leechDirection s.csys.leewayDeg τ) • V3.cross ⟨0, 0, 1⟩ (leechDirection s.csys.leewayDeg τ) = (-1 : ℝ) • (⟨-u.y, u.x, 0⟩ : V3) := by
    have hcs := Real.cos_sq_add_sin_sq ((s.csys.leewayDeg + τ) * (Real.pi / 180))
    rw [normal_eq]
    unfold leechDirection sailNormal
    ext
    · simp only [V3.dot, V3.sub_x, V3.smul_x]; linear_combination (u.y) * hcs
    · simp only [V3.dot, V3.sub_y, V3.smul_y]; linear_combination (-u.x) * hcs
    · simp
  rw [hd, smul_smul]
  congr 1
  ring

/-- The lift of a strip. -/
theorem strip (F : FlatSail s θ chord τ) (hbig : 2e-4 ≤ chord / s.nc * ((s.head.z - s.tack.z) / s.ns)) {set : SailSet} {w : WindObj}
    {W : ℝ → V3} {l : ℝ → ℝ} {u : V3} (hu1 : u.norm = 1) (huz : u.z = 0)
    (hl : ∀ h, s.tack.z < h → h < s.head.z → W h + ⟨w.vYacht, 0, 0⟩ = l h • u) (rho g : ℝ)
    {b j : ℕ} (hb : b < (blocks s θ).length) (hj : j < s.ns) :
    ∑ i ∈ Finset.range s.nc, (List.ofFn (result set g rho s θ w W).sol.lift).getD (panelNo s.nc s.ns b i j) 0 =
      (-(rho * (l (midHeight s b j) * ((s.head.z - s.tack.z) / s.ns * (g * PlanarBlocks.gammaOf g s.nc s.ns (blocks s θ) (winds g rho s θ w W)
        (PlanarBlocks.panelIx g s.nc s.ns (blocks s θ) hb (Nat.sub_lt F.ok.nc_pos one_pos) hj)))))) • (⟨-u.y, u.x, 0⟩ : V3) :=
  F.strip_of hbig hu1 huz hl rho g _ hb hj

end Spec.FlatSail

end PySailing
