import Verif.Lemmas.TaperBlocks
import Verif.Lemmas.FlatSail
import Verif.Spec.TaperedSail

/-!
# A flat tapered sail and its mirror image are in one plane
-/

namespace PySailing

open Spec Set

theorem concave_comp {f g : ℝ → ℝ} {A B : Set ℝ} (hg : ConvexOn ℝ A g) (hm : ∀ y ∈ A, g y ∈ B) (hf : ConcaveOn ℝ B f) (ha : AntitoneOn f B) :
    ConcaveOn ℝ A fun y => f (g y) := by
  refine ⟨hg.1, fun x hx y hy a b h1 h2 h3 => ?_⟩
  have hc := hg.2 hx hy h1 h2 h3
  have hf' := hf.2 (hm x hx) (hm y hy) h1 h2 h3
  exact hf'.trans (ha (hm _ (hg.1 hx hy h1 h2 h3)) (hf.1 (hm x hx) (hm y hy) h1 h2 h3) hc)

namespace Spec.PlaneSail

open _root_.PySailing.Spec.FlatSail (leechDirection_frame origin deg_add rows blocks cps winds result normal_eq decompose midHeight panel_cases speeds)

variable {s : SailInput} {θ : ℕ → ℝ} {chord : ℝ → ℝ} {τ : ℝ}

/-- Height above the water, not lower than the foot. -/
noncomputable def level (s : SailInput) (y : ℝ) : ℝ := max |y| s.tack.z

/-- Distance of the leading edge behind the tack. -/
noncomputable def front (s : SailInput) (y : ℝ) : ℝ := (level s y - s.tack.z) * ((s.head.x - s.tack.x) / (s.head.z - s.tack.z))

/-- Width of the panels. -/
noncomputable def width (s : SailInput) (chord : ℝ → ℝ) (y : ℝ) : ℝ := chord (level s y) / s.nc

theorem level_convex (s : SailInput) (A : Set ℝ) (hA : Convex ℝ A) : ConvexOn ℝ A (level s) := by
  have h1 : ConvexOn ℝ A fun y : ℝ => |y| := convexOn_norm hA
  exact h1.sup (convexOn_const _ hA)

theorem level_mem (F : PlaneSail s θ chord τ) {y : ℝ} (hy : y ∈ Icc (-s.head.z) s.head.z) : level s y ∈ Icc s.tack.z s.head.z :=
  ⟨le_max_right _ _, max_le (abs_le.2 hy) F.up.le⟩

theorem luffAt_eq (s : SailInput) (z : ℝ) :
    luffAt s z = s.tack.x + (z - s.tack.z) * ((s.head.x - s.tack.x) / (s.head.z - s.tack.z)) := by
  unfold luffAt; ring

theorem nc_real (F : PlaneSail s θ chord τ) : (0 : ℝ) < s.nc := by exact_mod_cast F.ok.nc_pos

theorem upright_rot (F : PlaneSail s θ chord τ) (p : V3) : s.csys.rotatePointWithMirror p = s.csys.leeway.mulVec p := by
  rw [s.csys.rotatePointWithMirror_upright (by rw [F.upright]; simp [deg2rad]), s.csys.heeling_mulVec, F.upright]
  congr 1
  ext <;> simp [deg2rad]

/-- A twisted point of a sail in the plane of its luff. -/
theorem twisted (F : PlaneSail s θ chord τ) {x1 x2 z1 z2 x0 ξ z : ℝ} (hx : x0 = s.tack.x + ξ)
    (h1 : s.head.x = s.tack.x → x1 = s.tack.x) (h2 : s.head.x = s.tack.x → x2 = s.tack.x) (hz : z1 < z2) :
    rotateAboutLine ⟨Real.cos (deg2rad s.csys.leewayDeg) * x1, Real.sin (deg2rad s.csys.leewayDeg) * x1, z1⟩
      ⟨Real.cos (deg2rad s.csys.leewayDeg) * x2, Real.sin (deg2rad s.csys.leewayDeg) * x2, z2⟩ (deg2rad τ)
      ⟨Real.cos (deg2rad s.csys.leewayDeg) * x0, Real.sin (deg2rad s.csys.leewayDeg) * x0, z⟩ =
      planePt (origin s) (leechDirection s.csys.leewayDeg τ) ⟨0, 0, 1⟩ ξ z := by
  subst hx
  rcases F.luff with h | h
  · rw [h1 h, h2 h, rotateAboutLine_vertical (by simp) (by simp) (by simpa using hz)]
    unfold planePt origin leechDirection
    rw [← deg_add, Real.cos_add, Real.sin_add]
    ext
    · simp only [V3.add_x, V3.smul_x]; ring
    · simp only [V3.add_y, V3.smul_y]; ring
    · simp
  · rw [h, show deg2rad 0 = 0 by simp [deg2rad], rotateAboutLine_zero]
    unfold planePt origin leechDirection
    rw [add_zero, show s.csys.leewayDeg * (Real.pi / 180) = deg2rad s.csys.leewayDeg by unfold deg2rad; ring]
    ext
    · simp only [V3.add_x, V3.smul_x]; ring
    · simp only [V3.add_y, V3.smul_y]; ring
    · simp

theorem frac (F : PlaneSail s θ chord τ) {r : ℕ} (hr : r ≤ s.ns) : 0 ≤ (r : ℝ) / s.ns ∧ (r : ℝ) / s.ns ≤ 1 := by
  have hns : (0 : ℝ) < s.ns := by exact_mod_cast F.ok.ns_pos
  exact ⟨by positivity, by rw [div_le_one hns]; exact_mod_cast hr⟩

theorem above (F : PlaneSail s θ chord τ) {r : ℕ} (hr : r ≤ s.ns) (k : ℕ) :
    s.aboveTwisted θ r k = planePt (origin s) (leechDirection s.csys.leewayDeg τ) ⟨0, 0, 1⟩
      (front s (rows s 0 r) + k * width s chord (rows s 0 r)) (rows s 0 r) := by
  have hup := sub_pos.2 F.up
  have hpt : ∀ r, r ≤ s.ns → ∀ k, s.abovePt r k =
      ⟨Real.cos (deg2rad s.csys.leewayDeg) * (s.tack.x + (r : ℝ) / s.ns * (s.head.x - s.tack.x) +
        chord (s.tack.z + (r : ℝ) / s.ns * (s.head.z - s.tack.z)) * ((k : ℝ) / s.nc)),
      Real.sin (deg2rad s.csys.leewayDeg) * (s.tack.x + (r : ℝ) / s.ns * (s.head.x - s.tack.x) +
        chord (s.tack.z + (r : ℝ) / s.ns * (s.head.z - s.tack.z)) * ((k : ℝ) / s.nc)),
      s.tack.z + (r : ℝ) / s.ns * (s.head.z - s.tack.z)⟩ := by
    intro r hr k
    unfold SailInput.abovePt
    rw [F.upright_rot, s.csys.leeway_mulVec]
    unfold sailPoint
    rw [F.chords r hr, F.camber r hr, camberCurve_flat]
    simp [lerp]
  have hns : (s.ns : ℝ) ≠ 0 := F.ok.toSailArgs.ns_ne
  have h0 := F.ok.tack_z
  have hl : level s (rows s 0 r) = s.tack.z + (r : ℝ) / s.ns * (s.head.z - s.tack.z) := by
    have := mul_nonneg (F.frac hr).1 hup.le
    unfold level rows
    rw [if_pos rfl, abs_of_nonneg (by linarith), max_eq_left (by linarith)]
  unfold SailInput.aboveTwisted
  rw [hpt 0 (Nat.zero_le _) 0, hpt _ le_rfl 0, hpt r hr k, F.twist r hr,
    F.twisted (ξ := front s (rows s 0 r) + k * width s chord (rows s 0 r)) _ (fun h => by simp) (fun h => by simp [h])
      (by simp only [Nat.cast_zero, zero_div, zero_mul, div_self hns]; linarith)]
  · simp [rows]
  · unfold front width
    rw [hl]
    field_simp
    ring

theorem under (F : PlaneSail s θ chord τ) {r : ℕ} (hr : r ≤ s.ns) (k : ℕ) :
    s.underTwisted θ r k = planePt (origin s) (leechDirection s.csys.leewayDeg τ) ⟨0, 0, 1⟩
      (front s (rows s 1 r) + k * width s chord (rows s 1 r)) (rows s 1 r) := by
  have hup := sub_pos.2 F.up
  have hns : (s.ns : ℝ) ≠ 0 := F.ok.toSailArgs.ns_ne
  have hrev : ∀ l : List ℝ, l.length = s.ns + 1 → ∀ r, r ≤ s.ns → l.reverse.getD r 0 = l.getD (s.ns - r) 0 := by
    intro l hl r hr
    rw [List.getD_eq_getElem?_getD, List.getD_eq_getElem?_getD, List.getElem?_reverse (by omega)]
    congr 2; omega
  have hpt : ∀ r, r ≤ s.ns → ∀ k, s.underPt r k =
      ⟨Real.cos (deg2rad s.csys.leewayDeg) * (s.head.x + (r : ℝ) / s.ns * (s.tack.x - s.head.x) +
        chord (s.head.z - (r : ℝ) / s.ns * (s.head.z - s.tack.z)) * ((k : ℝ) / s.nc)),
      Real.sin (deg2rad s.csys.leewayDeg) * (s.head.x + (r : ℝ) / s.ns * (s.tack.x - s.head.x) +
        chord (s.head.z - (r : ℝ) / s.ns * (s.head.z - s.tack.z)) * ((k : ℝ) / s.nc)),
      -s.head.z + (r : ℝ) / s.ns * (s.head.z - s.tack.z)⟩ := by
    intro r hr k
    unfold SailInput.underPt
    rw [F.upright_rot, s.csys.leeway_mulVec]
    unfold sailPoint
    rw [hrev _ F.ok.valid.chords_len r hr, hrev _ F.ok.camber_len r hr, F.chords _ (Nat.sub_le _ _), F.camber _ (Nat.sub_le _ _),
      camberCurve_flat]
    have e : s.tack.z + ((s.ns - r : ℕ) : ℝ) / s.ns * (s.head.z - s.tack.z) = s.head.z - (r : ℝ) / s.ns * (s.head.z - s.tack.z) := by
      rw [Nat.cast_sub hr, sub_div, div_self hns]; ring
    rw [e]
    ext <;> simp [lerp, mirror]
    left; ring
  have h0 := F.ok.tack_z
  have hl : level s (rows s 1 r) = s.head.z - (r : ℝ) / s.ns * (s.head.z - s.tack.z) := by
    have := mul_le_mul_of_nonneg_right (F.frac hr).2 hup.le
    unfold level rows
    rw [if_neg one_ne_zero, abs_of_nonpos (by linarith), max_eq_left (by linarith)]
    ring
  unfold SailInput.underTwisted
  rw [hpt 0 (Nat.zero_le _) 0, hpt _ le_rfl 0, hpt r hr k, F.twist _ (Nat.sub_le _ _),
    F.twisted (ξ := front s (rows s 1 r) + k * width s chord (rows s 1 r)) _ (fun h => by simp [h]) (fun h => by simp [h])
      (by simp only [Nat.cast_zero, zero_div, zero_mul, div_self hns]; linarith)]
  · simp [rows]
  · unfold front width
    rw [hl]
    field_simp
    ring

theorem rows_mem (F : PlaneSail s θ chord τ) {r : ℕ} (hr : r ≤ s.ns) : s.tack.z ≤ rows s 0 r ∧ rows s 0 r ≤ s.head.z ∧
    -s.head.z ≤ rows s 1 r ∧ rows s 1 r ≤ -s.tack.z := by
  have hns : (0 : ℝ) < s.ns := by exact_mod_cast F.ok.ns_pos
  have h0 : 0 ≤ (r : ℝ) / s.ns := by positivity
  have h1 : (r : ℝ) / s.ns ≤ 1 := by rw [div_le_one hns]; exact_mod_cast hr
  have hup := sub_pos.2 F.up
  have a := mul_nonneg h0 hup.le
  have b := mul_le_mul_of_nonneg_right h1 hup.le
  unfold rows
  simp only [if_true, one_ne_zero, if_false]
  refine ⟨by linarith, by linarith, by linarith, by linarith⟩

theorem rows_succ (F : PlaneSail s θ chord τ) (b r : ℕ) :
    rows s b (r + 1) = rows s b r + (s.head.z - s.tack.z) / s.ns := by
  have hns : (s.ns : ℝ) ≠ 0 := F.ok.toSailArgs.ns_ne
  unfold rows
  push_cast
  field_simp
  ring

theorem rows_mono (F : PlaneSail s θ chord τ) (b : ℕ) : StrictMono (rows s b) := by
  apply strictMono_nat_of_lt_succ
  intro r
  have hns : (0 : ℝ) < s.ns := by exact_mod_cast F.ok.ns_pos
  have := div_pos (sub_pos.2 F.up) hns
  rw [F.rows_succ]
  linarith

theorem tapered (F : PlaneSail s θ chord τ) :
    TaperBlocks (origin s) (leechDirection s.csys.leewayDeg τ) ⟨0, 0, 1⟩ (front s) (width s chord) (-s.head.z) s.head.z s.nc s.ns (rows s)
      (blocks s θ) where
  frame := leechDirection_frame _ _
  wide := fun y hy => F.wide _ (F.level_mem hy)
  high := fun b r _ _ => by rw [F.rows_succ, add_sub_cancel_left]; exact F.high
  inside := by
    intro b r hb hr
    have h0 := F.ok.tack_z
    have hup := F.up
    have := F.rows_mem hr
    have e : b = 0 ∨ b = 1 := by simp [blocks] at hb; omega
    rcases e with rfl | rfl
    · exact ⟨by linarith [this.1], this.2.1⟩
    · exact ⟨this.2.2.1, by linarith [this.2.2.2]⟩
  pts := by
    intro b hb r k hr _
    have : b = 0 ∨ b = 1 := by simp [blocks] at hb; omega
    rcases this with rfl | rfl
    · exact F.above hr k
    · exact F.under hr k
  disj := by
    intro b r b' r' hb hr hb' hr' hne
    have h0 := F.ok.tack_z
    have e : b = 0 ∨ b = 1 := by simp [blocks] at hb; omega
    have e' : b' = 0 ∨ b' = 1 := by simp [blocks] at hb'; omega
    by_cases hbb : b = b'
    · subst hbb
      have hne' : r ≠ r' := fun h => hne (by rw [h])
      rcases Nat.lt_or_gt_of_ne hne' with h | h
      · exact Or.inl ((F.rows_mono b).monotone h)
      · exact Or.inr ((F.rows_mono b).monotone h)
    · rcases e with rfl | rfl <;> rcases e' with rfl | rfl
      · exact absurd rfl hbb
      · right
        have := (F.rows_mem (r := r' + 1) (by omega)).2.2.2
        have := (F.rows_mem (r := r) (by omega)).1
        linarith
      · left
        have := (F.rows_mem (r := r + 1) (by omega)).2.2.2
        have := (F.rows_mem (r := r') (by omega)).1
        linarith
      · exact absurd rfl hbb

theorem midHeight_mem (F : PlaneSail s θ chord τ) {b j : ℕ} (hb : b < 2) (hj : j < s.ns) :
    s.tack.z < midHeight s b j ∧ midHeight s b j < s.head.z := by
  have h0 := F.ok.tack_z
  have hlt := F.rows_mono b (Nat.lt_succ_self j)
  have h1 := F.rows_mem (r := j) (by omega)
  have h2 := F.rows_mem (r := j + 1) (by omega)
  unfold midHeight
  have hb : b = 0 ∨ b = 1 := by omega
  rcases hb with rfl | rfl
  · simp only [Nat.succ_eq_add_one] at hlt
    rw [abs_of_pos (by linarith)]
    constructor <;> linarith
  · simp only [Nat.succ_eq_add_one] at hlt
    rw [abs_of_neg (by linarith)]
    constructor <;> linarith

theorem cp_height (F : PlaneSail s θ chord τ) (g : ℝ)
    {b i j : ℕ} (hb : b < (blocks s θ).length) (hi : i < s.nc) (hj : j < s.ns) :
    |((PlanarBlocks.latOf g s.nc s.ns (blocks s θ) (PlanarBlocks.panelIx g s.nc s.ns (blocks s θ) hb hi hj)).cp).z| = midHeight s b j := by
  have P := F.tapered
  rw [PlanarBlocks.latOf_panelIx, (P.meshVars_eq g hb hi hj).2.2.1]
  simp [planePt, origin, leechDirection, midHeight]

theorem winds_eq (F : PlaneSail s θ chord τ) (g rho : ℝ)
    (w : WindObj) (W : ℝ → V3) {b i j : ℕ} (hb : b < (blocks s θ).length) (hi : i < s.nc) (hj : j < s.ns) :
    winds g rho s θ w W (PlanarBlocks.panelIx g s.nc s.ns (blocks s θ) hb hi hj) = W (midHeight s b j) + ⟨w.vYacht, 0, 0⟩ := by
  have hlt := (PlanarBlocks.panelIx g s.nc s.ns (blocks s θ) hb hi hj).isLt
  rw [← F.cp_height g hb hi hj]
  simp only [winds, cps, inletOf, List.getD_eq_getElem?_getD, List.getElem?_map, List.getElem?_eq_getElem hlt, Option.map_some,
      Option.getD_some, WindObj.appInfs]
  simp only [PlanarBlocks.latOf]
  ext <;> simp

theorem winds_speed (F : PlaneSail s θ chord τ) (g rho : ℝ)
    {w : WindObj} {W : ℝ → V3} {l : ℝ → ℝ} {u : V3} (hu1 : u.norm = 1) (huz : u.z = 0)
    (hl : ∀ h, s.tack.z < h → h < s.head.z → W h + ⟨w.vYacht, 0, 0⟩ = l h • u)
    (k : Fin (PlanarBlocks.vars g s.nc s.ns (blocks s θ)).length) :
    winds g rho s θ w W k = speeds g s θ l k • (u.dot (leechDirection s.csys.leewayDeg τ) • leechDirection s.csys.leewayDeg τ +
      u.dot (sailNormal s.csys.leewayDeg τ) • V3.cross ⟨0, 0, 1⟩ (leechDirection s.csys.leewayDeg τ)) := by
  obtain ⟨b, i, j, hb, hi, hj, rfl⟩ := panel_cases g s θ k
  obtain ⟨h1, h2⟩ := F.midHeight_mem hb hj
  rw [F.winds_eq g rho w W hb hi hj, hl _ h1 h2, ← (decompose hu1 huz _ _).1]
  unfold speeds
  rw [F.cp_height g hb hi hj]

theorem speeds_mem (F : PlaneSail s θ chord τ) (g : ℝ) {l : ℝ → ℝ}
    {p : ℝ → Prop} (hp : ∀ h, s.tack.z < h → h < s.head.z → p (l h)) (k : Fin (PlanarBlocks.vars g s.nc s.ns (blocks s θ)).length) :
    p (speeds g s θ l k) := by
  obtain ⟨b, i, j, hb, hi, hj, rfl⟩ := panel_cases g s θ k
  obtain ⟨h1, h2⟩ := F.midHeight_mem hb hj
  unfold speeds
  rw [F.cp_height g hb hi hj]
  exact hp _ h1 h2

/-- Sign of the circulations. -/
theorem gamma_sign (F : PlaneSail s θ chord τ)
    {w : WindObj} {W : ℝ → V3} {l : ℝ → ℝ} {u : V3} (hu1 : u.norm = 1) (huz : u.z = 0)
    (hl : ∀ h, s.tack.z < h → h < s.head.z → W h + ⟨w.vYacht, 0, 0⟩ = l h • u) (hpos : ∀ h, s.tack.z < h → h < s.head.z → 0 < l h)
    (hfit : Taper.Fits (u.dot (leechDirection s.csys.leewayDeg τ)) (-s.head.z) s.head.z
      fun y => front s y + (s.nc + 1 / 4) * width s chord y) {g : ℝ} (rho : ℝ)
    (hg : g ≠ 0) (k : Fin (PlanarBlocks.vars g s.nc s.ns (blocks s θ)).length) :
    (0 < u.dot (sailNormal s.csys.leewayDeg τ) → g * PlanarBlocks.gammaOf g s.nc s.ns (blocks s θ) (winds g rho s θ w W) k < 0) ∧
    (u.dot (sailNormal s.csys.leewayDeg τ) < 0 → 0 < g * PlanarBlocks.gammaOf g s.nc s.ns (blocks s θ) (winds g rho s θ w W) k) ∧
    (u.dot (sailNormal s.csys.leewayDeg τ) = 0 → g * PlanarBlocks.gammaOf g s.nc s.ns (blocks s θ) (winds g rho s θ w W) k = 0) := by
  have P := F.tapered
  have h1 := (P.lattice g).gamma_sign hg (F.speeds_mem g (p := fun x => 0 < x) hpos)
    (F.winds_speed g rho hu1 huz hl) (decompose hu1 huz _ _).2 hfit
  have h2 := fun h => (P.lattice g).gamma_zero hg (F.speeds_mem g (p := fun x => 0 < x) hpos)
    (F.winds_speed g rho hu1 huz hl) (decompose hu1 huz _ _).2 hfit h k
  have h3 := fun h => h1 h k
  change _ → 0 < -(_ * (g * PlanarBlocks.gammaOf g s.nc s.ns (blocks s θ) (winds g rho s θ w W) k)) at h3
  refine ⟨fun h => ?_, fun h => ?_, fun h => h2 h⟩
  · have := h3 h.ne'
    by_contra hcon
    have := mul_nonneg h.le (not_lt.1 hcon)
    linarith
  · have := h3 h.ne
    by_contra hcon
    have := mul_nonneg_of_nonpos_of_nonpos h.le (not_lt.1 hcon)
    linarith

/-- More wind, more circulation. -/
theorem gamma_mono (F : PlaneSail s θ chord τ)
    {w w' : WindObj} {W W' : ℝ → V3} {l l' : ℝ → ℝ} {u : V3} (hu1 : u.norm = 1) (huz : u.z = 0)
    (hl : ∀ h, s.tack.z < h → h < s.head.z → W h + ⟨w.vYacht, 0, 0⟩ = l h • u) (hpos : ∀ h, s.tack.z < h → h < s.head.z → 0 < l h)
    (hl' : ∀ h, s.tack.z < h → h < s.head.z → W' h + ⟨w'.vYacht, 0, 0⟩ = l' h • u)
    (hle : ∀ h, s.tack.z < h → h < s.head.z → l h ≤ l' h) (hfit : Taper.Fits (u.dot (leechDirection s.csys.leewayDeg τ)) (-s.head.z) s.head.z
      fun y => front s y + (s.nc + 1 / 4) * width s chord y) {g : ℝ} (rho rho' : ℝ)
    (hg : g ≠ 0) (k : Fin (PlanarBlocks.vars g s.nc s.ns (blocks s θ)).length) :
    |g * PlanarBlocks.gammaOf g s.nc s.ns (blocks s θ) (winds g rho s θ w W) k| ≤
      |g * PlanarBlocks.gammaOf g s.nc s.ns (blocks s θ) (winds g rho' s θ w' W') k| := by
  have P := F.tapered
  have hkl : ∀ k, speeds g s θ l k ≤ speeds g s θ l' k := by
    intro k
    obtain ⟨b, i, j, hb, hi, hj, rfl⟩ := panel_cases g s θ k
    obtain ⟨h1, h2⟩ := F.midHeight_mem hb hj
    unfold speeds
    rw [F.cp_height g hb hi hj]
    exact hle _ h1 h2
  have hm := (P.lattice g).gamma_mono hg (F.speeds_mem g (p := fun x => 0 < x) hpos) hkl
    (F.winds_speed g rho hu1 huz hl) (F.winds_speed g rho' hu1 huz hl') (decompose hu1 huz _ _).2 hfit k
  change -(_ * (g * PlanarBlocks.gammaOf g s.nc s.ns (blocks s θ) (winds g rho s θ w W) k)) ≤
    -(_ * (g * PlanarBlocks.gammaOf g s.nc s.ns (blocks s θ) (winds g rho' s θ w' W') k)) at hm
  obtain ⟨a1, a2, a3⟩ := F.gamma_sign hu1 huz hl hpos hfit rho hg k
  rcases lt_trichotomy (u.dot (sailNormal s.csys.leewayDeg τ)) 0 with h | h | h
  · have b1 := a2 h
    have : g * PlanarBlocks.gammaOf g s.nc s.ns (blocks s θ) (winds g rho s θ w W) k ≤
        g * PlanarBlocks.gammaOf g s.nc s.ns (blocks s θ) (winds g rho' s θ w' W') k := by
      by_contra hc
      have := mul_lt_mul_of_neg_left (not_le.1 hc) h
      linarith
    rw [abs_of_pos b1, abs_of_pos (b1.trans_le this)]
    exact this
  · rw [a3 h, abs_zero]
    exact abs_nonneg _
  · have b1 := a1 h
    have : g * PlanarBlocks.gammaOf g s.nc s.ns (blocks s θ) (winds g rho' s θ w' W') k ≤
        g * PlanarBlocks.gammaOf g s.nc s.ns (blocks s θ) (winds g rho s θ w W) k := by
      by_contra hc
      have := mul_lt_mul_of_pos_left (not_le.1 hc) h
      linarith
    rw [abs_of_neg b1, abs_of_neg (this.trans_lt b1)]
    linarith

/-- The solver returns `result`. -/
theorem solved (F : PlaneSail s θ chord τ)
    {sail : SailGeom} (hs : sailGeometry s = .ok sail) {set : SailSet} (hset : sailSet [sail] = .ok set) {w : WindObj}
    {W : ℝ → V3} {l : ℝ → ℝ} {u : V3} (hu1 : u.norm = 1) (huz : u.z = 0)
    (hW : ∀ h, s.tack.z < h → h < s.head.z → w.trueWindAt h = .ok (W h))
    (hl : ∀ h, s.tack.z < h → h < s.head.z → W h + ⟨w.vYacht, 0, 0⟩ = l h • u) (hpos : ∀ h, s.tack.z < h → h < s.head.z → 0 < l h)
    (hfit : Taper.Fits (u.dot (leechDirection s.csys.leewayDeg τ)) (-s.head.z) s.head.z
      fun y => front s y + (s.nc + 1 / 4) * width s chord y) {rho g : ℝ} (hrho : rho ≠ 0) (hg : g ≠ 0) :
    vlm ⟨set.panels, s.nc, s.ns, rho, w, set.te, set.le, g⟩ = .ok (result set g rho s θ w W) := by
  have hnc : 0 < s.nc := F.ok.nc_pos
  have hns : 0 < s.ns := F.ok.ns_pos
  have P := F.tapered
  have hf : List.Forall₂ (BuiltFrom s.nc s.ns) [(s, θ)] [sail] := List.Forall₂.cons ⟨F.ok, rfl, rfl, hs⟩ List.Forall₂.nil
  obtain ⟨hp, hte, hle⟩ := sailSet_blocks hf hset
  have hp' : set.panels = blockPanels s.nc s.ns (blocks s θ) := hp
  have hte' : set.te = trailingFlags s.nc s.ns (blocks s θ).length := hte
  have hle' : set.le = leadingFlags s.nc s.ns (blocks s θ).length := hle
  have hne : blocks s θ ≠ [] := by simp [blocks]
  have hvl := PlanarBlocks.vars_length g s.nc s.ns (blocks s θ)
  have hcpne : cps g s θ ≠ [] := by
    intro h
    have h1 : (cps g s θ).length = 0 := by rw [h]; rfl
    rw [cps, List.length_map, hvl] at h1
    have : 0 < (blocks s θ).length * (s.nc * s.ns) := by simp [blocks]; exact ⟨hnc, hns⟩
    omega
  have hinlet := inletConditions_of (w := w) (cps := cps g s θ) (tws := (cps g s θ).map fun p => W |p.z|) rho hcpne (mapM_ok fun p hp => by
    rw [cps, List.mem_map] at hp
    obtain ⟨v, hv, rfl⟩ := hp
    obtain ⟨k, hk, rfl⟩ := List.getElem_of_mem hv
    exact F.speeds_mem g (l := id) (p := fun h => w.trueWindAt h = .ok (W h)) (fun h h1 h2 => hW h h1 h2) ⟨k, hk⟩)
  have hsol := P.core (g := g) (rho := rho) hnc hne hg hrho (F.speeds_mem g (p := fun x => 0 < x) hpos)
    (F.winds_speed g rho hu1 huz hl) (decompose hu1 huz _ _).2 hfit
  refine (vlm_ok_iff _ _).2 ⟨rfl, rfl, ?_, hinlet, ?_⟩
  · simp only [result, hp', hte']
    exact P.varsOk g hnc hns hne
  · simp only [vlmSolve, result, hp', hte', hle']
    exact hsol

/-- Horizontal components of the lift of a strip, for any circulations. -/
theorem strip_of (F : PlaneSail s θ chord τ) {w : WindObj}
    {W : ℝ → V3} {l : ℝ → ℝ} {u : V3} (hu1 : u.norm = 1) (huz : u.z = 0)
    (hl : ∀ h, s.tack.z < h → h < s.head.z → W h + ⟨w.vYacht, 0, 0⟩ = l h • u) (rho g : ℝ)
    (γ : Fin (PlanarBlocks.vars g s.nc s.ns (blocks s θ)).length → ℝ) {b j : ℕ} (hb : b < (blocks s θ).length) (hj : j < s.ns) {d : V3} (hd : d.z = 0) :
    ∑ i ∈ Finset.range s.nc, ((List.ofFn (panelForce (PlanarBlocks.latOf g s.nc s.ns (blocks s θ)) (PlanarBlocks.leOf s.nc s.ns (blocks s θ) _) s.ns rho γ
        (winds g rho s θ w W))).getD (panelNo s.nc s.ns b i j) 0).dot d =
      -(rho * (l (midHeight s b j) * ((s.head.z - s.tack.z) / s.ns * (g * γ
        (PlanarBlocks.panelIx g s.nc s.ns (blocks s θ) hb (Nat.sub_lt F.ok.nc_pos one_pos) hj))))) * (acrossWind u).dot d := by
  have P := F.tapered
  obtain ⟨m1, m2⟩ := F.midHeight_mem hb hj
  have h := P.strip_lift (g := g) (rho := rho) (C := u.dot (leechDirection s.csys.leewayDeg τ)) (S := u.dot (sailNormal s.csys.leewayDeg τ))
    (w := l (midHeight s b j)) γ hb hj
    (V := winds g rho s θ w W) (fun i hi => by rw [F.winds_eq g rho w W hb hi hj, hl _ m1 m2, ← (decompose hu1 huz _ _).1])
    (d := d) (by simp [V3.dot, hd]) (Nat.sub_lt F.ok.nc_pos one_pos)
  rw [Nat.sub_add_cancel (Nat.one_le_of_lt F.ok.nc_pos), F.rows_succ, add_sub_cancel_left] at h
  refine h.trans ?_
  have hd : u.dot (sailNormal s.csys.leewayDeg τ) • leechDirection s.csys.leewayDeg τ -
      u.dot (leechDirection s.csys.leewayDeg τ) • V3.cross ⟨0, 0, 1⟩ (leechDirection s.csys.leewayDeg τ) = (-1 : ℝ) • acrossWind u := by
    have hcs := Real.cos_sq_add_sin_sq ((s.csys.leewayDeg + τ) * (Real.pi / 180))
    rw [normal_eq]
    unfold leechDirection sailNormal acrossWind
    ext
    · simp only [V3.dot, V3.sub_x, V3.smul_x]; linear_combination (u.y) * hcs
    · simp only [V3.dot, V3.sub_y, V3.smul_y]; linear_combination (-u.x) * hcs
    · simp
  rw [hd, V3.dot_smul_left]
  ring

/-- Horizontal components of the lift of a strip. -/
theorem strip (F : PlaneSail s θ chord τ) {set : SailSet} {w : WindObj}
    {W : ℝ → V3} {l : ℝ → ℝ} {u : V3} (hu1 : u.norm = 1) (huz : u.z = 0)
    (hl : ∀ h, s.tack.z < h → h < s.head.z → W h + ⟨w.vYacht, 0, 0⟩ = l h • u) (rho g : ℝ)
    {b j : ℕ} (hb : b < (blocks s θ).length) (hj : j < s.ns) {d : V3} (hd : d.z = 0) :
    ∑ i ∈ Finset.range s.nc, ((List.ofFn (result set g rho s θ w W).sol.lift).getD (panelNo s.nc s.ns b i j) 0).dot d =
      -(rho * (l (midHeight s b j) * ((s.head.z - s.tack.z) / s.ns * (g * PlanarBlocks.gammaOf g s.nc s.ns (blocks s θ) (winds g rho s θ w W)
        (PlanarBlocks.panelIx g s.nc s.ns (blocks s θ) hb (Nat.sub_lt F.ok.nc_pos one_pos) hj))))) * (acrossWind u).dot d :=
  F.strip_of hu1 huz hl rho g _ hb hj hd

end Spec.PlaneSail

open Spec.PlaneSail

namespace Spec.TaperedSail

variable {s : SailInput} {θ : ℕ → ℝ} {chord : ℝ → ℝ} {τ : ℝ}

theorem fits (F : TaperedSail s θ chord τ) {C : ℝ} (hC : 0 ≤ C) :
    Taper.Fits C (-s.head.z) s.head.z fun y => front s y + (s.nc + 1 / 4) * width s chord y := by
  refine ⟨hC, Or.inl ?_⟩
  have hnc := F.nc_real
  have h0 : ConcaveOn ℝ (Icc s.tack.z s.head.z) (aftEdge s chord) := by
    have h1 := F.concave.smul (c := (1 + 1 / (4 * (s.nc : ℝ)))) (by positivity)
    refine ⟨convex_Icc _ _, fun x hx y hy a b ha hb hab => ?_⟩
    have h2 := h1.2 hx hy ha hb hab
    simp only [smul_eq_mul, aftEdge] at h2 ⊢
    rw [luffAt_eq, luffAt_eq, luffAt_eq]
    generalize (s.head.x - s.tack.x) / (s.head.z - s.tack.z) = m
    have e : b = 1 - a := by linarith
    subst e
    linarith
  have h := concave_comp (level_convex s _ (convex_Icc (-s.head.z) s.head.z)) (fun y hy => F.level_mem hy) h0 F.leech
  have h' := h.add_const (-s.tack.x)
  refine h'.congr fun y _ => ?_
  simp only [front, width, Pi.add_apply, aftEdge]
  rw [luffAt_eq]
  field_simp
  ring

end Spec.TaperedSail

namespace Spec.SlopedSail

variable {s : SailInput} {θ : ℕ → ℝ} {chord : ℝ → ℝ} {τ Q : ℝ}

theorem fits (F : SlopedSail s θ chord τ Q) {C : ℝ} (hC : CloseToSail C Q) :
    Taper.Fits C (-s.head.z) s.head.z fun y => front s y + (s.nc + 1 / 4) * width s chord y := by
  have hnc := F.nc_real
  have e : ∀ y, front s y + (s.nc + 1 / 4) * width s chord y = aftEdge s chord (level s y) - s.tack.x := by
    intro y
    simp only [front, width, aftEdge]
    rw [luffAt_eq]
    field_simp
    ring
  refine ⟨hC.1, Or.inr ⟨Q, F.slope_nonneg, fun y hy y' hy' => ?_, hC.2⟩⟩
  simp only [e]
  rw [sub_sub_sub_cancel_right]
  refine (F.slope _ (F.level_mem hy) _ (F.level_mem hy')).trans (mul_le_mul_of_nonneg_left ?_ F.slope_nonneg)
  exact (abs_max_sub_max_le_abs _ _ _).trans (abs_abs_sub_abs_le _ _)

end Spec.SlopedSail

end PySailing
