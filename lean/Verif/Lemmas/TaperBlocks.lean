import Verif.Lemmas.PlanarBlocks
import Verif.Lemmas.TaperLattice

/-!
# Blocks of trapezoidal panels (sails and their images) in one plane
-/

namespace PySailing

open Spec Set

/-- Meshed blocks of trapezoidal panels in one plane: row `r` of block `b` is at the height `ζ b r`; at the height `y` the
leading edge is at `xl y` and the panels have the width `δ y`. -/
structure TaperBlocks (O e s : V3) (xl δ : ℝ → ℝ) (bot top : ℝ) (nc ns : ℕ) (ζ : ℕ → ℕ → ℝ) (blocks : List (ℕ → ℕ → V3)) : Prop where
  frame : PlaneFrame e s
  wide : ∀ y ∈ Icc bot top, 0.04 ≤ δ y
  high : ∀ b r, b < blocks.length → r < ns → 0.04 ≤ ζ b (r + 1) - ζ b r
  inside : ∀ b r, b < blocks.length → r ≤ ns → ζ b r ∈ Icc bot top
  pts : ∀ b (hb : b < blocks.length) r k, r ≤ ns → k ≤ nc → blocks[b] r k = planePt O e s (xl (ζ b r) + k * δ (ζ b r)) (ζ b r)
  disj : ∀ b r b' r', b < blocks.length → r < ns → b' < blocks.length → r' < ns → (b, r) ≠ (b', r') →
    ζ b (r + 1) ≤ ζ b' r' ∨ ζ b' (r' + 1) ≤ ζ b r

namespace TaperBlocks

open PlanarBlocks (planePt_sub vars vars_length vars_at index teOf leOf areaOf latOf gammaOf solutionOf panelIx latOf_panelIx)

variable {O e s : V3} {xl δ : ℝ → ℝ} {bot top : ℝ} {nc ns : ℕ} {ζ : ℕ → ℕ → ℝ} {blocks : List (ℕ → ℕ → V3)}

theorem normalRaw_trapeze (x1 x1' x2 x2' y y' : ℝ) :
    normalRaw ⟨planePt O e s x1' y, planePt O e s x1 y, planePt O e s x2 y', planePt O e s x2' y'⟩ =
      ((x1' - x1 + (x2' - x2)) * (y' - y)) • V3.cross s e := by
  unfold normalRaw
  simp only
  rw [planePt_sub, planePt_sub, PlaneFrame.cross]
  congr 1
  ring

theorem panelArea_trapeze (F : PlaneFrame e s) {x1 x1' x2 x2' y y' : ℝ} (h1 : x1 < x1') (h2 : x2 < x2') (hy : y < y') :
    panelArea ⟨planePt O e s x1' y, planePt O e s x1 y, planePt O e s x2 y', planePt O e s x2' y'⟩ =
      (x1' - x1 + (x2' - x2)) / 2 * (y' - y) := by
  have hn : (V3.cross s e).norm = 1 := by
    unfold V3.norm; rw [F.nn, Real.sqrt_one]
  have h1 := sub_pos.2 h1
  have h3 := sub_pos.2 h2
  have h2 := sub_pos.2 hy
  unfold panelArea
  simp only [planePt_sub, PlaneFrame.cross, V3.norm_smul, hn]
  rw [show (y - y) * (x2 - x1) - (x1 - x1') * (y' - y) = (x1' - x1) * (y' - y) by ring,
    show (y' - y) * (x2' - x2) - (x2 - x1) * (y' - y') = (x2' - x2) * (y' - y) by ring, abs_of_pos (by positivity), abs_of_pos (by positivity)]
  ring

theorem panelVars_trapeze (F : PlaneFrame e s) (g : ℝ) {x1 x1' x2 x2' y y' r1 r2 : ℝ} (h1 : x1 < x1') (h2 : x2 < x2') (hy : y < y') {A D : V3}
    (hA : A = planePt O e s r1 y) (hD : D = planePt O e s r2 y') :
    let v := panelVars g ⟨planePt O e s x1' y, planePt O e s x1 y, planePt O e s x2 y', planePt O e s x2' y'⟩ A D
    v.normal = V3.cross s e ∧ v.ctrP = planePt O e s ((x1 + x2) / 2 + 3 / 4 * ((x1' - x1 + (x2' - x2)) / 2)) ((y + y') / 2) ∧
      v.cp = planePt O e s ((x1 + x2) / 2 + 1 / 4 * ((x1' - x1 + (x2' - x2)) / 2)) ((y + y') / 2) ∧
      v.ring = ⟨planePt O e s r1 y, planePt O e s (x1 + 1 / 4 * (x1' - x1)) y, planePt O e s (x2 + 1 / 4 * (x2' - x2)) y', planePt O e s r2 y'⟩ ∧
      v.span = g • ((x2 + 1 / 4 * (x2' - x2) - (x1 + 1 / 4 * (x1' - x1))) • e + (y' - y) • s) := by
  have hn : (V3.cross s e).norm = 1 := by
    unfold V3.norm; rw [F.nn, Real.sqrt_one]
  have h1 := sub_pos.2 h1
  have h3 := sub_pos.2 h2
  have h2 := sub_pos.2 hy
  intro v
  refine ⟨?_, ?_, ?_, ?_, ?_⟩
  · simp only [v, panelVars]
    have hp : 0 < (x1' - x1 + (x2' - x2)) * (y' - y) := by positivity
    rw [normalRaw_trapeze, V3.norm_smul, hn, abs_of_pos hp, smul_smul]
    rw [show 1 / ((x1' - x1 + (x2' - x2)) * (y' - y) * 1) * ((x1' - x1 + (x2' - x2)) * (y' - y)) = 1 by
      rw [mul_one, one_div, inv_mul_cancel₀ hp.ne'], one_smul]
  · simp only [v, panelVars, planePt]
    ext <;> simp <;> ring
  · simp only [v, panelVars, planePt]
    ext <;> simp <;> ring
  · simp only [v, panelVars, quarterB, quarterC, hA, hD, planePt]
    ext <;> simp <;> ring
  · simp only [v, panelVars, quarterB, quarterC, planePt]
    ext <;> simp <;> ring

theorem lt (P : TaperBlocks O e s xl δ bot top nc ns ζ blocks) {b r : ℕ} (hb : b < blocks.length) (hr : r < ns) : ζ b r < ζ b (r + 1) := by
  have := P.high b r hb hr
  norm_num at this
  linarith

theorem width_pos (P : TaperBlocks O e s xl δ bot top nc ns ζ blocks) {b r : ℕ} (hb : b < blocks.length) (hr : r ≤ ns) : 0 < δ (ζ b r) := by
  have := P.wide _ (P.inside b r hb hr)
  norm_num at this
  linarith

theorem panelOf_eq (P : TaperBlocks O e s xl δ bot top nc ns ζ blocks) {b i j : ℕ} (hb : b < blocks.length) (hi : i < nc) (hj : j < ns) :
    panelOf blocks[b] i j = ⟨planePt O e s (xl (ζ b j) + (i + 1) * δ (ζ b j)) (ζ b j), planePt O e s (xl (ζ b j) + i * δ (ζ b j)) (ζ b j),
      planePt O e s (xl (ζ b (j + 1)) + i * δ (ζ b (j + 1))) (ζ b (j + 1)),
      planePt O e s (xl (ζ b (j + 1)) + (i + 1) * δ (ζ b (j + 1))) (ζ b (j + 1))⟩ := by
  unfold panelOf
  rw [P.pts b hb j (i + 1) (by omega) (by omega), P.pts b hb j i (by omega) (by omega), P.pts b hb (j + 1) i (by omega) (by omega),
    P.pts b hb (j + 1) (i + 1) (by omega) (by omega)]
  push_cast
  rfl

theorem meshVars_eq (P : TaperBlocks O e s xl δ bot top nc ns ζ blocks) (g : ℝ) {b i j : ℕ} (hb : b < blocks.length) (hi : i < nc) (hj : j < ns) :
    let v := meshVars g nc blocks[b] i j
    v.normal = V3.cross s e ∧
      v.ctrP = planePt O e s ((xl (ζ b j) + xl (ζ b (j + 1))) / 2 + (i + 3 / 4) * ((δ (ζ b j) + δ (ζ b (j + 1))) / 2)) ((ζ b j + ζ b (j + 1)) / 2) ∧
      v.cp = planePt O e s ((xl (ζ b j) + xl (ζ b (j + 1))) / 2 + (i + 1 / 4) * ((δ (ζ b j) + δ (ζ b (j + 1))) / 2)) ((ζ b j + ζ b (j + 1)) / 2) ∧
      v.ring = ⟨planePt O e s (xl (ζ b j) + (i + 5 / 4) * δ (ζ b j)) (ζ b j), planePt O e s (xl (ζ b j) + (i + 1 / 4) * δ (ζ b j)) (ζ b j),
        planePt O e s (xl (ζ b (j + 1)) + (i + 1 / 4) * δ (ζ b (j + 1))) (ζ b (j + 1)),
        planePt O e s (xl (ζ b (j + 1)) + (i + 5 / 4) * δ (ζ b (j + 1))) (ζ b (j + 1))⟩ ∧
      v.span = g • ((xl (ζ b (j + 1)) + (i + 1 / 4) * δ (ζ b (j + 1)) - (xl (ζ b j) + (i + 1 / 4) * δ (ζ b j))) • e +
        (ζ b (j + 1) - ζ b j) • s) := by
  have hy := P.lt hb hj
  have d1 := P.width_pos hb hj.le
  have d2 := P.width_pos (r := j + 1) hb (by omega)
  generalize hx1 : xl (ζ b j) = x1
  generalize hx2 : xl (ζ b (j + 1)) = x2
  generalize hw1 : δ (ζ b j) = w1 at *
  generalize hw2 : δ (ζ b (j + 1)) = w2 at *
  have hl1 : x1 + (i : ℝ) * w1 < x1 + (i + 1) * w1 := by nlinarith
  have hl2 : x2 + (i : ℝ) * w2 < x2 + (i + 1) * w2 := by nlinarith
  have e3 : (x1 + (i : ℝ) * w1 + (x2 + i * w2)) / 2 + 3 / 4 * ((x1 + (i + 1) * w1 - (x1 + i * w1) + (x2 + (i + 1) * w2 - (x2 + i * w2))) / 2) =
      (x1 + x2) / 2 + (i + 3 / 4) * ((w1 + w2) / 2) := by ring
  have e1 : (x1 + (i : ℝ) * w1 + (x2 + i * w2)) / 2 + 1 / 4 * ((x1 + (i + 1) * w1 - (x1 + i * w1) + (x2 + (i + 1) * w2 - (x2 + i * w2))) / 2) =
      (x1 + x2) / 2 + (i + 1 / 4) * ((w1 + w2) / 2) := by ring
  have q1 : x1 + (i : ℝ) * w1 + 1 / 4 * (x1 + (i + 1) * w1 - (x1 + i * w1)) = x1 + (i + 1 / 4) * w1 := by ring
  have q2 : x2 + (i : ℝ) * w2 + 1 / 4 * (x2 + (i + 1) * w2 - (x2 + i * w2)) = x2 + (i + 1 / 4) * w2 := by ring
  intro v
  simp only [v, meshVars]
  split_ifs with h
  · rw [P.panelOf_eq hb hi hj, hx1, hx2, hw1, hw2]
    have := panelVars_trapeze (O := O) P.frame g hl1 hl2 hy (r1 := x1 + (i + 5 / 4) * w1) (r2 := x2 + (i + 5 / 4) * w2)
      (A := behindA ⟨planePt O e s (x1 + (i + 1) * w1) (ζ b j), planePt O e s (x1 + i * w1) (ζ b j),
        planePt O e s (x2 + i * w2) (ζ b (j + 1)), planePt O e s (x2 + (i + 1) * w2) (ζ b (j + 1))⟩)
      (D := behindD ⟨planePt O e s (x1 + (i + 1) * w1) (ζ b j), planePt O e s (x1 + i * w1) (ζ b j),
        planePt O e s (x2 + i * w2) (ζ b (j + 1)), planePt O e s (x2 + (i + 1) * w2) (ζ b (j + 1))⟩)
      (by unfold behindA planePt; ext <;> simp <;> ring) (by unfold behindD planePt; ext <;> simp <;> ring)
    rw [e1, e3, q1, q2] at this
    exact this
  · rw [P.panelOf_eq hb hi hj, P.panelOf_eq hb (i := i + 1) (by omega) hj, hx1, hx2, hw1, hw2]
    have := panelVars_trapeze (O := O) P.frame g hl1 hl2 hy (r1 := x1 + (i + 5 / 4) * w1) (r2 := x2 + (i + 5 / 4) * w2)
      (A := quarterB ⟨planePt O e s (x1 + ((i + 1 : ℕ) + 1) * w1) (ζ b j), planePt O e s (x1 + (i + 1 : ℕ) * w1) (ζ b j),
        planePt O e s (x2 + (i + 1 : ℕ) * w2) (ζ b (j + 1)), planePt O e s (x2 + ((i + 1 : ℕ) + 1) * w2) (ζ b (j + 1))⟩)
      (D := quarterC ⟨planePt O e s (x1 + ((i + 1 : ℕ) + 1) * w1) (ζ b j), planePt O e s (x1 + (i + 1 : ℕ) * w1) (ζ b j),
        planePt O e s (x2 + (i + 1 : ℕ) * w2) (ζ b (j + 1)), planePt O e s (x2 + ((i + 1 : ℕ) + 1) * w2) (ζ b (j + 1))⟩)
      (by unfold quarterB planePt; push_cast; ext <;> simp <;> ring) (by unfold quarterC planePt; push_cast; ext <;> simp <;> ring)
    rw [e1, e3, q1, q2] at this
    exact this

theorem varsOk (P : TaperBlocks O e s xl δ bot top nc ns ζ blocks) (g : ℝ) (hnc : 0 < nc) (hns : 0 < ns) (hne : blocks ≠ []) :
    calculateVlmVariables (blockPanels nc ns blocks) (trailingFlags nc ns blocks.length) g nc ns = .ok (vars g nc ns blocks) := by
  rw [calculateVlmVariables_blocks g hnc hns blocks hne, if_neg]
  · rfl
  rintro ⟨q, hq, h0⟩
  obtain ⟨k, hk⟩ := List.mem_iff_getElem?.1 hq
  have hlt : k < blocks.length * (nc * ns) := by
    rw [← blockPanels_length]
    exact (List.getElem?_eq_some_iff.1 hk).1
  obtain ⟨b, i, j, hb, hi, hj, rfl⟩ := panelNo_surj hlt
  have := blocks_get blocks panelOf hb hi hj
  unfold blockPanels at hk
  have ep : blocks.map (panelGrid nc ns) = blocks.map fun pts => (List.range nc).flatMap fun i => (List.range ns).map fun j =>
      panelOf pts i j := rfl
  rw [ep, this] at hk
  injection hk with hk
  rw [← hk, P.panelOf_eq hb hi hj, normalRaw_trapeze] at h0
  have hy := sub_pos.2 (P.lt hb hj)
  have d1 := P.width_pos hb hj.le
  have d2 := P.width_pos (r := j + 1) hb (by omega)
  have hd := P.frame.nn
  have h1 := congrArg (fun v => v.dot (V3.cross s e)) h0
  simp only [V3.dot_smul_left, hd, V3.dot_zero_left] at h1
  have : 0 < (δ (ζ b j) + δ (ζ b (j + 1))) * (ζ b (j + 1) - ζ b j) := by positivity
  have e : (δ (ζ b j) + δ (ζ b (j + 1))) * (ζ b (j + 1) - ζ b j) =
    (xl (ζ b j) + (↑i + 1) * δ (ζ b j) - (xl (ζ b j) + ↑i * δ (ζ b j)) +
          (xl (ζ b (j + 1)) + (↑i + 1) * δ (ζ b (j + 1)) - (xl (ζ b (j + 1)) + ↑i * δ (ζ b (j + 1))))) *
        (ζ b (j + 1) - ζ b j) := by ring
  rw [e] at this
  linarith

theorem lattice (P : TaperBlocks O e s xl δ bot top nc ns ζ blocks) (g : ℝ) :
    TaperLattice O e s xl δ bot top (fun c : Fin blocks.length × Fin ns => ζ c.1 c.2) (fun c => ζ c.1 (c.2 + 1))
      (index blocks.length nc ns (vars_length g nc ns blocks)) (fun i : Fin (vars g nc ns blocks).length => (vars g nc ns blocks)[i])
      (fun i => (trailingFlags nc ns blocks.length).getD i false) := by
  exact {
    frame := P.frame
    wide := P.wide
    high := fun c => P.high c.1 c.2 c.1.isLt c.2.isLt
    bot_le := fun c => (P.inside c.1 c.2 c.1.isLt c.2.isLt.le).1
    le_top := fun c => (P.inside c.1 (c.2 + 1) c.1.isLt c.2.isLt).2
    disj := fun c c' h => P.disj c.1 c.2 c'.1 c'.2 c.1.isLt c.2.isLt c'.1.isLt c'.2.isLt fun h0 =>
      h (Prod.ext (Fin.ext (Prod.ext_iff.1 h0).1) (Fin.ext (Prod.ext_iff.1 h0).2))
    normal := fun k => by
      rw [(vars_at g nc ns blocks k rfl).1]; exact (P.meshVars_eq g (Fin.isLt _) (Fin.isLt _) (Fin.isLt _)).1
    ctr := fun k => by
      rw [(vars_at g nc ns blocks k rfl).1]; exact (P.meshVars_eq g (Fin.isLt _) (Fin.isLt _) (Fin.isLt _)).2.1
    cp := fun k => by
      rw [(vars_at g nc ns blocks k rfl).1]; exact (P.meshVars_eq g (Fin.isLt _) (Fin.isLt _) (Fin.isLt _)).2.2.1
    ring := fun k => by
      rw [(vars_at g nc ns blocks k rfl).1]; exact (P.meshVars_eq g (Fin.isLt _) (Fin.isLt _) (Fin.isLt _)).2.2.2.1
    te := fun k => (vars_at g nc ns blocks k rfl).2 }

theorem areas (P : TaperBlocks O e s xl δ bot top nc ns ζ blocks) (k : ℕ) (hk : k < blocks.length * (nc * ns)) :
    1e-14 ≤ (getPanelsArea (blockPanels nc ns blocks)).getD k 0 := by
  obtain ⟨b, i, j, hb, hi, hj, rfl⟩ := panelNo_surj hk
  have := blocks_get blocks panelOf hb hi hj
  have e1 : (blockPanels nc ns blocks)[panelNo nc ns b i j]? = some (panelOf blocks[b] i j) := this
  rw [List.getD_eq_getElem?_getD]
  unfold getPanelsArea
  rw [List.getElem?_map, e1, Option.map_some, Option.getD_some, P.panelOf_eq hb hi hj]
  have d1 := P.width_pos hb hj.le
  have d2 := P.width_pos (r := j + 1) hb (by omega)
  rw [panelArea_trapeze P.frame (by nlinarith) (by nlinarith) (P.lt hb hj)]
  have h1 := P.high b j hb hj
  have h2 := P.wide _ (P.inside b j hb hj.le)
  have h3 := P.wide _ (P.inside b (j + 1) hb (by omega))
  have e : (xl (ζ b j) + ((i : ℝ) + 1) * δ (ζ b j) - (xl (ζ b j) + i * δ (ζ b j)) +
      (xl (ζ b (j + 1)) + (i + 1) * δ (ζ b (j + 1)) - (xl (ζ b (j + 1)) + i * δ (ζ b (j + 1))))) / 2 =
      (δ (ζ b j) + δ (ζ b (j + 1))) / 2 := by ring
  rw [e]
  have h4 : 0.04 ≤ (δ (ζ b j) + δ (ζ b (j + 1))) / 2 := by linarith
  have h5 : (0.04 : ℝ) * 0.04 ≤ (δ (ζ b j) + δ (ζ b (j + 1))) / 2 * (ζ b (j + 1) - ζ b j) :=
    mul_le_mul h4 h1 (by norm_num) (by linarith)
  exact le_trans (by norm_num) h5

/-- The solver always succeeds on such blocks. -/
theorem core (P : TaperBlocks O e s xl δ bot top nc ns ζ blocks) (hnc : 0 < nc) (hne : blocks ≠ []) {g rho C S : ℝ} (hg : g ≠ 0) (hr : rho ≠ 0)
    {V : Fin (vars g nc ns blocks).length → V3} {l : Fin (vars g nc ns blocks).length → ℝ} (hl : ∀ i, 0 < l i)
    (hV : ∀ i, V i = l i • (C • e + S • V3.cross s e)) (hu : C ^ 2 + S ^ 2 = 1) (hC : Taper.Fits C bot top fun y => xl y + (nc + 1 / 4) * δ y) :
    vlmCore (latOf g nc ns blocks) (areaOf nc ns blocks _) (teOf nc ns blocks _) (leOf nc ns blocks _) ns rho g V =
      .ok (solutionOf g rho nc ns blocks V) := by
  have T := P.lattice g
  have hn : 0 < blocks.length := List.length_pos_iff.2 hne
  refine (vlmCore_ok_iff _ _ _ _ _ _ _ _ _).2 ⟨T.wellPosed hg hl hV hu hC (fun i => P.areas i ?_) hr,
    indexOk_flags hnc hn (vars_length g nc ns blocks), rfl⟩
  rw [← vars_length g nc ns blocks]
  exact i.isLt

/-! ### Forces -/

/-- Wind across an inclined bound vortex. -/
theorem cross_slant (F : PlaneFrame e s) (C S a h : ℝ) : V3.cross (C • e + S • V3.cross s e) (a • e + h • s) =
    h • (S • e - C • V3.cross s e) - (S * a) • s := by
  have h1 := F.ss
  have h2 := F.es
  have h3 := F.ee
  simp only [V3.dot] at h1 h2 h3
  ext
  · simp only [V3.cross, V3.add_x, V3.add_y, V3.add_z, V3.smul_x, V3.smul_y, V3.smul_z, V3.sub_x]
    linear_combination (S * h * e.x) * h1 + (-(S * h * s.x) + S * a * e.x) * h2 - (S * a * s.x) * h3
  · simp only [V3.cross, V3.add_x, V3.add_y, V3.add_z, V3.smul_x, V3.smul_y, V3.smul_z, V3.sub_y]
    linear_combination (S * h * e.y) * h1 + (-(S * h * s.y) + S * a * e.y) * h2 - (S * a * s.y) * h3
  · simp only [V3.cross, V3.add_x, V3.add_y, V3.add_z, V3.smul_x, V3.smul_y, V3.smul_z, V3.sub_z]
    linear_combination (S * h * e.z) * h1 + (-(S * h * s.z) + S * a * e.z) * h2 - (S * a * s.z) * h3

/-- Component, in a direction `d` across the span, of the lift of a strip: that of its bound circulation, which is the
circulation of the ring at the trailing edge. -/
theorem strip_lift (P : TaperBlocks O e s xl δ bot top nc ns ζ blocks) {g rho C S w : ℝ} {V : Fin (vars g nc ns blocks).length → V3}
    (γ : Fin (vars g nc ns blocks).length → ℝ) {b j : ℕ} (hb : b < blocks.length) (hj : j < ns)
    (hV : ∀ i (hi : i < nc), V (panelIx g nc ns blocks hb hi hj) = w • (C • e + S • V3.cross s e)) {d : V3} (hd : s.dot d = 0)
    {m : ℕ} (hm : m < nc) :
    ∑ i ∈ Finset.range (m + 1), ((List.ofFn (panelForce (latOf g nc ns blocks) (leOf nc ns blocks _) ns rho γ V)).getD (panelNo nc ns b i j) 0).dot d =
      rho * (w * ((ζ b (j + 1) - ζ b j) * (g * γ (panelIx g nc ns blocks hb hm hj)))) * (S • e - C • V3.cross s e).dot d := by
  have hone : ∀ i (hi : i < nc),
      ((List.ofFn (panelForce (latOf g nc ns blocks) (leOf nc ns blocks _) ns rho γ V)).getD (panelNo nc ns b i j) 0).dot d =
      rho * (w * ((ζ b (j + 1) - ζ b j) * (g * gammaForForce (leOf nc ns blocks _) γ ns (panelIx g nc ns blocks hb hi hj)))) *
        (S • e - C • V3.cross s e).dot d := by
    intro i hi
    have hlt : panelNo nc ns b i j < (vars g nc ns blocks).length := (panelIx g nc ns blocks hb hi hj).isLt
    rw [List.getD_eq_getElem?_getD, List.getElem?_ofFn, dif_pos hlt, Option.getD_some]
    change (panelForce _ _ _ _ _ _ (panelIx g nc ns blocks hb hi hj)).dot d = _
    unfold panelForce
    rw [hV i hi, latOf_panelIx, (P.meshVars_eq g hb hi hj).2.2.2.2]
    generalize gammaForForce (leOf nc ns blocks _) γ ns (panelIx g nc ns blocks hb hi hj) = G
    generalize xl (ζ b (j + 1)) + ((i : ℝ) + 1 / 4) * δ (ζ b (j + 1)) - (xl (ζ b j) + (i + 1 / 4) * δ (ζ b j)) = a
    have hc := cross_slant P.frame C S a (ζ b (j + 1) - ζ b j)
    have e1 : V3.cross (w • (C • e + S • V3.cross s e)) (G • g • (a • e + (ζ b (j + 1) - ζ b j) • s)) =
        (w * (G * g)) • V3.cross (C • e + S • V3.cross s e) (a • e + (ζ b (j + 1) - ζ b j) • s) := by
      ext <;> simp [V3.cross] <;> ring
    rw [e1, hc]
    generalize S • e - C • V3.cross s e = q
    simp only [V3.dot, V3.smul_x, V3.smul_y, V3.smul_z, V3.sub_x, V3.sub_y, V3.sub_z] at hd ⊢
    linear_combination (-(rho * G * w * g * (S * a))) * hd
  induction m with
  | zero =>
    rw [Finset.sum_range_one, hone 0 hm]
    unfold leOf
    rw [gammaForForce_first (vars_length g nc ns blocks) γ hb hm hj _ rfl]
  | succ m ih =>
    rw [Finset.sum_range_succ, ih (by omega), hone (m + 1) hm]
    unfold leOf
    rw [gammaForForce_next (vars_length g nc ns blocks) γ hb hm hj _ (panelIx g nc ns blocks hb (i := m) (by omega) hj) rfl rfl]
    ring

end TaperBlocks

end PySailing
