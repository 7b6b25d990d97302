import Verif.Lemmas.Planar
import Verif.Lemmas.LatticeVars
import Verif.Lemmas.SailBlocks

/-!
# Blocks of panels (sails and their images) in one plane
-/

namespace PySailing

open Spec

/-- Meshed blocks of rectangular panels in one plane: point `(r, k)` of block `b` lies `k δ` behind the leading edge at the
spanwise position `ζ b r`. -/
structure PlanarBlocks (O e s : V3) (δ : ℝ) (nc ns : ℕ) (ζ : ℕ → ℕ → ℝ) (blocks : List (ℕ → ℕ → V3)) : Prop where
  frame : PlaneFrame e s
  pos : 0 < δ
  pts : ∀ b (hb : b < blocks.length) r k, r ≤ ns → k ≤ nc → blocks[b] r k = planePt O e s (k * δ) (ζ b r)
  lt : ∀ b r, b < blocks.length → r < ns → ζ b r < ζ b (r + 1)
  disj : ∀ b r b' r', b < blocks.length → r < ns → b' < blocks.length → r' < ns → (b, r) ≠ (b', r') →
    ζ b (r + 1) ≤ ζ b' r' ∨ ζ b' (r' + 1) ≤ ζ b r
  big : ∀ b r, b < blocks.length → r < ns → 2e-4 ≤ δ * (ζ b (r + 1) - ζ b r)

namespace PlanarBlocks

variable {O e s : V3} {δ : ℝ} {nc ns : ℕ} {ζ : ℕ → ℕ → ℝ} {blocks : List (ℕ → ℕ → V3)}

theorem planePt_sub (x y x' y' : ℝ) : planePt O e s x y - planePt O e s x' y' = (x - x') • e + (y - y') • s := by
  unfold planePt; ext <;> simp <;> ring

theorem normalRaw_rect (x y x' y' : ℝ) :
    normalRaw ⟨planePt O e s x' y, planePt O e s x y, planePt O e s x y', planePt O e s x' y'⟩ =
      (2 * ((x' - x) * (y' - y))) • V3.cross s e := by
  unfold normalRaw
  simp only
  rw [planePt_sub, planePt_sub, PlaneFrame.cross]
  congr 1
  ring

theorem panelArea_rect (F : PlaneFrame e s) {x y x' y' : ℝ} (hx : x < x') (hy : y < y') :
    panelArea ⟨planePt O e s x' y, planePt O e s x y, planePt O e s x y', planePt O e s x' y'⟩ = (x' - x) * (y' - y) := by
  have hn : (V3.cross s e).norm = 1 := by
    unfold V3.norm; rw [F.nn, Real.sqrt_one]
  have h1 := sub_pos.2 hx
  have h2 := sub_pos.2 hy
  unfold panelArea
  simp only [planePt_sub, PlaneFrame.cross, V3.norm_smul, hn]
  rw [show (y - y) * (x - x) - (x - x') * (y' - y) = (x' - x) * (y' - y) by ring,
    show (y' - y) * (x' - x) - (x - x) * (y' - y') = (x' - x) * (y' - y) by ring, abs_of_pos (by positivity)]
  ring

theorem panelVars_rect (F : PlaneFrame e s) (g : ℝ) {x y x' y' xr : ℝ} (hx : x < x') (hy : y < y') {A D : V3}
    (hA : A = planePt O e s xr y) (hD : D = planePt O e s xr y') :
    let v := panelVars g ⟨planePt O e s x' y, planePt O e s x y, planePt O e s x y', planePt O e s x' y'⟩ A D
    v.normal = V3.cross s e ∧ v.ctrP = planePt O e s (x + 3 / 4 * (x' - x)) ((y + y') / 2) ∧
      v.cp = planePt O e s (x + 1 / 4 * (x' - x)) ((y + y') / 2) ∧
      v.ring = ⟨planePt O e s xr y, planePt O e s (x + 1 / 4 * (x' - x)) y, planePt O e s (x + 1 / 4 * (x' - x)) y', planePt O e s xr y'⟩ := by
  have hn : (V3.cross s e).norm = 1 := by
    unfold V3.norm; rw [F.nn, Real.sqrt_one]
  have h1 := sub_pos.2 hx
  have h2 := sub_pos.2 hy
  intro v
  refine ⟨?_, ?_, ?_, ?_⟩
  · simp only [v, panelVars]
    rw [normalRaw_rect, V3.norm_smul, hn, abs_of_pos (by positivity), smul_smul]
    rw [show 1 / (2 * ((x' - x) * (y' - y)) * 1) * (2 * ((x' - x) * (y' - y))) = 1 by field_simp, one_smul]
  · simp only [v, panelVars, planePt]
    ext <;> simp <;> ring
  · simp only [v, panelVars, planePt]
    ext <;> simp <;> ring
  · simp only [v, panelVars, quarterB, quarterC, hA, hD, planePt]
    ext <;> simp <;> ring

theorem panelOf_eq (P : PlanarBlocks O e s δ nc ns ζ blocks) {b i j : ℕ} (hb : b < blocks.length) (hi : i < nc) (hj : j < ns) :
    panelOf blocks[b] i j = ⟨planePt O e s ((i + 1) * δ) (ζ b j), planePt O e s (i * δ) (ζ b j),
      planePt O e s (i * δ) (ζ b (j + 1)), planePt O e s ((i + 1) * δ) (ζ b (j + 1))⟩ := by
  unfold panelOf
  rw [P.pts b hb j (i + 1) (by omega) (by omega), P.pts b hb j i (by omega) (by omega), P.pts b hb (j + 1) i (by omega) (by omega),
    P.pts b hb (j + 1) (i + 1) (by omega) (by omega)]
  push_cast
  rfl

theorem meshVars_eq (P : PlanarBlocks O e s δ nc ns ζ blocks) (g : ℝ) {b i j : ℕ} (hb : b < blocks.length) (hi : i < nc) (hj : j < ns) :
    let v := meshVars g nc blocks[b] i j
    v.normal = V3.cross s e ∧ v.ctrP = planePt O e s ((i + 3 / 4) * δ) ((ζ b j + ζ b (j + 1)) / 2) ∧
      v.cp = planePt O e s ((i + 1 / 4) * δ) ((ζ b j + ζ b (j + 1)) / 2) ∧
      v.ring = ⟨planePt O e s ((i + 5 / 4) * δ) (ζ b j), planePt O e s ((i + 1 / 4) * δ) (ζ b j),
        planePt O e s ((i + 1 / 4) * δ) (ζ b (j + 1)), planePt O e s ((i + 5 / 4) * δ) (ζ b (j + 1))⟩ := by
  have hδ := P.pos
  have hx : (i : ℝ) * δ < (i + 1) * δ := by nlinarith
  have hy := P.lt b j hb hj
  have e3 : (i : ℝ) * δ + 3 / 4 * ((i + 1) * δ - i * δ) = (i + 3 / 4) * δ := by ring
  have e1 : (i : ℝ) * δ + 1 / 4 * ((i + 1) * δ - i * δ) = (i + 1 / 4) * δ := by ring
  intro v
  simp only [v, meshVars]
  split_ifs with h
  · rw [P.panelOf_eq hb hi hj]
    have := panelVars_rect (O := O) P.frame g hx hy (xr := (i + 5 / 4) * δ)
      (A := behindA ⟨planePt O e s ((i + 1) * δ) (ζ b j), planePt O e s (i * δ) (ζ b j),
        planePt O e s (i * δ) (ζ b (j + 1)), planePt O e s ((i + 1) * δ) (ζ b (j + 1))⟩)
      (D := behindD ⟨planePt O e s ((i + 1) * δ) (ζ b j), planePt O e s (i * δ) (ζ b j),
        planePt O e s (i * δ) (ζ b (j + 1)), planePt O e s ((i + 1) * δ) (ζ b (j + 1))⟩)
      (by unfold behindA planePt; ext <;> simp <;> ring) (by unfold behindD planePt; ext <;> simp <;> ring)
    rw [e1, e3] at this
    exact this
  · rw [P.panelOf_eq hb hi hj, P.panelOf_eq hb (i := i + 1) (by omega) hj]
    have := panelVars_rect (O := O) P.frame g hx hy (xr := (i + 5 / 4) * δ)
      (A := quarterB ⟨planePt O e s (((i + 1 : ℕ) + 1) * δ) (ζ b j), planePt O e s ((i + 1 : ℕ) * δ) (ζ b j),
        planePt O e s ((i + 1 : ℕ) * δ) (ζ b (j + 1)), planePt O e s (((i + 1 : ℕ) + 1) * δ) (ζ b (j + 1))⟩)
      (D := quarterC ⟨planePt O e s (((i + 1 : ℕ) + 1) * δ) (ζ b j), planePt O e s ((i + 1 : ℕ) * δ) (ζ b j),
        planePt O e s ((i + 1 : ℕ) * δ) (ζ b (j + 1)), planePt O e s (((i + 1 : ℕ) + 1) * δ) (ζ b (j + 1))⟩)
      (by unfold quarterB planePt; push_cast; ext <;> simp <;> ring) (by unfold quarterC planePt; push_cast; ext <;> simp <;> ring)
    rw [e1, e3] at this
    exact this

/-- The variables of all panels. -/
noncomputable def vars (g : ℝ) (nc ns : ℕ) (blocks : List (ℕ → ℕ → V3)) : List PanelVars :=
  (blocks.map fun pts => (List.range nc).flatMap fun i => (List.range ns).map fun j => meshVars g nc pts i j).flatten

theorem varsOk (P : PlanarBlocks O e s δ nc ns ζ blocks) (g : ℝ) (hnc : 0 < nc) (hns : 0 < ns) (hne : blocks ≠ []) :
    calculateVlmVariables (blockPanels nc ns blocks) (trailingFlags nc ns blocks.length) g nc ns = .ok (vars g nc ns blocks) := by
  rw [calculateVlmVariables_blocks g hnc hns blocks hne, if_neg]
  · rfl
  rintro ⟨q, hq, h0⟩
  obtain ⟨k, hk⟩ := List.mem_iff_getElem?.1 hq
  have hlt : k < blocks.length * (nc * ns) := by
    rw [← blockPanels_length]
    exact (List.getElem?_eq_some_iff.1 hk).1
  obtain ⟨b, i, j, hb, hi, hj, rfl⟩ := panelNo_surj hlt
  have := blocks_get blocks panelOf hb hi hj
  unfold blockPanels at hk
  have ep : blocks.map (panelGrid nc ns) = blocks.map fun pts => (List.range nc).flatMap fun i => (List.range ns).map fun j =>
      panelOf pts i j := rfl
  rw [ep, this] at hk
  injection hk with hk
  rw [← hk, P.panelOf_eq hb hi hj, normalRaw_rect] at h0
  have hδ := P.pos
  have hy := sub_pos.2 (P.lt b j hb hj)
  have hd := P.frame.nn
  have h1 := congrArg (fun v => v.dot (V3.cross s e)) h0
  simp only [V3.dot_smul_left, hd, V3.dot_zero_left] at h1
  have : 0 < 2 * (((i : ℝ) + 1) * δ - i * δ) * (ζ b (j + 1) - ζ b j) := by
    have : 0 < ((i : ℝ) + 1) * δ - i * δ := by nlinarith
    positivity
  linarith

theorem vars_length (g : ℝ) (nc ns : ℕ) (blocks : List (ℕ → ℕ → V3)) :
    (vars g nc ns blocks).length = blocks.length * (nc * ns) := by
  unfold vars
  rw [length_flatten_eq (n := nc * ns) _ (by
    intro b hb
    obtain ⟨p, -, rfl⟩ := List.mem_map.1 hb
    exact grid_length nc ns _), List.length_map]

/-- Panels by strip and row. -/
noncomputable def index (n nc ns : ℕ) {K : ℕ} (hK : K = n * (nc * ns)) : Fin K ≃ (Fin n × Fin ns) × Fin nc :=
  (Equiv.ofBijective (fun q : (Fin n × Fin ns) × Fin nc =>
    (⟨panelNo nc ns q.1.1 q.2 q.1.2, by rw [hK]; exact panelNo_lt q.1.1.isLt q.2.isLt q.1.2.isLt⟩ : Fin K)) (by
    rw [Fintype.bijective_iff_surjective_and_card]
    refine ⟨fun k => ?_, ?_⟩
    · obtain ⟨b, i, j, hb, hi, hj, h⟩ := panelNo_surj (hK ▸ k.isLt : k.val < n * (nc * ns))
      exact ⟨((⟨b, hb⟩, ⟨j, hj⟩), ⟨i, hi⟩), Fin.ext h.symm⟩
    · simp only [Fintype.card_prod, Fintype.card_fin]
      rw [hK]; ring)).symm

theorem index_spec (n nc ns : ℕ) {K : ℕ} (hK : K = n * (nc * ns)) (k : Fin K) :
    k.val = panelNo nc ns (index n nc ns hK k).1.1 (index n nc ns hK k).2 (index n nc ns hK k).1.2 := by
  have := (index n nc ns hK).symm_apply_apply k
  unfold index at this ⊢
  rw [Equiv.symm_symm] at this
  exact (congrArg Fin.val this).symm

theorem vars_at (g : ℝ) (nc ns : ℕ) (blocks : List (ℕ → ℕ → V3)) (k : Fin (vars g nc ns blocks).length)
    {q : (Fin blocks.length × Fin ns) × Fin nc} (hq : q = index blocks.length nc ns (vars_length g nc ns blocks) k) :
    (vars g nc ns blocks)[k] = meshVars g nc (blocks[q.1.1]) q.2 q.1.2 ∧
      (trailingFlags nc ns blocks.length).getD k false = decide ((q.2 : ℕ) + 1 = nc) := by
  have hk := index_spec blocks.length nc ns (vars_length g nc ns blocks) k
  rw [← hq] at hk
  constructor
  · have := blocks_get blocks (meshVars g nc) q.1.1.isLt q.2.isLt q.1.2.isLt
    rw [← hk] at this
    exact (List.getElem?_eq_some_iff.1 this).2
  · rw [List.getD_eq_getElem?_getD, hk]
    unfold trailingFlags
    rw [blockFlags_get _ q.1.1.isLt q.2.isLt q.1.2.isLt]
    rfl

theorem lattice (P : PlanarBlocks O e s δ nc ns ζ blocks) (g : ℝ) :
    PlanarLattice O e s δ (fun c : Fin blocks.length × Fin ns => ζ c.1 c.2) (fun c => ζ c.1 (c.2 + 1))
      (index blocks.length nc ns (vars_length g nc ns blocks)) (fun i : Fin (vars g nc ns blocks).length => (vars g nc ns blocks)[i])
      (fun i => (trailingFlags nc ns blocks.length).getD i false) := by
  exact {
    frame := P.frame
    pos := P.pos
    lt := fun c => P.lt c.1 c.2 c.1.isLt c.2.isLt
    disj := fun c c' h => P.disj c.1 c.2 c'.1 c'.2 c.1.isLt c.2.isLt c'.1.isLt c'.2.isLt fun h0 =>
      h (Prod.ext (Fin.ext (Prod.ext_iff.1 h0).1) (Fin.ext (Prod.ext_iff.1 h0).2))
    big := fun c => P.big c.1 c.2 c.1.isLt c.2.isLt
    normal := fun k => by
      rw [(vars_at g nc ns blocks k rfl).1]; exact (P.meshVars_eq g (Fin.isLt _) (Fin.isLt _) (Fin.isLt _)).1
    ctr := fun k => by
      rw [(vars_at g nc ns blocks k rfl).1]; exact (P.meshVars_eq g (Fin.isLt _) (Fin.isLt _) (Fin.isLt _)).2.1
    cp := fun k => by
      rw [(vars_at g nc ns blocks k rfl).1]; exact (P.meshVars_eq g (Fin.isLt _) (Fin.isLt _) (Fin.isLt _)).2.2.1
    ring := fun k => by
      rw [(vars_at g nc ns blocks k rfl).1]; exact (P.meshVars_eq g (Fin.isLt _) (Fin.isLt _) (Fin.isLt _)).2.2.2
    te := fun k => (vars_at g nc ns blocks k rfl).2 }

theorem areas (P : PlanarBlocks O e s δ nc ns ζ blocks) (k : ℕ) (hk : k < blocks.length * (nc * ns)) :
    1e-14 ≤ (getPanelsArea (blockPanels nc ns blocks)).getD k 0 := by
  obtain ⟨b, i, j, hb, hi, hj, rfl⟩ := panelNo_surj hk
  have := blocks_get blocks panelOf hb hi hj
  have e1 : (blockPanels nc ns blocks)[panelNo nc ns b i j]? = some (panelOf blocks[b] i j) := this
  rw [List.getD_eq_getElem?_getD]
  unfold getPanelsArea
  rw [List.getElem?_map, e1, Option.map_some, Option.getD_some, P.panelOf_eq hb hi hj]
  have hδ := P.pos
  rw [panelArea_rect P.frame (by nlinarith) (P.lt b j hb hj)]
  have := P.big b j hb hj
  have e : ((i : ℝ) + 1) * δ - i * δ = δ := by ring
  rw [e]
  linarith

/-- Flags, areas and solution of the blocks. -/
noncomputable def teOf (nc ns : ℕ) (blocks : List (ℕ → ℕ → V3)) (K : ℕ) : Fin K → Bool :=
  fun i => (trailingFlags nc ns blocks.length).getD i false

noncomputable def leOf (nc ns : ℕ) (blocks : List (ℕ → ℕ → V3)) (K : ℕ) : Fin K → Bool :=
  fun i => (leadingFlags nc ns blocks.length).getD i false

noncomputable def areaOf (nc ns : ℕ) (blocks : List (ℕ → ℕ → V3)) (K : ℕ) : Fin K → ℝ :=
  fun i => (getPanelsArea (blockPanels nc ns blocks)).getD i 0

noncomputable def latOf (g : ℝ) (nc ns : ℕ) (blocks : List (ℕ → ℕ → V3)) : Fin (vars g nc ns blocks).length → PanelVars :=
  fun i => (vars g nc ns blocks)[i]

/-- Circulations. -/
noncomputable def gammaOf (g : ℝ) (nc ns : ℕ) (blocks : List (ℕ → ℕ → V3)) (V : Fin (vars g nc ns blocks).length → V3) :
    Fin (vars g nc ns blocks).length → ℝ := coreGamma (latOf g nc ns blocks) (teOf nc ns blocks _) g V

/-- The results. -/
noncomputable def solutionOf (g rho : ℝ) (nc ns : ℕ) (blocks : List (ℕ → ℕ → V3)) (V : Fin (vars g nc ns blocks).length → V3) :
    VlmSolution (vars g nc ns blocks).length :=
  solOf (latOf g nc ns blocks) (areaOf nc ns blocks _) (teOf nc ns blocks _) (leOf nc ns blocks _) ns rho g V (gammaOf g nc ns blocks V)

/-- The solver always succeeds on blocks of rectangular panels in one plane. -/
theorem core (P : PlanarBlocks O e s δ nc ns ζ blocks) (hnc : 0 < nc) (hne : blocks ≠ []) {g rho C S : ℝ} (hg : g ≠ 0) (hr : rho ≠ 0)
    {V : Fin (vars g nc ns blocks).length → V3} {l : Fin (vars g nc ns blocks).length → ℝ} (hl : ∀ i, 0 < l i)
    (hV : ∀ i, V i = l i • (C • e + S • V3.cross s e)) (hu : C ^ 2 + S ^ 2 = 1) (hC : 0 ≤ C) :
    vlmCore (latOf g nc ns blocks) (areaOf nc ns blocks _) (teOf nc ns blocks _) (leOf nc ns blocks _) ns rho g V =
      .ok (solutionOf g rho nc ns blocks V) := by
  have T := P.lattice g
  have hn : 0 < blocks.length := List.length_pos_iff.2 hne
  refine (vlmCore_ok_iff _ _ _ _ _ _ _ _ _).2 ⟨T.wellPosed hg hl hV hu hC (fun i => P.areas i ?_) hr,
    indexOk_flags hnc hn (vars_length g nc ns blocks), rfl⟩
  rw [← vars_length g nc ns blocks]
  exact i.isLt

theorem solved (P : PlanarBlocks O e s δ nc ns ζ blocks) (hnc : 0 < nc) (hne : blocks ≠ []) {g rho C S M : ℝ} (hg : g ≠ 0) (hr : rho ≠ 0)
    {V : Fin (vars g nc ns blocks).length → V3} {l : Fin (vars g nc ns blocks).length → ℝ} (hl : ∀ i, 0 < l i) (hM : ∀ i, l i ≤ M)
    (hV : ∀ i, V i = l i • (C • e + S • V3.cross s e)) (hu : C ^ 2 + S ^ 2 = 1) (hC : 0 ≤ C) :
    ∃ sol, vlmCore (fun i : Fin (vars g nc ns blocks).length => (vars g nc ns blocks)[i])
      (fun i => (getPanelsArea (blockPanels nc ns blocks)).getD i 0)
      (fun i => (trailingFlags nc ns blocks.length).getD i false) (fun i => (leadingFlags nc ns blocks.length).getD i false) ns rho g V = .ok sol ∧
      ∀ i, (S ≠ 0 → 0 < -(S * (g * sol.gamma i))) ∧ |g * sol.gamma i| ≤ Real.pi * (nc * δ) * (M * |S|) :=
  ⟨_, P.core hnc hne hg hr hl hV hu hC, fun i => (P.lattice g).gamma_bounds hg hl hM hV hu hC i⟩

/-! ### Forces -/

theorem meshVars_span (P : PlanarBlocks O e s δ nc ns ζ blocks) (g : ℝ) {b i j : ℕ} (hb : b < blocks.length) (hi : i < nc) (hj : j < ns) :
    (meshVars g nc blocks[b] i j).span = (g * (ζ b (j + 1) - ζ b j)) • s := by
  have h : ∀ A D, (panelVars g (panelOf blocks[b] i j) A D).span = (g * (ζ b (j + 1) - ζ b j)) • s := by
    intro A D
    rw [P.panelOf_eq hb hi hj]
    simp only [panelVars, quarterB, quarterC, planePt]
    ext <;> simp <;> ring
  unfold meshVars
  split_ifs
  · exact h _ _
  · exact h _ _

/-- Wind across the span. -/
theorem cross_span (F : PlaneFrame e s) (C S : ℝ) : V3.cross (C • e + S • V3.cross s e) s = S • e - C • V3.cross s e := by
  have h1 := F.ss
  have h2 := F.es
  simp only [V3.dot] at h1 h2
  ext
  · simp only [V3.cross, V3.add_x, V3.add_y, V3.add_z, V3.smul_x, V3.smul_y, V3.smul_z, V3.sub_x]
    linear_combination (S * e.x) * h1 - (S * s.x) * h2
  · simp only [V3.cross, V3.add_x, V3.add_y, V3.add_z, V3.smul_x, V3.smul_y, V3.smul_z, V3.sub_y]
    linear_combination (S * e.y) * h1 - (S * s.y) * h2
  · simp only [V3.cross, V3.add_x, V3.add_y, V3.add_z, V3.smul_x, V3.smul_y, V3.smul_z, V3.sub_z]
    linear_combination (S * e.z) * h1 - (S * s.z) * h2

/-- Panel `(i, j)` of block `b`. -/
def panelIx (g : ℝ) (nc ns : ℕ) (blocks : List (ℕ → ℕ → V3)) {b i j : ℕ} (hb : b < blocks.length) (hi : i < nc) (hj : j < ns) :
    Fin (vars g nc ns blocks).length :=
  ⟨panelNo nc ns b i j, by rw [vars_length]; exact panelNo_lt hb hi hj⟩

theorem latOf_panelIx (g : ℝ) {b i j : ℕ} (hb : b < blocks.length) (hi : i < nc) (hj : j < ns) :
    latOf g nc ns blocks (panelIx g nc ns blocks hb hi hj) = meshVars g nc blocks[b] i j :=
  (List.getElem?_eq_some_iff.1 (blocks_get blocks (meshVars g nc) hb hi hj)).2

/-- The lift of the panels of a strip adds up to that of its bound circulation, which is the circulation of the ring at
the trailing edge. -/
theorem strip_lift (P : PlanarBlocks O e s δ nc ns ζ blocks) {g rho C S w : ℝ} {V : Fin (vars g nc ns blocks).length → V3}
    (γ : Fin (vars g nc ns blocks).length → ℝ) {b j : ℕ} (hb : b < blocks.length) (hj : j < ns)
    (hV : ∀ i (hi : i < nc), V (panelIx g nc ns blocks hb hi hj) = w • (C • e + S • V3.cross s e)) {m : ℕ} (hm : m < nc) :
    ∑ i ∈ Finset.range (m + 1), (List.ofFn (panelForce (latOf g nc ns blocks) (leOf nc ns blocks _) ns rho γ V)).getD (panelNo nc ns b i j) 0 =
      (rho * (w * ((ζ b (j + 1) - ζ b j) * (g * γ (panelIx g nc ns blocks hb hm hj))))) • (S • e - C • V3.cross s e) := by
  have hone : ∀ i (hi : i < nc),
      (List.ofFn (panelForce (latOf g nc ns blocks) (leOf nc ns blocks _) ns rho γ V)).getD (panelNo nc ns b i j) 0 =
      (rho * (w * ((ζ b (j + 1) - ζ b j) * (g * gammaForForce (leOf nc ns blocks _) γ ns (panelIx g nc ns blocks hb hi hj))))) •
        (S • e - C • V3.cross s e) := by
    intro i hi
    have hlt : panelNo nc ns b i j < (vars g nc ns blocks).length := (panelIx g nc ns blocks hb hi hj).isLt
    rw [List.getD_eq_getElem?_getD, List.getElem?_ofFn, dif_pos hlt, Option.getD_some]
    change panelForce _ _ _ _ _ _ (panelIx g nc ns blocks hb hi hj) = _
    unfold panelForce
    rw [hV i hi, latOf_panelIx, P.meshVars_span g hb hi hj, ← cross_span P.frame]
    ext <;> simp <;> ring
  induction m with
  | zero =>
    rw [Finset.sum_range_one, hone 0 hm]
    unfold leOf
    rw [gammaForForce_first (vars_length g nc ns blocks) γ hb hm hj _ rfl]
  | succ m ih =>
    rw [Finset.sum_range_succ, ih (by omega), hone (m + 1) hm]
    unfold leOf
    rw [gammaForForce_next (vars_length g nc ns blocks) γ hb hm hj _ (panelIx g nc ns blocks hb (i := m) (by omega) hj) rfl rfl,
      ← add_smul]
    congr 1
    ring

end PlanarBlocks

end PySailing
