import Verif.Model.Sail
import Verif.Spec.Sail
import Verif.Lemmas.Airfoil
import Verif.Lemmas.Csys

/-!
# Lemmas for the sail geometry
-/

namespace PySailing

open Spec

variable {α β γ : Type}

/-! ### grids -/

theorem grid_congr {n0 n1 : ℕ} {f g : ℕ → ℕ → α} (h : ∀ i j, i < n0 → j < n1 → f i j = g i j) :
    ((List.range n0).flatMap fun i => (List.range n1).map fun j => f i j) =
      (List.range n0).flatMap fun i => (List.range n1).map fun j => g i j := by
  rw [List.flatMap_def, List.flatMap_def]
  congr 1
  refine List.map_congr_left fun i hi => List.map_congr_left fun j hj => ?_
  exact h i j (List.mem_range.1 hi) (List.mem_range.1 hj)

theorem grid_map (n0 n1 : ℕ) (f : ℕ → ℕ → α) (g : α → β) :
    ((List.range n0).flatMap fun i => (List.range n1).map fun j => f i j).map g =
      (List.range n0).flatMap fun i => (List.range n1).map fun j => g (f i j) := by
  simp [List.map_flatMap, Function.comp_def]

/-- A list of length `n0 * n1` is determined by its entries at `i * n1 + j`. -/
theorem eq_grid {n0 n1 : ℕ} {f : ℕ → ℕ → α} {l : List α} (hl : l.length = n0 * n1)
    (h : ∀ i j, i < n0 → j < n1 → l[i * n1 + j]? = some (f i j)) :
    l = (List.range n0).flatMap fun i => (List.range n1).map fun j => f i j := by
  apply List.ext_getElem?
  intro k
  by_cases hk : k < n0 * n1
  · obtain ⟨i, j, hi, hj, rfl⟩ := grid_index hk
    rw [h i j hi hj, grid_getElem? n0 n1 f hi hj]
  · rw [List.getElem?_eq_none (by omega), List.getElem?_eq_none (by rw [grid_length]; omega)]

theorem grid_zipWith (n0 n1 : ℕ) (f : ℕ → ℕ → α) (g : ℕ → ℕ → β) (op : α → β → γ) :
    List.zipWith op ((List.range n0).flatMap fun i => (List.range n1).map fun j => f i j)
      ((List.range n0).flatMap fun i => (List.range n1).map fun j => g i j) =
      (List.range n0).flatMap fun i => (List.range n1).map fun j => op (f i j) (g i j) := by
  apply eq_grid
  · simp only [List.length_zipWith, grid_length, min_self]
  · intro i j hi hj
    rw [List.getElem?_zipWith, grid_getElem? n0 n1 f hi hj, grid_getElem? n0 n1 g hi hj]

theorem grid_reverse (n0 n1 : ℕ) (f : ℕ → ℕ → α) :
    ((List.range n0).flatMap fun i => (List.range n1).map fun j => f i j).reverse =
      (List.range n0).flatMap fun i => (List.range n1).map fun j =>
        f (n0 - 1 - i) (n1 - 1 - j) := by
  apply eq_grid
  · simp only [List.length_reverse, grid_length]
  · intro i j hi hj
    have hlt : i * n1 + j < n0 * n1 := by
      calc i * n1 + j < i * n1 + n1 := by omega
        _ = (i + 1) * n1 := by ring
        _ ≤ n0 * n1 := Nat.mul_le_mul_right _ hi
    rw [List.getElem?_reverse (by rw [grid_length]; exact hlt), grid_length]
    have : n0 * n1 - 1 - (i * n1 + j) = (n0 - 1 - i) * n1 + (n1 - 1 - j) := by
      obtain ⟨a, rfl⟩ : ∃ a, n0 = i + 1 + a := ⟨n0 - (i + 1), by omega⟩
      obtain ⟨b, rfl⟩ : ∃ b, n1 = j + 1 + b := ⟨n1 - (j + 1), by omega⟩
      have e1 : i + 1 + a - 1 - i = a := by omega
      have e2 : j + 1 + b - 1 - j = b := by omega
      rw [e1, e2]
      have : (i + 1 + a) * (j + 1 + b) = i * (j + 1 + b) + j + 1 + (a * (j + 1 + b) + b) := by ring
      omega
    rw [this, grid_getElem? n0 n1 f (by omega) (by omega)]

theorem everyNth_grid (n0 n1 : ℕ) (f : ℕ → ℕ → V3) (h : 0 < n1) :
    everyNth ((List.range n0).flatMap fun i => (List.range n1).map fun j => f i j) n0 n1 =
      (List.range n0).map fun i => f i 0 := by
  refine List.map_congr_left fun i hi => ?_
  have := grid_getD n0 n1 f 0 (List.mem_range.1 hi) h
  simpa using this

theorem reshape_grid (n0 n1 : ℕ) (f : ℕ → ℕ → V3) {i j : ℕ} (hi : i < n0) (hj : j < n1) :
    (NdMesh.reshape n0 n1
      ((List.range n0).flatMap fun i => (List.range n1).map fun j => f i j)).at' i j = f i j :=
  grid_getD n0 n1 f 0 hi hj

/-! ### twist per point -/

theorem replicate_flatten_getElem? (tw : List α) (n : ℕ) {j i : ℕ} (hj : j < n)
    (hi : i < tw.length) : ((List.replicate n tw).flatten)[j * tw.length + i]? = some tw[i] := by
  induction n generalizing j with
  | zero => omega
  | succ n ih =>
    rw [List.replicate_succ, List.flatten_cons]
    rcases j with _ | j
    · rw [List.getElem?_append_left (by simpa using hi)]
      simp [hi]
    · rw [List.getElem?_append_right (by rw [Nat.succ_mul]; omega)]
      have : (j + 1) * tw.length + i - tw.length = j * tw.length + i := by
        rw [Nat.succ_mul]; omega
      rw [this, ih (by omega)]

theorem twistPerPoint_ok {tw : List ℝ} {sh0 sh1 : ℕ} (h : tw.length = sh0) :
    twistPerPoint tw sh0 sh1 =
      .ok ((List.range sh0).flatMap fun i => (List.range sh1).map fun _ => tw.getD i 0) := by
  unfold twistPerPoint
  rw [if_pos (by simp [h])]
  congr 1
  apply grid_congr
  intro i j hi hj
  subst h
  rw [List.getD_eq_getElem?_getD, replicate_flatten_getElem? tw sh1 hj hi,
    List.getD_eq_getElem?_getD, List.getElem?_eq_getElem hi]

theorem twistPerPoint_error {tw : List ℝ} {sh0 sh1 : ℕ} (h1 : 0 < sh1) (h : tw.length ≠ sh0) :
    twistPerPoint tw sh0 sh1 = .error .valueError := by
  unfold twistPerPoint
  rw [if_neg]
  simp only [List.length_flatten, List.map_replicate, List.sum_replicate, smul_eq_mul]
  intro h'
  exact h (Nat.eq_of_mul_eq_mul_left h1 h')

/-! ### rotation about the luff -/

/-- The axis direction has a y or z component. -/
def AxisOk (p1 p2 : V3) : Prop := (p2 - p1).y ≠ 0 ∨ (p2 - p1).z ≠ 0

theorem AxisOk.sq {p1 p2 : V3} (h : AxisOk p1 p2) :
    (p2 - p1).y ^ 2 + (p2 - p1).z ^ 2 ≠ 0 := by
  rcases h with h | h
  · have : 0 < (p2 - p1).y ^ 2 := by positivity
    positivity
  · have : 0 < (p2 - p1).z ^ 2 := by positivity
    positivity

theorem AxisOk.ne {p1 p2 : V3} (h : AxisOk p1 p2) : p2 - p1 ≠ 0 := by
  intro h0; unfold AxisOk at h; rw [h0] at h; simp at h

theorem rotateArbitrary_ok {p1 p2 : V3} (h : AxisOk p1 p2) (ps : List V3) (θ : ℝ) :
    rotatePointsAroundArbitraryAxis ps p1 p2 θ = .ok (ps.map (rotateAboutLine p1 p2 θ)) := by
  have hs : Real.sqrt ((p2 - p1).y ^ 2 + (p2 - p1).z ^ 2) ≠ 0 := by
    rw [Real.sqrt_ne_zero (by positivity)]; exact h.sq
  rw [rotatePointsAroundArbitraryAxis, if_neg (fun hh => hs hh.2)]
  congr 1
  exact List.map_congr_left fun p _ => rotateAboutLineCore_eq p1 p2 θ h.sq p

theorem rotateArbitrary_bad {p1 p2 : V3} (h : ¬ AxisOk p1 p2) {ps : List V3} (hp : ps ≠ [])
    (θ : ℝ) : rotatePointsAroundArbitraryAxis ps p1 p2 θ = .error .nonFinite := by
  unfold AxisOk at h
  push Not at h
  rw [rotatePointsAroundArbitraryAxis, if_pos ⟨hp, by simp [h.1, h.2]⟩]

theorem rotateAboutLine_on_line {p1 p2 : V3} (h : p2 - p1 ≠ 0) (θ t : ℝ) :
    rotateAboutLine p1 p2 θ (p1 + t • (p2 - p1)) = p1 + t • (p2 - p1) := by
  rw [rotateAboutLine, add_sub_cancel_left, rodrigues_smul]
  congr 2
  conv_lhs => arg 3; rw [← norm_smul_unit h]
  rw [rodrigues_smul, rodrigues_axis _ _ (unit_dot_self h), norm_smul_unit h]

theorem rotateAboutLine_distance {p1 p2 : V3} (h : p2 - p1 ≠ 0) (θ : ℝ) (p q : V3) :
    distance (rotateAboutLine p1 p2 θ p) (rotateAboutLine p1 p2 θ q) = distance p q := by
  rw [distance, distance, rotateAboutLine, rotateAboutLine, add_sub_add_left_eq_sub,
    ← rodrigues_sub, rodrigues_norm _ _ (unit_dot_self h)]
  congr 1
  ext <;> simp

theorem rotatePointsAroundLe_ok {p1 p2 : V3} (h : AxisOk p1 p2) {points : List V3}
    {twist : List ℝ} (hl : points.length = twist.length) (hne : twist ≠ []) :
    rotatePointsAroundLe points p1 p2 twist = .ok (List.zipWith
      (fun p t => rotateAboutLine p1 p2 (deg2rad t) p) points twist) := by
  rcases twist with _ | ⟨t0, ts⟩
  · exact absurd rfl hne
  unfold rotatePointsAroundLe
  simp only
  split_ifs with hall
  · rw [rotateArbitrary_ok h]
    congr 1
    apply List.ext_getElem?
    intro i
    rw [List.getElem?_zipWith, List.getElem?_map]
    by_cases hi : i < points.length
    · have hi' : i < (t0 :: ts).length := by omega
      rw [List.getElem?_eq_getElem hi, List.getElem?_eq_getElem hi']
      simp only [Option.map_some]
      rw [hall _ (List.getElem_mem hi')]
    · rw [List.getElem?_eq_none (by omega)]
      simp
  · have : (points.zip (t0 :: ts)).mapM (fun q =>
        rotatePointsAroundArbitraryAxis [q.1] p1 p2 (deg2rad q.2)) =
        .ok ((points.zip (t0 :: ts)).map fun q => [rotateAboutLine p1 p2 (deg2rad q.2) q.1]) := by
      apply mapM_ok
      intro q _
      rw [rotateArbitrary_ok h]
      rfl
    rw [this]
    simp only [bind, Except.bind, pure, Except.pure]
    congr 1
    rw [← List.flatMap_def, ← List.map_eq_flatMap, List.zip, List.map_zipWith]

theorem rotatePointsAroundLe_bad {p1 p2 : V3} (h : ¬ AxisOk p1 p2) {points : List V3}
    {twist : List ℝ} (hp : points ≠ []) (hne : twist ≠ []) :
    rotatePointsAroundLe points p1 p2 twist = .error .nonFinite := by
  rcases twist with _ | ⟨t0, ts⟩
  · exact absurd rfl hne
  unfold rotatePointsAroundLe
  simp only
  split_ifs with hall
  · exact rotateArbitrary_bad h hp _
  · rcases points with _ | ⟨q, qs⟩
    · exact absurd rfl hp
    rw [List.zip_cons_cons, List.mapM_cons, rotateArbitrary_bad h (by simp)]
    rfl

theorem assertAlmostEqual_self (l : List V3) : assertAlmostEqual l l = .ok () := by
  unfold assertAlmostEqual
  rw [if_pos]
  refine ⟨rfl, fun q hq => ?_⟩
  have h : ∀ a : ℝ, almostEq a a := by intro a; unfold almostEq; norm_num
  have e : q.1 = q.2 := by
    rw [List.zip_eq_zipWith, List.zipWith_self, List.mem_map] at hq
    obtain ⟨a, _, rfl⟩ := hq
    rfl
  rw [e]
  exact ⟨h _, h _, h _⟩

/-- One side of the water: when the first points of the rows lie on one line (not parallel to x)
through the first and last, every point is rotated by its own row's twist. -/
theorem twistMesh_ok {f : ℕ → ℕ → V3} {ns nc : ℕ} {tw : ℕ → ℝ}
    (hax : AxisOk (f 0 0) (f ns 0))
    (hline : ∀ r, r ≤ ns → ∃ t : ℝ, f r 0 = f 0 0 + t • (f ns 0 - f 0 0)) :
    twistMesh ((List.range (ns + 1)).flatMap fun i => (List.range (nc + 1)).map fun j => f i j)
      (ns + 1) (nc + 1)
      ((List.range (ns + 1)).flatMap fun i => (List.range (nc + 1)).map fun _ => tw i) =
    .ok ((List.range (ns + 1)).flatMap fun i => (List.range (nc + 1)).map fun j =>
      rotateAboutLine (f 0 0) (f ns 0) (deg2rad (tw i)) (f i j)) := by
  unfold twistMesh
  rw [everyNth_grid _ _ _ (by omega)]
  have e1 : ((List.range (ns + 1)).map fun i => f i 0).getD (ns + 1 - 1) 0 = f ns 0 := by
    simp [List.getD_eq_getElem?_getD]
  have e0 : ((List.range (ns + 1)).map fun i => f i 0).getD 0 0 = f 0 0 := by
    simp [List.getD_eq_getElem?_getD]
  simp only [e1, e0]
  have hne : ((List.range (ns + 1)).flatMap fun i => (List.range (nc + 1)).map fun _ => tw i)
      ≠ [] := by
    intro h
    have := congrArg List.length h
    rw [grid_length (ns + 1) (nc + 1) fun i _ => tw i] at this
    simp at this
  rw [rotatePointsAroundLe_ok hax (by
    rw [grid_length, grid_length (ns + 1) (nc + 1) fun i _ => tw i]) hne]
  rw [grid_zipWith (ns + 1) (nc + 1) f (fun i _ => tw i)]
  simp only [nanFailsAssert, bind, Except.bind, pure, Except.pure]
  rw [everyNth_grid (ns + 1) (nc + 1)
    (fun i j => rotateAboutLine (f 0 0) (f ns 0) (deg2rad (tw i)) (f i j)) (by omega)]
  have : ((List.range (ns + 1)).map fun i =>
      rotateAboutLine (f 0 0) (f ns 0) (deg2rad (tw i)) (f i 0)) =
      (List.range (ns + 1)).map fun i => f i 0 := by
    refine List.map_congr_left fun i hi => ?_
    obtain ⟨t, ht⟩ := hline i (Nat.lt_succ_iff.1 (List.mem_range.1 hi))
    rw [ht, rotateAboutLine_on_line hax.ne]
  rw [this, assertAlmostEqual_self]

theorem grid_ne_nil {n0 n1 : ℕ} (f : ℕ → ℕ → α) (h0 : 0 < n0) (h1 : 0 < n1) :
    ((List.range n0).flatMap fun i => (List.range n1).map fun j => f i j) ≠ [] := by
  intro h
  have := congrArg List.length h
  rw [grid_length n0 n1 f] at this
  simp at this
  omega

/-- A luff parallel to x fails the luff assertion. -/
theorem twistMesh_bad {f : ℕ → ℕ → V3} {ns nc : ℕ} {tw : ℕ → ℝ}
    (hax : ¬ AxisOk (f 0 0) (f ns 0)) :
    twistMesh ((List.range (ns + 1)).flatMap fun i => (List.range (nc + 1)).map fun j => f i j)
      (ns + 1) (nc + 1)
      ((List.range (ns + 1)).flatMap fun i => (List.range (nc + 1)).map fun _ => tw i) =
    .error .assertionError := by
  unfold twistMesh
  rw [everyNth_grid _ _ _ (by omega)]
  have e1 : ((List.range (ns + 1)).map fun i => f i 0).getD (ns + 1 - 1) 0 = f ns 0 := by
    simp [List.getD_eq_getElem?_getD]
  have e0 : ((List.range (ns + 1)).map fun i => f i 0).getD 0 0 = f 0 0 := by
    simp [List.getD_eq_getElem?_getD]
  simp only [e1, e0]
  rw [rotatePointsAroundLe_bad hax (grid_ne_nil _ (by omega) (by omega))
    (grid_ne_nil (fun i _ => tw i) (by omega) (by omega))]
  rfl

/-- A luff point that is moved by more than the tolerance fails the luff assertion. -/
theorem twistMesh_moved {f : ℕ → ℕ → V3} {ns nc : ℕ} {tw : ℕ → ℝ}
    (hax : AxisOk (f 0 0) (f ns 0)) {r : ℕ} (hr : r ≤ ns)
    (hmv : ¬ (rotateAboutLine (f 0 0) (f ns 0) (deg2rad (tw r)) (f r 0)).almostEq (f r 0)) :
    twistMesh ((List.range (ns + 1)).flatMap fun i => (List.range (nc + 1)).map fun j => f i j)
      (ns + 1) (nc + 1)
      ((List.range (ns + 1)).flatMap fun i => (List.range (nc + 1)).map fun _ => tw i) =
    .error .assertionError := by
  unfold twistMesh
  rw [everyNth_grid _ _ _ (by omega)]
  have e1 : ((List.range (ns + 1)).map fun i => f i 0).getD (ns + 1 - 1) 0 = f ns 0 := by
    simp [List.getD_eq_getElem?_getD]
  have e0 : ((List.range (ns + 1)).map fun i => f i 0).getD 0 0 = f 0 0 := by
    simp [List.getD_eq_getElem?_getD]
  simp only [e1, e0]
  rw [rotatePointsAroundLe_ok hax (by
    rw [grid_length, grid_length (ns + 1) (nc + 1) fun i _ => tw i])
    (grid_ne_nil (fun i _ => tw i) (by omega) (by omega))]
  rw [grid_zipWith (ns + 1) (nc + 1) f (fun i _ => tw i)]
  simp only [nanFailsAssert, bind, Except.bind, pure, Except.pure]
  rw [everyNth_grid (ns + 1) (nc + 1)
    (fun i j => rotateAboutLine (f 0 0) (f ns 0) (deg2rad (tw i)) (f i j)) (by omega)]
  unfold assertAlmostEqual
  rw [if_neg]
  rintro ⟨-, h⟩
  apply hmv
  refine h (rotateAboutLine (f 0 0) (f ns 0) (deg2rad (tw r)) (f r 0), f r 0) ?_
  rw [List.zip_map', List.mem_map]
  exact ⟨r, List.mem_range.2 (by omega), rfl⟩

/-! ### the upright meshes -/

theorem makeAirfoilMesh_sailPoint {ns : ℕ} {chords distance camber : List ℝ} (nc : ℕ) (a b : V3)
    (hns : 1 ≤ ns) (h : ValidSail ns chords distance camber) :
    ∃ mesh, makeAirfoilMesh a b nc ns chords distance camber = .ok mesh ∧
      mesh.n0 = ns + 1 ∧ mesh.n1 = nc + 1 ∧
      ∀ r k, r ≤ ns → k ≤ nc →
        mesh.at' r k = sailPoint a b nc ns chords distance camber r k := by
  obtain ⟨mesh, h1, h2, h3, h4⟩ := makeAirfoilMesh_ok nc a b h
  refine ⟨mesh, h1, h2, h3, fun r k hr hk => ?_⟩
  obtain ⟨le, hle, hat⟩ := h4 r k hr hk
  rw [discreteSegment_getElem? a b hns hr] at hle
  have hle' := (Option.some.inj hle).symm
  subst hle'
  rw [hat]
  ext <;> simp [sailPoint, lerp]
  ring

theorem sailPoint_luff {a b : V3} {nc ns : ℕ} {chords distance camber : List ℝ} {r : ℕ}
    (ha : a.y = 0) (hb : b.y = 0) (hp : 0 < distance.getD r 0) :
    sailPoint a b nc ns chords distance camber r 0 = lerp a b ((r : ℝ) / ns) := by
  have h0 : camberCurve (camber.getD r 0) (distance.getD r 0) 0 = 0 := camberCurve_zero hp
  unfold sailPoint
  rw [Nat.cast_zero, zero_div, h0]
  ext <;> simp [lerp, ha, hb]

theorem makePanels_swap (mesh : NdMesh) (nc ns : ℕ) (pts : ℕ → ℕ → V3)
    (h0 : mesh.n0 = ns + 1) (h1 : mesh.n1 = nc + 1)
    (h : ∀ r k, r ≤ ns → k ≤ nc → mesh.at' r k = pts r k) :
    (makePanelsFromMeshSpanwise mesh.swapaxes).panels = panelGrid nc ns pts := by
  simp only [makePanelsFromMeshSpanwise, NdMesh.swapaxes, h0, h1, Nat.add_sub_cancel, panelGrid,
    panelAt]
  apply grid_congr
  intro i j hi hj
  rw [h j (i + 1) (by omega) (by omega), h j i (by omega) (by omega),
    h (j + 1) i (by omega) (by omega), h (j + 1) (i + 1) (by omega) (by omega)]

/-! ### `SailGeometry` -/

theorem sailPoint_z (a b : V3) (nc ns : ℕ) (chords distance camber : List ℝ) (r k : ℕ) :
    (sailPoint a b nc ns chords distance camber r k).z = (lerp a b ((r : ℝ) / ns)).z := rfl

theorem frac_mem {r ns : ℕ} (h : r ≤ ns) : 0 ≤ (r : ℝ) / ns ∧ (r : ℝ) / ns ≤ 1 := by
  constructor
  · positivity
  · exact div_le_one_of_le₀ (by exact_mod_cast h) (by positivity)

theorem lerp_z_pos {a b : V3} (ha : 0 < a.z) (hb : 0 < b.z) {t : ℝ} (h0 : 0 ≤ t) (h1 : t ≤ 1) :
    0 < (lerp a b t).z := by
  have : (lerp a b t).z = (1 - t) * a.z + t * b.z := by simp [lerp]; ring
  rw [this]
  rcases h0.eq_or_lt with h | h
  · rw [← h]; simpa using ha
  · have : 0 ≤ (1 - t) * a.z := mul_nonneg (by linarith) ha.le
    have : 0 < t * b.z := mul_pos h hb
    linarith

theorem twistDict_ok {tw : List ℝ} (hne : tw ≠ []) {mode : String}
    (hm : mode = "sheeting_angle_const" ∨ mode = "average_const" ∨ mode = "real_twist") :
    ∃ x, twistDict tw mode = .ok x := by
  rcases tw with _ | ⟨t, ts⟩
  · exact absurd rfl hne
  · rcases hm with rfl | rfl | rfl <;> simp [twistDict]

theorem rotateAboutLine_zero (p1 p2 p : V3) : rotateAboutLine p1 p2 0 p = p := by
  rw [rotateAboutLine, rodrigues_zero_angle]; abel

theorem twistBlock_ok {s : SailInput} {θ : ℕ → ℝ} (h : TwistOk s θ) {f g : ℕ → ℕ → V3} {nc : ℕ}
    (hax : AxisOk (f 0 0) (f s.ns 0))
    (hline : ∀ r, r ≤ s.ns → ∃ t : ℝ, f r 0 = f 0 0 + t • (f s.ns 0 - f 0 0))
    (hax' : AxisOk (g 0 0) (g s.ns 0))
    (hline' : ∀ r, r ≤ s.ns → ∃ t : ℝ, g r 0 = g 0 0 + t • (g s.ns 0 - g 0 0)) :
    twistBlock s (s.ns + 1) (nc + 1)
      ((List.range (s.ns + 1)).flatMap fun i => (List.range (nc + 1)).map fun j => f i j)
      ((List.range (s.ns + 1)).flatMap fun i => (List.range (nc + 1)).map fun j => g i j) =
    .ok ((List.range (s.ns + 1)).flatMap fun i => (List.range (nc + 1)).map fun j =>
          rotateAboutLine (f 0 0) (f s.ns 0) (deg2rad (θ i)) (f i j),
      (List.range (s.ns + 1)).flatMap fun i => (List.range (nc + 1)).map fun j =>
          rotateAboutLine (g 0 0) (g s.ns 0) (deg2rad (θ (s.ns - i))) (g i j)) := by
  rcases h with ⟨tw, mode, h1, h2, h3, h4, h5⟩ | ⟨h1, h2⟩
  · obtain ⟨x, hx⟩ := twistDict_ok (tw := tw) (by rintro rfl; simp at h3) h4
    have e : ((List.range (s.ns + 1)).flatMap fun i => (List.range (nc + 1)).map fun _ =>
        tw.getD i 0) =
        (List.range (s.ns + 1)).flatMap fun i => (List.range (nc + 1)).map fun _ => θ i := by
      apply grid_congr (f := fun i _ => tw.getD i 0) (g := fun i _ => θ i)
      intro i j hi _
      rw [List.getD_eq_getElem?_getD, h5 i (by omega)]; rfl
    unfold twistBlock
    rw [h1, h2]
    simp only [hx, bind, Except.bind, twistPerPoint_ok h3]
    rw [e, twistMesh_ok hax hline]
    simp only
    rw [grid_reverse (s.ns + 1) (nc + 1) fun i _ => θ i]
    have e2 : ((List.range (s.ns + 1)).flatMap fun i => (List.range (nc + 1)).map fun _ =>
        θ (s.ns + 1 - 1 - i)) =
        (List.range (s.ns + 1)).flatMap fun i => (List.range (nc + 1)).map fun _ =>
          (fun i => θ (s.ns - i)) i := by
      simp only [Nat.add_sub_cancel]
    rw [e2, twistMesh_ok hax' hline']
    rfl
  · have : twistBlock s (s.ns + 1) (nc + 1)
      ((List.range (s.ns + 1)).flatMap fun i => (List.range (nc + 1)).map fun j => f i j)
      ((List.range (s.ns + 1)).flatMap fun i => (List.range (nc + 1)).map fun j => g i j) =
      .ok ((List.range (s.ns + 1)).flatMap fun i => (List.range (nc + 1)).map fun j => f i j,
      (List.range (s.ns + 1)).flatMap fun i => (List.range (nc + 1)).map fun j => g i j) := by
      unfold twistBlock
      rcases h1 with h1 | h1
      · rw [h1]
      · rw [h1]; cases s.twist <;> rfl
    rw [this]
    simp only [h2, deg2rad, zero_mul, rotateAboutLine_zero]

/-- The heeled, untwisted point above the water. -/
noncomputable def SailInput.abovePt (s : SailInput) (r k : ℕ) : V3 :=
  s.csys.rotatePointWithMirror (sailPoint s.tack s.head s.nc s.ns s.chords s.distance s.camber r k)

/-- The heeled, untwisted point under the water. -/
noncomputable def SailInput.underPt (s : SailInput) (r k : ℕ) : V3 :=
  s.csys.rotatePointWithMirror (sailPoint (mirror s.head) (mirror s.tack) s.nc s.ns
    s.chords.reverse s.distance s.camber.reverse r k)

theorem validSail_reverse {ns : ℕ} {chords distance camber : List ℝ}
    (h : ValidSail ns chords distance camber) (hc : camber.length = ns + 1) :
    ValidSail ns chords.reverse distance camber.reverse where
  chords_len := by simp [h.chords_len]
  distance_len := h.distance_len
  camber_len := by simp [hc]
  camber_range := by
    intro m hm
    apply h.camber_range
    rw [List.take_of_length_le (by simp [hc])] at hm
    rw [List.take_of_length_le (by simp [hc])]
    simpa using hm
  distance_range := h.distance_range

end PySailing
namespace PySailing.Spec.SailArgs
open PySailing Spec

variable {s : SailInput} {θ : ℕ → ℝ} (h : SailArgs s θ)
include h

theorem z_nonneg {r : ℕ} (hr : r ≤ s.ns) : 0 ≤ (lerp s.tack s.head ((r : ℝ) / s.ns)).z := by
  obtain ⟨a, b⟩ := frac_mem hr
  simp only [lerp, V3.add_z, V3.smul_z, V3.sub_z]
  nlinarith [mul_nonneg a h.head_z.le, mul_nonneg (sub_nonneg.2 b) h.tack_z]

theorem z_neg {r : ℕ} (hr : r ≤ s.ns) :
    (lerp (mirror s.head) (mirror s.tack) ((r : ℝ) / s.ns)).z ≤ 0 := by
  obtain ⟨a, b⟩ := frac_mem hr
  have : 0 ≤ (lerp s.head s.tack ((r : ℝ) / s.ns)).z := by
    simp only [lerp, V3.add_z, V3.smul_z, V3.sub_z]
    nlinarith [mul_nonneg a h.tack_z, mul_nonneg (sub_nonneg.2 b) h.head_z.le]
  have e : (lerp (mirror s.head) (mirror s.tack) ((r : ℝ) / s.ns)).z =
      -(lerp s.head s.tack ((r : ℝ) / s.ns)).z := by simp [lerp, mirror]; ring
  rw [e]; linarith

theorem z_pos_of_row {r : ℕ} (h0 : 0 < r) (hr : r ≤ s.ns) : 0 < (lerp s.tack s.head ((r : ℝ) / s.ns)).z := by
  have hn := h.ns_pos
  have a : 0 < (r : ℝ) / s.ns := by positivity
  have b := (frac_mem hr).2
  simp only [lerp, V3.add_z, V3.smul_z, V3.sub_z]
  nlinarith [mul_pos a h.head_z, mul_nonneg (sub_nonneg.2 b) h.tack_z]

theorem underPt_eq {r : ℕ} (hr : r ≤ s.ns) (k : ℕ) : s.underPt r k =
    s.csys.leeway.mulVec (s.csys.reverseHeeling.mulVec
      (sailPoint (mirror s.head) (mirror s.tack) s.nc s.ns
        s.chords.reverse s.distance s.camber.reverse r k)) :=
  s.csys.rotatePointWithMirror_npos (not_lt.2 (h.z_neg hr))

theorem above_luff {r : ℕ} (hr : r ≤ s.ns) :
    sailPoint s.tack s.head s.nc s.ns s.chords s.distance s.camber r 0 =
      lerp s.tack s.head ((r : ℝ) / s.ns) :=
  sailPoint_luff h.tack_y h.head_y (h.pos r hr)

theorem under_luff {r : ℕ} (hr : r ≤ s.ns) :
    sailPoint (mirror s.head) (mirror s.tack) s.nc s.ns
        s.chords.reverse s.distance s.camber.reverse r 0 =
      lerp (mirror s.head) (mirror s.tack) ((r : ℝ) / s.ns) :=
  sailPoint_luff h.head_y h.tack_y (h.pos r hr)

/-- The luff is heeled as a whole: at the water level it is on the axis of the heel. -/
theorem abovePt_luff {r : ℕ} (hr : r ≤ s.ns) : s.abovePt r 0 =
    s.csys.leeway.mulVec (s.csys.heeling.mulVec (lerp s.tack s.head ((r : ℝ) / s.ns))) := by
  rw [SailInput.abovePt, h.above_luff hr]
  rcases (h.z_nonneg hr).lt_or_eq with h1 | h1
  · exact s.csys.rotatePointWithMirror_pos h1
  · rw [s.csys.rotatePointWithMirror_npos (not_lt.2 h1.ge), Csys.reverseHeeling_mulVec, Csys.heeling_mulVec]
    have : (lerp s.tack s.head ((r : ℝ) / s.ns)).y = 0 := by simp [lerp, h.tack_y, h.head_y]
    rw [← h1, this]
    simp

theorem ns_ne : (s.ns : ℝ) ≠ 0 := by have := h.ns_pos; positivity

theorem above_line {r : ℕ} (hr : r ≤ s.ns) :
    s.abovePt r 0 = s.abovePt 0 0 + ((r : ℝ) / s.ns) • (s.abovePt s.ns 0 - s.abovePt 0 0) := by
  rw [h.abovePt_luff hr, h.abovePt_luff (Nat.zero_le _), h.abovePt_luff le_rfl, ← M3.mulVec_sub, ← M3.mulVec_sub,
    ← M3.mulVec_smul, ← M3.mulVec_smul, ← M3.mulVec_add, ← M3.mulVec_add]
  congr 2
  have := h.ns_ne
  ext <;> simp [lerp, div_self this]

theorem under_line {r : ℕ} (hr : r ≤ s.ns) :
    s.underPt r 0 = s.underPt 0 0 + ((r : ℝ) / s.ns) • (s.underPt s.ns 0 - s.underPt 0 0) := by
  rw [h.underPt_eq hr, h.underPt_eq (Nat.zero_le _), h.underPt_eq le_rfl, h.under_luff hr,
    h.under_luff (Nat.zero_le _), h.under_luff le_rfl, ← M3.mulVec_sub, ← M3.mulVec_sub,
    ← M3.mulVec_smul, ← M3.mulVec_smul, ← M3.mulVec_add, ← M3.mulVec_add]
  congr 2
  have := h.ns_ne
  ext <;> simp [lerp, div_self this]

theorem above_axis : AxisOk (s.abovePt 0 0) (s.abovePt s.ns 0) := by
  right
  rw [h.abovePt_luff (Nat.zero_le _), h.abovePt_luff le_rfl, ← M3.mulVec_sub, ← M3.mulVec_sub, s.csys.leeway_mulVec,
    s.csys.heeling_mulVec]
  have := h.ns_ne
  simp [lerp, div_self this, h.tack_y, h.head_y]
  exact ⟨h.heel, sub_ne_zero.2 h.sloped⟩

theorem under_axis : AxisOk (s.underPt 0 0) (s.underPt s.ns 0) := by
  right
  rw [h.underPt_eq (Nat.zero_le _), h.underPt_eq le_rfl, h.under_luff (Nat.zero_le _),
    h.under_luff le_rfl, ← M3.mulVec_sub, ← M3.mulVec_sub, s.csys.leeway_mulVec,
    s.csys.reverseHeeling_mulVec]
  have := h.ns_ne
  simp [lerp, div_self this, h.tack_y, h.head_y, mirror]
  refine ⟨h.heel, fun h' => h.sloped ?_⟩
  linarith

end PySailing.Spec.SailArgs
namespace PySailing.Spec.SailOk
open PySailing Spec

variable {s : SailInput} {θ : ℕ → ℝ} (h : SailOk s θ)
include h

/-- Every row is above the water, unless the yacht is upright. -/
theorem z_pos {r : ℕ} (hr : r ≤ s.ns) : 0 < (lerp s.tack s.head ((r : ℝ) / s.ns)).z ∨
    Real.sin (deg2rad s.csys.heelDeg) = 0 :=
  h.foot.imp_left fun h' => lerp_z_pos h' h.head_z (frac_mem hr).1 (frac_mem hr).2

theorem abovePt_eq {r : ℕ} (hr : r ≤ s.ns) (k : ℕ) : s.abovePt r k =
    s.csys.leeway.mulVec (s.csys.heeling.mulVec
      (sailPoint s.tack s.head s.nc s.ns s.chords s.distance s.camber r k)) := by
  rcases h.z_pos hr with h1 | h2
  · exact s.csys.rotatePointWithMirror_pos h1
  · exact s.csys.rotatePointWithMirror_upright h2 _

end PySailing.Spec.SailOk
namespace PySailing
open Spec

/-- The twisted point above the water. -/
noncomputable def SailInput.aboveTwisted (s : SailInput) (θ : ℕ → ℝ) (r k : ℕ) : V3 :=
  rotateAboutLine (s.abovePt 0 0) (s.abovePt s.ns 0) (deg2rad (θ r)) (s.abovePt r k)

/-- The twisted point under the water. -/
noncomputable def SailInput.underTwisted (s : SailInput) (θ : ℕ → ℝ) (r k : ℕ) : V3 :=
  rotateAboutLine (s.underPt 0 0) (s.underPt s.ns 0) (deg2rad (θ (s.ns - r))) (s.underPt r k)

theorem sailGeometry_args {s : SailInput} {θ : ℕ → ℝ} (h : SailArgs s θ) :
    ∃ g, sailGeometry s = .ok g ∧ g.ns = s.ns ∧ g.nc = s.nc ∧ g.name = s.name ∧
      g.tackMounting = s.tack ∧
      g.panelsAbove = panelGrid s.nc s.ns (s.aboveTwisted θ) ∧
      g.panelsUnder = panelGrid s.nc s.ns (s.underTwisted θ) ∧
      g.panelsAboveZero = panelGrid s.nc s.ns
        (sailPoint s.tack s.head s.nc s.ns s.chords s.distance s.camber) ∧
      g.panelsUnderZero = panelGrid s.nc s.ns (sailPoint (mirror s.head) (mirror s.tack) s.nc s.ns
        s.chords.reverse s.distance s.camber.reverse) ∧
      g.te = ((List.range s.nc).flatMap fun i => (List.range s.ns).map fun _ =>
        if i + 1 = s.nc then true else false) ∧
      g.le = ((List.range s.nc).flatMap fun i => (List.range s.ns).map fun _ =>
        if i + 1 = s.nc then false else if i = 0 then true else false) := by
  obtain ⟨m, hm, hm0, hm1, hmat⟩ :=
    makeAirfoilMesh_sailPoint s.nc s.tack s.head h.ns_pos h.valid
  obtain ⟨u, hu, hu0, hu1, huat⟩ :=
    makeAirfoilMesh_sailPoint s.nc (mirror s.head) (mirror s.tack) h.ns_pos
      (validSail_reverse h.valid h.camber_len)
  have hu' : makeAirfoilMesh (flipZ s.head) (flipZ s.tack) s.nc s.ns s.chords.reverse s.distance
      s.camber.reverse = .ok u := hu
  have ef : m.flatten.map s.csys.rotatePointWithMirror =
      (List.range (s.ns + 1)).flatMap fun i => (List.range (s.nc + 1)).map fun j =>
        s.abovePt i j := by
    unfold NdMesh.flatten
    rw [grid_map, hm0, hm1]
    apply grid_congr
    intro i j hi hj
    rw [hmat i j (by omega) (by omega)]; rfl
  have eu : u.flatten.map s.csys.rotatePointWithMirror =
      (List.range (s.ns + 1)).flatMap fun i => (List.range (s.nc + 1)).map fun j =>
        s.underPt i j := by
    unfold NdMesh.flatten
    rw [grid_map, hu0, hu1]
    apply grid_congr
    intro i j hi hj
    rw [huat i j (by omega) (by omega)]; rfl
  have ht := twistBlock_ok (nc := s.nc) h.twist h.above_axis
    (fun r hr => ⟨_, h.above_line hr⟩) h.under_axis (fun r hr => ⟨_, h.under_line hr⟩)
  refine ⟨_, by
    unfold sailGeometry
    simp only [hm, hu', bind, Except.bind, ef, eu, hm0, hm1, ht]
    rw [if_pos (by rfl), if_pos (by rfl)]
    rfl, rfl, rfl, rfl, rfl, ?_, ?_, ?_, ?_, ?_, ?_⟩
  · apply makePanels_swap _ _ _ _ rfl rfl
    intro r k hr hk
    exact reshape_grid _ _ (s.aboveTwisted θ) (by omega) (by omega)
  · apply makePanels_swap _ _ _ _ rfl rfl
    intro r k hr hk
    exact reshape_grid _ _ (s.underTwisted θ) (by omega) (by omega)
  · exact makePanels_swap _ _ _ _ hm0 hm1 hmat
  · exact makePanels_swap _ _ _ _ hu0 hu1 huat
  · simp [makePanelsFromMeshSpanwise, NdMesh.swapaxes, NdMesh.reshape]
  · simp [makePanelsFromMeshSpanwise, NdMesh.swapaxes, NdMesh.reshape]

theorem sailGeometry_ok {s : SailInput} {θ : ℕ → ℝ} (h : SailOk s θ) :
    ∃ g, sailGeometry s = .ok g ∧ g.ns = s.ns ∧ g.nc = s.nc ∧ g.name = s.name ∧
      g.tackMounting = s.tack ∧
      g.panelsAbove = panelGrid s.nc s.ns (s.aboveTwisted θ) ∧
      g.panelsUnder = panelGrid s.nc s.ns (s.underTwisted θ) ∧
      g.panelsAboveZero = panelGrid s.nc s.ns
        (sailPoint s.tack s.head s.nc s.ns s.chords s.distance s.camber) ∧
      g.panelsUnderZero = panelGrid s.nc s.ns (sailPoint (mirror s.head) (mirror s.tack) s.nc s.ns
        s.chords.reverse s.distance s.camber.reverse) ∧
      g.te = ((List.range s.nc).flatMap fun i => (List.range s.ns).map fun _ =>
        if i + 1 = s.nc then true else false) ∧
      g.le = ((List.range s.nc).flatMap fun i => (List.range s.ns).map fun _ =>
        if i + 1 = s.nc then false else if i = 0 then true else false) :=
  sailGeometry_args h.toSailArgs

/-! ### mirror images of rotations -/

theorem rodrigues_mirror (u : V3) (θ : ℝ) (v : V3) :
    rodrigues (-mirror u) θ (mirror v) = mirror (rodrigues u θ v) := by
  simp only [rodrigues]
  ext <;> simp [mirror, V3.dot] <;> ring

theorem mirror_norm (v : V3) : (mirror v).norm = v.norm := by
  simp [V3.norm, V3.dot, mirror]

theorem mirror_sub (a b : V3) : mirror (a - b) = mirror a - mirror b := by
  ext <;> simp [mirror]; ring

theorem mirror_add (a b : V3) : mirror (a + b) = mirror a + mirror b := by
  ext <;> simp [mirror]; ring

theorem mirror_smul (s : ℝ) (a : V3) : mirror (s • a) = s • mirror a := by
  ext <;> simp [mirror]

theorem rotateAboutLine_mirror {a b : V3} (θ : ℝ) (p : V3) (h : b - a ≠ 0) :
    rotateAboutLine (mirror b) (mirror a) θ (mirror p) = mirror (rotateAboutLine a b θ p) := by
  have e2 : unit (mirror a - mirror b) = -mirror (unit (b - a)) := by
    have e1 : mirror a - mirror b = (-1 : ℝ) • mirror (b - a) := by
      rw [mirror_sub, neg_smul, one_smul]; abel
    rw [e1, unit_smul_neg _ (by norm_num), unit, unit, mirror_norm, mirror_smul]
  have hu := unit_dot_self h
  have hmu : (-mirror (unit (b - a))).dot (-mirror (unit (b - a))) = 1 := by
    rw [← hu]; simp [V3.dot, mirror]
  have hb : mirror b = mirror a + (b - a).norm • mirror (unit (b - a)) := by
    rw [← mirror_smul, norm_smul_unit h, mirror_sub]; abel
  rw [rotateAboutLine, rotateAboutLine, e2, mirror_add, ← rodrigues_mirror, mirror_sub]
  generalize unit (b - a) = u at *
  generalize (b - a).norm = l at *
  rw [hb]
  have : mirror p - (mirror a + l • mirror u) = (mirror p - mirror a) + l • (-mirror u) := by
    rw [smul_neg]; abel
  rw [this, rodrigues_add, rodrigues_smul, rodrigues_axis _ _ hmu, smul_neg]
  abel

theorem panelGrid_getElem? {nc ns : ℕ} (pts : ℕ → ℕ → V3) {i j : ℕ} (hi : i < nc) (hj : j < ns) :
    (panelGrid nc ns pts)[i * ns + j]? =
      some ⟨pts j (i + 1), pts j i, pts (j + 1) i, pts (j + 1) (i + 1)⟩ :=
  grid_getElem? nc ns (fun i j =>
    (⟨pts j (i + 1), pts j i, pts (j + 1) i, pts (j + 1) (i + 1)⟩ : Panel)) hi hj

theorem reverse_getD {l : List ℝ} {n r : ℕ} (hl : l.length = n + 1) (hr : r ≤ n) :
    l.reverse.getD r 0 = l.getD (n - r) 0 := by
  rw [List.getD_eq_getElem?_getD, List.getElem?_reverse (by omega), List.getD_eq_getElem?_getD]
  congr 2
  omega

namespace Spec.SailOk

variable {s : SailInput} {θ : ℕ → ℝ} (h : SailOk s θ)
include h

theorem under_sailPoint (hd : ∀ r, r ≤ s.ns → s.distance.getD r 0 = s.distance.getD (s.ns - r) 0)
    {r : ℕ} (hr : r ≤ s.ns) (k : ℕ) :
    sailPoint (mirror s.head) (mirror s.tack) s.nc s.ns s.chords.reverse s.distance
      s.camber.reverse r k =
    mirror (sailPoint s.tack s.head s.nc s.ns s.chords s.distance s.camber (s.ns - r) k) := by
  have e : ((s.ns - r : ℕ) : ℝ) / s.ns = 1 - (r : ℝ) / s.ns := by
    have := h.ns_ne
    rw [Nat.cast_sub hr]
    field_simp
  unfold sailPoint
  rw [reverse_getD h.valid.chords_len hr, reverse_getD h.camber_len hr, hd r hr, e]
  ext <;> simp [lerp, mirror] <;> ring

theorem rotate_mirror {r : ℕ} (hr : r ≤ s.ns) (k : ℕ) :
    s.csys.rotatePointWithMirror (mirror (sailPoint s.tack s.head s.nc s.ns s.chords s.distance s.camber r k)) =
      mirror (s.abovePt r k) := by
  rcases h.z_pos hr with h1 | h2
  · exact s.csys.rotatePointWithMirror_mirror (by exact h1.ne')
  · exact s.csys.rotatePointWithMirror_mirror_upright h2 _

theorem underPt_mirror
    (hd : ∀ r, r ≤ s.ns → s.distance.getD r 0 = s.distance.getD (s.ns - r) 0)
    {r : ℕ} (hr : r ≤ s.ns) (k : ℕ) : s.underPt r k = mirror (s.abovePt (s.ns - r) k) := by
  rw [SailInput.underPt, h.under_sailPoint hd hr]
  exact h.rotate_mirror (Nat.sub_le _ _) k

theorem underTwisted_mirror
    (hd : ∀ r, r ≤ s.ns → s.distance.getD r 0 = s.distance.getD (s.ns - r) 0)
    {r : ℕ} (hr : r ≤ s.ns) (k : ℕ) :
    s.underTwisted θ r k = mirror (s.aboveTwisted θ (s.ns - r) k) := by
  rw [SailInput.underTwisted, h.underPt_mirror hd hr, h.underPt_mirror hd (Nat.zero_le _),
    h.underPt_mirror hd le_rfl, Nat.sub_self, Nat.sub_zero,
    rotateAboutLine_mirror _ _ h.above_axis.ne]
  rfl

end Spec.SailOk

/-! ### which errors can occur -/

theorem bind_error {x : Py α} {f : α → Py β} {e : PyErr} (h : (x >>= f) = .error e) :
    x = .error e ∨ ∃ a, x = .ok a ∧ f a = .error e := by
  rcases x with e' | a
  · left
    have : (Except.error e' : Py β) = .error e := h
    rw [Except.error.inj this]
  · exact Or.inr ⟨a, rfl, h⟩

theorem mapM_error_inv {f : α → Py β} {l : List α} {e : PyErr} (h : l.mapM f = .error e) :
    ∃ a ∈ l, f a = .error e := by
  induction l with
  | nil =>
    have : (Except.ok [] : Py (List β)) = .error e := h
    cases this
  | cons a l ih =>
    rw [List.mapM_cons] at h
    rcases bind_error h with h | ⟨b, -, h⟩
    · exact ⟨a, by simp, h⟩
    rcases bind_error h with h | ⟨bs, -, h⟩
    · obtain ⟨c, hc, h⟩ := ih h
      exact ⟨c, by simp [hc], h⟩
    · cases h

theorem idx_err {xs : List α} {i : ℕ} {e : PyErr} (h : idx xs i = .error e) : e = .indexError := by
  unfold idx at h
  split at h <;> simp at h
  exact h.symm

theorem vlmAirfoil_err {m p t : ℝ} {n : ℕ} {e : PyErr} (h : vlmAirfoil m p t n = .error e) :
    e = .valueError ∨ e = .sysExit 1 := by
  unfold vlmAirfoil at h
  by_cases h1 : ¬ (m ≤ 0.3 ∧ m ≥ 0)
  · rw [if_pos h1] at h; exact Or.inr (Except.error.inj h).symm
  rw [if_neg h1] at h
  by_cases h2 : ¬ (p ≤ 0.9 ∧ p ≥ 0)
  · rw [if_pos h2] at h; exact Or.inr (Except.error.inj h).symm
  rw [if_neg h2] at h
  by_cases h3 : ¬ (t ≤ 0.4 ∧ t ≥ 0)
  · rw [if_pos h3] at h; exact Or.inr (Except.error.inj h).symm
  rw [if_neg h3] at h
  left
  rcases bind_error h with h | ⟨a, -, h⟩
  · obtain ⟨x, -, hx⟩ := mapM_error_inv h
    unfold yCamber at hx
    split_ifs at hx
    exact (Except.error.inj hx).symm
  rcases bind_error h with h | ⟨b, -, h⟩
  · obtain ⟨x, -, hx⟩ := mapM_error_inv h
    unfold dyCamber at hx
    split_ifs at hx
    exact (Except.error.inj hx).symm
  cases h

theorem makeAirfoilMesh_err {a b : V3} {nc ns : ℕ} {chords distance camber : List ℝ} {e : PyErr}
    (h : makeAirfoilMesh a b nc ns chords distance camber = .error e) :
    e = .valueError ∨ e = .indexError ∨ e = .assertionError ∨ e = .sysExit 1 := by
  unfold makeAirfoilMesh at h
  rcases bind_error h with h | ⟨te, -, h⟩
  · unfold teLine at h
    split_ifs at h
    split at h
    · cases h
    · exact Or.inl (Except.error.inj h).symm
  rcases bind_error h with h | ⟨rows, -, h⟩
  · obtain ⟨q, -, hq⟩ := mapM_error_inv h
    unfold airfoilRow at hq
    rcases bind_error hq with hq | ⟨_, -, hq⟩
    · exact Or.inr (Or.inl (idx_err hq))
    rcases bind_error hq with hq | ⟨_, -, hq⟩
    · exact Or.inr (Or.inl (idx_err hq))
    rcases bind_error hq with hq | ⟨_, -, hq⟩
    · rcases vlmAirfoil_err hq with h | h <;> simp [h]
    cases hq
  cases h

theorem rotatePointsAroundArbitraryAxis_err {ps : List V3} {p1 p2 : V3} {θ : ℝ} {e : PyErr}
    (h : rotatePointsAroundArbitraryAxis ps p1 p2 θ = .error e) : e = .nonFinite := by
  unfold rotatePointsAroundArbitraryAxis at h
  split_ifs at h
  exact (Except.error.inj h).symm

theorem rotatePointsAroundLe_err {ps : List V3} {p1 p2 : V3} {tw : List ℝ} {e : PyErr}
    (h : rotatePointsAroundLe ps p1 p2 tw = .error e) : e = .nonFinite ∨ e = .indexError := by
  unfold rotatePointsAroundLe at h
  split at h
  · exact Or.inr (Except.error.inj h).symm
  · split_ifs at h
    · exact Or.inl (rotatePointsAroundArbitraryAxis_err h)
    · rcases bind_error h with h | ⟨_, -, h⟩
      · obtain ⟨q, -, hq⟩ := mapM_error_inv h
        exact Or.inl (rotatePointsAroundArbitraryAxis_err hq)
      · cases h

theorem twistMesh_err {mesh : List V3} {sh0 sh1 : ℕ} {tw : List ℝ} {e : PyErr}
    (h : twistMesh mesh sh0 sh1 tw = .error e) : e = .assertionError ∨ e = .indexError := by
  unfold twistMesh at h
  rcases bind_error h with h | ⟨_, -, h⟩
  · unfold nanFailsAssert at h
    split at h
    · exact Or.inl (Except.error.inj h).symm
    · rename_i hne
      rcases rotatePointsAroundLe_err h with h' | h'
      · subst h'
        exact absurd h hne
      · exact Or.inr h'
  rcases bind_error h with h | ⟨_, -, h⟩
  · unfold assertAlmostEqual at h
    split_ifs at h
    exact Or.inl (Except.error.inj h).symm
  · cases h

theorem twistBlock_err {s : SailInput} {sh0 sh1 : ℕ} {a b : List V3} {e : PyErr}
    (h : twistBlock s sh0 sh1 a b = .error e) :
    e = .valueError ∨ e = .keyError ∨ e = .assertionError ∨ e = .indexError := by
  unfold twistBlock at h
  split at h
  · rcases bind_error h with h | ⟨_, -, h⟩
    · unfold twistDict at h
      split at h
      · exact Or.inl (Except.error.inj h).symm
      · split_ifs at h
        exact Or.inr (Or.inl (Except.error.inj h).symm)
    rcases bind_error h with h | ⟨_, -, h⟩
    · unfold twistPerPoint at h
      simp only at h
      split_ifs at h
      exact Or.inl (Except.error.inj h).symm
    rcases bind_error h with h | ⟨_, -, h⟩
    · exact Or.inr (Or.inr (twistMesh_err h))
    rcases bind_error h with h | ⟨_, -, h⟩
    · exact Or.inr (Or.inr (twistMesh_err h))
    cases h
  · cases h

end PySailing
