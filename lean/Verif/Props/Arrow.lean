import Verif.Spec.Arrow
import Verif.Props.Mesh

/-!
# C137 (arrows on the screen), C138 (the plot of an airfoil)
-/

namespace PySailing.Props

open PySailing PySailing.Spec

/-- A point in front of the camera is shown where `proj_transform` says. -/
theorem projTransform_shows {M : Camera} {p : V3} (h : InFront M p) :
    ∃ a, projTransform M p = .ok a ∧ Shows M p (a.x, a.y) a.z ∧
      M.mulVec ![p.x, p.y, p.z, 1] = M.mulVec ![p.x, p.y, p.z, 1] 3 • ![a.x, a.y, a.z, 1] := by
  unfold InFront at h
  have e : M.mulVec ![p.x, p.y, p.z, 1] = M.mulVec ![p.x, p.y, p.z, 1] 3 •
      ![M.mulVec ![p.x, p.y, p.z, 1] 0 / M.mulVec ![p.x, p.y, p.z, 1] 3, M.mulVec ![p.x, p.y, p.z, 1] 1 / M.mulVec ![p.x, p.y, p.z, 1] 3,
        M.mulVec ![p.x, p.y, p.z, 1] 2 / M.mulVec ![p.x, p.y, p.z, 1] 3, 1] := by
    funext i
    fin_cases i <;> simp <;> field_simp
  refine ⟨⟨M.mulVec ![p.x, p.y, p.z, 1] 0 / M.mulVec ![p.x, p.y, p.z, 1] 3, M.mulVec ![p.x, p.y, p.z, 1] 1 / M.mulVec ![p.x, p.y, p.z, 1] 3,
    M.mulVec ![p.x, p.y, p.z, 1] 2 / M.mulVec ![p.x, p.y, p.z, 1] 3⟩, ?_, ⟨_, h.ne', e⟩, e⟩
  unfold projTransform
  simp only
  rw [if_neg h.ne']

/-- Homogeneous coordinates along the way. -/
theorem mulVec_onWay (M : Camera) (p q : V3) (t : ℝ) :
    M.mulVec ![(onWay p q t).x, (onWay p q t).y, (onWay p q t).z, 1] =
      (1 - t) • M.mulVec ![p.x, p.y, p.z, 1] + t • M.mulVec ![q.x, q.y, q.z, 1] := by
  rw [← Matrix.mulVec_smul, ← Matrix.mulVec_smul, ← Matrix.mulVec_add]
  congr 1
  funext i
  fin_cases i <;> simp [onWay] <;> ring

/-- The call history does not touch the arrow itself. -/
theorem arrowCall_verts (s : ArrowPatch) (c : ArrowCall) : (arrowCall s c).verts = s.verts := by
  cases c with
  | project M =>
    simp only [arrowCall, do3dProjection, bind, Except.bind]
    cases projTransform M s.verts.tail <;> cases projTransform M s.verts.tip <;> rfl
  | draw M =>
    simp only [arrowCall, drawArrow, bind, Except.bind]
    cases projTransform M s.verts.tail <;> cases projTransform M s.verts.tip <;> rfl

theorem history_verts (calls : List ArrowCall) (s : ArrowPatch) : (calls.foldl arrowCall s).verts = s.verts := by
  induction calls generalizing s with
  | nil => rfl
  | cons c cs ih => rw [List.foldl_cons, ih, arrowCall_verts]

/-- **C137.** Whatever was drawn before and from wherever the user looked, an arrow whose ends are in front of the camera
is drawn straight between the images of its two ends, and what is drawn is exactly the image of the arrow in space: every
point between tail and tip is shown on the drawn line, and every point of the drawn line shows such a point.  The depth
matplotlib gets for ordering is the smallest depth of any point of the arrow. -/
theorem C137_arrow (a : Arrow) (calls : List ArrowCall) (M : Camera) (h0 : InFront M a.tail) (h1 : InFront M a.tip) :
    ∃ s A B d0 d1 s', drawArrow (calls.foldl arrowCall (arrow3D a)) M = .ok (s, (A, B)) ∧
      do3dProjection (calls.foldl arrowCall (arrow3D a)) M = .ok (s', min d0 d1) ∧ s'.posA = A ∧ s'.posB = B ∧
      Shows M a.tail A d0 ∧ Shows M a.tip B d1 ∧
      (∀ t, 0 ≤ t → t ≤ 1 → ∃ r d, 0 ≤ r ∧ r ≤ 1 ∧ Shows M (onWay a.tail a.tip t) (onScreenWay A B r) d ∧ min d0 d1 ≤ d) ∧
      (∀ r, 0 ≤ r → r ≤ 1 → ∃ t d, 0 ≤ t ∧ t ≤ 1 ∧ Shows M (onWay a.tail a.tip t) (onScreenWay A B r) d) := by
  obtain ⟨p, hp, sp, ep⟩ := projTransform_shows h0
  obtain ⟨q, hq, sq, eq⟩ := projTransform_shows h1
  have hv : (calls.foldl arrowCall (arrow3D a)).verts = a := history_verts calls _
  unfold InFront at h0 h1
  set w0 := M.mulVec ![a.tail.x, a.tail.y, a.tail.z, 1] 3
  set w1 := M.mulVec ![a.tip.x, a.tip.y, a.tip.z, 1] 3
  -- the point at `t` is shown at `t w1 / ((1 - t) w0 + t w1)`
  have key : ∀ t, 0 < (1 - t) * w0 + t * w1 → Shows M (onWay a.tail a.tip t)
      (onScreenWay (p.x, p.y) (q.x, q.y) (t * w1 / ((1 - t) * w0 + t * w1)))
      (p.z + t * w1 / ((1 - t) * w0 + t * w1) * (q.z - p.z)) := by
    intro t ht
    refine ⟨(1 - t) * w0 + t * w1, ht.ne', ?_⟩
    rw [mulVec_onWay, ep, eq]
    funext i
    fin_cases i <;> simp [onScreenWay] <;> field_simp <;> ring
  refine ⟨{ (calls.foldl arrowCall (arrow3D a)) with posA := (p.x, p.y), posB := (q.x, q.y) }, (p.x, p.y), (q.x, q.y), p.z, q.z,
    { (calls.foldl arrowCall (arrow3D a)) with posA := (p.x, p.y), posB := (q.x, q.y) }, ?_, ?_, rfl, rfl, sp, sq, ?_, ?_⟩
  · simp only [drawArrow, hv, hp, hq, bind, Except.bind]
  · simp only [do3dProjection, hv, hp, hq, bind, Except.bind]
  · intro t t0 t1
    have hw : 0 < (1 - t) * w0 + t * w1 := by
      rcases t0.lt_or_eq with h | h
      · have := mul_pos h h1
        have := mul_nonneg (sub_nonneg.2 t1) h0.le
        linarith
      · rw [← h]; simpa using h0
    have r0 : 0 ≤ t * w1 / ((1 - t) * w0 + t * w1) := div_nonneg (mul_nonneg t0 h1.le) hw.le
    have r1 : t * w1 / ((1 - t) * w0 + t * w1) ≤ 1 := by
      rw [div_le_one hw]
      have := mul_nonneg (sub_nonneg.2 t1) h0.le
      linarith
    refine ⟨_, _, r0, r1, key t hw, ?_⟩
    have m1 := min_le_left p.z q.z
    have m2 := min_le_right p.z q.z
    nlinarith
  · intro r r0 r1
    have hw : 0 < (1 - r) * w1 + r * w0 := by
      rcases r0.lt_or_eq with h | h
      · have := mul_pos h h0
        have := mul_nonneg (sub_nonneg.2 r1) h1.le
        linarith
      · rw [← h]; simpa using h1
    have hne := hw.ne'
    have ht : (1 - r * w0 / ((1 - r) * w1 + r * w0)) * w0 + r * w0 / ((1 - r) * w1 + r * w0) * w1 =
        w0 * w1 / ((1 - r) * w1 + r * w0) := by field_simp; ring
    have hpos : 0 < (1 - r * w0 / ((1 - r) * w1 + r * w0)) * w0 + r * w0 / ((1 - r) * w1 + r * w0) * w1 := by
      rw [ht]; positivity
    refine ⟨r * w0 / ((1 - r) * w1 + r * w0), p.z + r * (q.z - p.z), div_nonneg (mul_nonneg r0 h0.le) hw.le, ?_, ?_⟩
    · rw [div_le_one hw]
      have := mul_nonneg (sub_nonneg.2 r1) h1.le
      linarith
    · have := key _ hpos
      rw [ht] at this
      have e : r * w0 / ((1 - r) * w1 + r * w0) * w1 / (w0 * w1 / ((1 - r) * w1 + r * w0)) = r := by
        have := h0.ne'
        have := h1.ne'
        field_simp
      rw [e] at this
      exact this

/-- **C137** for a point at infinity of the screen: only an arrow with an end in the plane of the camera is not drawn. -/
theorem C137_undefined (s : ArrowPatch) (M : Camera) : drawArrow s M = .error .nonFinite ↔
    M.mulVec ![s.verts.tail.x, s.verts.tail.y, s.verts.tail.z, 1] 3 = 0 ∨
    M.mulVec ![s.verts.tip.x, s.verts.tip.y, s.verts.tip.z, 1] 3 = 0 := by
  unfold drawArrow projTransform
  simp only
  by_cases h0 : M.mulVec ![s.verts.tail.x, s.verts.tail.y, s.verts.tail.z, 1] 3 = 0 <;>
  by_cases h1 : M.mulVec ![s.verts.tip.x, s.verts.tip.y, s.verts.tip.z, 1] 3 = 0 <;>
  simp [h0, h1, bind, Except.bind]

/-- Non-vacuity: a camera at distance 10 looking along the y axis; the arrow from (0, 0, 1) to (3, 4, 1), drawn before from
elsewhere, is drawn from (0, 1/10) to (3/14, 1/14). -/
example (M0 : Camera) : ∃ s, drawArrow (arrowCall (arrow3D ⟨⟨0, 0, 1⟩, ⟨3, 4, 1⟩, "black", 0.75⟩) (.draw M0))
      !![1, 0, 0, 0; 0, 0, 1, 0; 0, 1, 0, 0; 0, 1, 0, 10] = .ok (s, ((0, 1 / 10), (3 / 14, 1 / 14))) ∧
    InFront !![1, 0, 0, 0; 0, 0, 1, 0; 0, 1, 0, 0; 0, 1, 0, 10] ⟨0, 0, 1⟩ ∧
    InFront !![1, 0, 0, 0; 0, 0, 1, 0; 0, 1, 0, 0; 0, 1, 0, 10] ⟨3, 4, 1⟩ := by
  have h0 : ∀ p : V3, (!![1, 0, 0, 0; 0, 0, 1, 0; 0, 1, 0, 0; 0, 1, 0, 10] : Camera).mulVec ![p.x, p.y, p.z, 1] =
      ![p.x, p.z, p.y, p.y + 10] := by
    intro p
    funext i
    fin_cases i <;> simp [Matrix.mulVec, dotProduct, Fin.sum_univ_four]
  have p0 : projTransform !![1, 0, 0, 0; 0, 0, 1, 0; 0, 1, 0, 0; 0, 1, 0, 10] ⟨0, 0, 1⟩ = .ok ⟨0, 1 / 10, 0⟩ := by
    unfold projTransform; rw [h0]; simp <;> norm_num
  have p1 : projTransform !![1, 0, 0, 0; 0, 0, 1, 0; 0, 1, 0, 0; 0, 1, 0, 10] ⟨3, 4, 1⟩ = .ok ⟨3 / 14, 1 / 14, 4 / 14⟩ := by
    unfold projTransform; rw [h0]; simp <;> norm_num
  refine ⟨{ (arrowCall (arrow3D ⟨⟨0, 0, 1⟩, ⟨3, 4, 1⟩, "black", 0.75⟩) (.draw M0)) with posA := (0, 1 / 10), posB := (3 / 14, 1 / 14) },
    ?_, ?_, ?_⟩
  · simp only [drawArrow, arrowCall_verts, arrow3D, p0, p1, bind, Except.bind]
  · unfold InFront; rw [h0]; simp
  · unfold InFront; rw [h0]; simp; norm_num

/-! ## C138 -/

/-- **C138.** The plot of an accepted airfoil is one blue line through `n` points, from the leading edge `x = 0` to the
trailing edge `(1, 0)` in equal steps, on the camber curve with its maximum `m` at `x = p`; it starts at the origin unless
`p = 0`; the line never leaves the strip `0 ≤ y ≤ m`, and it does not depend on the thickness.  The window is opened only
on request. -/
theorem C138_airfoil_plot (m p t t' : ℝ) (N : ℕ) (show_ : Bool)
    (hm : 0 ≤ m ∧ m ≤ 0.3) (hp : 0 ≤ p ∧ p ≤ 0.9) (ht : 0 ≤ t ∧ t ≤ 0.4) (ht' : 0 ≤ t' ∧ t' ≤ 0.4) :
    ∃ foil foil' fig, vlmAirfoil m p t (N + 1) = .ok foil ∧ vlmAirfoil m p t' (N + 1) = .ok foil' ∧
      airfoilPlot foil show_ = (fig, show_) ∧ airfoilPlot foil' show_ = (fig, show_) ∧
      fig.color = "blue" ∧ fig.equal = true ∧ fig.xlabel = "x" ∧ fig.ylabel = "y" ∧ fig.xlim = (0, 1) ∧
      fig.line.length = N + 1 ∧
      (∀ k ≤ N, ∃ x y, fig.line[k]? = some (x, y) ∧ x = (k : ℝ) / N ∧
        (x < p → y = m * (1 - ((x - p) / p) ^ 2)) ∧ (p ≤ x → y = m * (1 - ((x - p) / (1 - p)) ^ 2)) ∧ 0 ≤ y ∧ y ≤ m) ∧
      (0 < p → fig.line.head? = some (0, 0)) ∧ (0 < N → fig.line.getLast? = some (1, 0)) := by
  obtain ⟨foil, hf, l1, l2, hpt⟩ := C10_camber_line m p t N hm hp ht
  obtain ⟨foil', hf', l1', l2', hpt'⟩ := C10_camber_line m p t' N hm hp ht'
  have hval : ∀ k ≤ N, ∃ x y, (List.zip foil.xc foil.yc)[k]? = some (x, y) ∧ x = (k : ℝ) / N ∧
        (x < p → y = m * (1 - ((x - p) / p) ^ 2)) ∧ (p ≤ x → y = m * (1 - ((x - p) / (1 - p)) ^ 2)) ∧ 0 ≤ y ∧ y ≤ m ∧
        (x = 1 → y = 0) ∧ (x = 0 → 0 < p → y = 0) := by
    intro k hk
    obtain ⟨x, y, h1, h2, h3, h4, h5, h6, h7, -, h8, h9⟩ := hpt k hk
    exact ⟨x, y, by rw [List.getElem?_zip_eq_some]; exact ⟨h1, h2⟩, h3, h4, h5, h6, h7, h8, h9⟩
  have hlen : (List.zip foil.xc foil.yc).length = N + 1 := by rw [List.length_zip, l1, l2, min_self]
  have hsame : List.zip foil.xc foil.yc = List.zip foil'.xc foil'.yc := by
    apply List.ext_getElem?
    intro k
    by_cases hk : k ≤ N
    · obtain ⟨x, y, h1, h3, h4, h5, -⟩ := hval k hk
      obtain ⟨x', y', g1, g2, g3, g4, g5, -⟩ := hpt' k hk
      rw [h1, eq_comm, List.getElem?_zip_eq_some]
      have ex : x' = x := by rw [g3, h3]
      subst ex
      refine ⟨g1, ?_⟩
      rw [g2]
      rcases lt_or_ge x' p with h | h
      · rw [g4 h, h4 h]
      · rw [g5 h, h5 h]
    · rw [List.getElem?_eq_none (by omega), List.getElem?_eq_none (by rw [List.length_zip, l1', l2', min_self]; omega)]
  refine ⟨foil, foil', ⟨(0, 1), "x", "y", true, true, List.zip foil.xc foil.yc, "blue"⟩, hf, hf', rfl, ?_, rfl, rfl, rfl, rfl, rfl,
    hlen, ?_, ?_, ?_⟩
  · unfold airfoilPlot
    rw [hsame]
  · intro k hk
    obtain ⟨x, y, h1, h2, h3, h4, h5, h6, -⟩ := hval k hk
    exact ⟨x, y, h1, h2, h3, h4, h5, h6⟩
  · intro h0
    obtain ⟨x, y, h1, h2, -, -, -, -, -, h8⟩ := hval 0 (by omega)
    have hx : x = 0 := by rw [h2]; simp
    rw [List.head?_eq_getElem?, h1, hx, h8 hx h0]
  · intro h0
    obtain ⟨x, y, h1, h2, -, -, -, -, h8, -⟩ := hval N le_rfl
    have hx : x = 1 := by rw [h2]; exact div_self (by exact_mod_cast h0.ne')
    rw [List.getLast?_eq_getElem?]
    simp only
    rw [hlen, Nat.add_sub_cancel, h1, hx, h8 hx]

/-- Non-vacuity: NACA 2412 and 2415, drawn with 11 points: the line passes through the top of the camber. -/
example : ∃ (foil : Airfoil) (fig : AirfoilPlot), vlmAirfoil 0.02 0.4 0.12 (10 + 1) = .ok foil ∧ airfoilPlot foil true = (fig, true) ∧
    fig.line[4]? = some ((0.4, 0.02) : ℝ × ℝ) ∧ fig.line.getLast? = some (1, 0) := by
  obtain ⟨foil, -, fig, h1, -, h2, -, -, -, -, -, -, -, h3, -, h4⟩ :=
    C138_airfoil_plot 0.02 0.4 0.12 0.15 10 true (by norm_num) (by norm_num) (by norm_num) (by norm_num)
  obtain ⟨x, y, k1, k2, -, k4, -⟩ := h3 4 (by norm_num)
  have hx : x = 0.4 := by rw [k2]; norm_num
  exact ⟨foil, fig, h1, h2, by rw [k1, hx, k4 hx.ge, hx]; norm_num, h4 (by norm_num)⟩

end PySailing.Props
