import Verif.Spec.Units
import Verif.Lemmas.Tack
import Verif.Lemmas.Scaling

/-!
# Lemmas: settings in other units, geometry
-/

namespace PySailing

open Spec Props

/-- A point or vector enlarged. -/
noncomputable def big (s : ℝ) (p : V3) : V3 := s • p

theorem big_zero (s : ℝ) : big s 0 = 0 := smul_zero s

theorem big_add (s : ℝ) (a b : V3) : big s (a + b) = big s a + big s b := smul_add s a b

theorem big_sub (s : ℝ) (a b : V3) : big s (a - b) = big s a - big s b := smul_sub s a b

theorem big_sum (s : ℝ) (l : List V3) : (l.map (big s)).sum = big s l.sum := by
  induction l with
  | nil => simp [big_zero]
  | cons a l ih => simp [ih, big_add]

theorem mulVec_big (s : ℝ) (M : M3) (p : V3) : M.mulVec (big s p) = big s (M.mulVec p) := M3.mulVec_smul M s p

/-! ## Rotations -/

/-- The coordinate system with the reference point in other units. -/
noncomputable def Csys.big (s : ℝ) (c : Csys) : Csys := { c with vRef := PySailing.big s c.vRef }

theorem z_big_pos {s : ℝ} (hs : 0 < s) (p : V3) : (big s p).z > 0 ↔ p.z > 0 := by
  have : (big s p).z = s * p.z := rfl
  rw [this]
  exact mul_pos_iff_of_pos_left hs

theorem rotatePointWithMirror_big {s : ℝ} (hs : 0 < s) (c : Csys) (p : V3) :
    (c.big s).rotatePointWithMirror (big s p) = big s (c.rotatePointWithMirror p) := by
  unfold Csys.rotatePointWithMirror
  simp only [z_big_pos hs]
  have h1 : (c.big s).heeling = c.heeling := rfl
  have h2 : (c.big s).reverseHeeling = c.reverseHeeling := rfl
  have h3 : (c.big s).leeway = c.leeway := rfl
  rw [h1, h2, h3]
  split_ifs <;> simp only [mulVec_big]

theorem rotatePointWithoutMirror_big (s : ℝ) (c : Csys) (p : V3) :
    (c.big s).rotatePointWithoutMirror (big s p) = big s (c.rotatePointWithoutMirror p) := by
  unfold Csys.rotatePointWithoutMirror
  have h1 : (c.big s).heeling = c.heeling := rfl
  have h3 : (c.big s).leeway = c.leeway := rfl
  rw [h1, h3, mulVec_big, mulVec_big]

theorem reverseRotations_big {s : ℝ} (hs : 0 < s) (c : Csys) (p : V3) :
    (c.big s).reverseRotationsWithMirror (big s p) = big s (c.reverseRotationsWithMirror p) := by
  unfold Csys.reverseRotationsWithMirror
  have h1 : (c.big s).heeling = c.heeling := rfl
  have h2 : (c.big s).reverseHeeling = c.reverseHeeling := rfl
  have h3 : (c.big s).reverseLeeway = c.reverseLeeway := rfl
  simp only [h1, h2, h3, mulVec_big, z_big_pos hs]
  split_ifs <;> rfl

theorem rodrigues_big (s : ℝ) (u v : V3) (θ : ℝ) : rodrigues u θ (big s v) = big s (rodrigues u θ v) := by
  unfold rodrigues big
  ext <;> simp [V3.dot] <;> ring

theorem unit_big {s : ℝ} (hs : 0 < s) (v : V3) : unit (big s v) = unit v := by
  unfold unit big
  rw [V3.norm_smul, abs_of_pos hs, smul_smul]
  by_cases h : v.norm = 0
  · simp [h]
  · congr 1
    field_simp

theorem rotateAboutLine_big {s : ℝ} (hs : 0 < s) (p1 p2 p : V3) (θ : ℝ) :
    rotateAboutLine (big s p1) (big s p2) θ (big s p) = big s (rotateAboutLine p1 p2 θ p) := by
  unfold rotateAboutLine
  rw [← big_sub, ← big_sub, unit_big hs, rodrigues_big, big_add]

theorem rotatePoints_big {s : ℝ} (hs : 0 < s) (ps : List V3) (p1 p2 : V3) (θ : ℝ) :
    rotatePointsAroundArbitraryAxis (ps.map (big s)) (big s p1) (big s p2) θ =
      (rotatePointsAroundArbitraryAxis ps p1 p2 θ).map (List.map (big s)) := by
  have hd : big s p2 - big s p1 = big s (p2 - p1) := (big_sub _ _ _).symm
  have hy : (big s p2 - big s p1).y = s * (p2 - p1).y := by rw [hd]; rfl
  have hz : (big s p2 - big s p1).z = s * (p2 - p1).z := by rw [hd]; rfl
  by_cases h0 : (p2 - p1).y ≠ 0 ∨ (p2 - p1).z ≠ 0
  · rw [(C03_rotation_about_line_partial ps p1 p2 θ h0).1,
      (C03_rotation_about_line_partial (ps.map (big s)) _ _ θ
        (by rw [hy, hz]; exact h0.imp (mul_ne_zero hs.ne') (mul_ne_zero hs.ne'))).1]
    simp only [Except.map, List.map_map]
    congr 1
    exact List.map_congr_left fun p _ => rotateAboutLine_big hs p1 p2 p θ
  · push Not at h0
    by_cases hp : ps = []
    · subst hp; simp [rotatePointsAroundArbitraryAxis, Except.map]
    · rw [(C03_refuted_parallel_x ps hp p1 p2 θ h0.1 h0.2).1,
        (C03_refuted_parallel_x (ps.map (big s)) (by simpa using hp) _ _ θ
          (by rw [hy, h0.1, mul_zero]) (by rw [hz, h0.2, mul_zero])).1]
      rfl

/-! ## The twist step -/

theorem rotatePointsAroundLe_big {s : ℝ} (hs : 0 < s) (ps : List V3) (p1 p2 : V3) (twist : List ℝ) :
    rotatePointsAroundLe (ps.map (big s)) (big s p1) (big s p2) twist =
      (rotatePointsAroundLe ps p1 p2 twist).map (List.map (big s)) := by
  cases twist with
  | nil => rfl
  | cons t0 tw =>
    unfold rotatePointsAroundLe
    simp only
    by_cases h : ∀ t ∈ t0 :: tw, t = t0
    · rw [if_pos h, if_pos h, rotatePoints_big hs]
    · rw [if_neg h, if_neg h]
      have hz : (ps.map (big s)).zip (t0 :: tw) = (ps.zip (t0 :: tw)).map fun q => (big s q.1, q.2) := by
        rw [List.zip_map_left]; rfl
      rw [hz]
      have hm : ∀ l : List (V3 × ℝ), ((l.map fun q => (big s q.1, q.2)).mapM fun q =>
          rotatePointsAroundArbitraryAxis [q.1] (big s p1) (big s p2) (deg2rad q.2)) =
          (l.mapM fun q => rotatePointsAroundArbitraryAxis [q.1] p1 p2 (deg2rad q.2)).map
            (List.map (List.map (big s))) := by
        intro l
        rw [mapM_comp]
        refine mapM_map_congr (γ := V3) _ _ _ _ fun q _ => ?_
        have := rotatePoints_big hs [q.1] p1 p2 (deg2rad q.2)
        simpa only [List.map_cons, List.map_nil] using this
      rw [hm]
      cases (ps.zip (t0 :: tw)).mapM fun q => rotatePointsAroundArbitraryAxis [q.1] p1 p2 (deg2rad q.2) with
      | error e => rfl
      | ok rs => simp [Except.map, bind, Except.bind, pure, Except.pure, List.map_flatten]

theorem getD_big (s : ℝ) (l : List V3) (i : ℕ) : (l.map (big s)).getD i 0 = big s (l.getD i 0) := by
  simp only [List.getD_eq_getElem?_getD, List.getElem?_map]
  cases l[i]? <;> simp [big_zero]

theorem everyNth_big (s : ℝ) (mesh : List V3) (a b : ℕ) :
    everyNth (mesh.map (big s)) a b = (everyNth mesh a b).map (big s) := by
  simp only [everyNth, getD_big, List.map_map]; rfl

theorem almostEq_big {s : ℝ} (hs : 0 < s) (h1 : s ≤ 1) {a b : V3} (h : a.almostEq b) :
    (big s a).almostEq (big s b) := by
  have e : ∀ x y : ℝ, PySailing.almostEq x y → PySailing.almostEq (s * x) (s * y) := by
    intro x y hxy
    unfold PySailing.almostEq at *
    rw [← mul_sub, abs_mul, abs_of_pos hs]
    nlinarith [abs_nonneg (y - x)]
  exact ⟨e _ _ h.1, e _ _ h.2.1, e _ _ h.2.2⟩

theorem assertAlmostEqual_big {s : ℝ} (hs : 0 < s) (h1 : s ≤ 1) {a b : List V3}
    (h : assertAlmostEqual a b = .ok ()) : assertAlmostEqual (a.map (big s)) (b.map (big s)) = .ok () := by
  unfold assertAlmostEqual at *
  split_ifs at h with h0
  rw [if_pos]
  refine ⟨by simpa using h0.1, fun q hq => ?_⟩
  simp only [List.zip_map, List.mem_map] at hq
  obtain ⟨p, hp, rfl⟩ := hq
  exact almostEq_big hs h1 (h0.2 p hp)

theorem twistMesh_big {s : ℝ} (hs : 0 < s) {mesh : List V3} {a b : ℕ} {tw : List ℝ} {tr : List V3}
    (h : twistMesh mesh a b tw = .ok tr) (ho : s ≤ 1 ∨ ∃ r, twistMesh (mesh.map (big s)) a b tw = .ok r) :
    twistMesh (mesh.map (big s)) a b tw = .ok (tr.map (big s)) := by
  unfold twistMesh at *
  simp only [everyNth_big, getD_big, rotatePointsAroundLe_big hs] at h ho ⊢
  cases hr : rotatePointsAroundLe mesh ((everyNth mesh a b).getD 0 0) ((everyNth mesh a b).getD (a - 1) 0) tw with
  | error e => rw [hr] at h; cases e <;> cases h
  | ok l =>
    rw [hr] at h ho
    simp only [Except.map, nanFailsAssert, bind, Except.bind, everyNth_big] at h ho ⊢
    cases ha : assertAlmostEqual (everyNth l a b) (everyNth mesh a b) with
    | error e => rw [ha] at h; cases h
    | ok v =>
      rw [ha] at h
      cases h
      rcases ho with h1 | ⟨r, hr'⟩
      · rw [assertAlmostEqual_big hs h1 ha]; rfl
      · cases hb : assertAlmostEqual ((everyNth tr a b).map (big s)) ((everyNth mesh a b).map (big s)) with
        | error e => rw [hb] at hr'; cases hr'
        | ok w => rfl

/-! ## Sails -/

/-- The arguments of the sail constructor in other units. -/
noncomputable def SailInput.big (s : ℝ) (i : SailInput) : SailInput :=
  { i with
    csys := i.csys.big s
    head := PySailing.big s i.head
    tack := PySailing.big s i.tack
    chords := i.chords.map (s * ·) }

theorem twistBlock_big {s : ℝ} (hs : 0 < s) {i : SailInput} {a b : ℕ} {mesh under : List V3} {r : List V3 × List V3}
    (h : twistBlock i a b mesh under = .ok r)
    (ho : s ≤ 1 ∨ ∃ r', twistBlock (i.big s) a b (mesh.map (big s)) (under.map (big s)) = .ok r') :
    twistBlock (i.big s) a b (mesh.map (big s)) (under.map (big s)) = .ok (r.1.map (big s), r.2.map (big s)) := by
  unfold twistBlock SailInput.big at *
  cases htw : i.twist with
  | none => rw [htw] at h; simp only at h; cases h; rfl
  | some tw =>
  cases hm : i.mode with
  | none => rw [htw, hm] at h; simp only at h; cases h; simp
  | some mode =>
  rw [htw, hm] at h
  simp only [htw, hm, bind, Except.bind] at h ho ⊢
  cases h1 : twistDict tw mode with
  | error e => rw [h1] at h; cases h
  | ok v =>
  rw [h1] at h ho
  simp only at h ho ⊢
  cases h2 : twistPerPoint tw a b with
  | error e => rw [h2] at h; cases h
  | ok t =>
  rw [h2] at h ho
  simp only at h ho ⊢
  cases h3 : twistMesh mesh a b t with
  | error e => rw [h3] at h; cases h
  | ok tr =>
  have h3' : twistMesh (mesh.map (big s)) a b t = .ok (tr.map (big s)) := by
    refine twistMesh_big hs h3 (ho.imp id ?_)
    rintro ⟨r', hr'⟩
    cases h5 : twistMesh (mesh.map (big s)) a b t with
    | error e => rw [h5] at hr'; cases hr'
    | ok w => exact ⟨w, rfl⟩
  rw [h3'] at ho ⊢
  rw [h3] at h
  simp only at h ho ⊢
  cases h4 : twistMesh under a b t.reverse with
  | error e => rw [h4] at h; cases h
  | ok tru =>
  have h4' : twistMesh (under.map (big s)) a b t.reverse = .ok (tru.map (big s)) := by
    refine twistMesh_big hs h4 (ho.imp id ?_)
    rintro ⟨r', hr'⟩
    cases h5 : twistMesh (under.map (big s)) a b t.reverse with
    | error e => rw [h5] at hr'; cases hr'
    | ok w => exact ⟨w, rfl⟩
  rw [h4] at h
  cases h
  rw [h4']
  rfl

/-- A sail in other units. -/
noncomputable def SailGeom.big (s : ℝ) (g : SailGeom) : SailGeom :=
  { g with
    panelsAbove := g.panelsAbove.map (scalePanel s)
    panelsUnder := g.panelsUnder.map (scalePanel s)
    panelsAboveZero := g.panelsAboveZero.map (scalePanel s)
    panelsUnderZero := g.panelsUnderZero.map (scalePanel s)
    tackMounting := PySailing.big s g.tackMounting }

/-- An array of points in other units. -/
noncomputable def NdMesh.big (s : ℝ) (m : NdMesh) : NdMesh := { m with at' := fun i j => PySailing.big s (m.at' i j) }

theorem makePanels_big (s : ℝ) (m : NdMesh) :
    (makePanelsFromMeshSpanwise (m.big s).swapaxes).panels =
      (makePanelsFromMeshSpanwise m.swapaxes).panels.map (scalePanel s) := by
  simp only [makePanelsFromMeshSpanwise, NdMesh.swapaxes, NdMesh.big, List.map_flatMap, List.map_map, panelAt]
  rfl

theorem reshape_big (s : ℝ) (n0 n1 : ℕ) (l : List V3) : NdMesh.reshape n0 n1 (l.map (big s)) = (NdMesh.reshape n0 n1 l).big s := by
  simp only [NdMesh.reshape, NdMesh.big, getD_big]

theorem flatten_big (s : ℝ) (m : NdMesh) : (m.big s).flatten = m.flatten.map (big s) := by
  simp only [NdMesh.flatten, NdMesh.big, List.map_flatMap, List.map_map]
  rfl

theorem discreteSegment_big (s : ℝ) (a b : V3) (n : ℕ) :
    discreteSegment (big s a) (big s b) n = (discreteSegment a b n).map (big s) := by
  simp only [discreteSegment, List.map_append, List.map_map, List.map_cons, List.map_nil]
  congr 1
  refine List.map_congr_left fun i _ => ?_
  simp only [Function.comp, big]
  ext <;> simp <;> ring

theorem teLine_big (s : ℝ) (le : List V3) (chords : List ℝ) :
    teLine (le.map (big s)) (chords.map (s * ·)) = (teLine le chords).map (List.map (big s)) := by
  have e : ∀ (p : V3) (c : ℝ), big s p + ⟨s * c, 0, 0⟩ = big s (p + ⟨c, 0, 0⟩) := by
    intro p c
    ext <;> simp [big]
  unfold teLine
  simp only [List.length_map]
  by_cases h : chords.length = le.length
  · rw [if_pos h, if_pos h]
    simp only [Except.map, List.zipWith_map, List.map_zipWith, e]
  · rw [if_neg h, if_neg h]
    rcases chords with _ | ⟨c, _ | ⟨d, l⟩⟩
    · rfl
    · simp only [List.map_cons, List.map_nil, Except.map, List.map_map]
      congr 1
      exact List.map_congr_left fun p _ => e p c
    · rfl

theorem airfoilRow_big (s : ℝ) (n : ℕ) (distance camber : List ℝ) (r : ℕ) (p1 p2 : V3) :
    airfoilRow n distance camber r (big s p1) (big s p2) = (airfoilRow n distance camber r p1 p2).map (List.map (big s)) := by
  unfold airfoilRow
  simp only [bind, Except.bind]
  cases idx distance r with
  | error e => rfl
  | ok p =>
  simp only
  cases idx camber r with
  | error e => rfl
  | ok m =>
  simp only
  cases vlmAirfoil m p 0.0 n with
  | error e => rfl
  | ok foil =>
  simp only [pure, Except.pure, Except.map, List.zipWith_map, List.map_zipWith]
  congr 2
  funext x y
  ext <;> simp [big] <;> ring

theorem getD_getD_big (s : ℝ) (rows : List (List V3)) (i j : ℕ) :
    ((rows.map (List.map (big s))).getD i []).getD j 0 = big s ((rows.getD i []).getD j 0) := by
  have : (rows.map (List.map (big s))).getD i [] = (rows.getD i []).map (big s) := by
    simp only [List.getD_eq_getElem?_getD, List.getElem?_map]
    cases rows[i]? <;> simp
  rw [this, getD_big]

theorem makeAirfoilMesh_big (s : ℝ) (a b : V3) (nc ns : ℕ) (chords distance camber : List ℝ) :
    makeAirfoilMesh (big s a) (big s b) nc ns (chords.map (s * ·)) distance camber =
      (makeAirfoilMesh a b nc ns chords distance camber).map (NdMesh.big s) := by
  unfold makeAirfoilMesh
  simp only [discreteSegment_big, teLine_big, bind, Except.bind]
  cases teLine (discreteSegment a b ns) chords with
  | error e => rfl
  | ok te =>
  simp only [Except.map]
  have hz : (((discreteSegment a b ns).map (big s)).zip (te.map (big s))).zipIdx =
      (((discreteSegment a b ns).zip te).zipIdx).map fun q => ((big s q.1.1, big s q.1.2), q.2) := by
    rw [List.zip_map, List.zipIdx_map]
    rfl
  rw [hz, mapM_comp]
  rw [mapM_map_congr (γ := V3) _ _ (List.map (big s)) _ fun q _ => airfoilRow_big s (nc + 1) distance camber q.2 q.1.1 q.1.2]
  cases (((discreteSegment a b ns).zip te).zipIdx).mapM fun q => airfoilRow (nc + 1) distance camber q.2 q.1.1 q.1.2 with
  | error e => rfl
  | ok rows =>
    simp only [Except.map, pure, Except.pure, NdMesh.ofRows, NdMesh.big, List.length_map, getD_getD_big]

theorem flipZ_big (s : ℝ) (p : V3) : flipZ (big s p) = big s (flipZ p) := by
  ext <;> simp [flipZ, big]

theorem sailGeometry_big {s : ℝ} (hs : 0 < s) {i : SailInput} {g : SailGeom} (h : sailGeometry i = .ok g)
    (ho : s ≤ 1 ∨ ∃ g', sailGeometry (i.big s) = .ok g') : sailGeometry (i.big s) = .ok (g.big s) := by
  unfold sailGeometry at h ho ⊢
  simp only [bind, Except.bind] at h ho ⊢
  have e1 : (i.big s).tack = big s i.tack := rfl
  have e2 : (i.big s).head = big s i.head := rfl
  have e3 : (i.big s).chords = i.chords.map (s * ·) := rfl
  have e4 : (i.big s).distance = i.distance := rfl
  have e5 : (i.big s).camber = i.camber := rfl
  have e6 : (i.big s).csys = i.csys.big s := rfl
  have e7 : (i.big s).nc = i.nc := rfl
  have e8 : (i.big s).ns = i.ns := rfl
  simp only [e1, e2, e3, e4, e5, e6, e7, e8, flipZ_big, ← List.map_reverse, makeAirfoilMesh_big] at ho ⊢
  cases hm : makeAirfoilMesh i.tack i.head i.nc i.ns i.chords i.distance i.camber with
  | error e => rw [hm] at h; cases h
  | ok m =>
  rw [hm] at h ho
  simp only [Except.map] at h ho ⊢
  cases hmu : makeAirfoilMesh (flipZ i.head) (flipZ i.tack) i.nc i.ns i.chords.reverse i.distance i.camber.reverse with
  | error e => rw [hmu] at h; cases h
  | ok mu =>
  rw [hmu] at h ho
  simp only at h ho ⊢
  have hf : ∀ m : NdMesh, (m.big s).flatten.map (i.csys.big s).rotatePointWithMirror =
      (m.flatten.map i.csys.rotatePointWithMirror).map (big s) := by
    intro m
    rw [flatten_big, List.map_map, List.map_map]
    exact List.map_congr_left fun p _ => rotatePointWithMirror_big hs i.csys p
  have en0 : (m.big s).n0 = m.n0 := rfl
  have en1 : (m.big s).n1 = m.n1 := rfl
  simp only [hf, en0, en1] at ho ⊢
  cases ht : twistBlock i m.n0 m.n1 (m.flatten.map i.csys.rotatePointWithMirror)
      (mu.flatten.map i.csys.rotatePointWithMirror) with
  | error e => rw [ht] at h; cases h
  | ok r =>
  have ht' := twistBlock_big hs ht (ho.imp id (by
    rintro ⟨g', hg'⟩
    cases h5 : twistBlock (i.big s) m.n0 m.n1 ((m.flatten.map i.csys.rotatePointWithMirror).map (big s))
      ((mu.flatten.map i.csys.rotatePointWithMirror).map (big s)) with
    | error e => rw [h5] at hg'; cases hg'
    | ok w => exact ⟨w, rfl⟩))
  rw [ht] at h
  rw [ht']
  simp only [reshape_big] at h ⊢
  have ete : ∀ m : NdMesh, (makePanelsFromMeshSpanwise (m.big s).swapaxes).te =
    (makePanelsFromMeshSpanwise m.swapaxes).te := fun _ => rfl
  have ele : ∀ m : NdMesh, (makePanelsFromMeshSpanwise (m.big s).swapaxes).le =
    (makePanelsFromMeshSpanwise m.swapaxes).le := fun _ => rfl
  simp only [ete, ele, makePanels_big]
  split_ifs at h ⊢
  injection h with h
  subst h
  rfl

/-! ## Interpolation -/

theorem interp1_smul (c x : ℝ) (l : List (ℝ × ℝ)) : interp1 x (l.map fun q => (q.1, c * q.2)) = c * interp1 x l := by
  induction l with
  | nil => simp [interp1]
  | cons a l ih =>
    cases l with
    | nil => simp [interp1]
    | cons b l =>
      simp only [List.map_cons, interp1] at ih ⊢
      rw [ih]
      split_ifs
      · rfl
      · ring
      · rfl

theorem isSpline_smul (c : ℝ) {m : ℕ} {xs ys : ℕ → ℝ} {S : ℝ → ℝ} (h : IsSpline m xs ys S) :
    IsSpline m xs (fun i => c * ys i) fun x => c * S x := by
  have hc : ∀ {I : Set ℝ}, CubicOn S I → CubicOn (fun x => c * S x) I := by
    rintro I ⟨a, b, d, e, h⟩
    exact ⟨c * a, c * b, c * d, c * e, fun x hx => by beta_reduce; rw [h x hx]; ring⟩
  exact ⟨fun i hi => by rw [h.through i hi], contDiff_const.mul h.smooth, hc h.first, fun i h1 h2 => hc (h.between i h1 h2),
    hc h.last⟩

theorem fitpackSpline_smul (c : ℝ) (xNew xs ys : List ℝ) :
    fitpackSpline xNew xs (ys.map (c * ·)) = (fitpackSpline xNew xs ys).map (List.map (c * ·)) := by
  unfold fitpackSpline
  rw [List.length_map]
  by_cases h1 : xs.length ≠ ys.length
  · rw [if_pos h1, if_pos h1]; rfl
  rw [if_neg h1, if_neg h1]
  by_cases h2 : xs.length ≤ 3
  · rw [if_pos h2, if_pos h2]; rfl
  rw [if_neg h2, if_neg h2]
  by_cases h3 : ∃ i, i + 1 < xs.length ∧ xs.getD (i + 1) 0 < xs.getD i 0
  · rw [if_pos h3, if_pos h3]; rfl
  rw [if_neg h3, if_neg h3]
  by_cases h4 : ∃ i, i + 1 < xs.length ∧ xs.getD (i + 1) 0 = xs.getD i 0
  · rw [if_pos h4, if_pos h4]; rfl
  rw [if_neg h4, if_neg h4]
  have hx : ∀ i < xs.length - 1, xs.getD i 0 < xs.getD (i + 1) 0 := by
    intro i hi
    rcases lt_trichotomy (xs.getD i 0) (xs.getD (i + 1) 0) with h | h | h
    · exact h
    · exact absurd ⟨i, by omega, h.symm⟩ h4
    · exact absurd ⟨i, by omega, h⟩ h3
  have hm : 3 ≤ xs.length - 1 := by omega
  have e : (fun i => (ys.map (c * ·)).getD i 0) = fun i => c * ys.getD i 0 := by
    funext i
    simp only [List.getD_eq_getElem?_getD, List.getElem?_map]
    cases ys[i]? <;> simp
  have hS := splineThrough_isSpline (xs := fun i => xs.getD i 0) hm hx fun i => ys.getD i 0
  have hT := splineThrough_isSpline (xs := fun i => xs.getD i 0) hm hx fun i => c * ys.getD i 0
  rw [e, hT.unique hm hx (isSpline_smul c hS)]
  simp only [Except.map, List.map_map]
  rfl

theorem npInterp_smul (c : ℝ) (xNew xs ys : List ℝ) :
    npInterp xNew xs (ys.map (c * ·)) = (npInterp xNew xs ys).map (List.map (c * ·)) := by
  have e : xs.zip (ys.map (c * ·)) = (xs.zip ys).map fun q => (q.1, c * q.2) := by
    rw [List.zip_map_right]; rfl
  unfold npInterp
  rw [List.length_map, e]
  split_ifs
  · rfl
  · rfl
  · simp only [Except.map, List.map_map, interp1_smul]; rfl

theorem interpolateGirths_smul (c : ℝ) {spline : SplineFn} {kind : String} (hk : kind = "linear" ∨ spline = fitpackSpline)
    (xs ys : List ℝ) (n : ℕ) :
    interpolateGirths spline kind xs (ys.map (c * ·)) n = (interpolateGirths spline kind xs ys n).map (List.map (c * ·)) := by
  unfold interpolateGirths
  simp only
  by_cases h1 : kind = "linear"
  · rw [if_pos h1, if_pos h1]; exact npInterp_smul _ _ _ _
  · have hs : spline = fitpackSpline := hk.resolve_left h1
    subst hs
    rw [if_neg h1, if_neg h1]
    split_ifs
    · exact fitpackSpline_smul _ _ _ _
    · rfl

theorem interpolatedSail_units {spline : SplineFn} {s : SolverConf} (hk : s.interpolation = "linear" ∨ spline = fitpackSpline)
    (u : Units) (c : SailConf) : interpolatedSail spline s (sailInUnits u c) =
      (interpolatedSail spline s c).map fun r => (r.1.map (u.length * ·), r.2.1, r.2.2.1, r.2.2.2) := by
  unfold interpolatedSail
  have e1 : (sailInUnits u c).girths = c.girths := rfl
  have e2 : (sailInUnits u c).twist = c.twist := rfl
  have e3 : (sailInUnits u c).camber = c.camber := rfl
  have e4 : (sailInUnits u c).distance = c.distance := rfl
  rw [e1, e2, e3, e4]
  simp only [bind, Except.bind]
  cases needArray s.interpolation c.girths with
  | error e => rfl
  | ok gi =>
  simp only
  cases h2 : c.chords with
  | none =>
    have : (sailInUnits u c).chords = none := by simp [sailInUnits, h2]
    rw [this]
    obtain ⟨e, he⟩ := needArray_none s.interpolation
    rw [he]; rfl
  | some ch =>
  have : (sailInUnits u c).chords = some (ch.map (u.length * ·)) := by simp [sailInUnits, h2]
  rw [this]
  simp only [needArray_some, interpolateGirths_smul _ hk]
  cases interpolateGirths spline s.interpolation gi ch (s.ns + 1) with
  | error e => rfl
  | ok ch' =>
  simp only [Except.map]
  cases needArray s.interpolation c.twist with
  | error e => rfl
  | ok tw =>
  simp only
  cases interpolateGirths spline s.interpolation gi tw (s.ns + 1) with
  | error e => rfl
  | ok tw' =>
  simp only
  cases needArray s.interpolation c.camber with
  | error e => rfl
  | ok ca =>
  simp only
  cases interpolateGirths spline s.interpolation gi ca (s.ns + 1) with
  | error e => rfl
  | ok ca' =>
  simp only
  cases needArray s.interpolation c.distance with
  | error e => rfl
  | ok di =>
  simp only
  cases interpolateGirths spline s.interpolation gi di (s.ns + 1) with
  | error e => rfl
  | ok di' => rfl

/-! ## The sail set -/

theorem jibMounting_big {s : ℝ} (hs : 0 < s) (f : SailFactory) (luff base height loa : ℝ) :
    ({ f with csys := f.csys.big s, sheer := s * f.sheer } : SailFactory).jibMounting (s * luff) (s * base) (s * height) (s * loa) =
      (f.jibMounting luff base height loa).map fun m => (big s m.1, big s m.2) := by
  have hr : ({ f with csys := f.csys.big s, sheer := s * f.sheer } : SailFactory).rake = f.rake := rfl
  have hq : Real.sqrt (s * base * (s * base) + s * height * (s * height) - 2 * (s * base) * (s * height) * Real.cos f.rake) =
      s * Real.sqrt (base * base + height * height - 2 * base * height * Real.cos f.rake) := by
    have : s * base * (s * base) + s * height * (s * height) - 2 * (s * base) * (s * height) * Real.cos f.rake =
        s ^ 2 * (base * base + height * height - 2 * base * height * Real.cos f.rake) := by ring
    rw [this, Real.sqrt_mul (by positivity), Real.sqrt_sq hs.le]
  unfold SailFactory.jibMounting SailFactory.sheerXyz
  simp only [hr, hq]
  generalize hF : Real.sqrt (base * base + height * height - 2 * base * height * Real.cos f.rake) = F
  by_cases h0 : F = 0
  · rw [if_pos (by rw [h0, mul_zero]), if_pos h0]; rfl
  rw [if_neg (mul_ne_zero hs.ne' h0), if_neg h0]
  by_cases h1 : Real.sin f.rake = 0
  · rw [if_pos h1, if_pos h1]; rfl
  rw [if_neg h1, if_neg h1]
  have ea : s * height * Real.sin f.rake / (s * F) = height * Real.sin f.rake / F := by
    rw [mul_assoc, mul_div_mul_left _ _ hs.ne']
  simp only [ea, Except.map]
  congr 2
  · ext <;> simp [big] <;> ring
  · ext <;> simp [big] <;> ring

theorem mainMounting_big (s : ℝ) (f : SailFactory) (luff boom : ℝ) :
    ({ f with csys := f.csys.big s, sheer := s * f.sheer } : SailFactory).mainMounting (s * luff) (s * boom) =
      (big s (f.mainMounting luff boom).1, big s (f.mainMounting luff boom).2) := by
  have hr : ({ f with csys := f.csys.big s, sheer := s * f.sheer } : SailFactory).rake = f.rake := rfl
  unfold SailFactory.mainMounting SailFactory.sheerXyz
  simp only [hr]
  congr 1
  · ext <;> simp [big] <;> ring
  · ext <;> simp [big] <;> ring

theorem sailJib_units {spline : SplineFn} {s : SolverConf} {rig : RigConf} {csys : Csys} {u : Units} (hu : 0 < u.length)
    (hk : s.interpolation = "linear" ∨ spline = fitpackSpline) {c : SailConf} {g : SailGeom}
    (h : sailJib spline s rig (some c) csys = .ok g)
    (ho : u.length ≤ 1 ∨ ∃ g', sailJib spline s (rigInUnits u rig) (some (sailInUnits u c)) (csys.big u.length) = .ok g') :
    sailJib spline s (rigInUnits u rig) (some (sailInUnits u c)) (csys.big u.length) = .ok (g.big u.length) := by
  unfold sailJib at h ho ⊢
  simp only [attr, bind, Except.bind, interpolatedSail_units hk] at h ho ⊢
  cases hi : interpolatedSail spline s c with
  | error e => rw [hi] at h; cases h
  | ok r =>
  obtain ⟨ch, tw, ca, di⟩ := r
  rw [hi] at h ho
  simp only [Except.map] at h ho ⊢
  cases h1 : rig.jibLuff with
  | none => rw [h1] at h; cases h
  | some luff =>
  cases h2 : rig.base with
  | none => rw [h1, h2] at h; cases h
  | some base =>
  cases h3 : rig.height with
  | none => rw [h1, h2, h3] at h; cases h
  | some height =>
  rw [h1, h2, h3] at h
  have e1 : (rigInUnits u rig).jibLuff = some (u.length * luff) := by simp [rigInUnits, h1]
  have e2 : (rigInUnits u rig).base = some (u.length * base) := by simp [rigInUnits, h2]
  have e3 : (rigInUnits u rig).height = some (u.length * height) := by simp [rigInUnits, h3]
  have e4 : (rigInUnits u rig).mastLOA = u.length * rig.mastLOA := rfl
  have e5 : (rigInUnits u rig).factory s (csys.big u.length) =
    { rig.factory s csys with csys := (rig.factory s csys).csys.big u.length, sheer := u.length * (rig.factory s csys).sheer } := rfl
  rw [e1, e2, e3, e4, e5] at ho ⊢
  simp only [need] at h ho ⊢
  unfold SailFactory.makeJib at h ho ⊢
  simp only [bind, Except.bind, jibMounting_big hu] at h ho ⊢
  cases h4 : (rig.factory s csys).jibMounting luff base height rig.mastLOA with
  | error e => rw [h4] at h; cases h
  | ok m =>
  rw [h4] at h ho
  simp only [Except.map] at h ho ⊢
  exact sailGeometry_big hu h ho

theorem sailMain_units {spline : SplineFn} {s : SolverConf} {rig : RigConf} {csys : Csys} {u : Units} (hu : 0 < u.length)
    (hk : s.interpolation = "linear" ∨ spline = fitpackSpline) {c : SailConf} {g : SailGeom}
    (h : sailMain spline s rig (some c) csys = .ok g)
    (ho : u.length ≤ 1 ∨ ∃ g', sailMain spline s (rigInUnits u rig) (some (sailInUnits u c)) (csys.big u.length) = .ok g') :
    sailMain spline s (rigInUnits u rig) (some (sailInUnits u c)) (csys.big u.length) = .ok (g.big u.length) := by
  unfold sailMain at h ho ⊢
  simp only [attr, bind, Except.bind, interpolatedSail_units hk] at h ho ⊢
  cases hi : interpolatedSail spline s c with
  | error e => rw [hi] at h; cases h
  | ok r =>
  obtain ⟨ch, tw, ca, di⟩ := r
  rw [hi] at h ho
  simp only [Except.map] at h ho ⊢
  cases h1 : rig.mainLuff with
  | none => rw [h1] at h; cases h
  | some luff =>
  rw [h1] at h
  have e1 : (rigInUnits u rig).mainLuff = some (u.length * luff) := by simp [rigInUnits, h1]
  have e4 : (rigInUnits u rig).boom = u.length * rig.boom := rfl
  have e5 : (rigInUnits u rig).factory s (csys.big u.length) =
    { rig.factory s csys with csys := (rig.factory s csys).csys.big u.length, sheer := u.length * (rig.factory s csys).sheer } := rfl
  rw [e1, e4, e5] at ho ⊢
  simp only [need] at h ho ⊢
  unfold SailFactory.makeMainSail at h ho ⊢
  simp only [mainMounting_big] at h ho ⊢
  exact sailGeometry_big hu h ho

/-- A set of sails in other units. -/
noncomputable def SailSet.big (s : ℝ) (t : SailSet) : SailSet :=
  { t with
    sails := t.sails.map (SailGeom.big s)
    panels := t.panels.map (scalePanel s)
    zeroMesh := t.zeroMesh.map (scalePanel s) }

theorem sailSet_big (s : ℝ) {l : List SailGeom} {set : SailSet} (h : sailSet l = .ok set) :
    sailSet (l.map (SailGeom.big s)) = .ok (set.big s) := by
  unfold sailSet at h ⊢
  split_ifs at h with h0
  rw [if_neg (by simpa using h0)]
  injection h with h
  subst h
  simp only [SailSet.big, List.map_map, List.map_append, List.map_flatten]
  rfl

theorem sailSetOf_units {spline : SplineFn} {s : SolverConf} {rig : RigConf} {csys : Csys} {u : Units} (hu : 0 < u.length)
    (hk : s.interpolation = "linear" ∨ spline = fitpackSpline) {main jib : SailConf} {set : SailSet}
    (h : sailSetOf spline s rig (some main) (some jib) csys = .ok set)
    (ho : u.length ≤ 1 ∨ ∃ set', sailSetOf spline s (rigInUnits u rig) (some (sailInUnits u main)) (some (sailInUnits u jib))
      (csys.big u.length) = .ok set') :
    sailSetOf spline s (rigInUnits u rig) (some (sailInUnits u main)) (some (sailInUnits u jib)) (csys.big u.length) =
      .ok (set.big u.length) := by
  unfold sailSetOf at h ho ⊢
  simp only [bind, Except.bind] at h ho ⊢
  have es : (rigInUnits u rig).sailsDef = rig.sailsDef := rfl
  have j : ∀ js, selectedJib spline s rig (some jib) csys = .ok js →
      (u.length ≤ 1 ∨ ∃ js', selectedJib spline s (rigInUnits u rig) (some (sailInUnits u jib)) (csys.big u.length) = .ok js') →
      selectedJib spline s (rigInUnits u rig) (some (sailInUnits u jib)) (csys.big u.length) =
        .ok (js.map (SailGeom.big u.length)) := by
    intro js hjs hjo
    unfold selectedJib at hjs hjo ⊢
    rw [es] at hjo ⊢
    by_cases hd : rig.sailsDef = "jib" ∨ rig.sailsDef = "jib_and_main"
    · rw [if_pos hd] at hjs hjo ⊢
      cases hg : sailJib spline s rig (some jib) csys with
      | error e => rw [hg] at hjs; cases hjs
      | ok g =>
        rw [hg] at hjs
        cases hjs
        rw [sailJib_units hu hk hg (hjo.imp id (by
          rintro ⟨js', hjs'⟩
          cases h5 : sailJib spline s (rigInUnits u rig) (some (sailInUnits u jib)) (csys.big u.length) with
          | error e => rw [h5] at hjs'; cases hjs'
          | ok w => exact ⟨w, rfl⟩))]
        rfl
    · rw [if_neg hd] at hjs ⊢
      cases hjs; rfl
  have m : ∀ ms, selectedMain spline s rig (some main) csys = .ok ms →
      (u.length ≤ 1 ∨ ∃ ms', selectedMain spline s (rigInUnits u rig) (some (sailInUnits u main)) (csys.big u.length) = .ok ms') →
      selectedMain spline s (rigInUnits u rig) (some (sailInUnits u main)) (csys.big u.length) =
        .ok (ms.map (SailGeom.big u.length)) := by
    intro ms hms hmo
    unfold selectedMain at hms hmo ⊢
    rw [es] at hmo ⊢
    by_cases hd : rig.sailsDef = "main" ∨ rig.sailsDef = "jib_and_main"
    · rw [if_pos hd] at hms hmo ⊢
      cases hg : sailMain spline s rig (some main) csys with
      | error e => rw [hg] at hms; cases hms
      | ok g =>
        rw [hg] at hms
        cases hms
        rw [sailMain_units hu hk hg (hmo.imp id (by
          rintro ⟨js', hjs'⟩
          cases h5 : sailMain spline s (rigInUnits u rig) (some (sailInUnits u main)) (csys.big u.length) with
          | error e => rw [h5] at hjs'; cases hjs'
          | ok w => exact ⟨w, rfl⟩))]
        rfl
    · rw [if_neg hd] at hms ⊢
      cases hms; rfl
  cases h1 : selectedJib spline s rig (some jib) csys with
  | error e => rw [h1] at h; cases h
  | ok js =>
  have h1' := j js h1 (ho.imp id (by
    rintro ⟨t, ht⟩
    cases h5 : selectedJib spline s (rigInUnits u rig) (some (sailInUnits u jib)) (csys.big u.length) with
    | error e => rw [h5] at ht; cases ht
    | ok w => exact ⟨w, rfl⟩))
  rw [h1] at h
  rw [h1'] at ho ⊢
  simp only at h ho ⊢
  cases h2 : selectedMain spline s rig (some main) csys with
  | error e => rw [h2] at h; cases h
  | ok ms =>
  have h2' := m ms h2 (ho.imp id (by
    rintro ⟨t, ht⟩
    cases h5 : selectedMain spline s (rigInUnits u rig) (some (sailInUnits u main)) (csys.big u.length) with
    | error e => rw [h5] at ht; cases ht
    | ok w => exact ⟨w, rfl⟩))
  rw [h2] at h
  rw [h2']
  simp only at h ⊢
  rw [← List.map_append]
  exact sailSet_big _ h

end PySailing
