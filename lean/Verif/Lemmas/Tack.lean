import Verif.Spec.Tack
import Verif.Lemmas.Workbook
import Verif.Props.Rotations
import Verif.Props.Spline

/-!
# Lemmas: mirror image in the centre plane, geometry
-/

namespace PySailing

open Spec Props

theorem isIsometry_across : IsIsometry acrossCentre (-1) where
  map_add a b := by ext <;> simp [acrossCentre]; ring
  map_smul s a := by ext <;> simp [acrossCentre]
  dot a b := by simp [acrossCentre, V3.dot]
  cross a b := by ext <;> simp [acrossCentre] <;> ring
  sign := .inr rfl

theorem across_across (p : V3) : acrossCentre (acrossCentre p) = p := by ext <;> simp [acrossCentre]

theorem across_of_y {p : V3} (h : p.y = 0) : acrossCentre p = p := by ext <;> simp [acrossCentre, h]

/-! ## Rotations -/

theorem rotationCore_across {k : V3} (hk : k.y = 0) (θ : ℝ) (p : V3) :
    (rotationMatrixCore k (-θ)).mulVec (acrossCentre p) = acrossCentre ((rotationMatrixCore k θ).mulVec p) := by
  have e : -θ / 2 = -(θ / 2) := by ring
  ext <;> simp [rotationMatrixCore, quatMatrix, M3.mulVec, acrossCentre, V3.dot, e, hk] <;> ring

/-- The coordinate system of the other tack. -/
noncomputable def Csys.across (c : Csys) : Csys := ⟨-c.heelDeg, -c.leewayDeg, acrossCentre c.vRef⟩

namespace Csys

theorem heeling_across (c : Csys) (p : V3) :
    c.across.heeling.mulVec (acrossCentre p) = acrossCentre (c.heeling.mulVec p) := by
  unfold heeling across
  rw [deg2rad_neg (-c.heelDeg)]
  exact rotationCore_across rfl _ _

theorem reverseHeeling_across (c : Csys) (p : V3) :
    c.across.reverseHeeling.mulVec (acrossCentre p) = acrossCentre (c.reverseHeeling.mulVec p) := by
  unfold reverseHeeling across
  rw [deg2rad_neg]
  exact rotationCore_across rfl _ _

theorem leeway_across (c : Csys) (p : V3) :
    c.across.leeway.mulVec (acrossCentre p) = acrossCentre (c.leeway.mulVec p) := by
  unfold leeway across
  rw [deg2rad_neg]
  exact rotationCore_across rfl _ _

theorem reverseLeeway_across (c : Csys) (p : V3) :
    c.across.reverseLeeway.mulVec (acrossCentre p) = acrossCentre (c.reverseLeeway.mulVec p) := by
  unfold reverseLeeway across
  rw [deg2rad_neg (-c.leewayDeg)]
  exact rotationCore_across rfl _ _

theorem rotatePointWithMirror_across (c : Csys) (p : V3) :
    c.across.rotatePointWithMirror (acrossCentre p) = acrossCentre (c.rotatePointWithMirror p) := by
  unfold rotatePointWithMirror
  have : (acrossCentre p).z = p.z := rfl
  simp only [this]
  split_ifs
  · rw [heeling_across, leeway_across]
  · rw [reverseHeeling_across, leeway_across]

theorem rotatePointWithoutMirror_across (c : Csys) (p : V3) :
    c.across.rotatePointWithoutMirror (acrossCentre p) = acrossCentre (c.rotatePointWithoutMirror p) := by
  unfold rotatePointWithoutMirror
  rw [heeling_across, leeway_across]

theorem reverseRotations_across (c : Csys) (p : V3) :
    c.across.reverseRotationsWithMirror (acrossCentre p) = acrossCentre (c.reverseRotationsWithMirror p) := by
  unfold reverseRotationsWithMirror
  simp only [reverseLeeway_across]
  have : ∀ q : V3, (acrossCentre q).z = q.z := fun _ => rfl
  simp only [this]
  split_ifs
  · rw [reverseHeeling_across]
  · rw [heeling_across]

end Csys

theorem rodrigues_isometry {R : V3 → V3} {ε : ℝ} (h : IsIsometry R ε) (u v : V3) (θ : ℝ) :
    rodrigues (R u) (ε * θ) (R v) = R (rodrigues u θ v) := by
  have hs : Real.sin (ε * θ) = ε * Real.sin θ := by
    rcases h.sign with e | e <;> rw [e] <;> simp
  have hc : Real.cos (ε * θ) = Real.cos θ := by
    rcases h.sign with e | e <;> rw [e] <;> simp
  unfold rodrigues
  rw [hs, hc, h.cross, h.dot, h.map_add, h.map_add, h.map_smul, h.map_smul, h.map_smul, smul_smul]
  congr 3
  rw [mul_right_comm, h.sq_one, one_mul]

theorem rotateAboutLine_across (p1 p2 p : V3) (θ : ℝ) :
    rotateAboutLine (acrossCentre p1) (acrossCentre p2) (-θ) (acrossCentre p) =
      acrossCentre (rotateAboutLine p1 p2 θ p) := by
  have h := isIsometry_across
  unfold rotateAboutLine
  rw [← h.map_sub, ← h.map_sub]
  have hu : unit (acrossCentre (p2 - p1)) = acrossCentre (unit (p2 - p1)) := by
    unfold unit; rw [h.norm, h.map_smul]
  have e : -θ = (-1) * θ := by ring
  rw [hu, e, rodrigues_isometry h, h.map_add]

theorem rotatePoints_across (ps : List V3) (p1 p2 : V3) (θ : ℝ) :
    rotatePointsAroundArbitraryAxis (ps.map acrossCentre) (acrossCentre p1) (acrossCentre p2) (-θ) =
      (rotatePointsAroundArbitraryAxis ps p1 p2 θ).map (List.map acrossCentre) := by
  have h := isIsometry_across
  have hd : acrossCentre p2 - acrossCentre p1 = acrossCentre (p2 - p1) := (h.map_sub _ _).symm
  have hy : (acrossCentre p2 - acrossCentre p1).y = -(p2 - p1).y := by rw [hd]; rfl
  have hz : (acrossCentre p2 - acrossCentre p1).z = (p2 - p1).z := by rw [hd]; rfl
  by_cases h0 : (p2 - p1).y ≠ 0 ∨ (p2 - p1).z ≠ 0
  · rw [(C03_rotation_about_line_partial ps p1 p2 θ h0).1,
      (C03_rotation_about_line_partial (ps.map acrossCentre) _ _ (-θ)
        (by rw [hy, hz, neg_ne_zero]; exact h0)).1]
    simp only [Except.map, List.map_map]
    congr 1
    exact List.map_congr_left fun p _ => rotateAboutLine_across p1 p2 p θ
  · push Not at h0
    by_cases hp : ps = []
    · subst hp; simp [rotatePointsAroundArbitraryAxis, Except.map]
    · rw [(C03_refuted_parallel_x ps hp p1 p2 θ h0.1 h0.2).1,
        (C03_refuted_parallel_x (ps.map acrossCentre) (by simpa using hp) _ _ (-θ)
          (by rw [hy, h0.1, neg_zero]) (by rw [hz, h0.2])).1]
      rfl

/-! ## The twist step -/

theorem rotatePointsAroundLe_across (ps : List V3) (p1 p2 : V3) (twist : List ℝ) :
    rotatePointsAroundLe (ps.map acrossCentre) (acrossCentre p1) (acrossCentre p2) (twist.map Neg.neg) =
      (rotatePointsAroundLe ps p1 p2 twist).map (List.map acrossCentre) := by
  cases twist with
  | nil => rfl
  | cons t0 tw =>
    unfold rotatePointsAroundLe
    simp only [List.map_cons]
    have hc : (∀ t ∈ -t0 :: List.map Neg.neg tw, t = -t0) ↔ ∀ t ∈ t0 :: tw, t = t0 := by
      simp only [List.mem_cons, List.mem_map, forall_eq_or_imp, true_and]
      constructor
      · intro h t ht
        have := h (-t) ⟨t, ht, rfl⟩
        linarith
      · rintro h _ ⟨t, ht, rfl⟩
        rw [h t ht]
    by_cases h : ∀ t ∈ t0 :: tw, t = t0
    · rw [if_pos (hc.2 h), if_pos h, deg2rad_neg, rotatePoints_across]
    · rw [if_neg (fun h' => h (hc.1 h')), if_neg h]
      have hz : (ps.map acrossCentre).zip (-t0 :: List.map Neg.neg tw) =
          (ps.zip (t0 :: tw)).map fun q => (acrossCentre q.1, -q.2) := by
        rw [← List.map_cons, List.zip_map]; rfl
      rw [hz]
      have hm : ∀ l : List (V3 × ℝ), ((l.map fun q => (acrossCentre q.1, -q.2)).mapM fun q =>
          rotatePointsAroundArbitraryAxis [q.1] (acrossCentre p1) (acrossCentre p2) (deg2rad q.2)) =
          (l.mapM fun q => rotatePointsAroundArbitraryAxis [q.1] p1 p2 (deg2rad q.2)).map
            (List.map (List.map acrossCentre)) := by
        intro l
        induction l with
        | nil => rfl
        | cons q l ih =>
          rw [List.map_cons, List.mapM_cons, List.mapM_cons, ih]
          have := rotatePoints_across [q.1] p1 p2 (deg2rad q.2)
          simp only [List.map_cons, List.map_nil] at this
          simp only [deg2rad_neg, this]
          cases rotatePointsAroundArbitraryAxis [q.1] p1 p2 (deg2rad q.2) with
          | error e => rfl
          | ok a =>
            simp only [Except.map, bind, Except.bind, pure, Except.pure]
            cases (l.mapM fun q => rotatePointsAroundArbitraryAxis [q.1] p1 p2 (deg2rad q.2)) <;> rfl
      rw [hm]
      cases (ps.zip (t0 :: tw)).mapM fun q => rotatePointsAroundArbitraryAxis [q.1] p1 p2 (deg2rad q.2) with
      | error e => rfl
      | ok rs => simp [Except.map, bind, Except.bind, pure, Except.pure, List.map_flatten]

theorem twistDict_neg {twist : List ℝ} {mode : String} {v : List ℝ} (h : twistDict twist mode = .ok v) :
    ∃ v', twistDict (twist.map Neg.neg) mode = .ok v' := by
  cases twist with
  | nil => cases h
  | cons x xs =>
    unfold twistDict at h ⊢
    simp only [List.map_cons] at h ⊢
    split_ifs at h ⊢ <;> exact ⟨_, rfl⟩

theorem twistPerPoint_neg (twist : List ℝ) (a b : ℕ) :
    twistPerPoint (twist.map Neg.neg) a b = (twistPerPoint twist a b).map (List.map Neg.neg) := by
  have e : (List.replicate b (twist.map Neg.neg)).flatten = ((List.replicate b twist).flatten).map Neg.neg := by
    rw [List.map_flatten, List.map_replicate]
  have hg : ∀ (l : List ℝ) (i : ℕ), (l.map Neg.neg).getD i 0 = -l.getD i 0 := by
    intro l i
    simp only [List.getD_eq_getElem?_getD, List.getElem?_map]
    cases l[i]? <;> simp
  unfold twistPerPoint
  simp only [e, List.length_map]
  split_ifs
  · simp only [Except.map, hg, List.map_flatMap, List.map_map]
    rfl
  · rfl

theorem getD_across (l : List V3) (i : ℕ) : (l.map acrossCentre).getD i 0 = acrossCentre (l.getD i 0) := by
  simp only [List.getD_eq_getElem?_getD, List.getElem?_map]
  cases l[i]? <;> simp [isIsometry_across.map_zero]

theorem everyNth_across (mesh : List V3) (a b : ℕ) :
    everyNth (mesh.map acrossCentre) a b = (everyNth mesh a b).map acrossCentre := by
  simp only [everyNth, getD_across, List.map_map]; rfl

theorem almostEq_across (a b : V3) : (acrossCentre a).almostEq (acrossCentre b) ↔ a.almostEq b := by
  unfold V3.almostEq PySailing.almostEq acrossCentre
  have : |-b.y - -a.y| = |b.y - a.y| := by rw [← abs_neg]; congr 1; ring
  simp only [this]

theorem assertAlmostEqual_across (a b : List V3) :
    assertAlmostEqual (a.map acrossCentre) (b.map acrossCentre) = assertAlmostEqual a b := by
  classical
  unfold assertAlmostEqual
  have : ((a.map acrossCentre).length = (b.map acrossCentre).length ∧
      ∀ q ∈ (a.map acrossCentre).zip (b.map acrossCentre), q.1.almostEq q.2) ↔
      (a.length = b.length ∧ ∀ q ∈ a.zip b, q.1.almostEq q.2) := by
    simp only [List.length_map, List.zip_map, List.mem_map, Prod.map, forall_exists_index, and_imp,
      forall_apply_eq_imp_iff₂, almostEq_across]
  by_cases h : a.length = b.length ∧ ∀ q ∈ a.zip b, q.1.almostEq q.2
  · rw [if_pos (this.2 h), if_pos h]
  · rw [if_neg (fun h' => h (this.1 h')), if_neg h]

theorem twistMesh_across (mesh : List V3) (a b : ℕ) (tw : List ℝ) :
    twistMesh (mesh.map acrossCentre) a b (tw.map Neg.neg) = (twistMesh mesh a b tw).map (List.map acrossCentre) := by
  unfold twistMesh
  simp only [everyNth_across, getD_across, rotatePointsAroundLe_across]
  cases rotatePointsAroundLe mesh ((everyNth mesh a b).getD 0 0) ((everyNth mesh a b).getD (a - 1) 0) tw with
  | error e => cases e <;> rfl
  | ok tr =>
    simp only [Except.map, nanFailsAssert, bind, Except.bind, everyNth_across, assertAlmostEqual_across]
    cases assertAlmostEqual (everyNth tr a b) (everyNth mesh a b) <;> rfl

/-! ## Sails -/

/-- The arguments of the sail constructor for the other tack. -/
noncomputable def SailInput.across (s : SailInput) : SailInput :=
  { s with csys := s.csys.across, twist := s.twist.map (List.map Neg.neg) }

theorem twistBlock_across {s : SailInput} {a b : ℕ} {mesh under : List V3} {r : List V3 × List V3}
    (h : twistBlock s a b mesh under = .ok r) :
    twistBlock s.across a b (mesh.map acrossCentre) (under.map acrossCentre) =
      .ok (r.1.map acrossCentre, r.2.map acrossCentre) := by
  unfold twistBlock SailInput.across at *
  cases htw : s.twist with
  | none => rw [htw] at h; simp only at h; cases h; rfl
  | some tw =>
  cases hm : s.mode with
  | none => rw [htw, hm] at h; simp only at h; cases h; simp
  | some mode =>
  rw [htw, hm] at h
  simp only [Option.map_some, bind, Except.bind] at h ⊢
  cases h1 : twistDict tw mode with
  | error e => rw [h1] at h; cases h
  | ok v =>
  obtain ⟨v', hv'⟩ := twistDict_neg h1
  rw [h1] at h
  rw [hv', twistPerPoint_neg]
  simp only at h ⊢
  cases h2 : twistPerPoint tw a b with
  | error e => rw [h2] at h; cases h
  | ok t =>
  rw [h2] at h
  simp only [Except.map, twistMesh_across, ← List.map_reverse] at h ⊢
  cases h3 : twistMesh mesh a b t with
  | error e => rw [h3] at h; cases h
  | ok tr =>
  rw [h3] at h
  simp only at h ⊢
  cases h4 : twistMesh under a b t.reverse with
  | error e => rw [h4] at h; cases h
  | ok tru =>
  rw [h4] at h
  cases h
  rfl

/-- A panel on the other side. -/
abbrev panelAcross : Panel → Panel := movePanel acrossCentre 0

theorem move_across (p : V3) : move acrossCentre 0 p = acrossCentre p := by simp [move]

/-- A sail on the other side; the meshes of the untwisted upright sail stay. -/
def SailGeom.across (g : SailGeom) : SailGeom :=
  { g with panelsAbove := g.panelsAbove.map panelAcross, panelsUnder := g.panelsUnder.map panelAcross }

theorem makePanels_across (n0 n1 : ℕ) (l : List V3) :
    (makePanelsFromMeshSpanwise (NdMesh.reshape n0 n1 (l.map acrossCentre)).swapaxes).panels =
      (makePanelsFromMeshSpanwise (NdMesh.reshape n0 n1 l).swapaxes).panels.map panelAcross := by
  simp only [makePanelsFromMeshSpanwise, NdMesh.swapaxes, NdMesh.reshape, List.map_flatMap, List.map_map,
    panelAt, getD_across]
  congr 1
  funext i
  refine List.map_congr_left fun j _ => ?_
  simp [movePanel, move_across]

theorem discreteSegment_y {a b : V3} (ha : a.y = 0) (hb : b.y = 0) (n : ℕ) : ∀ p ∈ discreteSegment a b n, p.y = 0 := by
  intro p hp
  simp only [discreteSegment, List.mem_append, List.mem_map, List.mem_singleton] at hp
  rcases hp with ⟨i, -, rfl⟩ | rfl
  · simp [ha, hb]
  · exact hb

theorem yCamber_zero {p x y : ℝ} (h : yCamber 0 p x = .ok y) : y = 0 := by
  unfold yCamber at h
  split_ifs at h
  · injection h with h; rw [← h]; ring
  · injection h with h; rw [← h]; ring

theorem vlmAirfoil_flat {p t : ℝ} {n : ℕ} {f : Airfoil} (h : vlmAirfoil 0 p t n = .ok f) : ∀ y ∈ f.yc, y = 0 := by
  unfold vlmAirfoil at h
  split_ifs at h
  simp only [bind, Except.bind] at h
  split at h
  · cases h
  rename_i yc hyc
  split at h
  · cases h
  injection h with h
  subst h
  intro y hy
  obtain ⟨hl, hi⟩ := mapM_ok_inv hyc
  obtain ⟨i, hi', rfl⟩ := List.getElem_of_mem hy
  obtain ⟨b, hb, hb'⟩ := hi i (by rw [← hl]; exact hi')
  rw [List.getElem?_eq_getElem hi'] at hb
  injection hb with hb
  rw [hb]
  exact yCamber_zero hb'

theorem airfoilRow_y {n : ℕ} {distance camber : List ℝ} {r : ℕ} {p1 p2 : V3} {row : List V3}
    (hc : ∀ x ∈ camber, x = 0) (h : airfoilRow n distance camber r p1 p2 = .ok row) : ∀ p ∈ row, p.y = 0 := by
  unfold airfoilRow at h
  simp only [bind, Except.bind] at h
  split at h
  · cases h
  split at h
  · cases h
  rename_i m hm
  have hm0 : m = 0 := by
    unfold idx at hm
    split at hm
    · rename_i a ha
      injection hm with hm
      rw [← hm]
      exact hc _ (List.mem_of_getElem? ha)
    · cases hm
  subst hm0
  split at h
  · cases h
  rename_i f hf
  injection h with h
  subst h
  intro p hp
  obtain ⟨i, hi, rfl⟩ := List.getElem_of_mem hp
  simp only [List.getElem_zipWith, List.getElem_map]
  rw [vlmAirfoil_flat hf _ (List.getElem_mem _), mul_zero]

theorem getD_getD_y {rows : List (List V3)} (h : ∀ r ∈ rows, ∀ p ∈ r, p.y = 0) (i j : ℕ) :
    ((rows.getD i []).getD j 0).y = 0 := by
  simp only [List.getD_eq_getElem?_getD]
  cases hi : rows[i]? with
  | none => simp
  | some r =>
    simp only [Option.getD_some]
    cases hj : r[j]? with
    | none => simp
    | some p => exact h r (List.mem_of_getElem? hi) p (List.mem_of_getElem? hj)

/-- All points of the mesh of a flat sail are in the plane `y = 0`. -/
theorem makeAirfoilMesh_y {a b : V3} {nc ns : ℕ} {chords distance camber : List ℝ} {m : NdMesh}
    (hc : ∀ x ∈ camber, x = 0) (h : makeAirfoilMesh a b nc ns chords distance camber = .ok m) (i j : ℕ) :
    (m.at' i j).y = 0 := by
  unfold makeAirfoilMesh at h
  simp only [bind, Except.bind] at h
  split at h
  · cases h
  split at h
  · cases h
  rename_i rows hrows
  injection h with h
  subst h
  refine getD_getD_y (fun r hr p hp => ?_) i j
  obtain ⟨hl, hi⟩ := mapM_ok_inv hrows
  obtain ⟨k, hk, rfl⟩ := List.getElem_of_mem hr
  obtain ⟨b, hb, hb'⟩ := hi k (by rw [← hl]; exact hk)
  rw [List.getElem?_eq_getElem hk] at hb
  injection hb with hb
  exact airfoilRow_y hc (hb ▸ hb') p hp

theorem flatten_across (m : NdMesh) (h : ∀ i j, (m.at' i j).y = 0) (c : Csys) :
    m.flatten.map c.across.rotatePointWithMirror = (m.flatten.map c.rotatePointWithMirror).map acrossCentre := by
  rw [List.map_map]
  refine List.map_congr_left fun p hp => ?_
  have hy : p.y = 0 := by
    simp only [NdMesh.flatten, List.mem_flatMap, List.mem_map] at hp
    obtain ⟨i, -, j, -, rfl⟩ := hp
    exact h i j
  rw [Function.comp, ← Csys.rotatePointWithMirror_across, across_of_y hy]

/-- A flat sail on the other tack is the mirror image. -/
theorem sailGeometry_across {s : SailInput} {g : SailGeom} (hc : ∀ x ∈ s.camber, x = 0)
    (h : sailGeometry s = .ok g) : sailGeometry s.across = .ok g.across := by
  unfold sailGeometry at h ⊢
  simp only [bind, Except.bind] at h ⊢
  have hm' : ∀ a b ch di ca, makeAirfoilMesh a b s.across.nc s.across.ns ch di ca =
    makeAirfoilMesh a b s.nc s.ns ch di ca := fun _ _ _ _ _ => rfl
  have e1 : s.across.tack = s.tack := rfl
  have e2 : s.across.head = s.head := rfl
  have e3 : s.across.chords = s.chords := rfl
  have e4 : s.across.distance = s.distance := rfl
  have e5 : s.across.camber = s.camber := rfl
  have e6 : s.across.csys = s.csys.across := rfl
  simp only [hm', e1, e2, e3, e4, e5, e6]
  cases hm : makeAirfoilMesh s.tack s.head s.nc s.ns s.chords s.distance s.camber with
  | error e => rw [hm] at h; cases h
  | ok m =>
  rw [hm] at h
  simp only at h ⊢
  cases hmu : makeAirfoilMesh (flipZ s.head) (flipZ s.tack) s.nc s.ns s.chords.reverse s.distance s.camber.reverse with
  | error e => rw [hmu] at h; cases h
  | ok mu =>
  rw [hmu] at h
  simp only at h ⊢
  rw [flatten_across m (makeAirfoilMesh_y hc hm), flatten_across mu (makeAirfoilMesh_y (by simpa using hc) hmu)]
  cases ht : twistBlock s m.n0 m.n1 (m.flatten.map s.csys.rotatePointWithMirror)
      (mu.flatten.map s.csys.rotatePointWithMirror) with
  | error e => rw [ht] at h; cases h
  | ok r =>
  rw [ht] at h
  rw [twistBlock_across ht]
  simp only at h ⊢
  have ete : ∀ l : List V3, (makePanelsFromMeshSpanwise (NdMesh.reshape m.n0 m.n1 (l.map acrossCentre)).swapaxes).te =
    (makePanelsFromMeshSpanwise (NdMesh.reshape m.n0 m.n1 l).swapaxes).te := fun _ => rfl
  have ele : ∀ l : List V3, (makePanelsFromMeshSpanwise (NdMesh.reshape m.n0 m.n1 (l.map acrossCentre)).swapaxes).le =
    (makePanelsFromMeshSpanwise (NdMesh.reshape m.n0 m.n1 l).swapaxes).le := fun _ => rfl
  simp only [ete, ele, makePanels_across]
  split_ifs at h ⊢
  injection h with h
  subst h
  rfl

/-! ## Interpolation -/

theorem interp1_neg (x : ℝ) (l : List (ℝ × ℝ)) : interp1 x (l.map fun q => (q.1, -q.2)) = -interp1 x l := by
  induction l with
  | nil => simp [interp1]
  | cons a l ih =>
    cases l with
    | nil => simp [interp1]
    | cons b l =>
      simp only [List.map_cons, interp1] at ih ⊢
      rw [ih]
      split_ifs
      · rfl
      · ring
      · rfl

theorem isSpline_neg {m : ℕ} {xs ys : ℕ → ℝ} {S : ℝ → ℝ} (h : IsSpline m xs ys S) :
    IsSpline m xs (fun i => -ys i) fun x => -S x := by
  have hc : ∀ {I : Set ℝ}, CubicOn S I → CubicOn (fun x => -S x) I := by
    rintro I ⟨a, b, c, d, h⟩
    exact ⟨-a, -b, -c, -d, fun x hx => by beta_reduce; rw [h x hx]; ring⟩
  exact ⟨fun i hi => by rw [h.through i hi], h.smooth.neg, hc h.first, fun i h1 h2 => hc (h.between i h1 h2),
    hc h.last⟩

theorem fitpackSpline_neg (xNew xs ys : List ℝ) :
    fitpackSpline xNew xs (ys.map Neg.neg) = (fitpackSpline xNew xs ys).map (List.map Neg.neg) := by
  unfold fitpackSpline
  rw [List.length_map]
  by_cases h1 : xs.length ≠ ys.length
  · rw [if_pos h1, if_pos h1]; rfl
  rw [if_neg h1, if_neg h1]
  by_cases h2 : xs.length ≤ 3
  · rw [if_pos h2, if_pos h2]; rfl
  rw [if_neg h2, if_neg h2]
  by_cases h3 : ∃ i, i + 1 < xs.length ∧ xs.getD (i + 1) 0 < xs.getD i 0
  · rw [if_pos h3, if_pos h3]; rfl
  rw [if_neg h3, if_neg h3]
  by_cases h4 : ∃ i, i + 1 < xs.length ∧ xs.getD (i + 1) 0 = xs.getD i 0
  · rw [if_pos h4, if_pos h4]; rfl
  rw [if_neg h4, if_neg h4]
  have hx : ∀ i < xs.length - 1, xs.getD i 0 < xs.getD (i + 1) 0 := by
    intro i hi
    rcases lt_trichotomy (xs.getD i 0) (xs.getD (i + 1) 0) with h | h | h
    · exact h
    · exact absurd ⟨i, by omega, h.symm⟩ h4
    · exact absurd ⟨i, by omega, h⟩ h3
  have hm : 3 ≤ xs.length - 1 := by omega
  have e : (fun i => (ys.map Neg.neg).getD i 0) = fun i => -ys.getD i 0 := by
    funext i
    simp only [List.getD_eq_getElem?_getD, List.getElem?_map]
    cases ys[i]? <;> simp
  have hS := splineThrough_isSpline (xs := fun i => xs.getD i 0) hm hx fun i => ys.getD i 0
  have hT := splineThrough_isSpline (xs := fun i => xs.getD i 0) hm hx fun i => -ys.getD i 0
  rw [e, hT.unique hm hx (isSpline_neg hS)]
  simp only [Except.map, List.map_map]
  rfl

theorem npInterp_neg (xNew xs ys : List ℝ) :
    npInterp xNew xs (ys.map Neg.neg) = (npInterp xNew xs ys).map (List.map Neg.neg) := by
  have e : xs.zip (ys.map Neg.neg) = (xs.zip ys).map fun q => (q.1, -q.2) := by
    rw [List.zip_map_right]; rfl
  unfold npInterp
  rw [List.length_map, e]
  split_ifs
  · rfl
  · rfl
  · simp only [Except.map, List.map_map, interp1_neg]; rfl

/-- Interpolation of the data with opposite sign. -/
theorem interpolateGirths_neg {spline : SplineFn} {kind : String} (hk : kind = "linear" ∨ spline = fitpackSpline)
    (xs ys : List ℝ) (n : ℕ) :
    interpolateGirths spline kind xs (ys.map Neg.neg) n = (interpolateGirths spline kind xs ys n).map (List.map Neg.neg) := by
  unfold interpolateGirths
  simp only
  by_cases h1 : kind = "linear"
  · rw [if_pos h1, if_pos h1]; exact npInterp_neg _ _ _
  · have hs : spline = fitpackSpline := hk.resolve_left h1
    subst hs
    rw [if_neg h1, if_neg h1]
    split_ifs
    · exact fitpackSpline_neg _ _ _
    · rfl

theorem map_neg_of_zero {l : List ℝ} (h : ∀ x ∈ l, x = 0) : l.map Neg.neg = l := by
  conv_rhs => rw [← List.map_id l]
  exact List.map_congr_left fun x hx => by rw [h x hx]; simp

theorem interpolateGirths_zero {spline : SplineFn} {kind : String} (hk : kind = "linear" ∨ spline = fitpackSpline)
    {xs ys v : List ℝ} {n : ℕ} (h0 : ∀ y ∈ ys, y = 0) (h : interpolateGirths spline kind xs ys n = .ok v) :
    ∀ y ∈ v, y = 0 := by
  have := interpolateGirths_neg hk xs ys n
  rw [map_neg_of_zero h0, h] at this
  simp only [Except.map, Except.ok.injEq] at this
  intro y hy
  obtain ⟨i, hi, rfl⟩ := List.getElem_of_mem hy
  have e : v[i]? = (v.map Neg.neg)[i]? := congrArg (fun l : List ℝ => l[i]?) this
  rw [List.getElem?_map, List.getElem?_eq_getElem hi] at e
  simp only [Option.map_some, Option.some.injEq] at e
  linarith

/-! ## The sail set -/

theorem interpolateGirths_length {spline : SplineFn} {kind : String} (hk : kind = "linear" ∨ spline = fitpackSpline)
    {xs ys v : List ℝ} {n : ℕ} (h : interpolateGirths spline kind xs ys n = .ok v) : v.length = n := by
  unfold interpolateGirths at h
  simp only at h
  by_cases h1 : kind = "linear"
  · rw [if_pos h1] at h
    unfold npInterp at h
    split_ifs at h
    injection h with h
    rw [← h, List.length_map, linspace01_length]
  · have hs : spline = fitpackSpline := hk.resolve_left h1
    subst hs
    rw [if_neg h1] at h
    split_ifs at h
    unfold fitpackSpline at h
    split_ifs at h
    injection h with h
    rw [← h, List.length_map, linspace01_length]

theorem noCamber_of_flat {spline : SplineFn} {s : SolverConf} (hk : s.interpolation = "linear" ∨ spline = fitpackSpline)
    {c : SailConf} (hf : Flat c) : NoCamber spline s c :=
  fun _ _ _ _ hc hi => interpolateGirths_zero hk (hf _ hc) hi

theorem interpolatedSail_other {spline : SplineFn} {s : SolverConf} (hk : s.interpolation = "linear" ∨ spline = fitpackSpline)
    {c : SailConf} (hf : NoCamber spline s c) {r : List ℝ × List ℝ × List ℝ × List ℝ} (h : interpolatedSail spline s c = .ok r) :
    interpolatedSail spline s (otherSide c) = .ok (r.1, r.2.1.map Neg.neg, r.2.2.1, r.2.2.2) ∧ ∀ x ∈ r.2.2.1, x = 0 := by
  unfold interpolatedSail at h ⊢
  cases h1 : c.girths with
  | none =>
    obtain ⟨e, he⟩ := needArray_none s.interpolation
    rw [h1, he] at h; cases h
  | some gi =>
  cases h2 : c.chords with
  | none =>
    obtain ⟨e, he⟩ := needArray_none s.interpolation
    rw [h1, h2, he] at h; cases h
  | some ch =>
  cases h3 : c.twist with
  | none =>
    obtain ⟨e, he⟩ := needArray_none s.interpolation
    rw [h1, h2, h3, he] at h
    simp only [needArray_some, bind, Except.bind] at h
    split at h <;> cases h
  | some tw =>
  cases h4 : c.camber with
  | none =>
    obtain ⟨e, he⟩ := needArray_none s.interpolation
    rw [h1, h2, h3, h4, he] at h
    simp only [needArray_some, bind, Except.bind] at h
    split at h
    · cases h
    · split at h <;> cases h
  | some ca =>
  rw [h1, h2, h3, h4] at h
  simp only [otherSide, h1, h2, h3, h4, needArray_some, bind, Except.bind, Option.map_some, interpolateGirths_neg hk] at h ⊢
  cases i1 : interpolateGirths spline s.interpolation gi ch (s.ns + 1) with
  | error e => rw [i1] at h; cases h
  | ok ch' =>
  rw [i1] at h
  simp only at h ⊢
  cases i2 : interpolateGirths spline s.interpolation gi tw (s.ns + 1) with
  | error e => rw [i2] at h; cases h
  | ok tw' =>
  rw [i2] at h
  simp only [Except.map] at h ⊢
  cases i3 : interpolateGirths spline s.interpolation gi ca (s.ns + 1) with
  | error e => rw [i3] at h; cases h
  | ok ca' =>
  have hz := hf gi ca ca' h1 h4 i3
  rw [i3] at h
  simp only [map_neg_of_zero hz] at h ⊢
  cases h5 : c.distance with
  | none =>
    obtain ⟨e, he⟩ := needArray_none s.interpolation
    rw [h5, he] at h; cases h
  | some di =>
  rw [h5] at h
  simp only [needArray_some] at h ⊢
  cases i4 : interpolateGirths spline s.interpolation gi di (s.ns + 1) with
  | error e => rw [i4] at h; cases h
  | ok di' =>
  rw [i4] at h
  cases h
  exact ⟨rfl, hz⟩

theorem sailJib_other {spline : SplineFn} {s : SolverConf} {rig : RigConf} {csys : Csys}
    (hk : s.interpolation = "linear" ∨ spline = fitpackSpline) {c : SailConf} (hf : NoCamber spline s c) {g : SailGeom}
    (h : sailJib spline s rig (some c) csys = .ok g) :
    sailJib spline s rig (some (otherSide c)) csys.across = .ok g.across := by
  unfold sailJib at h ⊢
  simp only [attr, bind, Except.bind] at h ⊢
  cases hi : interpolatedSail spline s c with
  | error e => rw [hi] at h; cases h
  | ok r =>
  obtain ⟨hi', hz⟩ := interpolatedSail_other hk hf hi
  obtain ⟨ch, tw, ca, di⟩ := r
  rw [hi] at h
  rw [hi']
  simp only at h hz ⊢
  cases h1 : need rig.jibLuff with
  | error e => rw [h1] at h; cases h
  | ok luff =>
  rw [h1] at h
  simp only at h ⊢
  cases h2 : need rig.base with
  | error e => rw [h2] at h; cases h
  | ok base =>
  rw [h2] at h
  simp only at h ⊢
  cases h3 : need rig.height with
  | error e => rw [h3] at h; cases h
  | ok height =>
  rw [h3] at h
  simp only at h ⊢
  unfold SailFactory.makeJib at h ⊢
  simp only [bind, Except.bind] at h ⊢
  have e : (rig.factory s csys.across).jibMounting luff base height rig.mastLOA =
    (rig.factory s csys).jibMounting luff base height rig.mastLOA := rfl
  rw [e]
  cases h4 : (rig.factory s csys).jibMounting luff base height rig.mastLOA with
  | error e => rw [h4] at h; cases h
  | ok m =>
  rw [h4] at h
  simp only at h ⊢
  exact sailGeometry_across hz h

theorem sailMain_other {spline : SplineFn} {s : SolverConf} {rig : RigConf} {csys : Csys}
    (hk : s.interpolation = "linear" ∨ spline = fitpackSpline) {c : SailConf} (hf : NoCamber spline s c) {g : SailGeom}
    (h : sailMain spline s rig (some c) csys = .ok g) :
    sailMain spline s rig (some (otherSide c)) csys.across = .ok g.across := by
  unfold sailMain at h ⊢
  simp only [attr, bind, Except.bind] at h ⊢
  cases hi : interpolatedSail spline s c with
  | error e => rw [hi] at h; cases h
  | ok r =>
  obtain ⟨hi', hz⟩ := interpolatedSail_other hk hf hi
  obtain ⟨ch, tw, ca, di⟩ := r
  rw [hi] at h
  rw [hi']
  simp only at h hz ⊢
  cases h1 : need rig.mainLuff with
  | error e => rw [h1] at h; cases h
  | ok luff =>
  rw [h1] at h
  simp only at h ⊢
  exact sailGeometry_across hz h

/-- A set of sails on the other side. -/
def SailSet.across (s : SailSet) : SailSet :=
  { s with sails := s.sails.map SailGeom.across, panels := s.panels.map panelAcross }

theorem sailSet_across {l : List SailGeom} {set : SailSet} (h : sailSet l = .ok set) :
    sailSet (l.map SailGeom.across) = .ok set.across := by
  unfold sailSet at h ⊢
  split_ifs at h with h0
  rw [if_neg (by simpa using h0)]
  injection h with h
  subst h
  simp only [SailSet.across, List.map_map, List.map_append, List.map_flatten]
  rfl

theorem sailSetOf_other {spline : SplineFn} {s : SolverConf} {rig : RigConf} {csys : Csys}
    (hk : s.interpolation = "linear" ∨ spline = fitpackSpline) {main jib : SailConf}
    (hm : rig.sailsDef ≠ "jib" → NoCamber spline s main) (hj : rig.sailsDef ≠ "main" → NoCamber spline s jib) {set : SailSet}
    (h : sailSetOf spline s rig (some main) (some jib) csys = .ok set) :
    sailSetOf spline s rig (some (otherSide main)) (some (otherSide jib)) csys.across = .ok set.across := by
  unfold sailSetOf at h ⊢
  simp only [bind, Except.bind] at h ⊢
  have j : ∀ js, selectedJib spline s rig (some jib) csys = .ok js →
      selectedJib spline s rig (some (otherSide jib)) csys.across = .ok (js.map SailGeom.across) := by
    intro js hjs
    unfold selectedJib at hjs ⊢
    by_cases hd : rig.sailsDef = "jib" ∨ rig.sailsDef = "jib_and_main"
    · rw [if_pos hd] at hjs ⊢
      have hne : rig.sailsDef ≠ "main" := by rcases hd with e | e <;> rw [e] <;> decide
      cases hg : sailJib spline s rig (some jib) csys with
      | error e => rw [hg] at hjs; cases hjs
      | ok g =>
        rw [hg] at hjs
        cases hjs
        rw [sailJib_other hk (hj hne) hg]
        rfl
    · rw [if_neg hd] at hjs ⊢
      cases hjs; rfl
  have m : ∀ ms, selectedMain spline s rig (some main) csys = .ok ms →
      selectedMain spline s rig (some (otherSide main)) csys.across = .ok (ms.map SailGeom.across) := by
    intro ms hms
    unfold selectedMain at hms ⊢
    by_cases hd : rig.sailsDef = "main" ∨ rig.sailsDef = "jib_and_main"
    · rw [if_pos hd] at hms ⊢
      have hne : rig.sailsDef ≠ "jib" := by rcases hd with e | e <;> rw [e] <;> decide
      cases hg : sailMain spline s rig (some main) csys with
      | error e => rw [hg] at hms; cases hms
      | ok g =>
        rw [hg] at hms
        cases hms
        rw [sailMain_other hk (hm hne) hg]
        rfl
    · rw [if_neg hd] at hms ⊢
      cases hms; rfl
  cases h1 : selectedJib spline s rig (some jib) csys with
  | error e => rw [h1] at h; cases h
  | ok js =>
  rw [h1] at h
  rw [j js h1]
  simp only at h ⊢
  cases h2 : selectedMain spline s rig (some main) csys with
  | error e => rw [h2] at h; cases h
  | ok ms =>
  rw [h2] at h
  rw [m ms h2]
  simp only at h ⊢
  rw [← List.map_append]
  exact sailSet_across h

end PySailing
