import Verif.Spec.Heading
import Verif.Lemmas.UnitsRun
import Verif.Lemmas.Workbook

/-!
# Lemmas: the yacht and the wind turned together, geometry
-/

namespace PySailing

open Spec Props

theorem deg2rad_add (a b : ℝ) : deg2rad (a + b) = deg2rad a + deg2rad b := by
  unfold deg2rad; ring

theorem isIsometry_turned (δ : ℝ) : IsIsometry (turned δ) 1 where
  map_add a b := by unfold turned; ext <;> simp <;> ring
  map_smul s a := by unfold turned; ext <;> simp <;> ring
  dot a b := by
    have h := Real.sin_sq_add_cos_sq (deg2rad δ)
    simp only [turned, V3.dot]
    linear_combination (a.x * b.x + a.y * b.y) * h
  cross a b := by
    have h := Real.sin_sq_add_cos_sq (deg2rad δ)
    unfold turned
    ext <;> simp [V3.cross] <;> [ring; ring; linear_combination (a.x * b.y - a.y * b.x) * h]
  sign := Or.inl rfl

theorem turned_z (δ : ℝ) (p : V3) : (turned δ p).z = p.z := rfl

theorem turned_zero (δ : ℝ) : turned δ 0 = 0 := (isIsometry_turned δ).map_zero

theorem turned_add (δ : ℝ) (a b : V3) : turned δ (a + b) = turned δ a + turned δ b := (isIsometry_turned δ).map_add a b

theorem turned_sum (δ : ℝ) (l : List V3) : (l.map (turned δ)).sum = turned δ l.sum := (isIsometry_turned δ).map_sum l

theorem turned_neg (δ : ℝ) (a : V3) : -turned δ a = turned δ (-a) := ((isIsometry_turned δ).map_neg a).symm

theorem turned_cross (δ : ℝ) (a b : V3) : V3.cross (turned δ a) (turned δ b) = turned δ (V3.cross a b) := by
  rw [(isIsometry_turned δ).cross, one_smul]

theorem turned_norm (δ : ℝ) (a : V3) : (turned δ a).norm = a.norm := (isIsometry_turned δ).norm a

theorem turned_turned (δ ε : ℝ) (p : V3) : turned δ (turned ε p) = turned (δ + ε) p := by
  unfold turned
  rw [deg2rad_add, Real.cos_add, Real.sin_add]
  ext <;> simp <;> ring

theorem map_turned_norm (δ : ℝ) (l : List V3) : (l.map (turned δ)).map V3.norm = l.map V3.norm := by
  rw [List.map_map]
  exact List.map_congr_left fun v _ => turned_norm δ v

/-! ## Rotations -/

/-- The coordinate system turned. -/
noncomputable def Csys.turn (δ : ℝ) (c : Csys) : Csys := ⟨c.heelDeg, c.leewayDeg + δ, turned δ c.vRef⟩

theorem leeway_turn (δ : ℝ) (c : Csys) (p : V3) : (c.turn δ).leeway.mulVec p = turned δ (c.leeway.mulVec p) := by
  rw [Csys.leeway_mulVec, Csys.leeway_mulVec]
  have : (c.turn δ).leewayDeg = c.leewayDeg + δ := rfl
  rw [this, deg2rad_add, Real.cos_add, Real.sin_add]
  unfold turned
  ext <;> simp <;> ring

theorem leeway_turned (δ : ℝ) (c : Csys) (p : V3) : c.leeway.mulVec (turned δ p) = turned δ (c.leeway.mulVec p) := by
  rw [Csys.leeway_mulVec, Csys.leeway_mulVec]
  unfold turned
  ext <;> simp <;> ring

theorem leeway_turn_turned (δ : ℝ) (c : Csys) (p : V3) :
    (c.turn δ).leeway.mulVec (turned δ p) = turned (2 * δ) (c.leeway.mulVec p) := by
  rw [leeway_turn, leeway_turned, turned_turned, two_mul]

theorem reverseLeeway_turn (δ : ℝ) (c : Csys) (p : V3) :
    (c.turn δ).reverseLeeway.mulVec (turned δ p) = c.reverseLeeway.mulVec p := by
  have h := Real.sin_sq_add_cos_sq (deg2rad δ)
  rw [Csys.reverseLeeway_mulVec, Csys.reverseLeeway_mulVec]
  have : (c.turn δ).leewayDeg = c.leewayDeg + δ := rfl
  rw [this, deg2rad_add, Real.cos_add, Real.sin_add]
  unfold turned
  ext
  · simp
    linear_combination (Real.cos (deg2rad c.leewayDeg) * p.x + Real.sin (deg2rad c.leewayDeg) * p.y) * h
  · simp
    linear_combination (-Real.sin (deg2rad c.leewayDeg) * p.x + Real.cos (deg2rad c.leewayDeg) * p.y) * h
  · rfl

theorem rotatePointWithMirror_turn (δ : ℝ) (c : Csys) (p : V3) :
    (c.turn δ).rotatePointWithMirror p = turned δ (c.rotatePointWithMirror p) := by
  unfold Csys.rotatePointWithMirror
  have h1 : (c.turn δ).heeling = c.heeling := rfl
  have h2 : (c.turn δ).reverseHeeling = c.reverseHeeling := rfl
  simp only [leeway_turn, h1, h2]

theorem reverseRotations_turn (δ : ℝ) (c : Csys) (p : V3) :
    (c.turn δ).reverseRotationsWithMirror (turned δ p) = c.reverseRotationsWithMirror p := by
  unfold Csys.reverseRotationsWithMirror
  have h1 : (c.turn δ).heeling = c.heeling := rfl
  have h2 : (c.turn δ).reverseHeeling = c.reverseHeeling := rfl
  simp only [reverseLeeway_turn, h1, h2]

theorem rotateAboutLine_turned (δ : ℝ) (p1 p2 p : V3) (θ : ℝ) :
    rotateAboutLine (turned δ p1) (turned δ p2) θ (turned δ p) = turned δ (rotateAboutLine p1 p2 θ p) := by
  have h := isIsometry_turned δ
  unfold rotateAboutLine
  have hu : unit (turned δ p2 - turned δ p1) = turned δ (unit (p2 - p1)) := by
    unfold unit
    rw [← h.map_sub, h.norm, h.map_smul]
  rw [hu, ← h.map_sub, h.map_add]
  have := rodrigues_isometry h (unit (p2 - p1)) (p - p1) θ
  rw [one_mul] at this
  rw [this]

/-- If both rotations can be carried out, they correspond. -/
theorem rotatePoints_turned {δ : ℝ} {ps qs qs' : List V3} {p1 p2 : V3} {θ : ℝ}
    (h : rotatePointsAroundArbitraryAxis ps p1 p2 θ = .ok qs)
    (h' : rotatePointsAroundArbitraryAxis (ps.map (turned δ)) (turned δ p1) (turned δ p2) θ = .ok qs') :
    qs' = qs.map (turned δ) := by
  by_cases hp : ps = []
  · subst hp
    simp [rotatePointsAroundArbitraryAxis] at h h'
    subst h; subst h'; rfl
  have key : ∀ {ps qs : List V3} {p1 p2 : V3}, ps ≠ [] → rotatePointsAroundArbitraryAxis ps p1 p2 θ = .ok qs →
      qs = ps.map (rotateAboutLine p1 p2 θ) := by
    intro ps qs p1 p2 hp h
    by_cases h0 : (p2 - p1).y ≠ 0 ∨ (p2 - p1).z ≠ 0
    · rw [(C03_rotation_about_line_partial ps p1 p2 θ h0).1] at h
      exact (Except.ok.inj h).symm
    · push Not at h0
      rw [(C03_refuted_parallel_x ps hp p1 p2 θ h0.1 h0.2).1] at h
      cases h
  rw [key hp h, key (by simpa using hp) h', List.map_map, List.map_map]
  exact List.map_congr_left fun p _ => rotateAboutLine_turned δ p1 p2 p θ

/-! ## The twist step -/

theorem rotatePointsAroundLe_turned {δ : ℝ} {ps qs qs' : List V3} {p1 p2 : V3} {twist : List ℝ}
    (h : rotatePointsAroundLe ps p1 p2 twist = .ok qs)
    (h' : rotatePointsAroundLe (ps.map (turned δ)) (turned δ p1) (turned δ p2) twist = .ok qs') :
    qs' = qs.map (turned δ) := by
  cases twist with
  | nil => cases h
  | cons t0 tw =>
    unfold rotatePointsAroundLe at h h'
    simp only at h h'
    by_cases h0 : ∀ t ∈ t0 :: tw, t = t0
    · rw [if_pos h0] at h h'
      exact rotatePoints_turned h h'
    · rw [if_neg h0] at h h'
      have hz : (ps.map (turned δ)).zip (t0 :: tw) = (ps.zip (t0 :: tw)).map fun q => (turned δ q.1, q.2) := by
        rw [List.zip_map_left]; rfl
      rw [hz] at h'
      have hm : ∀ (l : List (V3 × ℝ)) (rs rs' : List (List V3)),
          (l.mapM fun q => rotatePointsAroundArbitraryAxis [q.1] p1 p2 (deg2rad q.2)) = .ok rs →
          ((l.map fun q => (turned δ q.1, q.2)).mapM fun q =>
            rotatePointsAroundArbitraryAxis [q.1] (turned δ p1) (turned δ p2) (deg2rad q.2)) = .ok rs' →
          rs' = rs.map (List.map (turned δ)) := by
        intro l
        induction l with
        | nil =>
          intro rs rs' e e'
          cases e; cases e'; rfl
        | cons q l ih =>
          intro rs rs' e e'
          rw [List.map_cons, List.mapM_cons] at e'
          rw [List.mapM_cons] at e
          simp only [bind, Except.bind] at e e'
          cases h1 : rotatePointsAroundArbitraryAxis [q.1] p1 p2 (deg2rad q.2) with
          | error x => rw [h1] at e; cases e
          | ok a =>
          cases h2 : rotatePointsAroundArbitraryAxis [turned δ q.1] (turned δ p1) (turned δ p2) (deg2rad q.2) with
          | error x => rw [h2] at e'; cases e'
          | ok a' =>
          rw [h1] at e
          rw [h2] at e'
          simp only at e e'
          split at e
          · cases e
          rename_i b hb
          split at e'
          · cases e'
          rename_i b' hb'
          cases e; cases e'
          rw [ih b b' hb hb', rotatePoints_turned (ps := [q.1]) h1 h2]
          rfl
      simp only [bind, Except.bind] at h h'
      split at h
      · cases h
      rename_i rs hrs
      split at h'
      · cases h'
      rename_i rs' hrs'
      cases h; cases h'
      rw [hm _ _ _ hrs hrs', List.map_flatten]

theorem getD_turned (δ : ℝ) (l : List V3) (i : ℕ) : (l.map (turned δ)).getD i 0 = turned δ (l.getD i 0) := by
  simp only [List.getD_eq_getElem?_getD, List.getElem?_map]
  cases l[i]? <;> simp [turned_zero]

theorem everyNth_turned (δ : ℝ) (mesh : List V3) (a b : ℕ) :
    everyNth (mesh.map (turned δ)) a b = (everyNth mesh a b).map (turned δ) := by
  simp only [everyNth, getD_turned, List.map_map]; rfl

theorem twistMesh_rotated {mesh tr : List V3} {a b : ℕ} {tw : List ℝ} (h : twistMesh mesh a b tw = .ok tr) :
    rotatePointsAroundLe mesh ((everyNth mesh a b).getD 0 0) ((everyNth mesh a b).getD (a - 1) 0) tw = .ok tr := by
  unfold twistMesh at h
  cases hr : rotatePointsAroundLe mesh ((everyNth mesh a b).getD 0 0) ((everyNth mesh a b).getD (a - 1) 0) tw with
  | error e => simp only [hr] at h; cases e <;> cases h
  | ok l =>
    simp only [hr, nanFailsAssert, bind, Except.bind] at h
    split at h
    · cases h
    cases h
    rfl

theorem twistMesh_turned {δ : ℝ} {mesh tr tr' : List V3} {a b : ℕ} {tw : List ℝ}
    (h : twistMesh mesh a b tw = .ok tr) (h' : twistMesh (mesh.map (turned δ)) a b tw = .ok tr') :
    tr' = tr.map (turned δ) := by
  have h1 := twistMesh_rotated h
  have h2 := twistMesh_rotated h'
  rw [everyNth_turned, getD_turned, getD_turned] at h2
  exact rotatePointsAroundLe_turned h1 h2

/-! ## Sails -/

/-- The arguments of the sail constructor, turned. -/
noncomputable def SailInput.turn (δ : ℝ) (i : SailInput) : SailInput := { i with csys := i.csys.turn δ }

theorem twistBlock_turned {δ : ℝ} {i : SailInput} {a b : ℕ} {mesh under : List V3} {r r' : List V3 × List V3}
    (h : twistBlock i a b mesh under = .ok r)
    (h' : twistBlock (i.turn δ) a b (mesh.map (turned δ)) (under.map (turned δ)) = .ok r') :
    r' = (r.1.map (turned δ), r.2.map (turned δ)) := by
  unfold twistBlock SailInput.turn at *
  cases htw : i.twist with
  | none =>
    simp only [htw] at h h'
    cases h; cases h'; rfl
  | some tw =>
  cases hm : i.mode with
  | none =>
    simp only [htw, hm] at h h'
    cases h; cases h'; rfl
  | some mode =>
  simp only [htw, hm, bind, Except.bind] at h h'
  cases h1 : twistDict tw mode with
  | error e => rw [h1] at h; cases h
  | ok v =>
  rw [h1] at h h'
  simp only at h h'
  cases h2 : twistPerPoint tw a b with
  | error e => rw [h2] at h; cases h
  | ok t =>
  rw [h2] at h h'
  simp only at h h'
  split at h
  · cases h
  rename_i tr e1
  split at h
  · cases h
  rename_i tru e2
  split at h'
  · cases h'
  rename_i tr' e3
  split at h'
  · cases h'
  rename_i tru' e4
  cases h; cases h'
  rw [twistMesh_turned e1 e3, twistMesh_turned e2 e4]

/-- A panel turned. -/
noncomputable def turnPanel (δ : ℝ) (q : Panel) : Panel := movePanel (turned δ) 0 q

/-- A sail turned. -/
noncomputable def SailGeom.turn (δ : ℝ) (g : SailGeom) : SailGeom :=
  { g with
    panelsAbove := g.panelsAbove.map (turnPanel δ)
    panelsUnder := g.panelsUnder.map (turnPanel δ) }

/-- An array of points turned. -/
noncomputable def NdMesh.turn (δ : ℝ) (m : NdMesh) : NdMesh := { m with at' := fun i j => turned δ (m.at' i j) }

theorem makePanels_turn (δ : ℝ) (m : NdMesh) :
    (makePanelsFromMeshSpanwise (m.turn δ).swapaxes).panels =
      (makePanelsFromMeshSpanwise m.swapaxes).panels.map (turnPanel δ) := by
  have e : ∀ p : V3, move (turned δ) 0 p = turned δ p := fun p => add_zero _
  simp only [makePanelsFromMeshSpanwise, NdMesh.swapaxes, NdMesh.turn, List.map_flatMap, List.map_map, panelAt]
  unfold Function.comp turnPanel movePanel
  simp only [e]

theorem reshape_turn (δ : ℝ) (n0 n1 : ℕ) (l : List V3) :
    NdMesh.reshape n0 n1 (l.map (turned δ)) = (NdMesh.reshape n0 n1 l).turn δ := by
  simp only [NdMesh.reshape, NdMesh.turn, getD_turned]

theorem sailGeometry_turn {δ : ℝ} {i : SailInput} {g g' : SailGeom} (h : sailGeometry i = .ok g)
    (h' : sailGeometry (i.turn δ) = .ok g') : g' = g.turn δ := by
  unfold sailGeometry at h h'
  simp only [bind, Except.bind] at h h'
  have e1 : (i.turn δ).tack = i.tack := rfl
  have e2 : (i.turn δ).head = i.head := rfl
  have e3 : (i.turn δ).chords = i.chords := rfl
  have e4 : (i.turn δ).distance = i.distance := rfl
  have e5 : (i.turn δ).camber = i.camber := rfl
  have e6 : (i.turn δ).csys = i.csys.turn δ := rfl
  have e7 : (i.turn δ).nc = i.nc := rfl
  have e8 : (i.turn δ).ns = i.ns := rfl
  simp only [e1, e2, e3, e4, e5, e6, e7, e8] at h'
  cases hm : makeAirfoilMesh i.tack i.head i.nc i.ns i.chords i.distance i.camber with
  | error e => rw [hm] at h; cases h
  | ok m =>
  rw [hm] at h h'
  simp only at h h'
  cases hmu : makeAirfoilMesh (flipZ i.head) (flipZ i.tack) i.nc i.ns i.chords.reverse i.distance i.camber.reverse with
  | error e => rw [hmu] at h; cases h
  | ok mu =>
  rw [hmu] at h h'
  simp only at h h'
  have hf : ∀ m : NdMesh, m.flatten.map (i.csys.turn δ).rotatePointWithMirror =
      (m.flatten.map i.csys.rotatePointWithMirror).map (turned δ) := by
    intro m
    rw [List.map_map]
    exact List.map_congr_left fun p _ => rotatePointWithMirror_turn δ i.csys p
  simp only [hf] at h'
  split at h
  · cases h
  rename_i r ht
  split at h'
  · cases h'
  rename_i r' ht'
  obtain rfl := twistBlock_turned ht ht'
  simp only [reshape_turn] at h h'
  have ete : ∀ m : NdMesh, (makePanelsFromMeshSpanwise (m.turn δ).swapaxes).te =
    (makePanelsFromMeshSpanwise m.swapaxes).te := fun _ => rfl
  have ele : ∀ m : NdMesh, (makePanelsFromMeshSpanwise (m.turn δ).swapaxes).le =
    (makePanelsFromMeshSpanwise m.swapaxes).le := fun _ => rfl
  simp only [ete, ele, makePanels_turn] at h'
  split_ifs at h h'
  cases h
  cases h'
  rfl

/-- A set of sails turned. -/
noncomputable def SailSet.turn (δ : ℝ) (t : SailSet) : SailSet :=
  { t with
    sails := t.sails.map (SailGeom.turn δ)
    panels := t.panels.map (turnPanel δ) }

theorem sailSet_turn {δ : ℝ} {l : List SailGeom} {set : SailSet} (h : sailSet l = .ok set) :
    sailSet (l.map (SailGeom.turn δ)) = .ok (set.turn δ) := by
  unfold sailSet at h ⊢
  split_ifs at h with h0
  rw [if_neg (by simpa using h0)]
  injection h with h
  subst h
  simp only [SailSet.turn, List.map_map, List.map_append, List.map_flatten]
  rfl

theorem sailJib_turn {spline : SplineFn} {s : SolverConf} {rig : RigConf} {csys : Csys} {δ : ℝ} {c : SailConf}
    {g g' : SailGeom} (h : sailJib spline s rig (some c) csys = .ok g)
    (h' : sailJib spline s rig (some c) (csys.turn δ) = .ok g') : g' = g.turn δ := by
  unfold sailJib at h h'
  simp only [attr, bind, Except.bind] at h h'
  cases hi : interpolatedSail spline s c with
  | error e => rw [hi] at h; cases h
  | ok r =>
  obtain ⟨ch, tw, ca, di⟩ := r
  rw [hi] at h h'
  simp only at h h'
  cases h1 : rig.jibLuff with
  | none => rw [h1] at h; cases h
  | some luff =>
  cases h2 : rig.base with
  | none => rw [h1, h2] at h; cases h
  | some base =>
  cases h3 : rig.height with
  | none => rw [h1, h2, h3] at h; cases h
  | some height =>
  rw [h1, h2, h3] at h h'
  simp only [need] at h h'
  unfold SailFactory.makeJib at h h'
  simp only [bind, Except.bind] at h h'
  have e : (rig.factory s (csys.turn δ)).jibMounting luff base height rig.mastLOA =
    (rig.factory s csys).jibMounting luff base height rig.mastLOA := rfl
  rw [e] at h'
  cases h4 : (rig.factory s csys).jibMounting luff base height rig.mastLOA with
  | error e => rw [h4] at h; cases h
  | ok m =>
  rw [h4] at h h'
  exact sailGeometry_turn h h'

theorem sailMain_turn {spline : SplineFn} {s : SolverConf} {rig : RigConf} {csys : Csys} {δ : ℝ} {c : SailConf}
    {g g' : SailGeom} (h : sailMain spline s rig (some c) csys = .ok g)
    (h' : sailMain spline s rig (some c) (csys.turn δ) = .ok g') : g' = g.turn δ := by
  unfold sailMain at h h'
  simp only [attr, bind, Except.bind] at h h'
  cases hi : interpolatedSail spline s c with
  | error e => rw [hi] at h; cases h
  | ok r =>
  obtain ⟨ch, tw, ca, di⟩ := r
  rw [hi] at h h'
  simp only at h h'
  cases h1 : rig.mainLuff with
  | none => rw [h1] at h; cases h
  | some luff =>
  rw [h1] at h h'
  simp only [need] at h h'
  unfold SailFactory.makeMainSail at h h'
  exact sailGeometry_turn h h'

theorem sailSetOf_turn {spline : SplineFn} {s : SolverConf} {rig : RigConf} {csys : Csys} {δ : ℝ} {main jib : SailConf}
    {set set' : SailSet} (h : sailSetOf spline s rig (some main) (some jib) csys = .ok set)
    (h' : sailSetOf spline s rig (some main) (some jib) (csys.turn δ) = .ok set') : set' = set.turn δ := by
  unfold sailSetOf at h h'
  simp only [bind, Except.bind] at h h'
  cases h1 : selectedJib spline s rig (some jib) csys with
  | error e => rw [h1] at h; cases h
  | ok js =>
  cases h2 : selectedJib spline s rig (some jib) (csys.turn δ) with
  | error e => rw [h2] at h'; cases h'
  | ok js' =>
  cases h3 : selectedMain spline s rig (some main) csys with
  | error e => rw [h1, h3] at h; cases h
  | ok ms =>
  cases h4 : selectedMain spline s rig (some main) (csys.turn δ) with
  | error e => rw [h2, h4] at h'; cases h'
  | ok ms' =>
  rw [h1, h3] at h
  rw [h2, h4] at h'
  simp only at h h'
  have hj : js' = js.map (SailGeom.turn δ) := by
    unfold selectedJib at h1 h2
    split_ifs at h1 h2
    · cases hg : sailJib spline s rig (some jib) csys with
      | error e => rw [hg] at h1; cases h1
      | ok g =>
      cases hg' : sailJib spline s rig (some jib) (csys.turn δ) with
      | error e => rw [hg'] at h2; cases h2
      | ok g' =>
      rw [hg] at h1; rw [hg'] at h2
      cases h1; cases h2
      rw [sailJib_turn hg hg']; rfl
    · cases h1; cases h2; rfl
  have hm : ms' = ms.map (SailGeom.turn δ) := by
    unfold selectedMain at h3 h4
    split_ifs at h3 h4
    · cases hg : sailMain spline s rig (some main) csys with
      | error e => rw [hg] at h3; cases h3
      | ok g =>
      cases hg' : sailMain spline s rig (some main) (csys.turn δ) with
      | error e => rw [hg'] at h4; cases h4
      | ok g' =>
      rw [hg] at h3; rw [hg'] at h4
      cases h3; cases h4
      rw [sailMain_turn hg hg']; rfl
    · cases h3; cases h4; rfl
  rw [hj, hm, ← List.map_append, sailSet_turn h] at h'
  exact (Except.ok.inj h').symm

end PySailing
