import Verif.Lemmas.TackRun

/-!
# The other tack of a yacht with cambered sails
-/

namespace PySailing

open PySailing.Spec PySailing.Props

/-- A section that can be built with camber `m` cannot be built with camber `-m`, unless `m = 0`. -/
theorem airfoilRow_neg {n : ℕ} {distance camber : List ℝ} {r : ℕ} {p1 p2 : V3} {row : List V3}
    (h : airfoilRow n distance camber r p1 p2 = .ok row) :
    ∃ m, camber[r]? = some m ∧
      (m = 0 → ∃ row', airfoilRow n distance (camber.map Neg.neg) r p1 p2 = .ok row') ∧
      (m ≠ 0 → airfoilRow n distance (camber.map Neg.neg) r p1 p2 = .error (.sysExit 1)) := by
  unfold airfoilRow at h ⊢
  simp only [bind, Except.bind] at h ⊢
  cases hp : idx distance r with
  | error e => rw [hp] at h; cases h
  | ok p =>
  rw [hp] at h
  simp only at h ⊢
  cases hm : idx camber r with
  | error e => rw [hm] at h; cases h
  | ok m =>
  rw [hm] at h
  simp only at h
  have hm1 : camber[r]? = some m := by
    unfold idx at hm
    split at hm
    · rename_i a ha
      injection hm with hm
      rw [ha, hm]
    · cases hm
  have hm2 : idx (camber.map Neg.neg) r = .ok (-m) := by
    unfold idx
    rw [List.getElem?_map, hm1]
    rfl
  rw [hm2]
  simp only
  refine ⟨m, hm1, ?_, ?_⟩
  · rintro rfl
    rw [neg_zero]
    exact ⟨row, h⟩
  · intro h0
    have hr : ¬ (0 ≤ -m ∧ -m ≤ 0.3 ∧ 0 ≤ p ∧ p ≤ 0.9 ∧ (0 : ℝ) ≤ 0.0 ∧ (0.0 : ℝ) ≤ 0.4) := by
      rintro ⟨h1, -⟩
      have h2 : m < 0 := lt_of_le_of_ne (by linarith) h0
      have : vlmAirfoil m p 0.0 n = .error (.sysExit 1) :=
        vlmAirfoil_exit n (fun hh => absurd hh.1 (not_le.2 h2))
      rw [this] at h
      cases h
    rw [vlmAirfoil_exit n hr]

theorem makeAirfoilMesh_neg {a b : V3} {nc ns : ℕ} {chords distance camber : List ℝ} {m : NdMesh}
    (hch : chords.length = ns + 1) (hca : camber.length = ns + 1)
    (h : makeAirfoilMesh a b nc ns chords distance camber = .ok m) (h0 : ∃ x ∈ camber, x ≠ 0) :
    makeAirfoilMesh a b nc ns chords distance (camber.map Neg.neg) = .error (.sysExit 1) := by
  have hlen := discreteSegment_length a b ns
  have hte := teLine_ok (l := discreteSegment a b ns) (chords := chords) (by rw [hlen, hch])
  unfold makeAirfoilMesh at h ⊢
  simp only [hte, bind, Except.bind] at h ⊢
  split at h
  · cases h
  rename_i rows hrows
  obtain ⟨hl, hi⟩ := mapM_ok_inv hrows
  -- the first row with camber
  have hex : ∃ r : ℕ, ∃ x : ℝ, camber[r]? = some x ∧ x ≠ 0 := by
    obtain ⟨x, hx, hx0⟩ := h0
    obtain ⟨r, hr, rfl⟩ := List.getElem_of_mem hx
    exact ⟨r, _, List.getElem?_eq_getElem hr, hx0⟩
  classical
  obtain ⟨x, hx, hx0⟩ := Nat.find_spec hex
  have hmin := fun j (hj : j < Nat.find hex) => Nat.find_min hex hj
  generalize Nat.find hex = r at hx hmin
  have hr : r < ns + 1 := by
    rw [← hca]
    exact (List.getElem?_eq_some_iff.1 hx).1
  rw [mapM_error]
  refine ⟨r, by simp [hlen, hch]; omega, ?_, fun j hj => ?_⟩
  · obtain ⟨row, -, hrow⟩ := hi r (by simp [hlen, hch]; omega)
    obtain ⟨m', hm', -, hne⟩ := airfoilRow_neg hrow
    simp only [List.getElem_zipIdx, Nat.zero_add] at hm'
    rw [hx] at hm'
    injection hm' with hm'
    exact hne (hm' ▸ hx0)
  · obtain ⟨row, -, hrow⟩ := hi j (by simp [hlen, hch]; omega)
    obtain ⟨m', hm', hz, -⟩ := airfoilRow_neg hrow
    simp only [List.getElem_zipIdx, Nat.zero_add] at hm'
    have : m' = 0 := by
      by_contra hne
      exact hmin j hj ⟨m', hm', hne⟩
    exact hz this

theorem sailGeometry_neg {s : SailInput} {g : SailGeom} (hch : s.chords.length = s.ns + 1)
    (hca : s.camber.length = s.ns + 1) (h : sailGeometry s = .ok g) (h0 : ∃ x ∈ s.camber, x ≠ 0)
    (csys : Csys) (twist : Option (List ℝ)) :
    sailGeometry { s with csys := csys, twist := twist, camber := s.camber.map Neg.neg } = .error (.sysExit 1) := by
  have hm : ∃ m, makeAirfoilMesh s.tack s.head s.nc s.ns s.chords s.distance s.camber = .ok m := by
    cases hm : makeAirfoilMesh s.tack s.head s.nc s.ns s.chords s.distance s.camber with
    | ok m => exact ⟨m, rfl⟩
    | error e =>
      unfold sailGeometry at h
      simp only [hm, bind, Except.bind] at h
      cases h
  obtain ⟨m, hm⟩ := hm
  unfold sailGeometry
  simp only [makeAirfoilMesh_neg hch hca hm h0, bind, Except.bind]

/-- The data of the sections of a sail, and those for the other side. -/
theorem interpolatedSail_neg {spline : SplineFn} {s : SolverConf} (hk : s.interpolation = "linear" ∨ spline = fitpackSpline)
    {c : SailConf} {r : List ℝ × List ℝ × List ℝ × List ℝ} (h : interpolatedSail spline s c = .ok r) :
    interpolatedSail spline s (otherSide c) = .ok (r.1, r.2.1.map Neg.neg, r.2.2.1.map Neg.neg, r.2.2.2) ∧
      r.1.length = s.ns + 1 ∧ r.2.2.1.length = s.ns + 1 ∧ (¬ NoCamber spline s c → ∃ x ∈ r.2.2.1, x ≠ 0) := by
  unfold interpolatedSail at h ⊢
  cases h1 : c.girths with
  | none =>
    obtain ⟨e, he⟩ := needArray_none s.interpolation
    rw [h1, he] at h; cases h
  | some gi =>
  cases h2 : c.chords with
  | none =>
    obtain ⟨e, he⟩ := needArray_none s.interpolation
    rw [h1, h2, he] at h; cases h
  | some ch =>
  cases h3 : c.twist with
  | none =>
    obtain ⟨e, he⟩ := needArray_none s.interpolation
    rw [h1, h2, h3, he] at h
    simp only [needArray_some, bind, Except.bind] at h
    split at h <;> cases h
  | some tw =>
  cases h4 : c.camber with
  | none =>
    obtain ⟨e, he⟩ := needArray_none s.interpolation
    rw [h1, h2, h3, h4, he] at h
    simp only [needArray_some, bind, Except.bind] at h
    split at h
    · cases h
    · split at h <;> cases h
  | some ca =>
  rw [h1, h2, h3, h4] at h
  simp only [otherSide, h1, h2, h3, h4, needArray_some, bind, Except.bind, Option.map_some, interpolateGirths_neg hk] at h ⊢
  cases i1 : interpolateGirths spline s.interpolation gi ch (s.ns + 1) with
  | error e => rw [i1] at h; cases h
  | ok ch' =>
  rw [i1] at h
  simp only at h ⊢
  cases i2 : interpolateGirths spline s.interpolation gi tw (s.ns + 1) with
  | error e => rw [i2] at h; cases h
  | ok tw' =>
  rw [i2] at h
  simp only [Except.map] at h ⊢
  cases i3 : interpolateGirths spline s.interpolation gi ca (s.ns + 1) with
  | error e => rw [i3] at h; cases h
  | ok ca' =>
  rw [i3] at h
  simp only at h ⊢
  cases h5 : c.distance with
  | none =>
    obtain ⟨e, he⟩ := needArray_none s.interpolation
    rw [h5, he] at h; cases h
  | some di =>
  rw [h5] at h
  simp only [needArray_some] at h ⊢
  cases i4 : interpolateGirths spline s.interpolation gi di (s.ns + 1) with
  | error e => rw [i4] at h; cases h
  | ok di' =>
  rw [i4] at h
  cases h
  refine ⟨rfl, interpolateGirths_length hk i1, interpolateGirths_length hk i3, fun hn => ?_⟩
  by_contra hall
  push Not at hall
  refine hn fun gi2 ca2 v hg hc hi => ?_
  rw [h1] at hg
  rw [h4] at hc
  cases hg; cases hc
  rw [i3] at hi
  cases hi
  exact hall

theorem sailJib_cambered {spline : SplineFn} {s : SolverConf} {rig : RigConf} {csys : Csys}
    (hk : s.interpolation = "linear" ∨ spline = fitpackSpline) {c : SailConf} (hf : ¬ NoCamber spline s c) {g : SailGeom}
    (h : sailJib spline s rig (some c) csys = .ok g) :
    sailJib spline s rig (some (otherSide c)) csys.across = .error (.sysExit 1) := by
  unfold sailJib at h ⊢
  simp only [attr, bind, Except.bind] at h ⊢
  cases hi : interpolatedSail spline s c with
  | error e => rw [hi] at h; cases h
  | ok r =>
  obtain ⟨hi', hl1, hl2, hz⟩ := interpolatedSail_neg hk hi
  replace hz := hz hf
  obtain ⟨ch, tw, ca, di⟩ := r
  rw [hi] at h
  rw [hi']
  simp only at h hz hl1 hl2 ⊢
  cases h1 : need rig.jibLuff with
  | error e => rw [h1] at h; cases h
  | ok luff =>
  rw [h1] at h
  simp only at h ⊢
  cases h2 : need rig.base with
  | error e => rw [h2] at h; cases h
  | ok base =>
  rw [h2] at h
  simp only at h ⊢
  cases h3 : need rig.height with
  | error e => rw [h3] at h; cases h
  | ok height =>
  rw [h3] at h
  simp only at h ⊢
  unfold SailFactory.makeJib at h ⊢
  simp only [bind, Except.bind] at h ⊢
  have e : (rig.factory s csys.across).jibMounting luff base height rig.mastLOA =
    (rig.factory s csys).jibMounting luff base height rig.mastLOA := rfl
  rw [e]
  cases h4 : (rig.factory s csys).jibMounting luff base height rig.mastLOA with
  | error e => rw [h4] at h; cases h
  | ok m =>
  rw [h4] at h
  simp only at h ⊢
  exact sailGeometry_neg hl1 hl2 h hz csys.across (some (tw.map Neg.neg))

theorem sailMain_cambered {spline : SplineFn} {s : SolverConf} {rig : RigConf} {csys : Csys}
    (hk : s.interpolation = "linear" ∨ spline = fitpackSpline) {c : SailConf} (hf : ¬ NoCamber spline s c) {g : SailGeom}
    (h : sailMain spline s rig (some c) csys = .ok g) :
    sailMain spline s rig (some (otherSide c)) csys.across = .error (.sysExit 1) := by
  unfold sailMain at h ⊢
  simp only [attr, bind, Except.bind] at h ⊢
  cases hi : interpolatedSail spline s c with
  | error e => rw [hi] at h; cases h
  | ok r =>
  obtain ⟨hi', hl1, hl2, hz⟩ := interpolatedSail_neg hk hi
  replace hz := hz hf
  obtain ⟨ch, tw, ca, di⟩ := r
  rw [hi] at h
  rw [hi']
  simp only at h hz hl1 hl2 ⊢
  cases h1 : need rig.mainLuff with
  | error e => rw [h1] at h; cases h
  | ok luff =>
  rw [h1] at h
  simp only at h ⊢
  exact sailGeometry_neg hl1 hl2 h hz csys.across (some (tw.map Neg.neg))

/-- If a selected sail has camber, the set of sails for the other tack is refused. -/
theorem sailSetOf_cambered {spline : SplineFn} {s : SolverConf} {rig : RigConf} {csys : Csys}
    (hk : s.interpolation = "linear" ∨ spline = fitpackSpline) {main jib : SailConf} {set : SailSet}
    (h : sailSetOf spline s rig (some main) (some jib) csys = .ok set)
    (hn : ¬ ((rig.sailsDef ≠ "jib" → NoCamber spline s main) ∧ (rig.sailsDef ≠ "main" → NoCamber spline s jib))) :
    sailSetOf spline s rig (some (otherSide main)) (some (otherSide jib)) csys.across = .error (.sysExit 1) := by
  obtain ⟨hdef, -⟩ := sailSetOf_shape h
  unfold sailSetOf at h ⊢
  simp only [bind, Except.bind] at h ⊢
  have hjib : rig.sailsDef ≠ "main" → ∃ g, sailJib spline s rig (some jib) csys = .ok g := by
    intro hd
    unfold selectedJib at h
    have hd' : rig.sailsDef = "jib" ∨ rig.sailsDef = "jib_and_main" := by
      rcases hdef with ⟨e, -⟩ | ⟨e, -⟩ | ⟨e, -⟩
      · exact Or.inl e
      · exact absurd e hd
      · exact Or.inr e
    rw [if_pos hd'] at h
    cases hg : sailJib spline s rig (some jib) csys with
    | ok g => exact ⟨g, rfl⟩
    | error e => rw [hg] at h; cases h
  have hmain : rig.sailsDef ≠ "jib" → ∃ g, sailMain spline s rig (some main) csys = .ok g := by
    intro hd
    have hd' : rig.sailsDef = "main" ∨ rig.sailsDef = "jib_and_main" := by
      rcases hdef with ⟨e, -⟩ | ⟨e, -⟩ | ⟨e, -⟩
      · exact absurd e hd
      · exact Or.inl e
      · exact Or.inr e
    cases hg : sailMain spline s rig (some main) csys with
    | ok g => exact ⟨g, rfl⟩
    | error e =>
      unfold selectedMain at h
      rw [if_pos hd', hg] at h
      split at h <;> cases h
  unfold selectedJib selectedMain
  by_cases hj : rig.sailsDef ≠ "main" → NoCamber spline s jib
  · have hm : ¬ (rig.sailsDef ≠ "jib" → NoCamber spline s main) := fun hm => hn ⟨hm, hj⟩
    push Not at hm
    obtain ⟨hd, hm⟩ := hm
    obtain ⟨g, hg⟩ := hmain hd
    have hd' : rig.sailsDef = "main" ∨ rig.sailsDef = "jib_and_main" := by
      rcases hdef with ⟨e, -⟩ | ⟨e, -⟩ | ⟨e, -⟩
      · exact absurd e hd
      · exact Or.inl e
      · exact Or.inr e
    rw [if_pos hd', sailMain_cambered hk hm hg]
    by_cases hd2 : rig.sailsDef = "jib" ∨ rig.sailsDef = "jib_and_main"
    · have hne : rig.sailsDef ≠ "main" := by rcases hd2 with e | e <;> rw [e] <;> decide
      obtain ⟨g', hg'⟩ := hjib hne
      rw [if_pos hd2, sailJib_other hk (hj hne) hg']
      rfl
    · rw [if_neg hd2]
      rfl
  · push Not at hj
    obtain ⟨hd, hj⟩ := hj
    obtain ⟨g, hg⟩ := hjib hd
    have hd' : rig.sailsDef = "jib" ∨ rig.sailsDef = "jib_and_main" := by
      rcases hdef with ⟨e, -⟩ | ⟨e, -⟩ | ⟨e, -⟩
      · exact Or.inl e
      · exact absurd e hd
      · exact Or.inr e
    rw [if_pos hd', sailJib_cambered hk hj hg]
    rfl

/-- Then the run on the other tack ends with status 1 and writes nothing. -/
theorem run_cambered {spline : SplineFn} {c : Config} (hk : c.solver.interpolation = "linear" ∨ spline = fitpackSpline)
    {p : Prepared} (hp : prepare spline c = .ok p)
    (hn : ¬ ((c.rig.sailsDef ≠ "jib" → NoCamber spline c.solver c.main) ∧
      (c.rig.sailsDef ≠ "main" → NoCamber spline c.solver c.jib))) :
    run spline (otherTack c) = ([], .error (.sysExit 1)) := by
  obtain ⟨main, jib, base, h1, h2, h3, h4, h5, h6, h7, h8, hv, res, hres, hflow⟩ := prepare_ok hp
  obtain ⟨em, tm⟩ := withTwist_ok h1
  obtain ⟨ej, tj⟩ := withTwist_ok h2
  have hcs : p.csys = ⟨c.heelDeg, c.leewayDeg, c.vRef⟩ := by
    rw [C59_csys_constructor_total] at h3
    injection h3 with h3
    exact h3.symm
  have i1 : mainSailInit (otherTack c).main = .ok (otherSide main) := by
    have : (otherTack c).main = otherSide main := by rw [em]; rfl
    rw [this]
    exact withTwist_other tm _ _
  have i2 : jibSailInit (otherTack c).jib = .ok (otherSide jib) := by
    have : (otherTack c).jib = otherSide jib := by rw [ej]; rfl
    rw [this]
    exact withTwist_other tj _ _
  have i3 : csysInit (otherTack c).heelDeg (otherTack c).leewayDeg (otherTack c).vRef = .ok p.csys.across := by
    rw [C59_csys_constructor_total, hcs]; rfl
  have i4 : windPostInit (otherTack c).wind = .ok () := h4
  have i5 : sailPostInit (otherTack c).rig (some (otherSide main)) (some (otherSide jib)) = .ok () := by
    rw [sailPostInit_other]; exact h5
  have hn' : ¬ ((c.rig.sailsDef ≠ "jib" → NoCamber spline c.solver main) ∧
      (c.rig.sailsDef ≠ "main" → NoCamber spline c.solver jib)) := by
    rw [em, ej]; exact hn
  have i6 : sailSetOf spline (otherTack c).solver (otherTack c).rig (some (otherSide main)) (some (otherSide jib))
    p.csys.across = .error (.sysExit 1) := sailSetOf_cambered hk h6 hn'
  have hpr : prepare spline (otherTack c) = .error (.sysExit 1) := by
    unfold prepare prepareGeometry
    simp only [i1, i2, i3, i4, i5, i6, bind, Except.bind]
  unfold run
  rw [hpr]

end PySailing
