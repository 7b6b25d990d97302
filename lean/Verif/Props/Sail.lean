import Verif.Lemmas.Sail
import Verif.Model.Hull

/-!
# C04, C16 - C20, C57: twist, sail geometry, rig, sail set, hull
-/

namespace PySailing.Props

open PySailing PySailing.Spec

/-! ## C04 -/

/-- **C04.** Whether or not the "all angles equal" branch is taken, point `i` is rotated about the
line `p1 p2` by its own twist angle.  An axis parallel to x gives no finite result in both
branches, and an empty twist array is an `IndexError`. -/
theorem C04_twist_shortcut (points : List V3) (p1 p2 : V3) (twist : List ℝ)
    (hl : points.length = twist.length) :
    (twist ≠ [] → (p2 - p1).y ≠ 0 ∨ (p2 - p1).z ≠ 0 →
      ∃ r, rotatePointsAroundLe points p1 p2 twist = .ok r ∧ r.length = points.length ∧
        ∀ i (hi : i < points.length) (ht : i < twist.length),
          r[i]? = some (rotateAboutLine p1 p2 (deg2rad twist[i]) points[i])) ∧
    (twist ≠ [] → (p2 - p1).y = 0 → (p2 - p1).z = 0 →
      rotatePointsAroundLe points p1 p2 twist = .error .nonFinite) ∧
    (twist = [] → rotatePointsAroundLe points p1 p2 twist = .error .indexError) := by
  refine ⟨fun hne hax => ⟨_, rotatePointsAroundLe_ok hax hl hne, by simp [hl], ?_⟩, ?_, ?_⟩
  · intro i hi ht
    rw [List.getElem?_zipWith, List.getElem?_eq_getElem hi, List.getElem?_eq_getElem ht]
  · intro hne hy hz
    apply rotatePointsAroundLe_bad _ _ hne
    · rintro (h | h) <;> contradiction
    · rintro rfl
      exact hne (List.length_eq_zero_iff.1 (by simpa using hl.symm))
  · rintro rfl; rfl

/-- Non-vacuity: two points, two different angles, vertical axis. -/
example : ([⟨1, 0, 0⟩, ⟨2, 0, 1⟩] : List V3).length = ([10, 20] : List ℝ).length ∧
    ([10, 20] : List ℝ) ≠ [] ∧
    (((⟨0, 0, 1⟩ : V3) - ⟨0, 0, 0⟩).y ≠ 0 ∨ ((⟨0, 0, 1⟩ : V3) - ⟨0, 0, 0⟩).z ≠ 0) := by
  refine ⟨rfl, by simp, Or.inr (by simp)⟩

/-! ## C16 -/

/-- **C16.** For well-formed arguments the construction succeeds (so none of the four internal
assertions fails) and yields `nc * ns` panels on each side; the luff points of the result are
the heeled points of the straight luff, i.e. they are not moved by the twist; every twisted point
keeps its upright distance to every luff point; and the "zero" panels are the upright sail. -/
theorem C16_sail_geometry (s : SailInput) (θ : ℕ → ℝ) (h : SailOk s θ) :
    ∃ g above under, sailGeometry s = .ok g ∧
      g.panelsAbove = panelGrid s.nc s.ns above ∧ g.panelsUnder = panelGrid s.nc s.ns under ∧
      g.panelsAboveZero = panelGrid s.nc s.ns
        (sailPoint s.tack s.head s.nc s.ns s.chords s.distance s.camber) ∧
      g.panelsAbove.length = s.nc * s.ns ∧ g.panelsUnder.length = s.nc * s.ns ∧
      (∀ r, r ≤ s.ns →
        above r 0 = s.csys.rotatePointWithMirror (lerp s.tack s.head ((r : ℝ) / s.ns)) ∧
        under r 0 = s.csys.rotatePointWithMirror
          (lerp (mirror s.head) (mirror s.tack) ((r : ℝ) / s.ns))) ∧
      (∀ r k r', r ≤ s.ns → k ≤ s.nc → r' ≤ s.ns →
        distance (above r k) (above r' 0) =
          distance (sailPoint s.tack s.head s.nc s.ns s.chords s.distance s.camber r k)
            (lerp s.tack s.head ((r' : ℝ) / s.ns)) ∧
        distance (under r k) (under r' 0) =
          distance (sailPoint (mirror s.head) (mirror s.tack) s.nc s.ns s.chords.reverse s.distance
              s.camber.reverse r k)
            (lerp (mirror s.head) (mirror s.tack) ((r' : ℝ) / s.ns))) := by
  obtain ⟨g, hg, -, -, -, -, ha, hu, hz, -, -, -⟩ := sailGeometry_ok h
  have luffA : ∀ (r r' : ℕ), r ≤ s.ns → rotateAboutLine (s.abovePt 0 0) (s.abovePt s.ns 0)
      (deg2rad (θ r')) (s.abovePt r 0) = s.abovePt r 0 := by
    intro r r' hr
    rw [h.above_line hr, rotateAboutLine_on_line h.above_axis.ne]
  have luffU : ∀ (r r' : ℕ), r ≤ s.ns → rotateAboutLine (s.underPt 0 0) (s.underPt s.ns 0)
      (deg2rad (θ r')) (s.underPt r 0) = s.underPt r 0 := by
    intro r r' hr
    rw [h.under_line hr, rotateAboutLine_on_line h.under_axis.ne]
  refine ⟨g, _, _, hg, ha, hu, hz, ?_, ?_, fun r hr => ⟨?_, ?_⟩, fun r k r' hr hk hr' => ⟨?_, ?_⟩⟩
  · rw [ha]; exact grid_length _ _ _
  · rw [hu]; exact grid_length _ _ _
  · rw [SailInput.aboveTwisted, luffA r r hr, SailInput.abovePt, h.above_luff hr]
  · rw [SailInput.underTwisted, luffU r _ hr, SailInput.underPt, h.under_luff hr]
  · rw [SailInput.aboveTwisted, SailInput.aboveTwisted, luffA r' r' hr', ← luffA r' r hr',
      rotateAboutLine_distance h.above_axis.ne, h.abovePt_eq hr, h.abovePt_eq hr', distance,
      ← M3.mulVec_sub, s.csys.leeway_norm, ← M3.mulVec_sub, s.csys.heeling_norm, h.above_luff hr']
    rfl
  · rw [SailInput.underTwisted, SailInput.underTwisted, luffU r' _ hr', ← luffU r' (s.ns - r) hr',
      rotateAboutLine_distance h.under_axis.ne, h.underPt_eq hr, h.underPt_eq hr', distance,
      ← M3.mulVec_sub, s.csys.leeway_norm, ← M3.mulVec_sub, s.csys.reverseHeeling_norm,
      h.under_luff hr']
    rfl

/-- The example sail used for non-vacuity and for the refutations: heel 0, leeway 0, luff from
`(0,0,1)` to `(0,0,2)`. -/
noncomputable def demoSail (nc : ℕ) (camber distance : List ℝ) (twist : Option (List ℝ))
    (mode : Option String) : SailInput :=
  { head := ⟨0, 0, 2⟩, tack := ⟨0, 0, 1⟩, csys := ⟨0, 0, 0⟩, ns := 1, nc := nc, chords := [1, 1]
    twist := twist, mode := mode, camber := camber, distance := distance, name := "demo" }

theorem demoSail_ok (nc : ℕ) (hnc : 1 ≤ nc) (m0 m1 d0 d1 : ℝ) (twist : Option (List ℝ))
    (mode : Option String) (hm0 : 0 ≤ m0 ∧ m0 ≤ 0.3) (hm1 : 0 ≤ m1 ∧ m1 ≤ 0.3)
    (hd0 : 0 < d0 ∧ d0 ≤ 0.9) (hd1 : 0 < d1 ∧ d1 ≤ 0.9) (θ : ℕ → ℝ)
    (ht : TwistOk (demoSail nc [m0, m1] [d0, d1] twist mode) θ) :
    SailOk (demoSail nc [m0, m1] [d0, d1] twist mode) θ where
  ns_pos := le_rfl
  nc_pos := hnc
  valid := {
    chords_len := rfl
    distance_len := le_rfl
    camber_len := le_rfl
    camber_range := by simpa [demoSail] using ⟨hm0, hm1⟩
    distance_range := by
      simpa [demoSail] using And.intro ⟨hd0.1.le, hd0.2⟩ (And.intro hd1.1.le hd1.2) }
  camber_len := rfl
  pos := by
    intro r hr
    have : r = 0 ∨ r = 1 := by simp [demoSail] at hr; omega
    rcases this with rfl | rfl
    · simpa [demoSail] using hd0.1
    · simpa [demoSail] using hd1.1
  twist := ht
  tack_y := rfl
  head_y := rfl
  tack_z := by norm_num [demoSail]
  foot := Or.inl (by norm_num [demoSail])
  head_z := by norm_num [demoSail]
  sloped := by norm_num [demoSail]
  heel := by simp [demoSail, deg2rad]

/-- Non-vacuity of `SailOk`: a cambered sail twisted from 5 to 12 degrees. -/
example : SailOk (demoSail 2 [0.1, 0.1] [0.5, 0.4] (some [5, 12]) (some "real_twist"))
    (fun r => if r = 0 then 5 else 12) := by
  apply demoSail_ok <;> norm_num
  left
  refine ⟨[5, 12], "real_twist", rfl, rfl, rfl, Or.inr (Or.inr rfl), fun r hr => ?_⟩
  have : r = 0 ∨ r = 1 := by simp [demoSail] at hr; omega
  rcases this with rfl | rfl <;> simp

theorem demo_upright (p : V3) : (⟨0, 0, 0⟩ : Csys).rotatePointWithMirror p = p := by
  by_cases h : 0 < p.z
  · rw [Csys.rotatePointWithMirror_pos _ h, Csys.leeway_mulVec, Csys.heeling_mulVec]
    ext <;> simp [deg2rad]
  · rw [Csys.rotatePointWithMirror_npos _ h, Csys.leeway_mulVec, Csys.reverseHeeling_mulVec]
    ext <;> simp [deg2rad]

/-- Outside of the hypotheses of C16: the camber position 0 is accepted by the airfoil, but moves
the luff points of cambered rows off the luff line, and the constructor stops with an
`AssertionError` (flat foot and head, camber 0.3 in between, twist 90 degrees). -/
theorem C16_position_zero_fails : sailGeometry
    { head := ⟨0, 0, 3⟩, tack := ⟨0, 0, 1⟩, csys := ⟨0, 0, 0⟩, ns := 2, nc := 1
      chords := [1, 1, 1], twist := some [90, 90, 90], mode := some "real_twist"
      camber := [0, 0.3, 0], distance := [0, 0, 0], name := "demo" } = .error .assertionError := by
  have hv : ValidSail 2 [1, 1, 1] [0, 0, 0] [0, 0.3, 0] := by
    refine ⟨rfl, le_rfl, le_rfl, ?_, ?_⟩ <;> norm_num
  obtain ⟨m, hm, hm0, hm1, hmat⟩ :=
    makeAirfoilMesh_sailPoint 1 ⟨0, 0, 1⟩ ⟨0, 0, 3⟩ (by norm_num) hv
  obtain ⟨u, hu, hu0, hu1, huat⟩ :=
    makeAirfoilMesh_sailPoint 1 (flipZ ⟨0, 0, 3⟩) (flipZ ⟨0, 0, 1⟩) (by norm_num)
      (validSail_reverse hv rfl)
  have ef : m.flatten.map (⟨0, 0, 0⟩ : Csys).rotatePointWithMirror =
      (List.range (2 + 1)).flatMap fun i => (List.range (1 + 1)).map fun j =>
        sailPoint ⟨0, 0, 1⟩ ⟨0, 0, 3⟩ 1 2 [1, 1, 1] [0, 0, 0] [0, 0.3, 0] i j := by
    unfold NdMesh.flatten
    rw [grid_map, hm0, hm1]
    apply grid_congr
    intro i j hi hj
    rw [hmat i j (by omega) (by omega), demo_upright]
  have htw := twistPerPoint_ok (tw := [90, 90, 90]) (sh0 := 2 + 1) (sh1 := 1 + 1) rfl
  have h0 : sailPoint ⟨0, 0, 1⟩ ⟨0, 0, 3⟩ 1 2 [1, 1, 1] [0, 0, 0] [0, 0.3, 0] 0 0 =
      ⟨0, 0, 1⟩ := by ext <;> norm_num [sailPoint, lerp, camberCurve]
  have h1 : sailPoint ⟨0, 0, 1⟩ ⟨0, 0, 3⟩ 1 2 [1, 1, 1] [0, 0, 0] [0, 0.3, 0] 1 0 =
      ⟨0, 0.3, 2⟩ := by ext <;> norm_num [sailPoint, lerp, camberCurve]
  have h2 : sailPoint ⟨0, 0, 1⟩ ⟨0, 0, 3⟩ 1 2 [1, 1, 1] [0, 0, 0] [0, 0.3, 0] 2 0 =
      ⟨0, 0, 3⟩ := by ext <;> norm_num [sailPoint, lerp, camberCurve]
  have hbad := twistMesh_moved (ns := 2) (nc := 1)
    (f := sailPoint ⟨0, 0, 1⟩ ⟨0, 0, 3⟩ 1 2 [1, 1, 1] [0, 0, 0] [0, 0.3, 0])
    (tw := fun i => ([90, 90, 90] : List ℝ).getD i 0) (r := 1)
    (by rw [h0, h2]; right; norm_num) (by norm_num) (by
      rw [h0, h1, h2]
      have hu : unit ((⟨0, 0, 3⟩ : V3) - ⟨0, 0, 1⟩) = ⟨0, 0, 1⟩ := by
        have : (⟨0, 0, 3⟩ : V3) - ⟨0, 0, 1⟩ = (2 : ℝ) • ⟨0, 0, 1⟩ := by ext <;> norm_num
        rw [this, unit_smul_pos _ (by norm_num), unit_of_dot_one (by simp [V3.dot])]
      have h90 : deg2rad 90 = Real.pi / 2 := by unfold deg2rad; ring
      rintro ⟨hx, -, -⟩
      have e : (([90, 90, 90] : List ℝ).getD 1 0) = 90 := by simp
      simp only [e, rotateAboutLine, hu, h90, rodrigues, Real.cos_pi_div_two,
        Real.sin_pi_div_two] at hx
      norm_num [almostEq] at hx)
  simp only [sailGeometry, hm, hu, bind, Except.bind, twistBlock, twistDict, hm0, hm1, ef, htw,
    hbad]
  rfl

/-! ## C61 -/

/-- **C61.** `SailGeometry` never hands out `nan` corners: for every input whatsoever it either
returns finite panels, or raises (`ValueError`, `IndexError`, `KeyError`, `AssertionError`), or stops the
program with status 1. -/
theorem C61_never_nan (s : SailInput) (e : PyErr) (h : sailGeometry s = .error e) :
    e = .valueError ∨ e = .indexError ∨ e = .keyError ∨ e = .assertionError ∨ e = .sysExit 1 := by
  unfold sailGeometry at h
  rcases bind_error h with h | ⟨m, -, h⟩
  · rcases makeAirfoilMesh_err h with h | h | h | h <;> simp [h]
  rcases bind_error h with h | ⟨u, -, h⟩
  · rcases makeAirfoilMesh_err h with h | h | h | h <;> simp [h]
  rcases bind_error h with h | ⟨⟨tr, tru⟩, -, h⟩
  · rcases twistBlock_err h with h | h | h | h <;> simp [h]
  simp only at h
  split_ifs at h <;> simp [pure, Except.pure] at h <;> simp [← h]

/-- **C61**, the degenerate luff: if twist is given and the heeled luff is parallel to x (where
the rotation computes `nan`), the result is an `AssertionError`. -/
theorem C61_parallel_luff (s : SailInput) (tw : List ℝ) (hns : 1 ≤ s.ns)
    (hv : ValidSail s.ns s.chords s.distance s.camber) (hc : s.camber.length = s.ns + 1)
    (hp : ∀ r, r ≤ s.ns → 0 < s.distance.getD r 0)
    (htw : s.twist = some tw) (hl : tw.length = s.ns + 1)
    (hm : ∃ mode ∈ twistModes, s.mode = some mode)
    (ht : s.tack.y = 0) (hh : s.head.y = 0)
    (hy : (s.csys.rotatePointWithMirror s.head - s.csys.rotatePointWithMirror s.tack).y = 0)
    (hz : (s.csys.rotatePointWithMirror s.head - s.csys.rotatePointWithMirror s.tack).z = 0) :
    sailGeometry s = .error .assertionError := by
  obtain ⟨mode, hmode, hmo⟩ := hm
  obtain ⟨m, hm, hm0, hm1, hmat⟩ := makeAirfoilMesh_sailPoint s.nc s.tack s.head hns hv
  obtain ⟨u, hu, hu0, hu1, huat⟩ :=
    makeAirfoilMesh_sailPoint s.nc (mirror s.head) (mirror s.tack) hns (validSail_reverse hv hc)
  have hu' : makeAirfoilMesh (flipZ s.head) (flipZ s.tack) s.nc s.ns s.chords.reverse s.distance
      s.camber.reverse = .ok u := hu
  have ef : m.flatten.map s.csys.rotatePointWithMirror =
      (List.range (s.ns + 1)).flatMap fun i => (List.range (s.nc + 1)).map fun j =>
        s.abovePt i j := by
    unfold NdMesh.flatten
    rw [grid_map, hm0, hm1]
    apply grid_congr
    intro i j hi hj
    rw [hmat i j (by omega) (by omega)]; rfl
  have hn : (s.ns : ℝ) ≠ 0 := by positivity
  have e0 : s.abovePt 0 0 = s.csys.rotatePointWithMirror s.tack := by
    rw [SailInput.abovePt, sailPoint_luff ht hh (hp 0 (Nat.zero_le _))]
    congr 1; ext <;> simp [lerp]
  have e1 : s.abovePt s.ns 0 = s.csys.rotatePointWithMirror s.head := by
    rw [SailInput.abovePt, sailPoint_luff ht hh (hp s.ns le_rfl)]
    congr 1; ext <;> simp [lerp, div_self hn]
  have hbad := twistMesh_bad (f := s.abovePt) (ns := s.ns) (nc := s.nc)
    (tw := fun i => tw.getD i 0) (by
      rw [e0, e1]
      rintro (h | h)
      · exact h hy
      · exact h hz)
  obtain ⟨x, hx⟩ := twistDict_ok (tw := tw) (by rintro rfl; simp at hl) (mode := mode)
    (by simpa [twistModes] using hmode)
  simp only [sailGeometry, hm, hu', bind, Except.bind, twistBlock, htw, hmo, hx, hm0, hm1, ef,
    twistPerPoint_ok hl, hbad]

/-- Non-vacuity: without heel and leeway, a luff at constant height is parallel to x. -/
example : ((⟨0, 0, 0⟩ : Csys).rotatePointWithMirror ⟨1, 0, 1⟩ -
    (⟨0, 0, 0⟩ : Csys).rotatePointWithMirror ⟨0, 0, 1⟩).z = 0 := by
  rw [demo_upright, demo_upright]; simp

/-! ## C17 -/

/-- **C17 (partial: camber positions symmetric along the span).** Underwater panel `(i, j)` is the
mirror image, with S and N corners exchanged, of above-water panel `(i, ns - 1 - j)`.
Missing: asymmetric position distributions, see `C17_refuted`. -/
theorem C17_mirror_image_partial (s : SailInput) (θ : ℕ → ℝ) (h : SailOk s θ)
    (hd : ∀ r, r ≤ s.ns → s.distance.getD r 0 = s.distance.getD (s.ns - r) 0) :
    ∃ g, sailGeometry s = .ok g ∧
      g.panelsAbove.length = s.nc * s.ns ∧ g.panelsUnder.length = s.nc * s.ns ∧
      ∀ i j, i < s.nc → j < s.ns → ∃ q, g.panelsAbove[i * s.ns + (s.ns - 1 - j)]? = some q ∧
        g.panelsUnder[i * s.ns + j]? = some (mirrorPanel q) := by
  obtain ⟨g, hg, -, -, -, -, ha, hu, -, -, -, -⟩ := sailGeometry_ok h
  refine ⟨g, hg, by rw [ha]; exact grid_length _ _ _, by rw [hu]; exact grid_length _ _ _,
    fun i j hi hj => ?_⟩
  rw [ha, hu]
  refine ⟨_, panelGrid_getElem? _ hi (by omega), ?_⟩
  rw [panelGrid_getElem? _ hi hj]
  have e1 : s.ns - 1 - j + 1 = s.ns - j := by omega
  have e2 : s.ns - (j + 1) = s.ns - 1 - j := by omega
  simp only [mirrorPanel, h.underTwisted_mirror hd (show j ≤ s.ns by omega),
    h.underTwisted_mirror hd (show j + 1 ≤ s.ns by omega), e1, e2]

/-- Non-vacuity: constant camber position. -/
example : ∀ r, r ≤ 1 → ([0.5, 0.5] : List ℝ).getD r 0 = ([0.5, 0.5] : List ℝ).getD (1 - r) 0 := by
  intro r hr
  have : r = 0 ∨ r = 1 := by omega
  rcases this with rfl | rfl <;> simp

theorem twistOk_none (nc : ℕ) (camber distance : List ℝ) (mode : Option String) :
    TwistOk (demoSail nc camber distance none mode) (fun _ => 0) :=
  Or.inr ⟨Or.inl rfl, fun _ => rfl⟩

/-- **C17 refuted** in general: with camber positions 0.5 at the foot and 0.25 at the head, the
first underwater panel is not the mirror image of the corresponding panel above the water. -/
theorem C17_refuted : ∃ (s : SailInput) (g : SailGeom), SailOk s (fun _ => 0) ∧
    sailGeometry s = .ok g ∧ s.ns = 1 ∧
    ∃ q, g.panelsAbove[0]? = some q ∧ g.panelsUnder[0]? ≠ some (mirrorPanel q) := by
  have hok : SailOk (demoSail 2 [0.1, 0.1] [0.5, 0.25] none none) (fun _ => 0) := by
    apply demoSail_ok <;> first | exact twistOk_none _ _ _ _ | norm_num
  obtain ⟨g, hg, -, -, -, -, ha, hu, -, -, -, -⟩ := sailGeometry_ok hok
  refine ⟨_, g, hok, hg, rfl, ?_⟩
  rw [ha, hu]
  refine ⟨_, panelGrid_getElem? (i := 0) (j := 0) _ (by simp [demoSail]) (by simp [demoSail]), ?_⟩
  have := panelGrid_getElem? (nc := (demoSail 2 [0.1, 0.1] [0.5, 0.25] none none).nc)
    (ns := (demoSail 2 [0.1, 0.1] [0.5, 0.25] none none).ns)
    ((demoSail 2 [0.1, 0.1] [0.5, 0.25] none none).underTwisted fun _ => 0) (i := 0) (j := 0)
    (by simp [demoSail]) (by simp [demoSail])
  simp only [Nat.zero_mul, Nat.zero_add] at this
  rw [this]
  intro h
  have h1 := congrArg (fun q : Panel => q.p1.y) (Option.some.inj h)
  simp only [mirrorPanel, SailInput.underTwisted, SailInput.aboveTwisted, deg2rad, zero_mul,
    rotateAboutLine_zero, SailInput.underPt, SailInput.abovePt, demoSail, demo_upright, mirror,
    sailPoint, camberCurve] at h1
  norm_num at h1

/-! ## C18 -/

/-- The code's actual behaviour: all three documented modes give the same sail, for every
argument (including failing ones). -/
theorem C18_mode_ignored (s : SailInput) (m m' : String) (hm : m ∈ twistModes)
    (hm' : m' ∈ twistModes) :
    sailGeometry { s with mode := some m } = sailGeometry { s with mode := some m' } := by
  have key : ∀ (sh0 sh1 : ℕ) (a b : List V3),
      twistBlock { s with mode := some m } sh0 sh1 a b =
      twistBlock { s with mode := some m' } sh0 sh1 a b := by
    intro sh0 sh1 a b
    rcases ht : s.twist with _ | tw
    · simp [twistBlock, ht]
    · rcases tw with _ | ⟨t, ts⟩
      · simp [twistBlock, ht, twistDict, bind, Except.bind]
      · obtain ⟨x, hx⟩ := twistDict_ok (tw := t :: ts) (by simp) (mode := m)
          (by simpa [twistModes] using hm)
        obtain ⟨x', hx'⟩ := twistDict_ok (tw := t :: ts) (by simp) (mode := m')
          (by simpa [twistModes] using hm')
        simp [twistBlock, ht, hx, hx', bind, Except.bind]
  simp only [sailGeometry, key]

theorem demo_twistOk (t0 t1 : ℝ) (m : String) (hm : m ∈ twistModes) :
    TwistOk (demoSail 1 [0, 0] [0.5, 0.5] (some [t0, t1]) (some m))
      (fun r => if r = 0 then t0 else t1) := by
  left
  refine ⟨[t0, t1], m, rfl, rfl, rfl, by simpa [twistModes] using hm, fun r hr => ?_⟩
  have : r = 0 ∨ r = 1 := by simp [demoSail] at hr; omega
  rcases this with rfl | rfl <;> simp

/-- The upper leech point of the flat demo sail is turned by the upper twist angle. -/
theorem demo_twisted (t0 t1 : ℝ) (m : String) (hm : m ∈ twistModes) :
    SailOk (demoSail 1 [0, 0] [0.5, 0.5] (some [t0, t1]) (some m))
      (fun r => if r = 0 then t0 else t1) ∧
    ∃ g, sailGeometry (demoSail 1 [0, 0] [0.5, 0.5] (some [t0, t1]) (some m)) = .ok g ∧
      ∃ q, g.panelsAbove[0]? = some q ∧ q.p4.y = Real.sin (deg2rad t1) := by
  have hok : SailOk (demoSail 1 [0, 0] [0.5, 0.5] (some [t0, t1]) (some m))
      (fun r => if r = 0 then t0 else t1) := by
    apply demoSail_ok <;> first | exact demo_twistOk t0 t1 m hm | norm_num
  obtain ⟨g, hg, -, -, -, -, ha, -, -, -, -, -⟩ := sailGeometry_ok hok
  refine ⟨hok, g, hg, ?_⟩
  rw [ha]
  refine ⟨_, panelGrid_getElem? (i := 0) (j := 0) _ (by simp [demoSail]) (by simp [demoSail]), ?_⟩
  have hn : (⟨0, 0, 1⟩ : V3).norm = 1 := by simp [V3.norm, V3.dot]
  have e : ∀ x : ℝ, camberCurve 0 (1 / 2) x = 0 := by intro x; simp [camberCurve]
  have hu : unit ((⟨0, 0, 2⟩ : V3) - ⟨0, 0, 1⟩) = ⟨0, 0, 1⟩ := by
    have : (⟨0, 0, 2⟩ : V3) - ⟨0, 0, 1⟩ = ⟨0, 0, 1⟩ := by ext <;> norm_num
    rw [this, unit, hn]; ext <;> simp
  have hp : ∀ r k : ℕ, sailPoint (⟨0, 0, 1⟩ : V3) ⟨0, 0, 2⟩ 1 1 [1, 1] [0.5, 0.5] [0, 0] r k =
      ⟨([1, 1] : List ℝ).getD r 0 * k, ([1, 1] : List ℝ).getD r 0 * camberCurve
        (([0, 0] : List ℝ).getD r 0) (([0.5, 0.5] : List ℝ).getD r 0) k, 1 + r⟩ := by
    intro r k
    ext <;> simp [sailPoint, lerp]
    norm_num
  have h00 : (demoSail 1 [0, 0] [0.5, 0.5] (some [t0, t1]) (some m)).abovePt 0 0 = ⟨0, 0, 1⟩ := by
    simp only [SailInput.abovePt, demoSail, demo_upright, hp]
    ext <;> simp [camberCurve]
  have h10 : (demoSail 1 [0, 0] [0.5, 0.5] (some [t0, t1]) (some m)).abovePt 1 0 = ⟨0, 0, 2⟩ := by
    simp only [SailInput.abovePt, demoSail, demo_upright, hp]
    ext <;> simp [camberCurve]
    norm_num
  have h11 : (demoSail 1 [0, 0] [0.5, 0.5] (some [t0, t1]) (some m)).abovePt 1 1 = ⟨1, 0, 2⟩ := by
    simp only [SailInput.abovePt, demoSail, demo_upright, hp]
    ext <;> simp [camberCurve]
    norm_num
  have hns : (demoSail 1 [0, 0] [0.5, 0.5] (some [t0, t1]) (some m)).ns = 1 := rfl
  simp only [SailInput.aboveTwisted, hns, Nat.zero_add, h00, h10, h11, rotateAboutLine, hu,
    rodrigues]
  simp

theorem sin_deg_90 : Real.sin (deg2rad 90) = 1 := by
  rw [show deg2rad 90 = Real.pi / 2 by unfold deg2rad; ring, Real.sin_pi_div_two]

theorem sin_deg_45 : Real.sin (deg2rad 45) < 1 := by
  rw [show deg2rad 45 = Real.pi / 4 by unfold deg2rad; ring, Real.sin_pi_div_four]
  nlinarith [Real.sq_sqrt (show (0 : ℝ) ≤ 2 by norm_num), Real.sqrt_nonneg (2 : ℝ)]

/-- **C18 refuted**: a sail twisted `[0, 90]` in mode `sheeting_angle_const` (resp.
`average_const`) is not the sail twisted everywhere by the minimum 0 (resp. the average 45). -/
theorem C18_refuted :
    (∃ (s : SailInput) (θ : ℕ → ℝ) (g g' : SailGeom), SailOk s θ ∧ s.twist = some [0, 90] ∧
      sailGeometry { s with mode := some "sheeting_angle_const" } = .ok g ∧
      sailGeometry { s with mode := some "real_twist", twist := some [0, 0] } = .ok g' ∧
      g.panelsAbove ≠ g'.panelsAbove) ∧
    (∃ (s : SailInput) (θ : ℕ → ℝ) (g g' : SailGeom), SailOk s θ ∧ s.twist = some [0, 90] ∧
      sailGeometry { s with mode := some "average_const" } = .ok g ∧
      sailGeometry { s with mode := some "real_twist", twist := some [45, 45] } = .ok g' ∧
      g.panelsAbove ≠ g'.panelsAbove) := by
  constructor
  · obtain ⟨hok, g, hg, q, hq, hy⟩ := demo_twisted 0 90 "sheeting_angle_const" (by simp [twistModes])
    obtain ⟨-, g', hg', q', hq', hy'⟩ := demo_twisted 0 0 "real_twist" (by simp [twistModes])
    refine ⟨_, _, g, g', hok, rfl, hg, hg', fun h => ?_⟩
    rw [h, hq'] at hq
    rw [Option.some.inj hq, hy, sin_deg_90] at hy'
    simp [deg2rad] at hy'
  · obtain ⟨hok, g, hg, q, hq, hy⟩ := demo_twisted 0 90 "average_const" (by simp [twistModes])
    obtain ⟨-, g', hg', q', hq', hy'⟩ := demo_twisted 45 45 "real_twist" (by simp [twistModes])
    refine ⟨_, _, g, g', hok, rfl, hg, hg', fun h => ?_⟩
    rw [h, hq'] at hq
    rw [Option.some.inj hq, hy, sin_deg_90] at hy'
    have := sin_deg_45
    linarith

/-- **C18 (partial).** The sail is always twisted with the given distribution: row `r` is turned
by `tw[r]` about the heeled luff (`real_twist` is right; the other two modes are right when the
distribution is constant, since minimum and average are then the distribution itself).  A mode name
that is not documented is a `KeyError`.  Missing: `sheeting_angle_const` and `average_const` for
non-constant twist, see `C18_refuted`. -/
theorem C18_twist_mode_partial (s : SailInput) (tw : List ℝ) (θ : ℕ → ℝ) (h : SailOk s θ)
    (htw : s.twist = some tw) (hm : s.mode ≠ none) :
    (∃ g, sailGeometry s = .ok g ∧
      g.panelsAbove = panelGrid s.nc s.ns (fun r k =>
        rotateAboutLine (s.csys.rotatePointWithMirror s.tack) (s.csys.rotatePointWithMirror s.head)
          (deg2rad (tw.getD r 0))
          (s.csys.rotatePointWithMirror
            (sailPoint s.tack s.head s.nc s.ns s.chords s.distance s.camber r k)))) ∧
    (∀ t, (∀ x ∈ tw, x = t) → (∀ x xs, tw = x :: xs → npMin x xs = t) ∧ npAverage tw = t) ∧
    (∀ mode, mode ∉ twistModes →
      sailGeometry { s with mode := some mode } = .error .keyError) := by
  have hlen : tw.length = s.ns + 1 ∧ ∀ r, r ≤ s.ns → tw[r]? = some (θ r) := by
    rcases h.twist with ⟨tw', mode, h1, -, h3, -, h5⟩ | ⟨h1 | h1, -⟩
    · rw [htw] at h1
      cases h1
      exact ⟨h3, h5⟩
    · rw [htw] at h1; cases h1
    · exact absurd h1 hm
  refine ⟨?_, fun t ht => ⟨?_, ?_⟩, fun mode hmode => ?_⟩
  · obtain ⟨g, hg, -, -, -, -, ha, -, -, -, -, -⟩ := sailGeometry_ok h
    refine ⟨g, hg, ?_⟩
    rw [ha]
    apply grid_congr
    have e0 : s.abovePt 0 0 = s.csys.rotatePointWithMirror s.tack := by
      rw [SailInput.abovePt, h.above_luff (Nat.zero_le _)]
      congr 1; ext <;> simp [lerp]
    have e1 : s.abovePt s.ns 0 = s.csys.rotatePointWithMirror s.head := by
      rw [SailInput.abovePt, h.above_luff le_rfl]
      congr 1; ext <;> simp [lerp, div_self h.ns_ne]
    have e : ∀ r k, r ≤ s.ns → s.aboveTwisted θ r k =
        rotateAboutLine (s.csys.rotatePointWithMirror s.tack) (s.csys.rotatePointWithMirror s.head)
          (deg2rad (tw.getD r 0))
          (s.csys.rotatePointWithMirror
            (sailPoint s.tack s.head s.nc s.ns s.chords s.distance s.camber r k)) := by
      intro r k hr
      rw [SailInput.aboveTwisted, e0, e1, List.getD_eq_getElem?_getD, hlen.2 r hr]
      rfl
    intro i j hi hj
    rw [e j (i + 1) (by omega), e j i (by omega), e (j + 1) i (by omega),
      e (j + 1) (i + 1) (by omega)]
  · intro x xs hx
    have hx0 : x = t := ht x (by simp [hx])
    have hxs : ∀ y ∈ xs, y = t := fun y hy => ht y (by simp [hx, hy])
    clear ht hlen htw hx
    subst hx0
    unfold npMin
    induction xs with
    | nil => rfl
    | cons y ys ih =>
      rw [List.foldl_cons, hxs y (by simp), min_self]
      exact ih fun z hz => hxs z (by simp [hz])
  · have hrep : tw = List.replicate tw.length t := List.eq_replicate_iff.2 ⟨rfl, ht⟩
    have hpos : (tw.length : ℝ) ≠ 0 := by rw [hlen.1]; positivity
    unfold npAverage
    conv_lhs => arg 1; rw [hrep]
    rw [List.sum_replicate, nsmul_eq_mul]
    field_simp
  · obtain ⟨m, hm1, hm0, hm1', hmat⟩ :=
      makeAirfoilMesh_sailPoint s.nc s.tack s.head h.ns_pos h.valid
    obtain ⟨u, hu, hu0, hu1, huat⟩ :=
      makeAirfoilMesh_sailPoint s.nc (mirror s.head) (mirror s.tack) h.ns_pos
        (validSail_reverse h.valid h.camber_len)
    have hu' : makeAirfoilMesh (flipZ s.head) (flipZ s.tack) s.nc s.ns s.chords.reverse s.distance
        s.camber.reverse = .ok u := hu
    have hd : twistDict tw mode = .error .keyError := by
      simp only [twistModes, List.mem_cons, List.not_mem_nil, or_false, not_or] at hmode
      rcases tw with _ | ⟨t, ts⟩
      · simp at hlen
      · simp [twistDict, hmode]
    simp only [sailGeometry, hm1, hu', bind, Except.bind, twistBlock, htw, hd]

/-- Non-vacuity: an undocumented mode name. -/
example : "constant" ∉ twistModes := by simp [twistModes]

/-! ## C19 -/

/-- **C19**, main sail: the tack is `sheer + boom` along the mast, the head one luff length
further. -/
theorem C19_main_sail (f : SailFactory) (luff boom : ℝ) (chords : List ℝ)
    (twist : Option (List ℝ)) (mode : Option String) (camber distance : List ℝ) :
    f.makeMainSail luff boom chords twist mode camber distance = sailGeometry {
      tack := (f.sheer + boom) • mastDirection f.rakeDeg
      head := (f.sheer + boom + luff) • mastDirection f.rakeDeg
      csys := f.csys, ns := f.ns, nc := f.nc, chords := chords, twist := twist, mode := mode
      camber := camber, distance := distance, name := "main_sail" } := by
  have h1 : (f.mainMounting luff boom).1 = (f.sheer + boom) • mastDirection f.rakeDeg := by
    ext <;> simp [SailFactory.mainMounting, mastDirection, SailFactory.sheerXyz, SailFactory.rake]
      <;> ring
  have h2 : (f.mainMounting luff boom).2 = (f.sheer + boom + luff) • mastDirection f.rakeDeg := by
    ext <;> simp [SailFactory.mainMounting, mastDirection, SailFactory.sheerXyz, SailFactory.rake]
      <;> ring
  simp only [SailFactory.makeMainSail, h1, h2]

theorem forestay_norm (rakeDeg base height : ℝ) :
    (forestay rakeDeg base height).norm = Real.sqrt (base * base + height * height
      - 2 * base * height * Real.cos (deg2rad rakeDeg)) := by
  unfold V3.norm
  congr 1
  have := Real.sin_sq_add_cos_sq (deg2rad rakeDeg)
  simp [V3.dot, forestay, mastDirection]
  linear_combination height ^ 2 * this

/-- What `make_jib` computes: the head lies one luff length from the tack in the direction
`(|fx|, 0, fz)`, `f` being the forestay (for a mast above the deck, `sin rake > 0`, and a
foretriangle of non-negative height). -/
theorem jibMounting_eq (f : SailFactory) (luff base height loa : ℝ)
    (hs : 0 < Real.sin f.rake) (hf : forestay f.rakeDeg base height ≠ 0) :
    f.jibMounting luff base height loa = .ok (
      f.sheer • mastDirection f.rakeDeg - ⟨base + loa / Real.sin f.rake, 0, 0⟩,
      f.sheer • mastDirection f.rakeDeg - ⟨base + loa / Real.sin f.rake, 0, 0⟩ +
        (luff / (forestay f.rakeDeg base height).norm) •
          (⟨|(forestay f.rakeDeg base height).x|, 0, (forestay f.rakeDeg base height).z⟩ : V3)) := by
  have hl := V3.norm_pos hf
  have hfn := forestay_norm f.rakeDeg base height
  have hsq := V3.norm_mul_self (forestay f.rakeDeg base height)
  unfold SailFactory.jibMounting
  have hr : f.rake = deg2rad f.rakeDeg := rfl
  simp only [hr] at hs ⊢
  rw [← hfn]
  simp only [if_neg hl.ne', if_neg hs.ne']
  have hz : (forestay f.rakeDeg base height).z = height * Real.sin (deg2rad f.rakeDeg) := by
    simp [forestay, mastDirection]
  have hy : (forestay f.rakeDeg base height).y = 0 := by simp [forestay, mastDirection]
  generalize forestay f.rakeDeg base height = F at *
  rw [← hz]
  have hd : F.norm * F.norm = F.x * F.x + F.z * F.z := by rw [hsq, V3.dot, hy]; ring
  have hle : |F.z| ≤ F.norm := 
    abs_le_of_sq_le_sq (by nlinarith [mul_self_nonneg F.x]) hl.le
  have hb := abs_le.1 hle
  have h1 : Real.sin (Real.arcsin (F.z / F.norm)) = F.z / F.norm :=
    Real.sin_arcsin (by rw [le_div_iff₀ hl]; linarith) (by rw [div_le_iff₀ hl]; linarith)
  have h2 : Real.cos (Real.arcsin (F.z / F.norm)) = |F.x| / F.norm := by
    rw [Real.cos_arcsin]
    have : 1 - (F.z / F.norm) ^ 2 = (F.x / F.norm) ^ 2 := by
      field_simp; linarith
    rw [this, Real.sqrt_sq_eq_abs, abs_div, abs_of_pos hl]
  rw [h1, h2]
  congr 2
  · ext <;> simp [SailFactory.sheerXyz, mastDirection, hr]; ring
  · ext <;> simp [SailFactory.sheerXyz, mastDirection, hr] <;> ring

/-- **C19**, jib (partial: the forestay slopes aft, `height * cos rake ≤ base`).  The tack is
`base + mast_LOA / sin rake` ahead of the point of the mast line at sheer height and the head one
luff length along the forestay.  A horizontal mast or degenerate foretriangle gives no finite
result.  Missing: steeply raked masts, see `C19_refuted`. -/
theorem C19_jib_partial (f : SailFactory) (luff base height loa : ℝ) (chords : List ℝ)
    (twist : Option (List ℝ)) (mode : Option String) (camber distance : List ℝ) :
    (0 < Real.sin (deg2rad f.rakeDeg) → forestay f.rakeDeg base height ≠ 0 →
      height * Real.cos (deg2rad f.rakeDeg) ≤ base →
      ∀ tack, tack = f.sheer • mastDirection f.rakeDeg
          - ⟨base + loa / Real.sin (deg2rad f.rakeDeg), 0, 0⟩ →
      f.makeJib luff base height loa chords twist mode camber distance = sailGeometry {
        tack := tack
        head := tack + luff • unit (forestay f.rakeDeg base height)
        csys := f.csys, ns := f.ns, nc := f.nc, chords := chords, twist := twist, mode := mode
        camber := camber, distance := distance, name := "jib" }) ∧
    (Real.sin (deg2rad f.rakeDeg) = 0 ∨ forestay f.rakeDeg base height = 0 →
      f.makeJib luff base height loa chords twist mode camber distance = .error .nonFinite) := by
  constructor
  · rintro hs hf hb tack rfl
    have hx : 0 ≤ (forestay f.rakeDeg base height).x := by
      simp [forestay, mastDirection]; linarith
    have hy : (forestay f.rakeDeg base height).y = 0 := by simp [forestay, mastDirection]
    unfold SailFactory.makeJib
    rw [jibMounting_eq f luff base height loa hs hf]
    simp only [bind, Except.bind]
    congr 2
    rw [abs_of_nonneg hx, unit, smul_smul, mul_one_div]
    congr 2
    ext <;> simp [hy]
  · intro h
    have : f.jibMounting luff base height loa = .error .nonFinite := by
      have hfn := forestay_norm f.rakeDeg base height
      by_cases hf : (forestay f.rakeDeg base height).norm = 0
      · rw [hfn] at hf
        exact if_pos hf
      · have hs : Real.sin f.rake = 0 := by
          rcases h with h | h
          · exact h
          · exact absurd (V3.norm_eq_zero.2 h) hf
        rw [hfn] at hf
        exact (if_neg hf).trans (if_pos hs)
    unfold SailFactory.makeJib
    rw [this]; rfl

/-- Non-vacuity: an upright mast (rake 90), base 5, height 12. -/
example : 0 < Real.sin (deg2rad 90) ∧ forestay 90 5 12 ≠ 0 ∧
    12 * Real.cos (deg2rad 90) ≤ 5 := by
  have h90 : deg2rad 90 = Real.pi / 2 := by unfold deg2rad; ring
  refine ⟨by rw [h90]; simp, fun h => ?_, by rw [h90]; simp⟩
  have := congrArg V3.z h
  simp [forestay, mastDirection, h90] at this

/-- **C19 refuted** in general: with rake 60 degrees, height 4 and base 1 the forestay runs forward
from the tack, but the computed jib head lies aft of the tack. -/
theorem C19_refuted : ∃ (f : SailFactory) (base height : ℝ) (tack head : V3),
    0 < Real.sin (deg2rad f.rakeDeg) ∧ 0 < base ∧ 0 < height ∧
    f.jibMounting 1 base height 0 = .ok (tack, head) ∧
    (forestay f.rakeDeg base height).x < 0 ∧ 0 < (head - tack).x := by
  have h60 : deg2rad 60 = Real.pi / 3 := by unfold deg2rad; ring
  have hs : 0 < Real.sin (deg2rad 60) := by
    rw [h60, Real.sin_pi_div_three]; positivity
  have hx : (forestay 60 1 4).x = -1 := by
    simp [forestay, mastDirection, h60]; norm_num
  have hf : forestay 60 1 4 ≠ 0 := by
    intro h; rw [h] at hx; simp at hx
  refine ⟨⟨⟨0, 0, 0⟩, 1, 1, 60, 0⟩, 1, 4, _, _, hs, by norm_num, by norm_num,
    jibMounting_eq _ 1 1 4 0 hs hf, ?_, ?_⟩
  · rw [hx]; norm_num
  · rw [add_sub_cancel_left, V3.smul_x, hx]
    have := V3.norm_pos hf
    simp only [abs_neg, abs_one, mul_one]
    positivity

/-! ## C20 -/

/-- Start of sail `i`'s block in a concatenation of blocks with the given sizes. -/
def blockStart (sizes : List ℕ) (i : ℕ) : ℕ := (sizes.take i).sum

theorem flatten_block {α : Type} (ls : List (List α)) (i : ℕ) (hi : i < ls.length) (k : ℕ)
    (hk : k < (ls[i]).length) :
    ls.flatten[blockStart (ls.map List.length) i + k]? = (ls[i])[k]? := by
  induction ls generalizing i with
  | nil => simp at hi
  | cons l ls ih =>
    rcases i with _ | i
    · simp only [blockStart, List.take_zero, List.sum_nil, Nat.zero_add, List.flatten_cons]
      rw [List.getElem?_append_left (by simpa using hk)]
      rfl
    · simp only [blockStart, List.map_cons, List.take_succ_cons, List.sum_cons, List.flatten_cons]
      rw [List.getElem?_append_right (by omega)]
      have : l.length + (List.take i (ls.map List.length)).sum + k - l.length =
          blockStart (ls.map List.length) i + k := by unfold blockStart; omega
      rw [this]
      exact ih i (by simpa using hi) (by simpa using hk)

/-- **C20.** For any non-empty list of sails whose underwater halves have as many panels as the
above-water halves (and one flag per panel): panel `k` of sail `i` is at position
`start i + k`, its underwater counterpart at `N + start i + k`, where `start i` is the number of
above-water panels of the previous sails and `N` that of all sails; flags and upright panels follow
the same order; and for any quantity computed panel by panel,
`extract_above_water_quantities` returns exactly the values of the above-water panels and their
sum.  An empty list of sails is a `ValueError`. -/
theorem C20_sail_set (sails : List SailGeom)
    (hw : ∀ g ∈ sails, g.panelsUnder.length = g.panelsAbove.length ∧
      g.te.length = g.panelsAbove.length ∧ g.le.length = g.panelsAbove.length) :
    (sails = [] → sailSet sails = .error .valueError) ∧
    (sails ≠ [] → ∃ ss N, sailSet sails = .ok ss ∧
      N = (sails.map fun g => g.panelsAbove.length).sum ∧ ss.panels.length = 2 * N ∧
      ss.te.length = 2 * N ∧ ss.le.length = 2 * N ∧
      (∀ i (hi : i < sails.length) k, k < (sails[i]).panelsAbove.length →
        ∃ o, o = blockStart (sails.map fun g => g.panelsAbove.length) i + k ∧ o < N ∧
          ss.panels[o]? = (sails[i]).panelsAbove[k]? ∧
          ss.panels[N + o]? = (sails[i]).panelsUnder[k]? ∧
          ss.te[o]? = (sails[i]).te[k]? ∧ ss.te[N + o]? = (sails[i]).te[k]? ∧
          ss.le[o]? = (sails[i]).le[k]? ∧ ss.le[N + o]? = (sails[i]).le[k]?) ∧
      (∀ (q : Panel → V3), extractAboveWater (ss.panels.map q) =
        ((sails.flatMap fun g => g.panelsAbove).map q,
          ((sails.flatMap fun g => g.panelsAbove).map q).sum))) := by
  refine ⟨fun h => by simp [sailSet, h], fun h => ?_⟩
  have size : ∀ {α : Type} (f : SailGeom → List α),
      (∀ g ∈ sails, (f g).length = g.panelsAbove.length) →
      (sails.map f).map List.length = sails.map fun g => g.panelsAbove.length := by
    intro α f hf
    rw [List.map_map]
    exact List.map_congr_left fun g hg => hf g hg
  have len : ∀ {α : Type} (f : SailGeom → List α),
      (∀ g ∈ sails, (f g).length = g.panelsAbove.length) →
      (sails.map f).flatten.length = (sails.map fun g => g.panelsAbove.length).sum := by
    intro α f hf
    rw [List.length_flatten, size f hf]
  have blk : ∀ {α : Type} (f : SailGeom → List α),
      (∀ g ∈ sails, (f g).length = g.panelsAbove.length) →
      ∀ i (hi : i < sails.length) k, k < (sails[i]).panelsAbove.length →
      (sails.map f).flatten[blockStart (sails.map fun g => g.panelsAbove.length) i + k]? =
        (f sails[i])[k]? := by
    intro α f hf i hi k hk
    have := flatten_block (sails.map f) i (by simpa using hi) k
      (by simpa [hf _ (List.getElem_mem hi)] using hk)
    rw [size f hf] at this
    simpa using this
  have hA := len SailGeom.panelsAbove (fun _ _ => rfl)
  have hU := len SailGeom.panelsUnder (fun g hg => (hw g hg).1)
  have hT := len SailGeom.te (fun g hg => (hw g hg).2.1)
  have hL := len SailGeom.le (fun g hg => (hw g hg).2.2)
  refine ⟨_, _, by rw [sailSet, if_neg h], rfl, ?_, ?_, ?_, fun i hi k hk => ?_, fun q => ?_⟩
  · simp only [List.length_append, hA, hU]; omega
  · simp only [List.length_append, hT]; omega
  · simp only [List.length_append, hL]; omega
  · have hlt : blockStart (sails.map fun g => g.panelsAbove.length) i + k
        < (sails.map fun g => g.panelsAbove.length).sum := by
      have h1 := blk SailGeom.panelsAbove (fun _ _ => rfl) i hi k hk
      rw [List.getElem?_eq_getElem hk] at h1
      have := (List.getElem?_eq_some_iff.1 h1).1
      rwa [hA] at this
    refine ⟨_, rfl, hlt, ?_, ?_, ?_, ?_, ?_, ?_⟩
    · rw [List.getElem?_append_left (by rw [hA]; exact hlt)]
      exact blk _ (fun _ _ => rfl) i hi k hk
    · rw [List.getElem?_append_right (by rw [hA]; omega), hA, Nat.add_sub_cancel_left]
      exact blk _ (fun g hg => (hw g hg).1) i hi k hk
    · rw [List.getElem?_append_left (by rw [hT]; exact hlt)]
      exact blk _ (fun g hg => (hw g hg).2.1) i hi k hk
    · rw [List.getElem?_append_right (by rw [hT]; omega), hT, Nat.add_sub_cancel_left]
      exact blk _ (fun g hg => (hw g hg).2.1) i hi k hk
    · rw [List.getElem?_append_left (by rw [hL]; exact hlt)]
      exact blk _ (fun g hg => (hw g hg).2.2) i hi k hk
    · rw [List.getElem?_append_right (by rw [hL]; omega), hL, Nat.add_sub_cancel_left]
      exact blk _ (fun g hg => (hw g hg).2.2) i hi k hk
  · have : (((sails.map SailGeom.panelsAbove).flatten ++
        (sails.map SailGeom.panelsUnder).flatten).map q).length / 2 =
        ((sails.map SailGeom.panelsAbove).flatten.map q).length := by
      simp only [List.length_map, List.length_append, hA, hU]; omega
    simp only [extractAboveWater, this]
    rw [List.map_append, List.take_left, List.flatMap_def]

/-- Every `SailGeometry` built from well-formed arguments meets the hypothesis of `C20_sail_set`. -/
theorem C20_applies (s : SailInput) (θ : ℕ → ℝ) (h : SailOk s θ) :
    ∃ g, sailGeometry s = .ok g ∧ g.panelsUnder.length = g.panelsAbove.length ∧
      g.te.length = g.panelsAbove.length ∧ g.le.length = g.panelsAbove.length := by
  obtain ⟨g, hg, -, -, -, -, ha, hu, -, -, ht, hl⟩ := sailGeometry_ok h
  refine ⟨g, hg, ?_⟩
  rw [ha, hu, ht, hl]
  have e : ∀ pts, (panelGrid s.nc s.ns pts).length = s.nc * s.ns := fun pts => grid_length _ _ _
  rw [e, e]
  refine ⟨rfl, ?_, ?_⟩
  · exact grid_length s.nc s.ns (fun i _ => if i + 1 = s.nc then true else false)
  · exact grid_length s.nc s.ns
      (fun i _ => if i + 1 = s.nc then false else if i = 0 then true else false)

/-! ## C57 -/

/-- **C57.** The hull is always built; the centre of lateral resistance is the heel and leeway
rotation (no mirror branch) of the given point, for every sign of its height, so its length is
preserved; all deck lines have 51 points; and if the deck is above the water the underwater lines
are the mirror images of the deck lines, point by point. -/
theorem C57_hull (sheer base : ℝ) (c : Csys) (clr : V3) :
    ∃ hull, hullGeometry sheer base c clr = .ok hull ∧
      hull.clr = rodrigues ⟨0, 0, 1⟩ (deg2rad c.leewayDeg)
        (rodrigues ⟨1, 0, 0⟩ (-deg2rad c.heelDeg) clr) ∧
      hull.clr.norm = clr.norm ∧
      hull.deckPort.length = 51 ∧ hull.deckStarboard.length = 51 ∧
      hull.deckCenterline.length = 51 ∧
      (0 < sheer → hull.deckPortUnder = hull.deckPort.map mirror ∧
        hull.deckStarboardUnder = hull.deckStarboard.map mirror) := by
  have hfoil := vlmAirfoil_ok (m := 0.01) (p := 0.0) (t := 0.28) (by norm_num) (by norm_num)
    (by norm_num) (by norm_num) (by norm_num) (by norm_num) 51
  have hmir : ∀ (z : ℝ), 0 < z → ∀ xs ys : List ℝ,
      (deckLine xs ys (-1 * z)).map c.rotatePointWithMirror =
        ((deckLine xs ys z).map c.rotatePointWithMirror).map mirror := by
    intro z hz xs ys
    simp only [deckLine, List.map_zipWith]
    congr 1
    funext x y
    have : (⟨x, y, -1 * z⟩ : V3) = mirror ⟨x, y, z⟩ := by ext <;> simp [mirror]
    rw [this, c.rotatePointWithMirror_mirror]
    exact hz.ne'
  refine ⟨_, by unfold hullGeometry; rw [hfoil]; rfl, ?_, ?_, ?_, ?_, ?_, fun h => ⟨?_, ?_⟩⟩
  · simp only [Csys.rotatePointWithoutMirror, Csys.leeway, Csys.heeling]
    rw [rotationMatrixCore_eq _ _ ez_ne, rotationMatrixCore_eq _ _ ex_ne, unit_of_dot_one ez_dot,
      unit_of_dot_one ex_dot, deg2rad_neg]
    rfl
  · simp only [Csys.rotatePointWithoutMirror, c.leeway_norm, c.heeling_norm]
  · simp [deckLine, linspace01_length]
  · simp [deckLine, linspace01_length]
  · simp [deckLine, linspace01_length]
  · exact hmir sheer h _ _
  · exact hmir sheer h _ _

/-- Non-vacuity: a deck 1.2 above the water. -/
example : (0 : ℝ) < 1.2 := by norm_num

end PySailing.Props
