import Verif.Props.Sail
import Verif.Props.Wind

/-!
# C12, C16, C21, C62: what happens at the edges of the domain
-/

namespace PySailing.Props

open PySailing PySailing.Spec

/-! ## C12 -/

/-- **C12**, one chord: a list with a single chord means the same chord in every row. -/
theorem C12_one_chord (a b : V3) (nc ns : ℕ) (c : ℝ) (distance camber : List ℝ) :
    makeAirfoilMesh a b nc ns [c] distance camber =
      makeAirfoilMesh a b nc ns (List.replicate (ns + 1) c) distance camber := by
  have hlen := discreteSegment_length a b ns
  have key (l : List V3) : teLine l [c] = teLine l (List.replicate l.length c) := by
    unfold teLine
    rw [if_pos (List.length_replicate)]
    have e : List.zipWith (fun (p : V3) (c : ℝ) => p + ⟨c, 0, 0⟩) l (List.replicate l.length c) =
        l.map fun p => p + ⟨c, 0, 0⟩ := by
      induction l with
      | nil => rfl
      | cons x l ih => rw [List.length_cons, List.replicate_succ, List.zipWith_cons_cons, ih]; rfl
    rw [e]
    split
    · rename_i h
      match l, h with
      | [x], _ => rfl
    · rfl
  unfold makeAirfoilMesh
  simp only
  rw [key, hlen]

/-! ## C16 -/

/-- Equal up to the tolerance of the self-checks, in every coordinate. -/
def within (tol : ℝ) (a b : V3) : Prop := |a.x - b.x| < tol ∧ |a.y - b.y| < tol ∧ |a.z - b.z| < tol

theorem almostEq_within {a b : V3} : a.almostEq b ↔ within 1.5e-7 a b := by
  unfold V3.almostEq almostEq within
  rw [abs_sub_comm a.x, abs_sub_comm a.y, abs_sub_comm a.z]

theorem twistMesh_checked {mesh tr : List V3} {sh0 sh1 : ℕ} {tw : List ℝ}
    (h : twistMesh mesh sh0 sh1 tw = .ok tr) {j : ℕ} (hj : j < sh0) :
    within 1.5e-7 (tr.getD (j * sh1) 0) (mesh.getD (j * sh1) 0) := by
  unfold twistMesh at h
  simp only [bind, Except.bind] at h
  split at h
  · cases h
  rename_i tr' htr
  split at h
  · cases h
  rename_i hc
  simp only [pure, Except.pure, Except.ok.injEq] at h
  subst h
  unfold assertAlmostEqual at hc
  split at hc
  · rename_i hall
    rw [← almostEq_within]
    refine hall.2 (tr'.getD (j * sh1) 0, mesh.getD (j * sh1) 0) ?_
    unfold everyNth
    rw [List.zip_map', List.mem_map]
    exact ⟨j, List.mem_range.2 hj, rfl⟩
  · cases hc

theorem within_refl (a : V3) : within 1.5e-7 a a := by
  unfold within
  simp only [sub_self, abs_zero]
  norm_num

theorem twistBlock_checked {s : SailInput} {mesh under : List V3} {sh0 sh1 : ℕ} {p : List V3 × List V3}
    (h : twistBlock s sh0 sh1 mesh under = .ok p) {j : ℕ} (hj : j < sh0) :
    within 1.5e-7 (p.1.getD (j * sh1) 0) (mesh.getD (j * sh1) 0) ∧
    within 1.5e-7 (p.2.getD (j * sh1) 0) (under.getD (j * sh1) 0) := by
  unfold twistBlock at h
  split at h
  · simp only [bind, Except.bind] at h
    split at h
    · cases h
    split at h
    · cases h
    split at h
    · cases h
    rename_i htr
    split at h
    · cases h
    rename_i htu
    simp only [pure, Except.pure, Except.ok.injEq] at h
    subst h
    exact ⟨twistMesh_checked htr hj, twistMesh_checked htu hj⟩
  · simp only [Except.ok.injEq] at h
    subst h
    exact ⟨within_refl _, within_refl _⟩

/-- **C16**, for every input whatsoever: whenever the constructor returns a twisted sail, it returns for the
sail without twist as well, with equally many panels, and the corners on the luff (of the first chordwise row
of panels) are those of the sail without twist up to `1.5e-7` in each coordinate, above and under water. -/
theorem C16_luff_kept (s : SailInput) (g : SailGeom) (h : sailGeometry s = .ok g) :
    ∃ g0, sailGeometry { s with twist := none } = .ok g0 ∧
      g.panelsAbove.length = g0.panelsAbove.length ∧ g.panelsUnder.length = g0.panelsUnder.length ∧
      g0.panelsAbove.length = s.nc * s.ns ∧ g0.panelsUnder.length = s.nc * s.ns ∧
      ∀ j, j < s.ns → 0 < s.nc → ∃ q q0 u u0,
        g.panelsAbove[j]? = some q ∧ g0.panelsAbove[j]? = some q0 ∧
        g.panelsUnder[j]? = some u ∧ g0.panelsUnder[j]? = some u0 ∧
        within 1.5e-7 q.p2 q0.p2 ∧ within 1.5e-7 q.p3 q0.p3 ∧
        within 1.5e-7 u.p2 u0.p2 ∧ within 1.5e-7 u.p3 u0.p3 := by
  unfold sailGeometry at h
  simp only [bind, Except.bind] at h
  split at h
  · cases h
  rename_i mesh hmesh
  split at h
  · cases h
  rename_i meshU hmeshU
  split at h
  · cases h
  rename_i p hp
  split at h
  swap
  · cases h
  split at h
  swap
  · cases h
  simp only [pure, Except.pure, Except.ok.injEq] at h
  subst h
  have hn0 : mesh.n0 = s.ns + 1 ∧ mesh.n1 = s.nc + 1 := by
    unfold makeAirfoilMesh at hmesh
    simp only [bind, Except.bind] at hmesh
    split at hmesh
    · cases hmesh
    rename_i te hte
    split at hmesh
    · cases hmesh
    rename_i rows hrows
    simp only [pure, Except.pure, Except.ok.injEq] at hmesh
    subst hmesh
    refine ⟨?_, rfl⟩
    have hl := (mapM_ok_inv hrows).1
    have htel : te.length = s.ns + 1 := by
      unfold teLine at hte
      rw [discreteSegment_length] at hte
      split at hte
      · rename_i hc
        cases hte
        simp [discreteSegment_length, hc]
      · split at hte
        · cases hte
          simp [discreteSegment_length]
        · cases hte
    simp only [NdMesh.ofRows, hl, List.length_zipIdx, List.length_zip, discreteSegment_length, htel, min_self]
  obtain ⟨h0, h1⟩ := hn0
  have hlen (l : List V3) : (makePanelsFromMeshSpanwise
      (NdMesh.reshape mesh.n0 mesh.n1 l).swapaxes).panels.length = s.nc * s.ns := by
    simp only [makePanelsFromMeshSpanwise, NdMesh.swapaxes, NdMesh.reshape, h0, h1, Nat.add_sub_cancel]
    exact grid_length _ _ _
  have hget (l : List V3) {j : ℕ} (hj : j < s.ns) (hnc : 0 < s.nc) : (makePanelsFromMeshSpanwise
      (NdMesh.reshape mesh.n0 mesh.n1 l).swapaxes).panels[j]? =
      some (panelAt (NdMesh.reshape mesh.n0 mesh.n1 l).swapaxes 0 j) := by
    have e1 : mesh.n1 - 1 = s.nc := by omega
    have e0 : mesh.n0 - 1 = s.ns := by omega
    have := grid_getElem? s.nc s.ns (fun i j => panelAt (NdMesh.reshape mesh.n0 mesh.n1 l).swapaxes i j) hnc hj
    rw [zero_mul, zero_add] at this
    simp only [makePanelsFromMeshSpanwise]
    change ((List.range (mesh.n1 - 1)).flatMap fun i => (List.range (mesh.n0 - 1)).map fun j => _)[j]? = _
    rw [e1, e0]
    exact this
  have hg0 : ∃ g0, sailGeometry { s with twist := none } = .ok g0 ∧
      g0.panelsAbove = (makePanelsFromMeshSpanwise (NdMesh.reshape mesh.n0 mesh.n1
        (mesh.flatten.map s.csys.rotatePointWithMirror)).swapaxes).panels ∧
      g0.panelsUnder = (makePanelsFromMeshSpanwise (NdMesh.reshape mesh.n0 mesh.n1
        (meshU.flatten.map s.csys.rotatePointWithMirror)).swapaxes).panels := by
    unfold sailGeometry twistBlock
    simp only [bind, Except.bind, hmesh, hmeshU]
    have e1 : (makePanelsFromMeshSpanwise (NdMesh.reshape mesh.n0 mesh.n1
        (mesh.flatten.map s.csys.rotatePointWithMirror)).swapaxes).te = (makePanelsFromMeshSpanwise
        (NdMesh.reshape mesh.n0 mesh.n1 (meshU.flatten.map s.csys.rotatePointWithMirror)).swapaxes).te := rfl
    have e2 : (makePanelsFromMeshSpanwise (NdMesh.reshape mesh.n0 mesh.n1
        (mesh.flatten.map s.csys.rotatePointWithMirror)).swapaxes).le = (makePanelsFromMeshSpanwise
        (NdMesh.reshape mesh.n0 mesh.n1 (meshU.flatten.map s.csys.rotatePointWithMirror)).swapaxes).le := rfl
    rw [if_pos e1, if_pos e2]
    exact ⟨_, rfl, rfl, rfl⟩
  obtain ⟨g0, hg0, ha, hu⟩ := hg0
  refine ⟨g0, hg0, ?_⟩
  rw [ha, hu]
  refine ⟨(hlen _).trans (hlen (mesh.flatten.map s.csys.rotatePointWithMirror)).symm,
    (hlen _).trans (hlen (meshU.flatten.map s.csys.rotatePointWithMirror)).symm, hlen _, hlen _,
    fun j hj hnc => ⟨_, _, _, _, hget _ hj hnc, hget _ hj hnc, hget _ hj hnc, hget _ hj hnc, ?_⟩⟩
  · have c1 := twistBlock_checked hp (j := j) (by omega)
    have c2 := twistBlock_checked hp (j := j + 1) (by omega)
    exact ⟨c1.1, c2.1, c1.2, c2.2⟩

/-- Non-vacuity: a twisted sail with camber for which the constructor returns. -/
example : ∃ g, sailGeometry (demoSail 2 [0.1, 0.1] [0.5, 0.5] (some [10, 20]) (some "real_twist")) = .ok g := by
  have hok : SailOk (demoSail 2 [0.1, 0.1] [0.5, 0.5] (some [10, 20]) (some "real_twist"))
      (fun i => [10, 20].getD i 0) := by
    apply demoSail_ok
    all_goals first
      | exact Or.inl ⟨_, _, rfl, rfl, rfl, Or.inr (Or.inr rfl), fun r hr => by
          have hr' : r ≤ 1 := hr
          have h2 : r = 0 ∨ r = 1 := by omega
          rcases h2 with rfl | rfl <;> rfl⟩
      | norm_num
  obtain ⟨g, hg, -⟩ := sailGeometry_ok hok
  exact ⟨g, hg⟩

/-! ## C21 -/

/-- **C21**, where the logarithmic profile gives a wind: roughness not zero, height and reference height on the
same side of the water as the roughness (reference height 0 gives no wind at all), and reference height
different from the roughness.  Roughness 0 is a `ZeroDivisionError`, everything else `nan` or infinite. -/
theorem C21_logarithmic_defined (r ref h α tws V : ℝ) :
    ((∃ v, (WindObj.mk α tws V (.log (some r) (some ref))).trueWindAt h = .ok v) ↔
      r ≠ 0 ∧ 0 < h / r ∧ 0 ≤ ref / r ∧ ref ≠ r) ∧
    (r = 0 → (WindObj.mk α tws V (.log (some r) (some ref))).trueWindAt h = .error .zeroDivision) ∧
    (r ≠ 0 → (h / r ≤ 0 ∨ ref / r < 0 ∨ ref = r) →
      (WindObj.mk α tws V (.log (some r) (some ref))).trueWindAt h = .error .nonFinite) := by
  have e1 (h0 : r ≠ 0) : ref / r = 1 ↔ ref = r := div_eq_one_iff_eq h0
  have key : (r = 0 → WindObj.logFactor r ref h = .error .zeroDivision) ∧
      (r ≠ 0 → (h / r ≤ 0 ∨ ref / r < 0 ∨ ref = r) → WindObj.logFactor r ref h = .error .nonFinite) ∧
      (r ≠ 0 ∧ 0 < h / r ∧ 0 ≤ ref / r ∧ ref ≠ r → ∃ f, WindObj.logFactor r ref h = .ok f) := by
    refine ⟨fun h0 => if_pos h0, fun h0 hc => ?_, fun ⟨h0, h1, h2, h3⟩ => ?_⟩
    · unfold WindObj.logFactor
      rw [if_neg h0]
      by_cases c1 : h / r ≤ 0
      · rw [if_pos c1]
      rw [if_neg c1]
      by_cases c2 : ref / r < 0
      · rw [if_pos c2]
      rw [if_neg c2]
      have c3 : ref = r := by tauto
      rw [if_neg (by rw [(e1 h0).2 c3]; norm_num), if_pos ((e1 h0).2 c3)]
    · unfold WindObj.logFactor
      rw [if_neg h0, if_neg (not_le.2 h1), if_neg (not_lt.2 h2)]
      split
      · exact ⟨_, rfl⟩
      · rw [if_neg (mt (e1 h0).1 h3)]
        exact ⟨_, rfl⟩
  obtain ⟨k1, k2, k3⟩ := key
  have lift1 {e : PyErr} (hf : WindObj.logFactor r ref h = .error e) :
      (WindObj.mk α tws V (.log (some r) (some ref))).trueWindAt h = .error e := by
    simp only [WindObj.trueWindAt, hf, bind, Except.bind]
  refine ⟨⟨fun ⟨v, hv⟩ => ?_, fun hh => ?_⟩, fun h0 => lift1 (k1 h0), fun h0 hc => lift1 (k2 h0 hc)⟩
  · by_cases h0 : r = 0
    · rw [lift1 (k1 h0)] at hv; cases hv
    by_cases hc : h / r ≤ 0 ∨ ref / r < 0 ∨ ref = r
    · rw [lift1 (k2 h0 hc)] at hv; cases hv
    push Not at hc
    exact ⟨h0, hc⟩
  · obtain ⟨f, hf⟩ := k3 hh
    exact ⟨_, by simp only [WindObj.trueWindAt, hf, bind, Except.bind]; rfl⟩

/-- Non-vacuity: the values of the example configuration. -/
example : (0.05 : ℝ) ≠ 0 ∧ (0 : ℝ) < 3 / 0.05 ∧ (0 : ℝ) ≤ 10 / 0.05 ∧ (10 : ℝ) ≠ 0.05 := by norm_num

/-! ## C62 -/

/-- **C62**, where the sheet `IC_at_reference_height` can be written for the exponential profile: a vanishing
reference height is a `ZeroDivisionError`, and so is a reference height at the water level with negative
exponent; a reference height below the water level (for positive heights) with an exponent that is no integer is
a `TypeError`; in all other cases the sheet is written. -/
theorem C62_written (α tws V c ref wl : ℝ) (csys : Csys) :
    (ref = 0 ∨ (wl = ref ∧ c < 0) →
      windIntegral ⟨α, tws, V, .exp (some c) (some ref) (some wl)⟩ csys = .error .zeroDivision) ∧
    (ref ≠ 0 → (ref - wl) / ref < 0 → (¬ ∃ n : ℤ, c = n) →
      windIntegral ⟨α, tws, V, .exp (some c) (some ref) (some wl)⟩ csys = .error .typeError) ∧
    (ref ≠ 0 → ¬ (wl = ref ∧ c < 0) → (0 ≤ (ref - wl) / ref ∨ ∃ n : ℤ, c = n) →
      ∃ rows, windIntegral ⟨α, tws, V, .exp (some c) (some ref) (some wl)⟩ csys = .ok rows) := by
  have hb (h0 : ref ≠ 0) : (ref - wl) / ref = 0 ↔ wl = ref := by
    rw [div_eq_zero_iff, or_iff_left h0, sub_eq_zero, eq_comm]
  have lift {e : PyErr} (hf : expFactorFloat c ref wl ref = .error e) :
      windIntegral ⟨α, tws, V, .exp (some c) (some ref) (some wl)⟩ csys = .error e := by
    simp only [windIntegral, hf, bind, Except.bind]
  refine ⟨fun h => lift ?_, fun h0 h1 h2 => lift ?_, fun h0 h1 h2 => ?_⟩
  · unfold expFactorFloat
    by_cases h0 : ref = 0
    · rw [if_pos h0]
    obtain ⟨h1, h2⟩ := h.resolve_left h0
    rw [if_neg h0]
    simp only
    rw [if_neg h2.ne, if_neg (by rw [(hb h0).2 h1]; simp), if_pos ⟨(hb h0).2 h1, h2⟩]
  · unfold expFactorFloat
    rw [if_neg h0]
    simp only
    rw [if_neg (fun hc => h2 ⟨0, by simp [hc]⟩), if_pos ⟨h1, h2⟩]
  · have : ∃ f, expFactorFloat c ref wl ref = .ok f := by
      unfold expFactorFloat
      rw [if_neg h0]
      simp only
      split
      · exact ⟨_, rfl⟩
      rw [if_neg (by rintro ⟨a, b⟩; rcases h2 with h2 | h2 <;> [linarith; exact b h2]),
        if_neg (by rintro ⟨a, b⟩; exact h1 ⟨(hb h0).1 a, b⟩)]
      exact ⟨_, rfl⟩
    obtain ⟨f, hf⟩ := this
    simp only [windIntegral, hf, bind, Except.bind]
    exact ⟨_, rfl⟩

end PySailing.Props
