import Verif.Props.Coefs
import Verif.Lemmas.Results
import Verif.Demo.TwoPanels

/-!
# C45–C48, C51: forces, moments, centre of effort and the sheet `Integrals`
-/

namespace PySailing.Props

open PySailing PySailing.Spec

/-- The arrays of a calculation with `n` sails of `m` panels each: `n * m` panels above the water and
`n * m` mirror panels. -/
structure Shaped (sails : List SailGeom) (m : ℕ) (a : FlowArrays) : Prop where
  nonempty : sails ≠ []
  force : a.force.length = 2 * (sails.length * m)
  cp : a.cp.length = a.force.length

/-- The arrays of every `Vlm` object on `n` sails have this shape. -/
theorem vlm_shaped {inp : VlmInput} {r : Vlm} (h : vlm inp = .ok r) {sails : List SailGeom} {m : ℕ}
    (hs : sails ≠ []) (hlen : inp.panels.length = 2 * (sails.length * m)) :
    Shaped sails m r.flowArrays := by
  obtain ⟨-, hl, -⟩ := vlm_lengths h
  refine ⟨hs, ?_, ?_⟩ <;>
    simp [Vlm.flowArrays, Vlm.out, VlmSolution.arrays, hl, hlen]

/-- The number of panels above the water. -/
abbrev above (sails : List SailGeom) (m : ℕ) : ℕ := sails.length * m

theorem dyn_none {sails : List SailGeom} {d : PyDict}
    (h : ∀ k, (∀ s ∈ sails, ∀ t ∈ [".x", ".y", ".z"], k ≠ keyF s.name ++ t ∧ k ≠ keyM s.name ++ t) →
        d k = none) {key : String} (hk : ∀ s ∈ sails, key ≠ keyF s.name ∧ key ≠ keyM s.name) :
    ∀ t ∈ [".x", ".y", ".z"], d (key ++ t) = none := by
  intro t ht
  apply h
  intro s hs t' ht'
  exact ⟨fun e => (hk s hs).1 (suffix_eq ht ht' e), fun e => (hk s hs).2 (suffix_eq ht ht' e)⟩

theorem dyn_none_moment {sails : List SailGeom} {d : PyDict}
    (h : ∀ k, (∀ s ∈ sails, ∀ t ∈ [".x", ".y", ".z"], k ≠ keyF s.name ++ t ∧ k ≠ keyM s.name ++ t) →
        d k = none) (key : String) :
    ∀ t ∈ [".x (heel)", ".y (pitch)", ".z (yaw)", ".z (yaw - JG sign)"], d (key ++ t) = none := by
  intro t ht
  apply h
  intro s _ t' ht'
  exact ⟨(close_ne ht' ht).symm, (close_ne ht' ht).symm⟩

theorem cow_ne (a b c : String) : a ++ "_COW" ≠ b ++ c ++ "_total_COG" :=
  tail_ne 1 (by simp) (by simp) (by simp)

/-! ## C45 -/

/-- **C45**, partial: if the names of the sails are pairwise different and none of them is `"sails"`, then
the sheet `Integrals` contains, for every sail, the sum of the forces on its panels above the water
and the sum of their moments, and these add up to the reported totals `F_sails_total` and
`M_sails_total`.  Missing: sails with equal names, see `C45_refuted`. -/
theorem C45_totals_partial (sails : List SailGeom) (m : ℕ) (csys : Csys) (a : FlowArrays)
    (hs : Shaped sails m a) (hnames : (sails.map SailGeom.name).Nodup)
    (hres : "sails" ∉ sails.map SailGeom.name) :
    ∃ res, inviscidFlow sails csys a = .ok res ∧
      ∀ o : FlowObject, o.res = res →
      (∀ b (hb : b < sails.length),
        rowVec o.toDfIntegral ("F_" ++ sails[b].name ++ "_total_COG") =
          some (sailSum m b (row a.force)) ∧
        rowVec o.toDfIntegral ("M_" ++ sails[b].name ++ "_total_COG") =
          some (sailSum m b fun k => V3.cross (armFrom csys.vRef (row a.cp k)) (row a.force k))) ∧
      rowVec o.toDfIntegral "F_sails_total_COG" =
        some (∑ b ∈ Finset.range sails.length, sailSum m b (row a.force)) ∧
      rowVec o.toDfIntegral "M_sails_total_COG" =
        some (∑ b ∈ Finset.range sails.length,
          sailSum m b fun k => V3.cross (armFrom csys.vRef (row a.cp k)) (row a.force k)) := by
  obtain ⟨res, hr, -, -, hF, -, -, hM, -, -, -, -, hrow, hdyn⟩ :=
    inviscidFlow_ok hs.nonempty csys a hs.force hs.cp
  refine ⟨res, hr, fun o ho => ⟨fun b hb => ?_, ?_, ?_⟩⟩
  · have hd : ∀ c (hc : c < sails.length), b < c → sails[c].name ≠ sails[b].name := by
      intro c hc hbc he
      have := (List.Nodup.getElem_inj_iff hnames (i := c) (j := b)
        (hi := by simpa using hc) (hj := by simpa using hb)).1 (by simpa using he)
      omega
    obtain ⟨h1, h2⟩ := hrow b hb hd
    unfold FlowObject.toDfIntegral
    rw [ho]
    exact ⟨rowVec_update_some h1, rowVec_update_some h2⟩
  · have hk := dyn_none hdyn (key := "F_sails_total_COG") (fun s hs' => ⟨fun e => hres (by
      rw [show "F_sails_total_COG" = keyF "sails" from rfl, keyF_inj] at e
      rw [e]; exact List.mem_map_of_mem hs'), fun e => keyF_ne_keyM "sails" s.name e⟩)
    rw [sheet_vec o (by rw [ho]; exact hk), ho]
    cases o.keel <;> simp [hF, sum_blocks]
  · have hk := dyn_none hdyn (key := "M_sails_total_COG") (fun s hs' =>
      ⟨fun e => keyF_ne_keyM s.name "sails" e.symm, fun e => hres (by
      rw [show "M_sails_total_COG" = keyM "sails" from rfl, keyM_inj] at e
      rw [e]; exact List.mem_map_of_mem hs')⟩)
    rw [sheet_vec o (by rw [ho]; exact hk), ho]
    cases o.keel <;> simp [hM, sum_blocks]

/-- A sail without panels, named `name` (the calculation reads only name and tack). -/
def namedSail (name : String) : SailGeom := ⟨[], [], [], [], [], [], 1, 1, name, ⟨0, 0, 1⟩⟩

/-- Forces `(1,0,0)` at `(0,0,1)` and `(0,1,0)` at `(0,0,2)`, and their mirror images. -/
def twoForces : FlowArrays where
  gamma := []
  pressure := []
  vIndCp := []
  vFsCp := []
  force := [⟨1, 0, 0⟩, ⟨0, 1, 0⟩, ⟨1, 0, 0⟩, ⟨0, 1, 0⟩]
  cp := [⟨0, 0, 1⟩, ⟨0, 0, 2⟩, ⟨0, 0, -1⟩, ⟨0, 0, -2⟩]

theorem twoForces_shaped2 (a b : String) : Shaped [namedSail a, namedSail b] 1 twoForces :=
  ⟨by simp, rfl, rfl⟩

theorem twoForces_shaped1 (a : String) : Shaped [namedSail a] 2 twoForces := ⟨by simp, rfl, rfl⟩

/-- Non-vacuity of `C45_totals_partial`: a jib and a main sail with different loads. -/
example : Shaped [namedSail "jib", namedSail "main_sail"] 1 twoForces ∧
    ([namedSail "jib", namedSail "main_sail"].map SailGeom.name).Nodup ∧
    "sails" ∉ [namedSail "jib", namedSail "main_sail"].map SailGeom.name :=
  ⟨twoForces_shaped2 _ _, by simp [namedSail], by simp [namedSail]⟩

/-- Non-vacuity of `Shaped` for a computed flow: one sail of one panel over its mirror image. -/
example : ∃ r, vlm Demo.input2 = .ok r ∧ Shaped [namedSail "jib"] 1 r.flowArrays := by
  obtain ⟨r, hr, -⟩ := Demo.vlm_ok2
  exact ⟨r, hr, vlm_shaped hr (by simp) (by rw [Demo.input2_panels]; rfl)⟩

/-- **C45 refuted** in general: for two sails with the same name the sheet has one row only, with the
total of the last one. -/
theorem C45_refuted : ¬ ∀ (sails : List SailGeom) (m : ℕ) (csys : Csys) (a : FlowArrays)
    (res : FlowResults), Shaped sails m a → inviscidFlow sails csys a = .ok res →
    ∀ b (hb : b < sails.length),
      rowVec (FlowObject.new res).toDfIntegral ("F_" ++ sails[b].name ++ "_total_COG") =
        some (sailSum m b (row a.force)) := by
  intro hall
  have hs := twoForces_shaped2 "jib" "jib"
  obtain ⟨res, hr, -, -, -, -, -, -, -, -, -, -, hrow, -⟩ :=
    inviscidFlow_ok hs.nonempty ⟨0, 0, 0⟩ _ hs.force hs.cp
  have h0 := hall _ _ _ _ res hs hr 0 (by simp)
  have h1 := (hrow 1 (by simp) (by intro c hc h; simp at hc; omega)).1
  rw [FlowObject.toDfIntegral, show "F_" ++ [namedSail "jib", namedSail "jib"][0].name ++ "_total_COG" =
    keyF [namedSail "jib", namedSail "jib"][1].name from rfl] at h0
  have h2 := h0.symm.trans (rowVec_update_some h1)
  simp [sailSum, row, twoForces] at h2

/-- **C45**, exactly: the rows of a sail show the sums over the panels of the last sail of the same name.  They are those
of the sail itself if and only if these sums agree. -/
theorem C45_exact (sails : List SailGeom) (m : ℕ) (csys : Csys) (a : FlowArrays) (hs : Shaped sails m a) {b c : ℕ}
    (hb : b < sails.length) (hc : c < sails.length) (hname : sails[c].name = sails[b].name)
    (hlast : ∀ d (hd : d < sails.length), c < d → sails[d].name ≠ sails[b].name) :
    ∃ res, inviscidFlow sails csys a = .ok res ∧ ∀ o : FlowObject, o.res = res →
      (rowVec o.toDfIntegral ("F_" ++ sails[b].name ++ "_total_COG") = some (sailSum m b (row a.force)) ↔
        sailSum m b (row a.force) = sailSum m c (row a.force)) ∧
      (rowVec o.toDfIntegral ("M_" ++ sails[b].name ++ "_total_COG") =
          some (sailSum m b fun k => V3.cross (armFrom csys.vRef (row a.cp k)) (row a.force k)) ↔
        (sailSum m b fun k => V3.cross (armFrom csys.vRef (row a.cp k)) (row a.force k)) =
          sailSum m c fun k => V3.cross (armFrom csys.vRef (row a.cp k)) (row a.force k)) := by
  obtain ⟨res, hr, -, -, -, -, -, -, -, -, -, -, hrow, -⟩ := inviscidFlow_ok hs.nonempty csys a hs.force hs.cp
  refine ⟨res, hr, fun o ho => ?_⟩
  obtain ⟨h1, h2⟩ := hrow c hc fun d hd hcd => by rw [hname]; exact hlast d hd hcd
  rw [← hname]
  unfold FlowObject.toDfIntegral
  rw [ho]
  have e1 := fun d => rowVec_update_some (d := d) h1
  have e2 := fun d => rowVec_update_some (d := d) h2
  simp only [keyF, keyM] at e1 e2
  simp only [e1, e2, Option.some.injEq]
  exact ⟨eq_comm, eq_comm⟩

/-- The hypotheses are met, with a difference: two jibs with different loads, the second one is shown for both. -/
example : Shaped [namedSail "jib", namedSail "jib"] 1 twoForces ∧
    [namedSail "jib", namedSail "jib"][1].name = [namedSail "jib", namedSail "jib"][0].name ∧
    sailSum 1 0 (row twoForces.force) ≠ sailSum 1 1 (row twoForces.force) :=
  ⟨twoForces_shaped2 _ _, rfl, by simp [sailSum, row, twoForces]⟩

/-! ## C46 -/

/-- **C46.** If all pressure points of the first half of the arrays are above the water, moving the
reference point by `w` changes the total moment by `-w × F`, with `F` the total force. -/
theorem C46_shift (sails : List SailGeom) (m : ℕ) (c c' : Csys) (a : FlowArrays)
    (hs : Shaped sails m a) (hz : ∀ k, k < above sails m → 0 < (row a.cp k).z) (w : V3)
    (hw : c'.vRef = c.vRef + w) :
    ∃ res res', inviscidFlow sails c a = .ok res ∧ inviscidFlow sails c' a = .ok res' ∧
      res'.forceTotal = res.forceTotal ∧
      res'.momentTotal = res.momentTotal + -V3.cross w res.forceTotal := by
  obtain ⟨res, hr, -, -, hF, -, -, hM, -⟩ := inviscidFlow_ok hs.nonempty c a hs.force hs.cp
  obtain ⟨res', hr', -, -, hF', -, -, hM', -⟩ := inviscidFlow_ok hs.nonempty c' a hs.force hs.cp
  refine ⟨res, res', hr, hr', by rw [hF, hF'], ?_⟩
  rw [hM, hM', hF, cross_sum_right, ← Finset.sum_neg_distrib, ← Finset.sum_add_distrib]
  refine Finset.sum_congr rfl fun k hk => ?_
  have hz' := hz k (Finset.mem_range.1 hk)
  unfold armFrom
  rw [if_pos hz', if_pos hz', hw]
  ext <;> simp <;> ring

/-- **C46**, mirror images: the moment arms of mirrored points (not in the water plane) are the mirror
images of the arms. -/
theorem C46_mirror (ps : List V3) (v : V3) (h : ∀ p ∈ ps, p.z ≠ 0) :
    calcMomentArm (ps.map mirror) v = (calcMomentArm ps v).map mirror := by
  unfold calcMomentArm
  rw [List.map_map, List.map_map]
  refine List.map_congr_left fun p hp => ?_
  have := h p hp
  simp only [Function.comp, momentArm]
  rcases lt_or_gt_of_ne this with h1 | h1
  · have e : (mirror p).z > 0 := by simp only [mirror]; linarith
    rw [if_pos e, if_neg (not_lt.2 h1.le)]
    ext <;> simp [mirror]
    ring
  · have e : ¬ (mirror p).z > 0 := by simp only [mirror]; linarith
    rw [if_neg e, if_pos h1]
    ext <;> simp [mirror]
    ring

/-- **C46**, moments of a mirror symmetric load: the moment of a mirrored force at a mirrored point is
the reflected moment (an axial vector: the components along the water plane change sign). -/
theorem C46_mirror_moment (p f v : V3) (h : p.z ≠ 0) :
    calcMoments (calcMomentArm [p, mirror p] v) [f, mirror f] =
      .ok [V3.cross (momentArm v p) f, -mirror (V3.cross (momentArm v p) f)] := by
  have := C46_mirror [p] v (by simpa using h)
  simp only [calcMomentArm, List.map_cons, List.map_nil, List.cons.injEq, and_true] at this
  simp only [calcMomentArm, List.map_cons, List.map_nil, this]
  rw [calcMoments_ok (r := [momentArm v p, mirror (momentArm v p)]) (F := [f, mirror f]) rfl]
  simp only [List.zipWith_cons_cons, List.zipWith_nil_left]
  congr 2
  congr 1
  ext <;> simp [mirror] <;> ring

/-- Non-vacuity of `C46_shift` and `C46_mirror`. -/
example : (∀ k, k < above [namedSail "jib"] 2 → 0 < (row twoForces.cp k).z) ∧
    ∀ p ∈ twoForces.cp, p.z ≠ 0 := by
  constructor
  · intro k hk
    have : k = 0 ∨ k = 1 := by simp [above] at hk; omega
    rcases this with rfl | rfl <;> simp [row, twoForces]
  · simp [twoForces]

/-! ## C47 -/

theorem dot_self_ne {F : V3} (hF : F ≠ 0) : F.dot F ≠ 0 := by
  intro h
  apply hF
  have h1 : F.x * F.x + F.y * F.y + F.z * F.z = 0 := h
  ext
  · simp only [V3.zero_x]; nlinarith [mul_self_nonneg F.x, mul_self_nonneg F.y, mul_self_nonneg F.z]
  · simp only [V3.zero_y]; nlinarith [mul_self_nonneg F.x, mul_self_nonneg F.y, mul_self_nonneg F.z]
  · simp only [V3.zero_z]; nlinarith [mul_self_nonneg F.x, mul_self_nonneg F.y, mul_self_nonneg F.z]

/-- **C47.** `determine_vector_from_its_dot_and_cross_product` recovers `r` from `F`, `r · F` and
`r × F` for every `F ≠ 0`, and has no finite result for `F = 0`. -/
theorem C47_recover (r F : V3) :
    (F ≠ 0 → determineVector F (r.dot F) (V3.cross r F) = .ok r) ∧
    (F = 0 → determineVector F (r.dot F) (V3.cross r F) = .error .nonFinite) := by
  constructor
  · intro hF
    have h := dot_self_ne hF
    unfold determineVector
    rw [if_neg h]
    congr 1
    ext <;> simp only [V3.smul_x, V3.smul_y, V3.smul_z, V3.add_x, V3.add_y, V3.add_z, V3.cross_x,
      V3.cross_y, V3.cross_z] <;> field_simp <;> simp only [V3.dot] <;> ring
  · rintro rfl
    simp [determineVector]

theorem determineVector_spec {F M : V3} {s : ℝ} (hF : F ≠ 0) : ∃ c, determineVector F s M = .ok c ∧
    c.dot F = s ∧ V3.cross c F = M - (M.dot F / F.dot F) • F := by
  have h := dot_self_ne hF
  unfold determineVector
  rw [if_neg h]
  refine ⟨_, rfl, ?_, ?_⟩
  · simp only [V3.dot_smul_left, V3.dot_add_left]
    rw [V3.dot_cross_left]
    field_simp
    ring
  · obtain ⟨D, hD⟩ : ∃ D, D = F.dot F := ⟨_, rfl⟩
    rw [← hD] at h ⊢
    ext <;> simp only [V3.smul_x, V3.smul_y, V3.smul_z, V3.add_x, V3.add_y, V3.add_z, V3.cross_x,
      V3.cross_y, V3.cross_z, V3.sub_x, V3.sub_y, V3.sub_z, V3.dot] <;> field_simp <;> rw [hD] <;>
      simp only [V3.dot] <;> ring

/-- **C47**, partial: for a total force `F ≠ 0` the reported centre of effort `c` exists, `c · F` is the
sum of the products `r · f` of the panels, and `c × F` is the reported total moment without its
component along `F`; it is the total moment exactly if the moment is perpendicular to the force, and
otherwise no point reproduces the moment.  Without total force there is no centre of effort (`nan`).
Missing: equality in general, see `C47_refuted`. -/
theorem C47_centre_partial (sails : List SailGeom) (m : ℕ) (csys : Csys) (a : FlowArrays)
    (hs : Shaped sails m a) : ∃ res, inviscidFlow sails csys a = .ok res ∧
    (res.forceTotal = 0 → res.centreOfEffort = .error .nonFinite) ∧
    (res.forceTotal ≠ 0 → ∃ c, res.centreOfEffort = .ok c ∧
      c.dot res.forceTotal = ∑ k ∈ Finset.range (above sails m),
        (armFrom csys.vRef (row a.cp k)).dot (row a.force k) ∧
      V3.cross c res.forceTotal = res.momentTotal -
        (res.momentTotal.dot res.forceTotal / res.forceTotal.dot res.forceTotal) • res.forceTotal ∧
      (V3.cross c res.forceTotal = res.momentTotal ↔ res.momentTotal.dot res.forceTotal = 0) ∧
      (res.momentTotal.dot res.forceTotal ≠ 0 →
        ∀ p, V3.cross p res.forceTotal ≠ res.momentTotal)) := by
  obtain ⟨res, hr, -, -, -, -, -, -, hc, -⟩ := inviscidFlow_ok hs.nonempty csys a hs.force hs.cp
  refine ⟨res, hr, fun h0 => ?_, fun hF => ?_⟩
  · rw [hc, h0]; simp [determineVector]
  obtain ⟨c, h1, h2, h3⟩ := determineVector_spec (M := res.momentTotal) (s :=
    ∑ k ∈ Finset.range (above sails m), (armFrom csys.vRef (row a.cp k)).dot (row a.force k)) hF
  have perp (p : V3) : (V3.cross p res.forceTotal).dot res.forceTotal = 0 := by
    simp only [V3.dot, V3.cross_x, V3.cross_y, V3.cross_z]; ring
  refine ⟨c, by rw [hc, h1], h2, h3, ⟨fun h => by rw [← h]; exact perp c, fun h => ?_⟩,
    fun h p hp => h (by rw [← hp]; exact perp p)⟩
  rw [h3, h, zero_div, zero_smul, sub_zero]

theorem twoForces_total (sails : List SailGeom) (m : ℕ) (csys : Csys) (hv : csys.vRef = 0)
    (hs : Shaped sails m twoForces) : ∃ res, inviscidFlow sails csys twoForces = .ok res ∧
    res.forceTotal = ⟨1, 1, 0⟩ ∧ res.momentTotal = ⟨-2, 1, 0⟩ := by
  obtain ⟨res, hr, -, -, hF, -, -, hM, -⟩ := inviscidFlow_ok hs.nonempty csys _ hs.force hs.cp
  have h2 : sails.length * m = 2 := by
    have := hs.force
    simp [twoForces] at this
    omega
  refine ⟨res, hr, ?_, ?_⟩
  · rw [hF, h2, Finset.sum_range_succ, Finset.sum_range_one]
    ext <;> simp [row, twoForces]
  · rw [hM, h2, hv, Finset.sum_range_succ, Finset.sum_range_one]
    ext <;> simp [row, twoForces, armFrom]

/-- Non-vacuity of `C47_centre_partial`: the total force of the example is not zero. -/
example : ∃ res, inviscidFlow [namedSail "jib"] ⟨0, 0, 0⟩ twoForces = .ok res ∧ res.forceTotal ≠ 0 := by
  obtain ⟨res, hr, hF, -⟩ := twoForces_total _ _ ⟨0, 0, 0⟩ rfl (twoForces_shaped1 "jib")
  exact ⟨res, hr, by rw [hF]; simp [V3.ext_iff]⟩

/-- **C47 refuted** in general: forces `(1,0,0)` at height 1 and `(0,1,0)` at height 2 have a moment
with a component along the total force, which the centre of effort does not reproduce. -/
theorem C47_refuted : ¬ ∀ (sails : List SailGeom) (m : ℕ) (csys : Csys) (a : FlowArrays)
    (res : FlowResults) (c : V3), Shaped sails m a → inviscidFlow sails csys a = .ok res →
    res.centreOfEffort = .ok c → V3.cross c res.forceTotal = res.momentTotal := by
  intro hall
  have hs := twoForces_shaped1 "jib"
  obtain ⟨res, hr, hF, hM⟩ := twoForces_total _ _ ⟨0, 0, 0⟩ rfl hs
  obtain ⟨res', hr', -, h⟩ := C47_centre_partial _ _ ⟨0, 0, 0⟩ _ hs
  rw [hr] at hr'
  cases hr'
  obtain ⟨c, hc, -, -, -, hno⟩ := h (by rw [hF]; simp [V3.ext_iff])
  refine hno ?_ c (hall _ _ _ _ res c hs hr hc)
  rw [hF, hM]
  norm_num [V3.dot]

/-! ## C48 -/

theorem total_ne_keyM (s : String) : "M_total_COG" ≠ keyM s := by
  intro h
  have := congrArg (fun s => s.toList.length) h
  simp [keyM, String.toList_append] at this

theorem total_ne_keyF (s : String) : "M_total_COG" ≠ keyF s := by
  intro h
  have := congrArg (fun s => s.toList.head?) h
  simp [keyF, String.toList_append] at this

/-- **C48**, partial: with all pressure points above the water, the reported `M_total` is the moment of
the sail forces about the centre of lateral resistance, minus `v × F` for the reference point `v`.
So it is the moment of the couple formed by sails and keel exactly if the reference point is the origin (or
lies on a line through it parallel to the force).  Missing: independence of the reference point, see
`C48_refuted`. -/
theorem C48_total_partial (sails : List SailGeom) (m : ℕ) (csys : Csys) (a : FlowArrays)
    (hs : Shaped sails m a) (hz : ∀ k, k < above sails m → 0 < (row a.cp k).z) (clr : V3) :
    ∃ res, inviscidFlow sails csys a = .ok res ∧
      rowVec ((FlowObject.new res).estimateKeel clr).toDfIntegral "M_total_COG" = some
        ((∑ k ∈ Finset.range (above sails m), V3.cross (row a.cp k - clr) (row a.force k)) -
          V3.cross csys.vRef (∑ k ∈ Finset.range (above sails m), row a.force k)) ∧
      (V3.cross csys.vRef (∑ k ∈ Finset.range (above sails m), row a.force k) = 0 ↔
        rowVec ((FlowObject.new res).estimateKeel clr).toDfIntegral "M_total_COG" = some
          (∑ k ∈ Finset.range (above sails m), V3.cross (row a.cp k - clr) (row a.force k))) := by
  obtain ⟨res, hr, -, -, hF, -, -, hM, -, -, -, -, -, hdyn⟩ :=
    inviscidFlow_ok hs.nonempty csys a hs.force hs.cp
  have hd := dyn_none hdyn (key := "M_total_COG") fun s _ => ⟨total_ne_keyF _, total_ne_keyM _⟩
  have key : rowVec ((FlowObject.new res).estimateKeel clr).toDfIntegral "M_total_COG" = some
        ((∑ k ∈ Finset.range (above sails m), V3.cross (row a.cp k - clr) (row a.force k)) -
          V3.cross csys.vRef (∑ k ∈ Finset.range (above sails m), row a.force k)) := by
    rw [sheet_vec _ (by exact hd)]
    simp only [FlowObject.estimateKeel, FlowObject.new, Option.bind_some, if_true, Option.some_or,
      Option.some.injEq]
    rw [hM, hF, V3.cross_neg_right, cross_sum_right, cross_sum_right, ← Finset.sum_neg_distrib,
      ← Finset.sum_add_distrib, ← Finset.sum_sub_distrib]
    refine Finset.sum_congr rfl fun k hk => ?_
    have hz' := hz k (Finset.mem_range.1 hk)
    unfold armFrom
    rw [if_pos hz']
    ext <;> simp <;> ring
  exact ⟨res, hr, key, by rw [key, Option.some_inj, sub_eq_self]⟩

/-- **C48 refuted**, for every flow with a total force: there is a reference point for which the reported
`M_total` is not the one reported for the origin. -/
theorem C48_depends (sails : List SailGeom) (m : ℕ) (heel leeway : ℝ) (a : FlowArrays)
    (hs : Shaped sails m a) (hz : ∀ k, k < above sails m → 0 < (row a.cp k).z) (clr : V3)
    (hF : ∑ k ∈ Finset.range (above sails m), row a.force k ≠ 0) :
    ∃ v res res', inviscidFlow sails ⟨heel, leeway, 0⟩ a = .ok res ∧
      inviscidFlow sails ⟨heel, leeway, v⟩ a = .ok res' ∧
      rowVec ((FlowObject.new res').estimateKeel clr).toDfIntegral "M_total_COG" ≠
        rowVec ((FlowObject.new res).estimateKeel clr).toDfIntegral "M_total_COG" := by
  obtain ⟨F, hFdef⟩ : ∃ F, F = ∑ k ∈ Finset.range (above sails m), row a.force k := ⟨_, rfl⟩
  rw [← hFdef] at hF
  obtain ⟨v, hv⟩ : ∃ v : V3, V3.cross v F ≠ 0 := by
    by_contra hno
    push Not at hno
    apply hF
    have h1 := hno ⟨1, 0, 0⟩
    have h2 := hno ⟨0, 1, 0⟩
    simp only [V3.ext_iff, V3.cross_x, V3.cross_y, V3.cross_z, V3.zero_x, V3.zero_y, V3.zero_z] at h1 h2
    ext <;> simp <;> linarith [h1.1, h1.2.1, h1.2.2, h2.1, h2.2.1, h2.2.2]
  obtain ⟨res, hr, h1, -⟩ := C48_total_partial sails m ⟨heel, leeway, 0⟩ a hs hz clr
  obtain ⟨res', hr', h2, -⟩ := C48_total_partial sails m ⟨heel, leeway, v⟩ a hs hz clr
  refine ⟨v, res, res', hr, hr', ?_⟩
  rw [h1, h2, ← hFdef]
  intro h
  simp only [Option.some.injEq, V3.cross_zero_left, sub_zero, sub_eq_self] at h
  exact hv h

/-- Non-vacuity of `C48_total_partial` and `C48_depends`; hence **C48 refuted**: the reported `M_total`
depends on the reference point. -/
theorem C48_refuted : ¬ ∀ (sails : List SailGeom) (m : ℕ) (c c' : Csys) (a : FlowArrays)
    (res res' : FlowResults) (clr : V3), Shaped sails m a →
    c.heelDeg = c'.heelDeg → c.leewayDeg = c'.leewayDeg →
    inviscidFlow sails c a = .ok res → inviscidFlow sails c' a = .ok res' →
    rowVec ((FlowObject.new res').estimateKeel clr).toDfIntegral "M_total_COG" =
      rowVec ((FlowObject.new res).estimateKeel clr).toDfIntegral "M_total_COG" := by
  intro hall
  have hs := twoForces_shaped1 "jib"
  obtain ⟨v, res, res', hr, hr', hne⟩ := C48_depends _ _ 0 0 _ hs (by
    intro k hk
    have : k = 0 ∨ k = 1 := by simp [above, namedSail] at hk; omega
    rcases this with rfl | rfl <;> simp [row, twoForces]) 0 (by
    rw [show above [namedSail "jib"] 2 = 2 from rfl, Finset.sum_range_succ, Finset.sum_range_one]
    simp [row, twoForces, V3.ext_iff])
  exact hne (hall _ _ ⟨0, 0, 0⟩ ⟨0, 0, v⟩ _ res res' 0 hs rfl rfl hr hr')

/-! ## C51 -/

/-- **C51.** Let `o` be the result object after any sequence `calls` of calls of
`estimate_heeling_moment_from_keel`, and no sail be named `"sails"` or `"keel"`.  The sheet `Integrals`
always has the rows of the sails.  It has rows for the keel and the total moment exactly if there was a
call; then they are computed from the argument of the last call, and the rows of the total moment are
the sums of the rows of the sails and of the keel. -/
theorem C51_last_estimate (sails : List SailGeom) (m : ℕ) (csys : Csys) (a : FlowArrays)
    (hs : Shaped sails m a) (hres : "sails" ∉ sails.map SailGeom.name)
    (hkeel : "keel" ∉ sails.map SailGeom.name) : ∃ res, inviscidFlow sails csys a = .ok res ∧
    ∀ calls : List V3,
      let F := ∑ k ∈ Finset.range (above sails m), row a.force k
      let M := ∑ k ∈ Finset.range (above sails m),
        V3.cross (armFrom csys.vRef (row a.cp k)) (row a.force k)
      let sheet := (calls.foldl FlowObject.estimateKeel (FlowObject.new res)).toDfIntegral
      rowVec sheet "F_sails_total_COG" = some F ∧
      rowVec sheet "F_sails_total_COW" = some (csys.leeway.mulVec F) ∧
      rowVec sheet "M_sails_total_COG" = some M ∧
      rowMoment sheet "M_sails_total_COW" = some (csys.leeway.mulVec M) ∧
      sheet "M_sails_total_COW.z (yaw - JG sign)" = some (-(csys.leeway.mulVec M).z) ∧
      (calls = [] → rowVec sheet "M_keel_total_COG" = none ∧ rowVec sheet "M_total_COG" = none ∧
        rowMoment sheet "M_keel_total_COW" = none ∧ rowMoment sheet "M_total_COW" = none ∧
        sheet "M_keel_total_COW.z (yaw - JG sign)" = none ∧
        sheet "M_total_COW.z (yaw - JG sign)" = none) ∧
      ∀ clr, calls.getLast? = some clr →
        rowVec sheet "M_keel_total_COG" = some (V3.cross clr (-F)) ∧
        rowMoment sheet "M_keel_total_COW" = some (csys.leeway.mulVec (V3.cross clr (-F))) ∧
        sheet "M_keel_total_COW.z (yaw - JG sign)" =
          some (-(csys.leeway.mulVec (V3.cross clr (-F))).z) ∧
        rowVec sheet "M_total_COG" = some (M + V3.cross clr (-F)) ∧
        rowMoment sheet "M_total_COW" =
          some (csys.leeway.mulVec M + csys.leeway.mulVec (V3.cross clr (-F))) ∧
        sheet "M_total_COW.z (yaw - JG sign)" =
          some (-(csys.leeway.mulVec M + csys.leeway.mulVec (V3.cross clr (-F))).z) := by
  obtain ⟨res, hr, hcs, -, hF, -, -, hM, -, -, hFc, hMc, -, hdyn⟩ :=
    inviscidFlow_ok hs.nonempty csys a hs.force hs.cp
  refine ⟨res, hr, fun calls => ?_⟩
  intro F M sheet
  have hF' : res.forceTotal = F := hF
  have hM' : res.momentTotal = M := hM
  obtain ⟨o, ho⟩ : ∃ o, o = calls.foldl FlowObject.estimateKeel (FlowObject.new res) := ⟨_, rfl⟩
  have hfold : ∀ (calls : List V3) (o : FlowObject), (calls.foldl FlowObject.estimateKeel o).res = o.res ∧
      (calls.foldl FlowObject.estimateKeel o).keel = match calls.getLast? with
        | none => o.keel
        | some clr => some (V3.cross clr (-o.res.forceTotal),
            o.res.csys.leeway.mulVec (V3.cross clr (-o.res.forceTotal))) := by
    intro calls
    induction calls using List.reverseRecOn with
    | nil => intro o; exact ⟨rfl, rfl⟩
    | append_singleton l x ih =>
      intro o
      rw [List.foldl_append, List.foldl_cons, List.foldl_nil]
      obtain ⟨h1, -⟩ := ih o
      refine ⟨h1, ?_⟩
      rw [List.getLast?_append]
      simp [FlowObject.estimateKeel, h1]
  obtain ⟨h1, h2⟩ := hfold calls (FlowObject.new res)
  rw [← ho] at h1 h2
  have hsheet : sheet = o.toDfIntegral := by rw [ho]
  have h1' : o.res = res := h1
  rw [hsheet]
  have nF : ∀ s ∈ sails, "F_sails_total_COG" ≠ keyF s.name ∧ "F_sails_total_COG" ≠ keyM s.name :=
    fun s hs' => ⟨fun e => hres (by
      rw [show "F_sails_total_COG" = keyF "sails" from rfl, keyF_inj] at e
      rw [e]; exact List.mem_map_of_mem hs'), fun e => keyF_ne_keyM "sails" s.name e⟩
  have nM : ∀ s ∈ sails, "M_sails_total_COG" ≠ keyF s.name ∧ "M_sails_total_COG" ≠ keyM s.name :=
    fun s hs' => ⟨fun e => keyF_ne_keyM s.name "sails" e.symm, fun e => hres (by
      rw [show "M_sails_total_COG" = keyM "sails" from rfl, keyM_inj] at e
      rw [e]; exact List.mem_map_of_mem hs')⟩
  have nK : ∀ s ∈ sails, "M_keel_total_COG" ≠ keyF s.name ∧ "M_keel_total_COG" ≠ keyM s.name :=
    fun s hs' => ⟨fun e => keyF_ne_keyM s.name "keel" e.symm, fun e => hkeel (by
      rw [show "M_keel_total_COG" = keyM "keel" from rfl, keyM_inj] at e
      rw [e]; exact List.mem_map_of_mem hs')⟩
  have nC : ∀ s ∈ sails, "F_sails_total_COW" ≠ keyF s.name ∧ "F_sails_total_COW" ≠ keyM s.name :=
    fun s _ => ⟨cow_ne "F_sails_total" _ _, cow_ne "F_sails_total" _ _⟩
  have dV (key : String) (hk : ∀ s ∈ sails, key ≠ keyF s.name ∧ key ≠ keyM s.name) :
      ∀ t ∈ [".x", ".y", ".z"], o.res.dyn (key ++ t) = none := by
    rw [h1']; exact dyn_none hdyn hk
  have dM (key : String) : ∀ t ∈ [".x (heel)", ".y (pitch)", ".z (yaw)"],
      o.res.dyn (key ++ t) = none := by
    rw [h1']; intro t ht; exact dyn_none_moment hdyn key t (by simp at ht ⊢; tauto)
  have dJ (key : String) : o.res.dyn (key ++ ".z (yaw - JG sign)") = none := by
    rw [h1']; exact dyn_none_moment hdyn key _ (by simp)
  have jg (key : String) : ∀ s, s = key ++ ".z (yaw - JG sign)" →
      o.toDfIntegral s = o.toDfIntegral (key ++ ".z (yaw - JG sign)") := fun s hs => by rw [hs]
  rw [jg "M_sails_total_COW" "M_sails_total_COW.z (yaw - JG sign)" rfl, jg "M_keel_total_COW" "M_keel_total_COW.z (yaw - JG sign)" rfl, jg "M_total_COW" "M_total_COW.z (yaw - JG sign)" rfl,
    sheet_jg o (dJ _), sheet_jg o (dJ _), sheet_jg o (dJ _),
    sheet_moment o (dM _), sheet_moment o (dM _), sheet_moment o (dM _),
    sheet_vec o (dV _ nF), sheet_vec o (dV _ nM), sheet_vec o (dV _ nK), sheet_vec o (dV _ nC),
    sheet_vec o (dV "M_total_COG" fun s _ => ⟨total_ne_keyF _, total_ne_keyM _⟩), h1', h2]
  simp only [FlowObject.new, hcs, hF', hM', hFc, hMc]
  cases hl : calls.getLast? with
  | none =>
    refine ⟨by simp, by simp, by simp, by simp, by simp, fun _ => by simp, fun clr h => by cases h⟩
  | some x =>
    refine ⟨by simp, by simp, by simp, by simp, by simp, ?_, ?_⟩
    · intro h; rw [h] at hl; cases hl
    intro clr h
    cases h
    simp

/-- Non-vacuity of `C51_last_estimate`. -/
example : Shaped [namedSail "jib", namedSail "main_sail"] 1 twoForces ∧
    "sails" ∉ [namedSail "jib", namedSail "main_sail"].map SailGeom.name ∧
    "keel" ∉ [namedSail "jib", namedSail "main_sail"].map SailGeom.name :=
  ⟨twoForces_shaped2 _ _, by simp [namedSail], by simp [namedSail]⟩

end PySailing.Props
