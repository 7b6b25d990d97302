import Verif.Lemmas.PlanarSide
import Verif.Props.InducedDrag
import Verif.Props.FlatSailForce
import Verif.Props.Workbook
import Verif.Props.Cases
import Verif.Props.PictureDrawn
import Verif.Props.Aircraft

/-!
# C135: a flat sail with one row of panels is pushed to leeward
-/

namespace PySailing.Props

open PySailing PySailing.Spec

/-- Sum over a lattice that is its own mirror image, along a horizontal direction. -/
theorem mirror_half {n ns : ℕ} (hn : n = 2 * ns) {f : Fin n → V3}
    (hf : ∀ j, j < ns → ∀ k k' : Fin n, k.val = j → k'.val = ns + (ns - 1 - j) → f k' = mirror (f k)) {u : V3} (huz : u.z = 0) :
    ∑ i, (f i).dot u = 2 * ((List.ofFn f).take ns).sum.dot u := by
  rw [sum_take f (by omega), V3.sum_dot]
  have h1 : ∑ i, (f i).dot u = ∑ k ∈ Finset.range n, ((List.ofFn f).getD k 0).dot u := by
    rw [← Fin.sum_univ_eq_sum_range (fun k => ((List.ofFn f).getD k 0).dot u)]
    refine Finset.sum_congr rfl fun i _ => ?_
    rw [List.getD_eq_getElem?_getD, List.getElem?_ofFn, dif_pos i.isLt, Option.getD_some]
  rw [h1, show Finset.range n = Finset.range (ns + ns) by rw [hn, two_mul], Finset.sum_range_add,
    ← Finset.sum_range_reflect (fun k => ((List.ofFn f).getD (ns + k) 0).dot u), two_mul]
  congr 1
  refine Finset.sum_congr rfl fun j hj => ?_
  rw [Finset.mem_range] at hj
  have l1 : j < n := by omega
  have l2 : ns + (ns - 1 - j) < n := by omega
  rw [List.getD_eq_getElem?_getD, List.getD_eq_getElem?_getD, List.getElem?_ofFn, List.getElem?_ofFn, dif_pos l1, dif_pos l2,
    Option.getD_some, Option.getD_some, hf j hj ⟨j, l1⟩ ⟨_, l2⟩ rfl rfl]
  simp [mirror, V3.dot, huz]

/-- A horizontal vector, along and across a horizontal unit vector. -/
theorem along_across {u F : V3} (hu1 : u.norm = 1) (huz : u.z = 0) (hF : F.z = 0) :
    F = F.dot u • u + F.dot (acrossWind u) • acrossWind u := by
  have h : u.x ^ 2 + u.y ^ 2 = 1 := by
    have h1 : u.norm ^ 2 = u.dot u := V3.norm_sq u
    rw [hu1] at h1
    simp only [V3.dot, huz] at h1
    linarith
  unfold acrossWind
  ext
  · simp only [V3.dot, V3.add_x, V3.smul_x, huz]; linear_combination (-F.x) * h
  · simp only [V3.dot, V3.add_y, V3.smul_y, huz]; linear_combination (-F.y) * h
  · simp only [V3.add_z, V3.smul_z, huz, hF]; ring

/-- **C135**, the sail: an upright flat sail with one panel along the chord, in a wind of one direction at up to 45 degrees
to the sail.  The resultant of the forces on the sail above the water consists of a drag `D` along the wind and a side
force `L` across it.  The drag is positive unless the wind blows along the sail, the side force points to the lee side of
the sail and is at most that of a flat plate in two dimensions at the highest wind speed; in a wind along the
sail no panel carries a force. -/
theorem C135_sail {s : SailInput} {θ : ℕ → ℝ} {chord τ : ℝ} (F : FlatSail s θ chord τ) (hnc : s.nc = 1)
    (hbig : 2e-4 ≤ chord * ((s.head.z - s.tack.z) / s.ns)) (hwide : 2e-8 ≤ (s.head.z - s.tack.z) / s.ns)
    {sail : SailGeom} (hs : sailGeometry s = .ok sail) {set : SailSet} (hset : sailSet [sail] = .ok set) {w : WindObj} {u : V3} {M : ℝ}
    (hw : WindAlong w u M s.tack.z s.head.z) (hC : Real.sqrt 2 / 2 ≤ u.dot (leechDirection s.csys.leewayDeg τ))
    {rho g : ℝ} (hrho : 0 < rho) (hg : g ≠ 0) {r : Vlm}
    (hr : vlm ⟨set.panels, s.nc, s.ns, rho, w, set.te, set.le, g⟩ = .ok r) :
    ∃ D L : ℝ, ((List.ofFn r.sol.force).take s.ns).sum = D • u + L • acrossWind u ∧
      (u.dot (sailNormal s.csys.leewayDeg τ) ≠ 0 → 0 < D) ∧
      (0 < u.dot (sailNormal s.csys.leewayDeg τ) → 0 < L) ∧ (u.dot (sailNormal s.csys.leewayDeg τ) < 0 → L < 0) ∧
      |L| ≤ 1 / 2 * rho * M ^ 2 * (2 * Real.pi * |u.dot (sailNormal s.csys.leewayDeg τ)|) * (chord * (s.head.z - s.tack.z)) ∧
      (u.dot (sailNormal s.csys.leewayDeg τ) = 0 → ∀ f ∈ List.ofFn r.sol.force, f = 0) := by
  have hbig' : 2e-4 ≤ chord / s.nc * ((s.head.z - s.tack.z) / s.ns) := by rw [hnc]; simpa using hbig
  have hq : Real.sqrt 2 ^ 2 = 2 := Real.sq_sqrt (by norm_num)
  have hq0 : 0 ≤ Real.sqrt 2 := Real.sqrt_nonneg 2
  have hC0 : 0 ≤ u.dot (leechDirection s.csys.leewayDeg τ) := by linarith
  have hC2 : 1 / 2 ≤ u.dot (leechDirection s.csys.leewayDeg τ) ^ 2 := by nlinarith
  obtain ⟨Lf, hLf, -, -, hLb⟩ := C111_sail F hbig' hs hset hw hC0 hrho hg hr
  obtain ⟨hu1, huz, hwind⟩ := hw
  choose! W l hW hl hM hWl using hwind
  have hns : 0 < s.ns := F.ok.ns_pos
  have P := F.planar hbig'
  -- the mirror image
  have hf : List.Forall₂ (BuiltFrom s.nc s.ns) [(s, θ)] [sail] := List.Forall₂.cons ⟨F.ok, rfl, rfl, hs⟩ List.Forall₂.nil
  obtain ⟨hp, hte, hle⟩ := sailSet_blocks hf hset
  have hmir : set.panels = blockPanels s.nc s.ns ([s.aboveTwisted θ] ++ [s.aboveTwisted θ].map (mirrorMesh s.ns)) := by
    have hp' : set.panels = blockPanels s.nc s.ns [s.aboveTwisted θ, s.underTwisted θ] := hp
    rw [hp']
    refine blockPanels_congr (.cons (fun _ _ _ => rfl) (.cons (fun r k hr => ?_) .nil))
    refine (F.ok.underTwisted_mirror_iff hr k).2 ?_
    rw [F.camber _ (Nat.sub_le _ _), camberCurve_flat, camberCurve_flat]
  obtain ⟨hlen, hsym, -⟩ := C39_mirror ⟨set.panels, s.nc, s.ns, rho, w, set.te, set.le, g⟩ [s.aboveTwisted θ] F.ok.nc_pos hns hmir hte hle r hr
  simp only [List.length_singleton, hnc, one_mul, mul_one] at hlen hsym
  have hno : ∀ j, j < s.ns → ∀ k k' : Fin r.vars.length, k.val = j → k'.val = s.ns + (s.ns - 1 - j) →
      r.sol.force k' = mirror (r.sol.force k) ∧ r.sol.lift k' = mirror (r.sol.lift k) := by
    intro j hj k k' hk hk'
    obtain ⟨-, h1, h2, -⟩ := hsym 0 0 j one_pos (by omega) hj k k' (by rw [hk]; simp [panelNo]) (by rw [hk']; simp [mirrorPanelNo, panelNo])
    exact ⟨h1, h2⟩
  have halfF := fun v (hv : V3.z v = 0) => mirror_half hlen (f := r.sol.force) (fun j hj k k' hk hk' => (hno j hj k k' hk hk').1) (u := v) hv
  have halfL := fun v (hv : V3.z v = 0) => mirror_half hlen (f := r.sol.lift) (fun j hj k k' hk hk' => (hno j hj k k' hk hk').2) (u := v) hv
  rw [hnc, one_mul] at hLf
  rw [F.solved hbig' hs hset hu1 huz hW hWl hl hC0 hrho.ne' hg] at hr
  injection hr with hr
  subst hr
  have hK : 0 < (PlanarBlocks.vars g s.nc s.ns (FlatSail.blocks s θ)).length := by
    have : (FlatSail.result set g rho s θ w W).vars = PlanarBlocks.vars g s.nc s.ns (FlatSail.blocks s θ) := rfl
    rw [← this, hlen]; omega
  obtain ⟨d1, d2, d3, d4, d5⟩ := P.side_force hnc hwide (fun b r _ _ => by rw [F.rows_succ]; ring) hK hrho hg
    (F.speeds_mem hbig' g (p := fun x => 0 < x) hl) (F.speeds_mem hbig' g (p := fun x => x ≤ M) hM)
    (F.winds_speed hbig' g rho hu1 huz hWl) (FlatSail.decompose hu1 huz _ _).2 hC0 hC2
  rw [← (FlatSail.decompose hu1 huz _ _).1] at d1 d2 d3
  set S := u.dot (sailNormal s.csys.leewayDeg τ) with hS
  have hcross : ∀ v : V3, v.dot (V3.cross u ⟨0, 0, 1⟩) = -v.dot (acrossWind u) := by
    intro v
    simp [V3.dot, acrossWind]
    ring
  simp only [hcross, Finset.sum_neg_distrib, mul_neg, neg_neg] at d2 d3
  have haz : (acrossWind u).z = 0 := rfl
  change S ≠ 0 → 0 < ∑ i, ((FlatSail.result set g rho s θ w W).sol.force i).dot u at d1
  change S ≠ 0 → 0 < S * ∑ i, ((FlatSail.result set g rho s θ w W).sol.force i).dot (acrossWind u) at d2
  change S * ∑ i, ((FlatSail.result set g rho s θ w W).sol.force i).dot (acrossWind u) ≤
    S * ∑ i, ((FlatSail.result set g rho s θ w W).sol.lift i).dot (acrossWind u) at d3
  change S = 0 → ∀ i, (FlatSail.result set g rho s θ w W).sol.force i = 0 at d4
  change ∀ i, ((FlatSail.result set g rho s θ w W).sol.force i).dot ⟨0, 0, 1⟩ = 0 at d5
  generalize FlatSail.result set g rho s θ w W = r at *
  rw [halfF u huz] at d1
  rw [halfF _ haz] at d2 d3
  have hLf' : ∑ i, (r.sol.lift i).dot (acrossWind u) = 2 * Lf := by
    rw [halfL _ haz, hLf, V3.dot_smul_left]
    have h : u.x ^ 2 + u.y ^ 2 = 1 := by
      have h1 : u.norm ^ 2 = u.dot u := V3.norm_sq u
      rw [hu1] at h1
      simp only [V3.dot, huz] at h1
      linarith
    simp only [V3.dot, acrossWind]
    linear_combination (2 * Lf) * h
  rw [hLf'] at d3
  have hz : (((List.ofFn r.sol.force).take s.ns).sum).z = 0 := by
    rw [sum_take _ (by omega)]
    have e : ∀ v : V3, v.z = v.dot ⟨0, 0, 1⟩ := fun v => by simp [V3.dot]
    rw [e, V3.sum_dot]
    refine Finset.sum_eq_zero fun k hk => ?_
    rw [Finset.mem_range] at hk
    rw [List.getD_eq_getElem?_getD, List.getElem?_ofFn, dif_pos (by omega), Option.getD_some, d5]
  refine ⟨_, _, along_across hu1 huz hz, fun h => by linarith [d1 h], fun h => ?_, fun h => ?_, ?_, fun h f hf => ?_⟩
  · have := pos_of_mul_pos_right (d2 h.ne') h.le
    linarith
  · have := d2 h.ne
    have := neg_of_mul_pos_right this h.le
    linarith
  · refine le_trans ?_ hLb
    set X := ((List.ofFn r.sol.force).take s.ns).sum.dot (acrossWind u)
    rcases lt_trichotomy S 0 with h | h | h
    · have hx : X < 0 := by
        have := neg_of_mul_pos_right (d2 h.ne) h.le
        linarith
      have : 2 * Lf ≤ 2 * X := (mul_le_mul_left_of_neg h).1 d3
      rw [abs_of_neg hx, abs_of_neg (by linarith)]
      linarith
    · have hx : X = 0 := by
        have := halfF _ haz
        rw [Finset.sum_eq_zero fun i _ => by rw [d4 h i, V3.dot_zero_left]] at this
        change 0 = 2 * X at this
        linarith
      rw [hx, abs_zero]
      exact abs_nonneg _
    · have hx : 0 < X := by
        have := pos_of_mul_pos_right (d2 h.ne') h.le
        linarith
      have : 2 * X ≤ 2 * Lf := le_of_mul_le_mul_left d3 h
      rw [abs_of_pos hx, abs_of_pos (by linarith)]
      linarith
  · obtain ⟨i, rfl⟩ := List.mem_ofFn.1 hf
    exact d4 h i

/-- A complete run has shown a picture. -/
theorem picture_of_outputs {spline : SplineFn} {c : Config} (hout : (run spline c).1.map outputKind = outputOrder) :
    ∃ o, .picture o ∈ (run spline c).1 := by
  have hm : "picture" ∈ (run spline c).1.map outputKind := by rw [hout]; decide
  obtain ⟨e, he, hk⟩ := List.mem_map.1 hm
  cases e with
  | picture o => exact ⟨o, he⟩
  | sectionPlot name f =>
    exfalso
    simp only [outputKind] at hk
    subst hk
    obtain ⟨p', -, hm⟩ := mem_run he
    unfold outputSteps at hm
    simp only [List.mem_cons, List.not_mem_nil, or_false] at hm
    rcases hm with h1 | h1 | h1 | h1 | h1 | h1
    · cases hx : nanAsNone (saveResults p'.vlm p'.csys p'.flow p'.set.sails p'.csys) <;> rw [hx] at h1 <;> cases h1
    · cases h1
    · cases hx : nanAsNone (displayScene p'.vlm p'.flow.res p'.hull false false) <;> rw [hx] at h1 <;> cases h1
    · cases hx : plotCp p'.set.zeroMesh p'.vlm.out.pCoeffs <;> rw [hx] at h1 <;> cases h1
    · obtain ⟨f, e, -⟩ := sectionPlotStep_kind h1.symm; simp at e
    · obtain ⟨f, e, -⟩ := sectionPlotStep_kind h1.symm; simp at e
  | _ => simp [outputKind] at hk

/-- **C135**, complete runs: a run with such a main sail (and no other sail) is completed.  The total force in its workbook is a drag
along the wind and a side force across it with these properties, and its picture shows the force with defined arrows exactly if the
wind does not blow along the sail. -/
theorem C135_run (c : Config) {luff chord τ : ℝ} (h : FlatMain c luff chord τ) (hnc : c.solver.nc = 1)
    (hbig : 2e-4 < chord * (luff / c.solver.ns)) (hstrip : 2e-8 < luff / c.solver.ns) (hrho : 0 < c.rho) {u : V3} {M : ℝ}
    (hw : WindAlong (windGetProfile c.wind) u M (c.rig.sheer + c.rig.boom) (c.rig.sheer + c.rig.boom + luff))
    (hC : Real.sqrt 2 / 2 ≤ u.dot (leechDirection c.leewayDeg τ)) :
    (run fitpackSpline c).2 = .ok () ∧ ∃ (t : SavedResults) (D L : ℝ), .workbook (some t) ∈ (run fitpackSpline c).1 ∧
      rowVec t.integrals "F_sails_total_COG" = some (D • u + L • acrossWind u) ∧
      (u.dot (sailNormal c.leewayDeg τ) ≠ 0 → 0 < D) ∧
      (0 < u.dot (sailNormal c.leewayDeg τ) → 0 < L) ∧ (u.dot (sailNormal c.leewayDeg τ) < 0 → L < 0) ∧
      |L| ≤ 1 / 2 * c.rho * M ^ 2 * (2 * Real.pi * |u.dot (sailNormal c.leewayDeg τ)|) * (chord * luff) ∧
      ((∃ s, .picture (some s) ∈ (run fitpackSpline c).1) ↔ u.dot (sailNormal c.leewayDeg τ) ≠ 0) := by
  have hq0 : 0 ≤ Real.sqrt 2 := Real.sqrt_nonneg 2
  have hbig' : 2e-4 < chord / c.solver.nc * (luff / c.solver.ns) := by rw [hnc]; simpa using hbig
  obtain ⟨hrun, hout⟩ := C110_run c h hbig'.le hrho.ne' hw (by linarith)
  obtain ⟨p, t, hp, -, -, -, ht⟩ := flat_solved h hbig' hstrip hrho.ne' hw (by linarith)
  obtain ⟨⟨s, θ⟩, g, set, F, e1, e2, hcs, htz, hhz, hg, hss, hso⟩ := h.sail
  simp only at F e1 e2 hcs htz hhz hg
  obtain ⟨-, hset', -, hv, -⟩ := prepare_data h.wellFormed hp
  rw [hso] at hset'
  obtain rfl : set = p.set := Except.ok.inj hset'
  have hsails : p.set.sails = [g] := by
    unfold sailSet at hss
    rw [if_neg (by simp)] at hss
    rw [← Except.ok.inj hss]
  have hl : s.head.z - s.tack.z = luff := by rw [htz, hhz]; ring
  have hv' : vlm ⟨p.set.panels, s.nc, s.ns, c.rho, windGetProfile c.wind, p.set.te, p.set.le, -1⟩ = .ok p.vlm := by
    rw [e1, e2]; exact hv
  obtain ⟨D, L, hF, h1, h2, h3, h4, h5⟩ := C135_sail F (by rw [e1]; exact hnc) (by rw [hl, e2]; exact hbig.le) (by rw [hl, e2]; exact hstrip.le)
    hg hss (by rw [htz, hhz]; exact hw) (by rw [hcs]; exact hC) hrho (by norm_num) hv'
  rw [hcs] at h1 h2 h3 h4 h5
  rw [hl] at h4
  obtain ⟨f1, f2⟩ := prepared_force hp
  have hlen : s.ns ≤ p.vlm.vars.length := by
    obtain ⟨-, hvl, -⟩ := vlm_lengths hv
    obtain ⟨-, -, hpl, -⟩ := prepared_shape hp
    rw [hvl]
    change s.ns ≤ p.set.panels.length
    rw [hpl, hsails, hnc, e2]
    simp
    omega
  have htot : p.flow.res.forceTotal = D • u + L • acrossWind u := by
    rw [f2, ← hF, sum_take _ hlen, hsails, hnc, e2]
    simp only [List.length_singleton, one_mul]
    rfl
  obtain ⟨p', hp', hs⟩ := run_workbook ht
  rw [hp] at hp'
  cases hp'
  obtain ⟨hi, -⟩ := saveResults_integrals hs
  have hrow : rowVec t.integrals "F_sails_total_COG" = some (D • u + L • acrossWind u) := by rw [hi, f1, htot]
  refine ⟨hrun, t, D, L, ht, hrow, h1, h2, h3, h4, ?_⟩
  have hpic := picture_of_outputs hout
  obtain ⟨hu1, huz, -⟩ := hw
  have hdot : (D • u + L • acrossWind u).dot u = D := by
    have hx : u.x ^ 2 + u.y ^ 2 = 1 := by
      have h1 : u.norm ^ 2 = u.dot u := V3.norm_sq u
      rw [hu1] at h1
      simp only [V3.dot, huz] at h1
      linarith
    simp only [acrossWind, V3.dot, V3.add_x, V3.add_y, V3.add_z, V3.smul_x, V3.smul_y, V3.smul_z, huz]
    linear_combination D * hx
  have hne : D • u + L • acrossWind u ≠ 0 ↔ u.dot (sailNormal c.leewayDeg τ) ≠ 0 := by
    constructor
    · intro hx h0
      apply hx
      rw [← htot, f2]
      refine Finset.sum_eq_zero fun k _ => ?_
      unfold row
      rw [List.getD_eq_getElem?_getD, List.getElem?_ofFn]
      split_ifs with hk
      · exact h5 h0 _ (List.mem_ofFn.2 ⟨_, rfl⟩)
      · rfl
    · intro hx h0
      have := h1 hx
      rw [h0, V3.dot_zero_left] at hdot
      linarith
  constructor
  · rintro ⟨sc, hsc⟩
    exact hne.1 (((C136_drawn fitpackSpline c _ hsc).2 t _ ht hrow).1 ⟨_, rfl⟩)
  · intro hx
    obtain ⟨o, ho⟩ := hpic
    obtain ⟨sc, rfl⟩ := ((C136_drawn fitpackSpline c _ ho).2 t _ ht hrow).2 (hne.2 hx)
    exact ⟨sc, ho⟩

/-- **C135**, the wing: a rectangular wing with one panel along the chord, in a free stream without component along the span
and within 45 degrees of the chord.  The resultant is made up of a drag along the stream, strictly positive unless the stream
blows along the wing, and a lift towards the side the stream blows to, at most the lift `2π sin α` of a flat plate of infinite
span.  With the stream along the x axis `CD` is positive at every angle of attack but zero. -/
theorem C135_wing {a : AircraftInput} (hc : 0 < a.chord) (hb : 0 < a.half) (hnc : a.nc = 1) (hbig : 2e-4 ≤ a.chord * (2 * a.half / a.ns))
    (hwide : 2e-8 ≤ 2 * a.half / a.ns) (hrho : 0 < a.rho) (hg : a.g ≠ 0) (hz : a.V.z = 0)
    (hC : Real.sqrt 2 / 2 * a.V.norm ≤ a.V.dot (chordDirection a.aoaDeg)) {w : Aircraft} (h : aircraft a = .ok w) :
    ∃ D L : ℝ, (List.ofFn w.force).sum = D • a.V + L • liftDirection a.V ∧
      (a.V.dot (wingNormal a.aoaDeg) ≠ 0 → 0 < D) ∧
      (0 < a.V.dot (wingNormal a.aoaDeg) → 0 < L) ∧ (a.V.dot (wingNormal a.aoaDeg) < 0 → L < 0) ∧
      |L * a.V.norm| ≤ 1 / 2 * a.rho * a.V.norm * (2 * Real.pi * |a.V.dot (wingNormal a.aoaDeg)|) * (2 * a.half * a.chord) ∧
      (a.V.dot (wingNormal a.aoaDeg) = 0 → ∀ f ∈ List.ofFn w.force, f = 0) ∧
      (a.V.y = 0 → 0 < a.V.x → a.V.dot (wingNormal a.aoaDeg) ≠ 0 → 0 < w.CD) := by
  obtain ⟨-, -, -, hns, hq, -, -, hpan, hte, hle, hv, ⟨sol, hsol, -, hf, -⟩, -, hCD, -⟩ := aircraft_inv h
  have hV : a.V ≠ 0 := by
    intro h0
    apply hq
    rw [h0]
    simp [V3.norm, V3.dot]
  have hl : 0 < a.V.norm := V3.norm_pos hV
  have hnsR : (0 : ℝ) < a.ns := by exact_mod_cast hns
  have hq2 : Real.sqrt 2 ^ 2 = 2 := Real.sq_sqrt (by norm_num)
  have hq0 : 0 ≤ Real.sqrt 2 := Real.sqrt_nonneg 2
  have P := a.planar hc hb (by omega) hns (by rw [hnc]; simpa using hbig)
  obtain ⟨hdecomp, hu⟩ := a.wind_frame hV hz
  have hC' : Real.sqrt 2 / 2 ≤ a.V.dot (chordDirection a.aoaDeg) / a.V.norm := by rwa [le_div_iff₀ hl]
  have hC0 : 0 ≤ a.V.dot (chordDirection a.aoaDeg) / a.V.norm := by linarith
  have hC2 : 1 / 2 ≤ (a.V.dot (chordDirection a.aoaDeg) / a.V.norm) ^ 2 := by nlinarith
  have hlen : (PlanarBlocks.vars a.g a.nc a.ns [wingPoint a.chord a.half a.aoaDeg a.nc a.ns]).length = a.ns := by
    rw [PlanarBlocks.vars_length, hnc]; simp
  have hstrip : ∀ b r : ℕ, b < [wingPoint a.chord a.half a.aoaDeg a.nc a.ns].length → r < a.ns →
      a.half * (2 * (((r + 1 : ℕ) : ℝ) / a.ns) - 1) - a.half * (2 * ((r : ℝ) / a.ns) - 1) = 2 * a.half / a.ns :=
    fun b r _ _ => by push_cast; field_simp; ring
  obtain ⟨d1, d2, d3, d4, d5⟩ := P.side_force (g := a.g) hnc hwide hstrip (by rw [hlen]; exact hns) hrho hg (V := fun _ => a.V)
    (l := fun _ => a.V.norm) (M := a.V.norm) (fun _ => hl) (fun _ => le_rfl) (fun _ => hdecomp) hu hC0 hC2
  have hlift := P.one_row_lift (rho := a.rho) (g := a.g) hnc hstrip (V := fun _ => a.V) (l := fun _ => a.V.norm) (fun _ => hdecomp) hu
  have hgam := fun i => ((P.lattice a.g).gamma_bounds hg (V := fun _ => a.V) (l := fun _ => a.V.norm) (M := a.V.norm) (fun _ => hl)
    (fun _ => le_rfl) (fun _ => hdecomp) hu hC0 i).2
  have hvars : w.vars = PlanarBlocks.vars a.g a.nc a.ns [wingPoint a.chord a.half a.aoaDeg a.nc a.ns] := by
    have := P.varsOk a.g (by omega) hns (by simp)
    rw [hpan, hte] at hv
    rw [List.length_singleton, hv] at this
    injection this
  have hforce : List.ofFn w.force = List.ofFn (PlanarBlocks.solutionOf a.g a.rho a.nc a.ns
      [wingPoint a.chord a.half a.aoaDeg a.nc a.ns] (fun _ => a.V)).force := by
    obtain ⟨i1, i2, i3, i4, ps, vars, gamma, force, pressure, i5, i6, i7⟩ := w
    simp only at hvars hpan hte hle hsol hf ⊢
    subst hvars
    rw [hpan, hte, hle] at hsol
    rw [← hf, ((vlmCore_ok_iff _ _ _ _ _ _ _ _ _).1 hsol).2.2]
    rfl
  set S := a.V.dot (wingNormal a.aoaDeg) / a.V.norm with hS
  have hSn : a.V.dot (wingNormal a.aoaDeg) = a.V.norm * S := by rw [hS]; field_simp
  set u := (a.V.dot (chordDirection a.aoaDeg) / a.V.norm) • chordDirection a.aoaDeg + S • V3.cross ⟨0, 0, 1⟩ (chordDirection a.aoaDeg) with hudef
  have hVu : a.V = a.V.norm • u := hdecomp
  have hu1 : u.norm = 1 := by
    have := congrArg V3.norm hVu
    rw [V3.norm_smul, abs_of_pos hl] at this
    have h1 : a.V.norm * (u.norm - 1) = 0 := by linarith
    rcases mul_eq_zero.1 h1 with h2 | h2
    · exact absurd h2 hl.ne'
    · linarith
  have huz : u.z = 0 := by
    have := congrArg V3.z hVu
    rw [hz, V3.smul_z] at this
    rcases mul_eq_zero.1 this.symm with h2 | h2
    · exact absurd h2 hl.ne'
    · exact h2
  have hcross : ∀ v : V3, v.dot (V3.cross u ⟨0, 0, 1⟩) = -v.dot (acrossWind u) := by
    intro v
    simp [V3.dot, acrossWind]
    ring
  set R := (List.ofFn w.force).sum with hR
  simp only [hcross, Finset.sum_neg_distrib, mul_neg, neg_neg] at d2 d3 hlift
  rw [← sum_dot_ofFn, ← hforce] at d1 d2 d3
  rw [← hR] at d1 d2 d3
  have hRz : R.z = 0 := by
    have e : ∀ v : V3, v.z = v.dot ⟨0, 0, 1⟩ := fun v => by simp [V3.dot]
    rw [hR, hforce, e, sum_dot_ofFn]
    exact Finset.sum_eq_zero fun i _ => d5 i
  have hRe := along_across hu1 huz hRz
  have hVl : liftDirection a.V = a.V.norm • acrossWind u := by
    rw [show liftDirection a.V = acrossWind a.V from rfl]
    conv_lhs => rw [hVu]
    ext <;> simp [acrossWind]
  have hLbound : |∑ i, ((PlanarBlocks.solutionOf a.g a.rho a.nc a.ns [wingPoint a.chord a.half a.aoaDeg a.nc a.ns]
      (fun _ => a.V)).lift i).dot (acrossWind u)| ≤ a.rho * (2 * a.half) * (Real.pi * a.chord * (a.V.norm * |S|) * a.V.norm) := by
    refine (Finset.abs_sum_le_sum_abs _ _).trans ?_
    have hb : ∀ i, |((PlanarBlocks.solutionOf a.g a.rho a.nc a.ns [wingPoint a.chord a.half a.aoaDeg a.nc a.ns]
        (fun _ => a.V)).lift i).dot (acrossWind u)| ≤ a.rho * (2 * a.half / a.ns) * (Real.pi * a.chord * (a.V.norm * |S|) * a.V.norm) := by
      intro i
      rw [← abs_neg, hlift i, abs_mul, abs_of_pos (by positivity : 0 < a.rho * (2 * a.half / a.ns))]
      apply mul_le_mul_of_nonneg_left _ (by positivity)
      rw [abs_mul, abs_of_pos hl]
      apply mul_le_mul_of_nonneg_right _ hl.le
      refine (hgam i).trans (le_of_eq ?_)
      rw [hnc]
      push_cast
      ring
    refine (Finset.sum_le_sum fun i _ => hb i).trans (le_of_eq ?_)
    rw [Finset.sum_const, Finset.card_univ, Fintype.card_fin, hlen, nsmul_eq_mul]
    field_simp
  have hSsign : ∀ {x : ℝ}, 0 < x → (0 < a.V.norm * x) := fun h => mul_pos hl h
  have hD : S ≠ 0 → 0 < R.dot u := d1
  have hLp : 0 < S → 0 < R.dot (acrossWind u) := fun h => pos_of_mul_pos_right (d2 h.ne') h.le
  have hLn : S < 0 → R.dot (acrossWind u) < 0 := fun h => neg_of_mul_pos_right (d2 h.ne) h.le
  have h0 : S = 0 → ∀ f ∈ List.ofFn w.force, f = 0 := by
    intro hS0 f hfm
    rw [hforce] at hfm
    obtain ⟨i, rfl⟩ := List.mem_ofFn.1 hfm
    exact d4 hS0 i
  have hS0 : a.V.dot (wingNormal a.aoaDeg) ≠ 0 → S ≠ 0 := fun h hs => h (by rw [hSn, hs, mul_zero])
  have hSp : 0 < a.V.dot (wingNormal a.aoaDeg) → 0 < S := fun h => div_pos h hl
  have hSm : a.V.dot (wingNormal a.aoaDeg) < 0 → S < 0 := fun h => div_neg_of_neg_of_pos h hl
  refine ⟨R.dot u / a.V.norm, R.dot (acrossWind u) / a.V.norm, ?_, fun h => div_pos (hD (hS0 h)) hl, fun h => div_pos (hLp (hSp h)) hl,
    fun h => div_neg_of_neg_of_pos (hLn (hSm h)) hl, ?_, fun h => h0 (by rw [hS, h, zero_div]), fun hy hx h => ?_⟩
  · conv_lhs => rw [hRe]
    rw [hVl]
    have e : (R.dot u / a.V.norm) • a.V = R.dot u • u := by
      calc (R.dot u / a.V.norm) • a.V = (R.dot u / a.V.norm) • (a.V.norm • u) := congrArg _ hVu
        _ = R.dot u • u := by rw [smul_smul, div_mul_cancel₀ _ hl.ne']
    rw [e, smul_smul, div_mul_cancel₀ _ hl.ne']
  · rw [div_mul_cancel₀ _ hl.ne', hSn, abs_mul, abs_of_pos hl]
    refine le_trans ?_ (hLbound.trans (le_of_eq (by ring)))
    rcases lt_trichotomy S 0 with h | h | h
    · have := (mul_le_mul_left_of_neg h).1 d3
      rw [abs_of_neg (hLn h), abs_of_neg (by linarith [hLn h])]
      linarith
    · have : R = 0 := by
        rw [hR]
        exact List.sum_eq_zero (h0 h)
      rw [this, V3.dot_zero_left, abs_zero]
      exact abs_nonneg _
    · have := le_of_mul_le_mul_left d3 h
      rw [abs_of_pos (hLp h), abs_of_pos (by linarith [hLp h])]
      exact this
  · rw [hCD]
    have hA : 0 < a.S := by unfold AircraftInput.S; positivity
    apply div_pos _ (by positivity)
    have h1 := hD (hS0 h)
    have h2 : R.dot a.V = a.V.norm * R.dot u := by conv_lhs => rw [hVu, V3.dot_smul_right]
    have h3 : 0 < R.dot a.V := by rw [h2]; exact mul_pos hl h1
    simp only [V3.dot, hy, hz, mul_zero, add_zero] at h3
    exact pos_of_mul_pos_left h3 hx.le

/-- **C41** for these wings: the reported `CL` is not the lift coefficient of any of them, unless the stream blows along the
wing. -/
theorem C41_flat_wing {a : AircraftInput} (hc : 0 < a.chord) (hb : 0 < a.half) (hnc : a.nc = 1) (hbig : 2e-4 ≤ a.chord * (2 * a.half / a.ns))
    (hwide : 2e-8 ≤ 2 * a.half / a.ns) (hrho : 0 < a.rho) (hg : a.g ≠ 0) (hz : a.V.z = 0)
    (hC : Real.sqrt 2 / 2 * a.V.norm ≤ a.V.dot (chordDirection a.aoaDeg)) {w : Aircraft} (h : aircraft a = .ok w) :
    w.CL * (0.5 * a.rho * a.V.dot a.V * (2 * a.half * a.chord)) = (List.ofFn w.force).sum.dot (liftDirection a.V) ↔
      a.V.dot (wingNormal a.aoaDeg) = 0 := by
  rw [C41_exact a w h hz]
  obtain ⟨D, L, hF, -, h2, h3, -, h4, -⟩ := C135_wing hc hb hnc hbig hwide hrho hg hz hC h
  have hV : a.V.dot a.V ≠ 0 := by
    have hq := (C41_coefficients_partial a w h).1
    intro h0
    rw [h0] at hq
    simp at hq
  have e : (List.ofFn w.force).sum.dot (liftDirection a.V) = L * a.V.dot a.V := by
    rw [hF]
    simp only [V3.dot, liftDirection, V3.add_x, V3.add_y, V3.add_z, V3.smul_x, V3.smul_y, V3.smul_z, hz]
    ring
  constructor
  · intro h0
    rw [e] at h0
    rcases mul_eq_zero.1 h0 with h | h
    · rcases lt_trichotomy (a.V.dot (wingNormal a.aoaDeg)) 0 with k | k | k
      · exact absurd h (h3 k).ne
      · exact k
      · exact absurd h (h2 k).ne'
    · exact absurd h hV
  · intro h0
    rw [List.sum_eq_zero (h4 h0), V3.dot_zero_left]

/-- The configuration of `rectangle_variables.py` with one panel along the chord. -/
noncomputable def rectangleRow : Config := { rectangleConfig with solver := ⟨16, 1, "spline", "real_twist"⟩ }

theorem rectangleRow_flat : FlatMain rectangleRow 5 1 (-10) :=
  { rectangle_flat with nc_pos := by simp [rectangleRow] }

theorem rectangleRow_wind : ∃ u M, (∀ lo hi, WindAlong (windGetProfile rectangleRow.wind) u M lo hi) ∧
    Real.sqrt 2 / 2 ≤ u.dot (leechDirection 0 (-10)) ∧ 0 < u.dot (sailNormal 0 (-10)) := by
  have hpi := Real.pi_pos
  set V : V3 := ⟨1 * Real.cos (1 * (Real.pi / 180)) + 0, 1 * Real.sin (1 * (Real.pi / 180)), 0⟩ with hV
  have hne : V ≠ 0 := by
    intro h
    have hs : 0 < Real.sin (1 * (Real.pi / 180)) := Real.sin_pos_of_pos_of_lt_pi (by positivity) (by linarith)
    have := congrArg V3.y h
    simp only [hV, V3.zero_y] at this
    linarith
  have hn : V.norm = 1 := by
    unfold V3.norm
    rw [Real.sqrt_eq_one]
    simp only [V3.dot, hV]
    linear_combination Real.cos_sq_add_sin_sq (1 * (Real.pi / 180))
  refine ⟨_, _, windAlong_flat (w := rectangleConfig.wind) rfl (V := V) rfl hne, ?_, ?_⟩
  · have hc : V.dot (leechDirection 0 (-10)) = Real.cos (11 * (Real.pi / 180)) := by
      rw [show 11 * (Real.pi / 180) = 1 * (Real.pi / 180) - (0 + -10) * (Real.pi / 180) by ring, Real.cos_sub]
      simp [V3.dot, hV, leechDirection]
    rw [V3.dot_smul_left, hn, hc, ← Real.cos_pi_div_four]
    simp only [inv_one, one_div, one_mul]
    exact Real.cos_le_cos_of_nonneg_of_le_pi (by positivity) (by linarith) (by linarith)
  · have hc : V.dot (sailNormal 0 (-10)) = Real.sin (11 * (Real.pi / 180)) := by
      rw [show 11 * (Real.pi / 180) = 1 * (Real.pi / 180) - (0 + -10) * (Real.pi / 180) by ring, Real.sin_sub]
      simp [V3.dot, hV, sailNormal]
      ring
    rw [V3.dot_smul_left, hn, hc]
    simp only [inv_one, one_div, one_mul]
    exact Real.sin_pos_of_pos_of_lt_pi (by positivity) (by linarith)

/-- Non-vacuity of C135 and C41 for wings: a wing of aspect ratio 10 with 20 panels at five degrees has drag and lift, and a
reported `CL` that is not its lift coefficient. -/
example : ∃ (w : Aircraft) (D L : ℝ), aircraft ⟨1, 5, 5, 20, 1, ⟨10, 0, 0⟩, 1.225, 1⟩ = .ok w ∧
    (List.ofFn w.force).sum = D • (⟨10, 0, 0⟩ : V3) + L • (⟨0, 10, 0⟩ : V3) ∧ 0 < D ∧ 0 < L ∧ 0 < w.CD ∧ w.CL = 0 := by
  have hpi := Real.pi_pos
  have hcos : Real.cos (Real.pi / 4) ≤ Real.cos (5 * (Real.pi / 180)) :=
    Real.cos_le_cos_of_nonneg_of_le_pi (by positivity) (by linarith) (by linarith)
  rw [Real.cos_pi_div_four] at hcos
  have hsin : 0 < Real.sin (5 * (Real.pi / 180)) := Real.sin_pos_of_pos_of_lt_pi (by positivity) (by linarith)
  have hn : (⟨10, 0, 0⟩ : V3).norm = 10 := by
    unfold V3.norm V3.dot
    rw [show (10 : ℝ) * 10 + 0 * 0 + 0 * 0 = 10 ^ 2 by norm_num, Real.sqrt_sq (by norm_num)]
  have hq : 0 ≤ Real.sqrt 2 := Real.sqrt_nonneg 2
  obtain ⟨w, hw, -⟩ := C109_wing ⟨1, 5, 5, 20, 1, ⟨10, 0, 0⟩, 1.225, 1⟩ (by norm_num) (by norm_num) (by norm_num) (by norm_num)
    (by norm_num) (by norm_num) (by norm_num) (by simp [V3.ext_iff]) rfl (by
      unfold chordDirection
      simp only [V3.dot]
      linarith)
  have hS : 0 < (⟨10, 0, 0⟩ : V3).dot (wingNormal 5) := by
    simp only [V3.dot, wingNormal]
    linarith
  obtain ⟨D, L, h1, h2, h3, -, -, -, h4⟩ := C135_wing (a := ⟨1, 5, 5, 20, 1, ⟨10, 0, 0⟩, 1.225, 1⟩) (by norm_num) (by norm_num) rfl
    (by norm_num) (by norm_num) (by norm_num) (by norm_num) rfl (by
      simp only [hn, chordDirection, V3.dot]
      linarith) hw
  refine ⟨w, D, L, hw, ?_, h2 hS.ne', h3 hS, h4 rfl (by norm_num) hS.ne', C41_CL_is_zero _ w hw rfl⟩
  rw [h1]
  simp [liftDirection]

/-- Non-vacuity of C135 and C136: that configuration is completed, its workbook has a positive drag and side force, and its
picture shows them. -/
example : ∃ (t : SavedResults) (u : V3) (D L : ℝ) (s : Scene), .workbook (some t) ∈ (run fitpackSpline rectangleRow).1 ∧
    rowVec t.integrals "F_sails_total_COG" = some (D • u + L • acrossWind u) ∧ 0 < D ∧ 0 < L ∧
    .picture (some s) ∈ (run fitpackSpline rectangleRow).1 := by
  obtain ⟨u, M, h1, h2, h3⟩ := rectangleRow_wind
  obtain ⟨-, t, D, L, ht, hr, hD, hL, -, -, hp⟩ := C135_run rectangleRow rectangleRow_flat rfl (by norm_num [rectangleRow])
    (by norm_num [rectangleRow]) (by norm_num [rectangleRow, rectangleConfig]) (h1 _ _) h2
  obtain ⟨s, hs⟩ := hp.2 h3.ne'
  exact ⟨t, u, D, L, s, ht, hr, hD h3.ne', hL h3, hs⟩

/-- Non-vacuity of C136, the other case: the same sail in a wind along it. The run is completed, and its picture has no
defined arrows. -/
example : .picture none ∈ (run fitpackSpline { rectangleRow with
    wind := ⟨-10, 1, 0, "flat", some 0, some 10, some 0, some 0.05⟩ }).1 := by
  set c : Config := { rectangleRow with wind := ⟨-10, 1, 0, "flat", some 0, some 10, some 0, some 0.05⟩ } with hc
  have hflat : FlatMain c 5 1 (-10) := { rectangleRow_flat with
    wind := rectangle_wellFormed.wind
    reference := fun h => absurd h (by simp [c]) }
  set V : V3 := ⟨1 * Real.cos (-10 * (Real.pi / 180)) + 0, 1 * Real.sin (-10 * (Real.pi / 180)), 0⟩ with hV
  have hVV : V.dot V = 1 := by
    simp only [V3.dot, hV]
    linear_combination Real.cos_sq_add_sin_sq (-10 * (Real.pi / 180))
  have hne : V ≠ 0 := by
    intro h
    rw [h] at hVV
    simp [V3.dot] at hVV
  have hn : V.norm = 1 := by unfold V3.norm; rw [hVV, Real.sqrt_one]
  have hw := windAlong_flat (w := c.wind) rfl (V := V) rfl hne
  have hl : ((1 / V.norm) • V).dot (leechDirection 0 (-10)) = 1 := by
    rw [V3.dot_smul_left, hn]
    simp only [V3.dot, hV, leechDirection, zero_add]
    linear_combination Real.cos_sq_add_sin_sq (-10 * (Real.pi / 180))
  have hs : ((1 / V.norm) • V).dot (sailNormal 0 (-10)) = 0 := by
    rw [V3.dot_smul_left, hn]
    simp only [V3.dot, hV, sailNormal, zero_add]
    ring
  have hq : Real.sqrt 2 / 2 ≤ 1 := by
    rw [← Real.cos_pi_div_four]
    exact Real.cos_le_one _
  obtain ⟨-, -, -, -, -, -, -, -, -, -, hp⟩ := C135_run c hflat rfl (by norm_num [c, rectangleRow])
    (by norm_num [c, rectangleRow]) (by norm_num [c, rectangleRow, rectangleConfig]) (hw _ _) (by rw [← hl] at hq; exact hq)
  obtain ⟨-, hk⟩ := C110_run c hflat (by norm_num [c, rectangleRow]) (by norm_num [c, rectangleRow, rectangleConfig])
    (hw _ _) (by rw [show c.leewayDeg = 0 from rfl, hl]; norm_num)
  obtain ⟨o, hx⟩ := picture_of_outputs hk
  cases o with
  | none => exact hx
  | some s => exact absurd hs (hp.1 ⟨s, hx⟩)

/-- Non-vacuity of C135: a sail of two square panels in a wind of 5 m/s at 45° to it, the limit of the theorem. -/
example : ∃ (sail : SailGeom) (set : SailSet) (r : Vlm) (D L : ℝ), sailGeometry demoRow = .ok sail ∧ sailSet [sail] = .ok set ∧
    vlm ⟨set.panels, 1, 2, 1.2, ⟨45, 5, 0, .flat⟩, set.te, set.le, -1⟩ = .ok r ∧
    ((List.ofFn r.sol.force).take 2).sum = D • (⟨Real.sqrt 2 / 2, Real.sqrt 2 / 2, 0⟩ : V3) +
      L • acrossWind ⟨Real.sqrt 2 / 2, Real.sqrt 2 / 2, 0⟩ ∧ 0 < D ∧ 0 < L := by
  have F := demoRow_flat
  obtain ⟨sail, hs, -⟩ := sailGeometry_ok F.ok
  obtain ⟨set, hset⟩ : ∃ set, sailSet [sail] = .ok set := by
    unfold sailSet
    rw [if_neg (by simp)]
    exact ⟨_, rfl⟩
  have hq : Real.sqrt 2 ^ 2 = 2 := Real.sq_sqrt (by norm_num)
  have hq0 : 0 < Real.sqrt 2 := by positivity
  have ha : deg2rad 45 = Real.pi / 4 := by unfold deg2rad; ring
  have w5 : WindAlong ⟨45, 5, 0, .flat⟩ ⟨Real.sqrt 2 / 2, Real.sqrt 2 / 2, 0⟩ 5 demoRow.tack.z demoRow.head.z := by
    refine ⟨?_, rfl, fun h _ _ => ⟨⟨5 * (Real.sqrt 2 / 2), 5 * (Real.sqrt 2 / 2), 0⟩, 5, ?_, by norm_num, le_rfl, by ext <;> simp⟩⟩
    · unfold V3.norm V3.dot
      rw [Real.sqrt_eq_one]
      linear_combination hq / 2
    · simp [WindObj.trueWindAt, WindObj.lengthToXyz, WindObj.alpha, ha]
  have hu : Real.sqrt 2 / 2 ≤ (⟨Real.sqrt 2 / 2, Real.sqrt 2 / 2, 0⟩ : V3).dot
      (leechDirection demoRow.csys.leewayDeg 0) := by
    simp [V3.dot, leechDirection, demoRow, demoFoot]
  have hn : 0 < (⟨Real.sqrt 2 / 2, Real.sqrt 2 / 2, 0⟩ : V3).dot (sailNormal demoRow.csys.leewayDeg 0) := by
    simp [V3.dot, sailNormal, demoRow, demoFoot]
  obtain ⟨r, hr, -⟩ := C110_solver F (by norm_num [demoRow, demoFoot]) hs hset w5
    (by linarith) (rho := 1.2) (g := -1) (by norm_num) (by norm_num)
  obtain ⟨D, L, h1, h2, h3, -⟩ := C135_sail F rfl (by norm_num [demoRow, demoFoot]) (by norm_num [demoRow, demoFoot]) hs hset w5
    hu (by norm_num) (by norm_num) hr
  exact ⟨sail, set, r, D, L, hs, hset, hr, h1, h2 hn.ne', h3 hn⟩

end PySailing.Props
