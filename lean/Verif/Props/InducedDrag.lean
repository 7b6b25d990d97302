import Verif.Lemmas.PlanarDrag
import Verif.Lemmas.PlanarWing
import Verif.Lemmas.MirrorExact
import Verif.Props.Mirror
import Verif.Props.HalfWing
import Verif.Props.FlatWing

/-!
# C115: no thrust from a flat sail with one row of panels
-/

namespace PySailing.Props

open PySailing PySailing.Spec

theorem sum_dot_ofFn {n : ℕ} (f : Fin n → V3) (u : V3) : (List.ofFn f).sum.dot u = ∑ i, (f i).dot u := by
  rw [List.sum_ofFn, V3.sum_dot]

/-- **C115**, the wing: a rectangular wing with one panel along the chord, in a free stream at up to 60 degrees to the
wing.  The resultant of the calculated forces has no component against the stream.  With the stream along the x axis
`CD` is not negative. -/
theorem C115_wing {a : AircraftInput} (hc : 0 < a.chord) (hb : 0 < a.half) (hnc : a.nc = 1) (hbig : 2e-4 ≤ a.chord * (2 * a.half / a.ns))
    (hwide : 2e-8 ≤ 2 * a.half / a.ns) (hrho : 0 < a.rho) (hz : a.V.z = 0)
    (hC : 1 / 2 * a.V.norm ≤ a.V.dot (chordDirection a.aoaDeg)) {w : Aircraft} (h : aircraft a = .ok w) :
    0 ≤ (List.ofFn w.force).sum.dot a.V ∧ (a.V.y = 0 → 0 < a.V.x → 0 ≤ w.CD) := by
  obtain ⟨-, -, -, hns, hq, -, -, hpan, hte, hle, hv, ⟨sol, hsol, -, hf, -⟩, -, hCD, -⟩ := aircraft_inv h
  have hV : a.V ≠ 0 := by
    intro h0
    apply hq
    rw [h0]
    simp [V3.norm, V3.dot]
  have hl : 0 < a.V.norm := V3.norm_pos hV
  have hnsR : (0 : ℝ) < a.ns := by exact_mod_cast hns
  have P := a.planar hc hb (by omega) hns (by rw [hnc]; simpa using hbig)
  obtain ⟨hdecomp, hu⟩ := a.wind_frame hV hz
  have hC' : 1 / 2 ≤ a.V.dot (chordDirection a.aoaDeg) / a.V.norm := by rwa [le_div_iff₀ hl]
  obtain ⟨d1, d2⟩ := P.drag_nonneg_of (g := a.g) hnc hwide (fun b r _ _ => by push_cast; field_simp; ring) hrho.le (V := fun _ => a.V)
    (l := fun _ => a.V.norm) (fun _ => hl) (fun _ => hdecomp) hu hC'
  have hvars : w.vars = PlanarBlocks.vars a.g a.nc a.ns [wingPoint a.chord a.half a.aoaDeg a.nc a.ns] := by
    have := P.varsOk a.g (by omega) hns (by simp)
    rw [hpan, hte] at hv
    rw [List.length_singleton, hv] at this
    injection this
  have hforce : List.ofFn w.force = List.ofFn (PlanarBlocks.solutionOf a.g a.rho a.nc a.ns
      [wingPoint a.chord a.half a.aoaDeg a.nc a.ns] (fun _ => a.V)).force := by
    obtain ⟨i1, i2, i3, i4, ps, vars, gamma, force, pressure, i5, i6, i7⟩ := w
    simp only at hvars hpan hte hle hsol hf ⊢
    subst hvars
    rw [hpan, hte, hle] at hsol
    rw [← hf, ((vlmCore_ok_iff _ _ _ _ _ _ _ _ _).1 hsol).2.2]
    rfl
  have hdrag : 0 ≤ (List.ofFn w.force).sum.dot a.V := by
    rw [hforce, sum_dot_ofFn]
    have e : ∀ v : V3, v.dot a.V = a.V.norm * v.dot ((a.V.dot (chordDirection a.aoaDeg) / a.V.norm) • chordDirection a.aoaDeg +
        (a.V.dot (wingNormal a.aoaDeg) / a.V.norm) • V3.cross ⟨0, 0, 1⟩ (chordDirection a.aoaDeg)) := by
      intro v
      rw [← V3.dot_smul_right, ← hdecomp]
    simp only [e, d2]
    rw [← Finset.mul_sum]
    exact mul_nonneg hl.le d1
  refine ⟨hdrag, fun hy hx => ?_⟩
  rw [hCD]
  have hS : 0 < a.S := by unfold AircraftInput.S; positivity
  apply div_nonneg _ (by positivity)
  simp only [V3.dot, hy, hz, mul_zero, add_zero] at hdrag
  exact nonneg_of_mul_nonneg_left hdrag hx

/-- **C115**, the sail: an upright flat sail with one panel along the chord, in a wind of one direction at up to 60 degrees
to the sail.  Neither the resultant of the calculated forces nor that of the drag forces on the sail (above the water) has a component against
the wind. -/
theorem C115_sail {s : SailInput} {θ : ℕ → ℝ} {chord τ : ℝ} (F : FlatSail s θ chord τ) (hnc : s.nc = 1)
    (hbig : 2e-4 ≤ chord * ((s.head.z - s.tack.z) / s.ns)) (hwide : 2e-8 ≤ (s.head.z - s.tack.z) / s.ns)
    {sail : SailGeom} (hs : sailGeometry s = .ok sail) {set : SailSet} (hset : sailSet [sail] = .ok set) {w : WindObj} {u : V3} {M : ℝ}
    (hw : WindAlong w u M s.tack.z s.head.z) (hC : 1 / 2 ≤ u.dot (leechDirection s.csys.leewayDeg τ))
    {rho g : ℝ} (hrho : 0 < rho) (hg : g ≠ 0) {r : Vlm}
    (hr : vlm ⟨set.panels, s.nc, s.ns, rho, w, set.te, set.le, g⟩ = .ok r) :
    0 ≤ ((List.ofFn r.sol.force).take s.ns).sum.dot u ∧ 0 ≤ ((List.ofFn r.sol.drag).take s.ns).sum.dot u := by
  have hbig' : 2e-4 ≤ chord / s.nc * ((s.head.z - s.tack.z) / s.ns) := by rw [hnc]; simpa using hbig
  obtain ⟨hu1, huz, hwind⟩ := hw
  choose! W l hW hl hM hWl using hwind
  have hns : 0 < s.ns := F.ok.ns_pos
  have P := F.planar hbig'
  -- the mirror image
  have hf : List.Forall₂ (BuiltFrom s.nc s.ns) [(s, θ)] [sail] := List.Forall₂.cons ⟨F.ok, rfl, rfl, hs⟩ List.Forall₂.nil
  obtain ⟨hp, hte, hle⟩ := sailSet_blocks hf hset
  have hmir : set.panels = blockPanels s.nc s.ns ([s.aboveTwisted θ] ++ [s.aboveTwisted θ].map (mirrorMesh s.ns)) := by
    have hp' : set.panels = blockPanels s.nc s.ns [s.aboveTwisted θ, s.underTwisted θ] := hp
    rw [hp']
    refine blockPanels_congr (.cons (fun _ _ _ => rfl) (.cons (fun r k hr => ?_) .nil))
    refine (F.ok.underTwisted_mirror_iff hr k).2 ?_
    rw [F.camber _ (Nat.sub_le _ _), camberCurve_flat, camberCurve_flat]
  obtain ⟨hlen, hsym, -⟩ := C39_mirror ⟨set.panels, s.nc, s.ns, rho, w, set.te, set.le, g⟩ [s.aboveTwisted θ] F.ok.nc_pos hns hmir hte hle r hr
  simp only [List.length_singleton, hnc, one_mul, mul_one] at hlen hsym
  rw [F.solved hbig' hs hset hu1 huz hW hWl hl (by linarith) hrho.ne' hg] at hr
  injection hr with hr
  obtain ⟨d1, d2⟩ := P.drag_nonneg_of (g := g) hnc hwide (fun b r _ _ => by rw [F.rows_succ]; ring) hrho.le
    (F.speeds_mem hbig' g (p := fun x => 0 < x) hl) (F.winds_speed hbig' g rho hu1 huz hWl) (FlatSail.decompose hu1 huz _ _).2 hC
  rw [← (FlatSail.decompose hu1 huz _ _).1] at d1 d2
  have half : ∀ f : Fin r.vars.length → V3, (∀ j, j < s.ns → ∀ k k' : Fin r.vars.length, k.val = j → k'.val = s.ns + (s.ns - 1 - j) →
      f k' = mirror (f k)) → ∑ i, (f i).dot u = 2 * ((List.ofFn f).take s.ns).sum.dot u := by
    intro f hfm
    rw [sum_take f (by rw [hlen]; omega), V3.sum_dot]
    have h1 : ∑ i, (f i).dot u = ∑ k ∈ Finset.range r.vars.length, ((List.ofFn f).getD k 0).dot u := by
      rw [← Fin.sum_univ_eq_sum_range (fun k => ((List.ofFn f).getD k 0).dot u)]
      refine Finset.sum_congr rfl fun i _ => ?_
      rw [List.getD_eq_getElem?_getD, List.getElem?_ofFn, dif_pos i.isLt, Option.getD_some]
    rw [h1, show Finset.range r.vars.length = Finset.range (s.ns + s.ns) by rw [hlen, two_mul], Finset.sum_range_add,
      ← Finset.sum_range_reflect (fun k => ((List.ofFn f).getD (s.ns + k) 0).dot u), two_mul]
    congr 1
    refine Finset.sum_congr rfl fun j hj => ?_
    rw [Finset.mem_range] at hj
    have l1 : j < r.vars.length := by omega
    have l2 : s.ns + (s.ns - 1 - j) < r.vars.length := by omega
    rw [List.getD_eq_getElem?_getD, List.getD_eq_getElem?_getD, List.getElem?_ofFn, List.getElem?_ofFn, dif_pos l1, dif_pos l2,
      Option.getD_some, Option.getD_some, hfm j hj ⟨j, l1⟩ ⟨_, l2⟩ rfl rfl]
    simp [mirror, V3.dot, huz]
  have hno : ∀ j, j < s.ns → ∀ k k' : Fin r.vars.length, k.val = j → k'.val = s.ns + (s.ns - 1 - j) →
      r.sol.force k' = mirror (r.sol.force k) ∧ r.sol.drag k' = mirror (r.sol.drag k) := by
    intro j hj k k' hk hk'
    obtain ⟨-, h1, -, h2, -⟩ := hsym 0 0 j one_pos (by omega) hj k k' (by rw [hk]; simp [panelNo]) (by rw [hk']; simp [mirrorPanelNo, panelNo])
    exact ⟨h1, h2⟩
  have e1 := half r.sol.force (fun j hj k k' hk hk' => (hno j hj k k' hk hk').1)
  have e2 := half r.sol.drag (fun j hj k k' hk hk' => (hno j hj k k' hk hk').2)
  subst hr
  have e3 : ∑ i, ((FlatSail.result set g rho s θ w W).sol.force i).dot u = ∑ i, ((FlatSail.result set g rho s θ w W).sol.drag i).dot u :=
    Finset.sum_congr rfl fun i _ => d2 i
  have d1' : 0 ≤ ∑ i, ((FlatSail.result set g rho s θ w W).sol.drag i).dot u := d1
  constructor <;> linarith

/-- A sail of two square panels, one above the other. -/
noncomputable def demoRow : SailInput := { demoFoot with nc := 1 }

theorem demoRow_flat : FlatSail demoRow (fun _ => 0) 1 0 := by
  refine ⟨⟨⟨by norm_num [demoRow, demoFoot], by norm_num [demoRow, demoFoot],
    ⟨rfl, le_rfl, le_rfl, by norm_num [demoRow, demoFoot], by norm_num [demoRow, demoFoot]⟩, rfl, ?_,
    Or.inr ⟨Or.inl rfl, fun _ => rfl⟩, rfl, rfl, by norm_num [demoRow, demoFoot], by norm_num [demoRow, demoFoot],
    by norm_num [demoRow, demoFoot], by simp [demoRow, demoFoot, deg2rad]⟩, Or.inr (by simp [demoRow, demoFoot, deg2rad])⟩, rfl, rfl,
    by norm_num [demoRow, demoFoot], one_pos, ?_, ?_, fun _ _ => rfl⟩
  all_goals
    intro r hr
    have : r = 0 ∨ r = 1 ∨ r = 2 := by simp [demoRow, demoFoot] at hr; omega
    rcases this with rfl | rfl | rfl <;> norm_num [demoRow, demoFoot]

/-- Non-vacuity of C115: that sail in a wind of 5 m/s, 60 degrees off the chord. -/
example : ∃ sail set r, sailGeometry demoRow = .ok sail ∧ sailSet [sail] = .ok set ∧
    vlm ⟨set.panels, 1, 2, 1.2, ⟨60, 5, 0, .flat⟩, set.te, set.le, -1⟩ = .ok r ∧
    0 ≤ ((List.ofFn r.sol.force).take 2).sum.dot ⟨1 / 2, Real.sqrt 3 / 2, 0⟩ := by
  have F := demoRow_flat
  obtain ⟨sail, hs, -⟩ := sailGeometry_ok F.ok
  obtain ⟨set, hset⟩ : ∃ set, sailSet [sail] = .ok set := by
    unfold sailSet
    rw [if_neg (by simp)]
    exact ⟨_, rfl⟩
  have w5 := demoWind_along (v := 5) (by norm_num) demoRow.tack.z demoRow.head.z
  obtain ⟨r, hr, -⟩ := C110_solver F (by norm_num [demoRow, demoFoot]) hs hset w5
    (by simp [V3.dot, leechDirection, demoRow, demoFoot]) (rho := 1.2) (g := -1) (by norm_num) (by norm_num)
  exact ⟨sail, set, r, hs, hset, hr, (C115_sail F rfl (by norm_num [demoRow, demoFoot]) (by norm_num [demoRow, demoFoot]) hs hset w5
    (by simp [V3.dot, leechDirection, demoRow, demoFoot]) (by norm_num) (by norm_num) hr).1⟩

/-- Non-vacuity of C115: a wing at 5 degrees in a stream of 10 m/s. -/
example : ∃ w, aircraft ⟨1, 5, 5, 20, 1, ⟨10, 0, 0⟩, 1.225, 1⟩ = .ok w ∧ 0 ≤ w.CD := by
  have hcos : 1 / 2 ≤ Real.cos (5 * (Real.pi / 180)) := by
    rw [← Real.cos_pi_div_three]
    have := Real.pi_pos
    exact Real.cos_le_cos_of_nonneg_of_le_pi (by linarith) (by linarith) (by linarith)
  have hn : (⟨10, 0, 0⟩ : V3).norm = 10 := by
    unfold V3.norm V3.dot
    rw [Real.sqrt_eq_iff_eq_sq] <;> norm_num
  have hd : 1 / 2 * (⟨10, 0, 0⟩ : V3).norm ≤ (⟨10, 0, 0⟩ : V3).dot (chordDirection 5) := by
    rw [hn]
    unfold chordDirection
    simp only [V3.dot]
    linarith
  obtain ⟨w, hw, -⟩ := C109_wing ⟨1, 5, 5, 20, 1, ⟨10, 0, 0⟩, 1.225, 1⟩ (by norm_num) (by norm_num) (by norm_num) (by norm_num)
    (by norm_num) (by norm_num) (by norm_num) (by simp [V3.ext_iff]) rfl (by rw [hn] at hd; linarith)
  exact ⟨w, hw, (C115_wing (by norm_num) (by norm_num) rfl (by norm_num) (by norm_num) (by norm_num) rfl hd hw).2 rfl (by norm_num)⟩

end PySailing.Props
