import Verif.Lemmas.FlatSail
import Verif.Lemmas.HalfWing
import Verif.Props.FlatSailForce

/-!
# C114: a flat sail on the water is half a wing
-/

namespace PySailing.Props

open PySailing PySailing.Spec

/-- The sail and its image side by side are the wing. -/
theorem wing_join {s : SailInput} {θ : ℕ → ℝ} {chord τ : ℝ} (F : FlatSail s θ chord τ) (h0 : s.tack.z = 0)
    (b : ℕ) (hb : b < (FlatSail.blocks s θ).length) (r k : ℕ) (hr : r ≤ s.ns) :
    wingPoint chord s.head.z (-(s.csys.leewayDeg + τ)) s.nc (2 * s.ns) (r + joinShift s.ns b) k =
      move id ((-1 : ℝ) • FlatSail.origin s) ((FlatSail.blocks s θ)[b] r k) := by
  have hns : (s.ns : ℝ) ≠ 0 := F.ok.toSailArgs.ns_ne
  have hc : -(s.csys.leewayDeg + τ) * (Real.pi / 180) = -((s.csys.leewayDeg + τ) * (Real.pi / 180)) := by ring
  have hb' : b = 0 ∨ b = 1 := by simp [FlatSail.blocks] at hb; omega
  rcases hb' with rfl | rfl
  · change _ = move id _ (s.aboveTwisted θ r k)
    rw [F.above hr]
    unfold wingPoint move planePt leechDirection joinShift
    rw [hc, Real.cos_neg, Real.sin_neg, h0]
    ext
    · simp only [id, V3.add_x, V3.smul_x]; ring
    · simp only [id, V3.add_y, V3.smul_y]; ring
    · simp only [id, V3.add_z, V3.smul_z, if_true, FlatSail.origin]
      push_cast
      field_simp
      ring
  · change _ = move id _ (s.underTwisted θ r k)
    rw [F.under hr]
    unfold wingPoint move planePt leechDirection joinShift
    rw [hc, Real.cos_neg, Real.sin_neg, h0]
    ext
    · simp only [id, V3.add_x, V3.smul_x]; ring
    · simp only [id, V3.add_y, V3.smul_y]; ring
    · simp only [id, V3.add_z, V3.smul_z, one_ne_zero, if_false, FlatSail.origin]
      push_cast
      field_simp
      ring

/-- **C114.** An upright flat sail that stands on the water (foot at the water level), in a wind (true wind plus speed of
the boat) `V` that is the same at all heights.  When it is calculated, `Aircraft` calculates the wing of the same chord,
half span the height of the sail, twice as many strips and the angle of attack the sail has to the x axis.  Panel `(i, j)`
of the sail has the circulation, force and pressure of panel `(i, ns + j)` of the wing, and panel `(i, j)` of the image
below the water those of panel `(i, j)`. -/
theorem C114_half_wing {s : SailInput} {θ : ℕ → ℝ} {chord τ : ℝ} (F : FlatSail s θ chord τ) (h0 : s.tack.z = 0)
    {sail : SailGeom} (hs : sailGeometry s = .ok sail) {set : SailSet} (hset : sailSet [sail] = .ok set) {w : WindObj} {W V : V3}
    (hw : ∀ h, 0 ≤ h → w.trueWindAt h = .ok W) (hV : V = W + ⟨w.vYacht, 0, 0⟩) {rho g : ℝ} (hg : g ≠ 0) {r : Vlm}
    (hr : vlm ⟨set.panels, s.nc, s.ns, rho, w, set.te, set.le, g⟩ = .ok r) :
    ∃ wg, aircraft ⟨chord, s.head.z, -(s.csys.leewayDeg + τ), 2 * s.ns, s.nc, V, rho, g⟩ = .ok wg ∧
      ∀ i j, i < s.nc → j < s.ns →
        ((List.ofFn r.sol.gamma).getD (i * s.ns + j) 0 = (List.ofFn wg.gamma).getD (i * (2 * s.ns) + (s.ns + j)) 0 ∧
          (List.ofFn r.sol.force).getD (i * s.ns + j) 0 = (List.ofFn wg.force).getD (i * (2 * s.ns) + (s.ns + j)) 0 ∧
          (List.ofFn r.sol.pressure).getD (i * s.ns + j) 0 = (List.ofFn wg.pressure).getD (i * (2 * s.ns) + (s.ns + j)) 0) ∧
        ((List.ofFn r.sol.gamma).getD (s.nc * s.ns + i * s.ns + j) 0 = (List.ofFn wg.gamma).getD (i * (2 * s.ns) + j) 0 ∧
          (List.ofFn r.sol.force).getD (s.nc * s.ns + i * s.ns + j) 0 = (List.ofFn wg.force).getD (i * (2 * s.ns) + j) 0 ∧
          (List.ofFn r.sol.pressure).getD (s.nc * s.ns + i * s.ns + j) 0 = (List.ofFn wg.pressure).getD (i * (2 * s.ns) + j) 0) := by
  classical
  have hnc : 0 < s.nc := F.ok.nc_pos
  have hns : 0 < s.ns := F.ok.ns_pos
  have hf : List.Forall₂ (BuiltFrom s.nc s.ns) [(s, θ)] [sail] := List.Forall₂.cons ⟨F.ok, rfl, rfl, hs⟩ List.Forall₂.nil
  obtain ⟨hp, hte, hle⟩ := sailSet_blocks hf hset
  have hp' : set.panels = blockPanels s.nc s.ns (FlatSail.blocks s θ) := hp
  have hte' : set.te = trailingFlags s.nc s.ns (FlatSail.blocks s θ).length := hte
  have hle' : set.le = leadingFlags s.nc s.ns (FlatSail.blocks s θ).length := hle
  have hne : FlatSail.blocks s θ ≠ [] := by simp [FlatSail.blocks]
  obtain ⟨-, -, hvars, hinlet, hsol⟩ := (vlm_ok_iff _ _).1 hr
  obtain ⟨inp, areas, vars, inlet, sol⟩ := r
  simp only [hp', hte', hle', vlmSolve] at hvars hinlet hsol
  rw [calculateVlmVariables_blocks g hnc hns _ hne] at hvars
  split_ifs at hvars with hdeg
  injection hvars with hvars
  have hvars' : PlanarBlocks.vars g s.nc s.ns (FlatSail.blocks s θ) = vars := hvars
  subst hvars'
  have hK := PlanarBlocks.vars_length g s.nc s.ns (FlatSail.blocks s θ)
  have hKpos : 0 < (PlanarBlocks.vars g s.nc s.ns (FlatSail.blocks s θ)).length := by
    rw [hK]; exact Nat.mul_pos (by simp [FlatSail.blocks]) (Nat.mul_pos hnc hns)
  have hin := inletConditions_of (w := w) (tws := ((PlanarBlocks.vars g s.nc s.ns (FlatSail.blocks s θ)).map PanelVars.cp).map fun _ => W) rho
    (by intro h; rw [List.map_eq_nil_iff] at h; rw [h] at hKpos; exact absurd hKpos (by simp)) (mapM_ok fun p _ => hw _ (abs_nonneg p.z))
  rw [hin] at hinlet
  injection hinlet with hinlet
  subst hinlet
  have hVV : ∀ k : Fin (PlanarBlocks.vars g s.nc s.ns (FlatSail.blocks s θ)).length,
      (inletOf w rho ((PlanarBlocks.vars g s.nc s.ns (FlatSail.blocks s θ)).map PanelVars.cp)
        (((PlanarBlocks.vars g s.nc s.ns (FlatSail.blocks s θ)).map PanelVars.cp).map fun _ => W)).vAppInfs.getD k 0 = V := by
    intro k
    simp only [inletOf, List.getD_eq_getElem?_getD, List.getElem?_map, List.getElem?_eq_getElem k.isLt, Option.map_some, Option.getD_some,
      WindObj.appInfs]
    rw [hV]
    ext <;> simp
  have hj : ∀ b (hb : b < (FlatSail.blocks s θ).length) r k, r ≤ s.ns → k ≤ s.nc →
      wingPoint chord s.head.z (-(s.csys.leewayDeg + τ)) s.nc (2 * s.ns) (r + joinShift s.ns b) k =
        move id ((-1 : ℝ) • FlatSail.origin s) ((FlatSail.blocks s θ)[b] r k) := fun b hb r k hr _ => wing_join F h0 b hb r k hr
  obtain ⟨sol', hsol', hres⟩ := join_core hnc hns rfl hj hg hVV hsol
  have hwp := ((vlmCore_ok_iff _ _ _ _ _ _ _ _ _).1 hsol).1
  have hrho := hwp.rho hKpos
  have hV0 : V ≠ 0 := by
    rw [← hVV ⟨0, hKpos⟩]
    exact hwp.wind ⟨0, hKpos⟩
  have hwvars : calculateVlmVariables (blockPanels s.nc (2 * s.ns) [wingPoint chord s.head.z (-(s.csys.leewayDeg + τ)) s.nc (2 * s.ns)])
      (trailingFlags s.nc (2 * s.ns) 1) g s.nc (2 * s.ns) =
      .ok (PlanarBlocks.vars g s.nc (2 * s.ns) [wingPoint chord s.head.z (-(s.csys.leewayDeg + τ)) s.nc (2 * s.ns)]) := by
    have := calculateVlmVariables_blocks g hnc (ns := 2 * s.ns) (by omega) [wingPoint chord s.head.z (-(s.csys.leewayDeg + τ)) s.nc (2 * s.ns)] (by simp)
    rw [if_neg] at this
    · exact this
    rintro ⟨q, hq, hq0⟩
    apply hdeg
    obtain ⟨k, hk⟩ := List.mem_iff_getElem?.1 hq
    have hlt : k < 1 * (s.nc * (2 * s.ns)) := by
      have := (List.getElem?_eq_some_iff.1 hk).1
      rwa [blockPanels_length] at this
    obtain ⟨b, i, j, hb, hi, hjj, rfl⟩ := joined_surj hlt
    have h1 : (blockPanels s.nc (2 * s.ns) [wingPoint chord s.head.z (-(s.csys.leewayDeg + τ)) s.nc (2 * s.ns)])[panelNo s.nc (2 * s.ns) 0 i
        (j + joinShift s.ns b)]? = some (panelOf (wingPoint chord s.head.z (-(s.csys.leewayDeg + τ)) s.nc (2 * s.ns)) i (j + joinShift s.ns b)) :=
      blocks_get [wingPoint chord s.head.z (-(s.csys.leewayDeg + τ)) s.nc (2 * s.ns)] panelOf (b := 0) (by simp) hi (joinShift_lt hjj)
    have h2 : (blockPanels s.nc s.ns (FlatSail.blocks s θ))[panelNo s.nc s.ns b i j]? = some (panelOf (FlatSail.blocks s θ)[b] i j) :=
      blocks_get (FlatSail.blocks s θ) panelOf hb hi hjj
    rw [h1, panelOf_join hj hb hi hjj] at hk
    injection hk with hk
    refine ⟨_, List.mem_iff_getElem?.2 ⟨_, h2⟩, ?_⟩
    rw [← hk, normalRaw_move isIsometry_id, one_smul] at hq0
    exact hq0
  have hh : 0 < s.head.z := by have := F.up; rwa [h0] at this
  obtain ⟨th, hth⟩ : ∃ th, getCLCDFreeWing (2 * s.head.z / chord) (-(s.csys.leewayDeg + τ)) = .ok th := by
    unfold getCLCDFreeWing
    have hc := F.chord_pos
    have hpi := Real.pi_pos
    have h1 : Real.pi * (2 * s.head.z / chord) * 0.8 ≠ 0 := by positivity
    have h2 : 1 + 2 * Real.pi / (Real.pi * (2 * s.head.z / chord) * 0.8) ≠ 0 := by positivity
    simp only [if_neg h1, if_neg h2]
    exact ⟨_, rfl⟩
  obtain ⟨wg, hwg, eg, ef, ep⟩ := aircraft_of (a := ⟨chord, s.head.z, -(s.csys.leewayDeg + τ), 2 * s.ns, s.nc, V, rho, g⟩) F.chord_pos.ne' hnc
    (by simp only; omega) (by
      have := V3.norm_pos hV0
      have := F.chord_pos
      simp only [AircraftInput.S]
      positivity) hth hwvars hsol'
  refine ⟨wg, hwg, fun i j hi hjj => ?_⟩
  rw [eg, ef, ep]
  obtain ⟨a1, a2, a3⟩ := hres 0 i j (by omega) hi hjj
  obtain ⟨b1, b2, b3⟩ := hres 1 i j (by omega) hi hjj
  simp only [panelNo, joinShift, if_true, one_ne_zero, if_false, zero_mul, zero_add, one_mul, add_zero] at a1 a2 a3 b1 b2 b3
  rw [add_mul] at b1 b2 b3
  rw [add_comm j] at a1 a2 a3
  exact ⟨⟨a1.symm, a2.symm, a3.symm⟩, b1.symm, b2.symm, b3.symm⟩

/-- A sail of chord 1 and height 2 on the water. -/
noncomputable def demoFoot : SailInput :=
  { head := ⟨0, 0, 2⟩, tack := ⟨0, 0, 0⟩, csys := ⟨0, 0, 0⟩, ns := 2, nc := 2, chords := [1, 1, 1]
    twist := none, mode := none, camber := [0, 0, 0], distance := [0.5, 0.5, 0.5], name := "foot" }

theorem demoFoot_flat : FlatSail demoFoot (fun _ => 0) 1 0 := by
  refine ⟨⟨⟨by norm_num [demoFoot], by norm_num [demoFoot], ⟨rfl, le_rfl, le_rfl, by norm_num [demoFoot], by norm_num [demoFoot]⟩, rfl, ?_,
    Or.inr ⟨Or.inl rfl, fun _ => rfl⟩, rfl, rfl, by norm_num [demoFoot], by norm_num [demoFoot], by norm_num [demoFoot],
    by simp [demoFoot, deg2rad]⟩, Or.inr (by simp [demoFoot, deg2rad])⟩, rfl, rfl, by norm_num [demoFoot], one_pos, ?_, ?_, fun _ _ => rfl⟩
  all_goals
    intro r hr
    have : r = 0 ∨ r = 1 ∨ r = 2 := by simp [demoFoot] at hr; omega
    rcases this with rfl | rfl | rfl <;> norm_num [demoFoot]

/-- Non-vacuity of C114: that sail in a wind of 5 m/s is half a wing of span 4. -/
example : ∃ sail set r wg, sailGeometry demoFoot = .ok sail ∧ sailSet [sail] = .ok set ∧
    vlm ⟨set.panels, 2, 2, 1.2, ⟨60, 5, 0, .flat⟩, set.te, set.le, 1⟩ = .ok r ∧
    aircraft ⟨1, 2, -(0 + 0), 2 * 2, 2, (⟨60, 5, 0, .flat⟩ : WindObj).lengthToXyz 5 + ⟨0, 0, 0⟩, 1.2, 1⟩ = .ok wg ∧
    (List.ofFn r.sol.force).getD 3 0 = (List.ofFn wg.force).getD 7 0 := by
  have F := demoFoot_flat
  obtain ⟨sail, hs, -⟩ := sailGeometry_ok F.ok
  obtain ⟨set, hset⟩ : ∃ set, sailSet [sail] = .ok set := by
    unfold sailSet
    rw [if_neg (by simp)]
    exact ⟨_, rfl⟩
  have w5 := demoWind_along (v := 5) (by norm_num) demoFoot.tack.z demoFoot.head.z
  obtain ⟨r, hr, -⟩ := C110_solver F (by norm_num [demoFoot]) hs hset w5 (by simp [V3.dot, leechDirection, demoFoot]) (rho := 1.2) (g := 1)
    (by norm_num) (by norm_num)
  obtain ⟨wg, hwg, he⟩ := C114_half_wing F rfl hs hset (fun h _ => rfl) rfl (by norm_num) hr
  exact ⟨sail, set, r, wg, hs, hset, hr, hwg, (he 1 1 (by norm_num [demoFoot]) (by norm_num [demoFoot])).1.2.1⟩

end PySailing.Props
