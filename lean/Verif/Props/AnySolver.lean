import Verif.Props.SpanLoad
import Verif.Lemmas.AnySolver

/-!
# C118: the linear system need not be solved exactly
-/

namespace PySailing.Props

open PySailing PySailing.Spec

/-- With exact solution of the linear system, the calculation is the one of the other properties. -/
theorem C118_exact (a : VlmInput) : vlmWith (fun _ => solveEq) a = vlm a := rfl

/-- **C118.** Whatever routine solves the linear system: when a calculation returns, the wind with the velocity of the
reported circulations passes through no panel at more than `1e-12`. -/
theorem C118_no_flux (solve : LinearSolver) {a : VlmInput} {r : Vlm} (hr : vlmWith solve a = .ok r) (k : Fin r.vars.length) :
    |(r.inlet.vAppInfs.getD k 0 + latticeVelocity (fun i => r.vars[i]) (fun i => a.te.getD i false) (fun i => r.inlet.vAppInfs.getD i 0) a.g
      r.sol.gamma r.vars[k].ctrP).dot r.vars[k].normal| ≤ 1e-12 := by
  obtain ⟨-, -, -, -, h⟩ := (vlmWith_ok_iff _ _ _).1 hr
  obtain ⟨-, -, γ, -, hf, hs⟩ := (vlmCoreWith_ok_iff _ _ _ _ _ _ _ _ _ _).1 h
  have hγ : r.sol.gamma = γ := by rw [hs]; rfl
  rw [hγ]
  exact hf k

/-- **C118**, conversely: of a calculation that succeeds with exact solution, any circulations with such a small flow
through the panels are accepted and reported. -/
theorem C118_accepted {a : VlmInput} {r : Vlm} (hr : vlm a = .ok r) {solve : LinearSolver} {γ : Fin r.vars.length → ℝ}
    (hγ : solve _ (influence (fun i => r.vars[i]) (fun i => a.te.getD i false) (fun i => r.inlet.vAppInfs.getD i 0) a.g)
      (fun i => -((r.inlet.vAppInfs.getD i 0).dot r.vars[i].normal)) = .ok γ)
    (hf : ∀ k : Fin r.vars.length, |(r.inlet.vAppInfs.getD k 0 + latticeVelocity (fun i => r.vars[i]) (fun i => a.te.getD i false)
      (fun i => r.inlet.vAppInfs.getD i 0) a.g γ r.vars[k].ctrP).dot r.vars[k].normal| ≤ 1e-12) :
    ∃ sol : VlmSolution r.vars.length, vlmWith solve a = .ok ⟨a, r.areas, r.vars, r.inlet, sol⟩ ∧ sol.gamma = γ := by
  obtain ⟨h0, h1, h2, h3, h4⟩ := (vlm_ok_iff _ _).1 hr
  obtain ⟨w, hi, -⟩ := (vlmCore_ok_iff _ _ _ _ _ _ _ _ _).1 h4
  refine ⟨solOf (fun i : Fin r.vars.length => r.vars[i]) (fun i => (getPanelsArea a.panels).getD i 0)
    (fun i => a.te.getD i false) (fun i => a.le.getD i false) a.ns a.rho a.g (fun i => r.inlet.vAppInfs.getD i 0) γ,
    (vlmWith_ok_iff _ _ _).2 ⟨rfl, h1, h2, h3, (vlmCoreWith_ok_iff _ _ _ _ _ _ _ _ _ _).2
    ⟨⟨w.ctr, w.cp, w.areas, w.rho, w.wind⟩, hi, γ, hγ, hf, rfl⟩⟩, rfl⟩

/-- **C118**, flat sails: whatever routine solves the linear system, when the calculation returns then the exact
calculation returns too, every circulation differs from the exact one by at most `1e-12 π · chord / |g|`, and the
lift of every strip by at most `1e-12 π ρ M · area`. -/
theorem C118_sail {s : SailInput} {θ : ℕ → ℝ} {chord τ : ℝ} (F : FlatSail s θ chord τ)
    (hbig : 2e-4 ≤ chord / s.nc * ((s.head.z - s.tack.z) / s.ns)) {sail : SailGeom} (hs : sailGeometry s = .ok sail)
    {set : SailSet} (hset : sailSet [sail] = .ok set) {w : WindObj} {u : V3} {M : ℝ}
    (hw : WindAlong w u M s.tack.z s.head.z) (hfront : 0 ≤ u.dot (leechDirection s.csys.leewayDeg τ))
    {rho g : ℝ} (hrho : 0 < rho) (hg : g ≠ 0) (solve : LinearSolver) {r : Vlm}
    (hr : vlmWith solve ⟨set.panels, s.nc, s.ns, rho, w, set.te, set.le, g⟩ = .ok r) :
    ∃ r₀, vlm ⟨set.panels, s.nc, s.ns, rho, w, set.te, set.le, g⟩ = .ok r₀ ∧
      (∀ k, |(List.ofFn r.sol.gamma).getD k 0 - (List.ofFn r₀.sol.gamma).getD k 0| ≤ Real.pi * chord * 1e-12 / |g|) ∧
      ∀ b j, b < 2 → j < s.ns →
        (stripSum s.nc s.ns (List.ofFn r.sol.lift) b j - stripSum s.nc s.ns (List.ofFn r₀.sol.lift) b j).norm ≤
          Real.pi * rho * M * (chord * ((s.head.z - s.tack.z) / s.ns)) * 1e-12 := by
  obtain ⟨hu1, huz, hwind⟩ := hw
  choose! W l hW hl hM hWl using hwind
  have hr₀ := F.solved hbig hs hset hu1 huz hW hWl hl hfront hrho.ne' hg
  refine ⟨_, hr₀, ?_⟩
  obtain ⟨-, -, b1, b2, b3⟩ := (vlm_ok_iff _ _).1 hr₀
  obtain ⟨ri, ra, rv, rn, rs⟩ := r
  obtain ⟨a0, a1, a2, a3, a4⟩ := (vlmWith_ok_iff _ _ _).1 hr
  simp only at a0 a1 a2 a3 a4
  rw [b1] at a2
  injection a2 with a2
  subst a2
  rw [b2] at a3
  injection a3 with a3
  subst a3
  obtain ⟨-, -, γ, -, hf, hsol⟩ := (vlmCoreWith_ok_iff _ _ _ _ _ _ _ _ _ _).1 a4
  have hf' : List.Forall₂ (BuiltFrom s.nc s.ns) [(s, θ)] [sail] := List.Forall₂.cons ⟨F.ok, rfl, rfl, hs⟩ List.Forall₂.nil
  obtain ⟨-, hte, hle⟩ := sailSet_blocks hf' hset
  have hte' : set.te = trailingFlags s.nc s.ns (FlatSail.blocks s θ).length := hte
  have hle' : set.le = leadingFlags s.nc s.ns (FlatSail.blocks s θ).length := hle
  have P := F.planar hbig
  have hncR : (0 : ℝ) < s.nc := by exact_mod_cast F.ok.nc_pos
  have hclose : ∀ k, |g * (γ k - PlanarBlocks.gammaOf g s.nc s.ns (FlatSail.blocks s θ) (FlatSail.winds g rho s θ w W) k)| ≤
      Real.pi * chord * 1e-12 := by
    intro k
    refine ((P.lattice g).gamma_close (V := FlatSail.winds g rho s θ w W) hg (F.speeds_mem hbig g (p := fun x => 0 < x) hl)
      (F.winds_speed hbig g rho hu1 huz hWl) (FlatSail.decompose hu1 huz _ _).2 hfront (γ := γ) (ε := 1e-12) (by norm_num) ?_ k).trans
      (le_of_eq ?_)
    · intro i
      have := hf i
      simp only [hte'] at this
      exact this
    · field_simp
  constructor
  · intro k
    have hchord := F.chord_pos
    have hpi := Real.pi_pos
    rw [hsol]
    by_cases hk : k < (PlanarBlocks.vars g s.nc s.ns (FlatSail.blocks s θ)).length
    · have h := hclose ⟨k, hk⟩
      rw [abs_mul] at h
      rw [List.getD_eq_getElem?_getD, List.getD_eq_getElem?_getD, List.getElem?_ofFn, List.getElem?_ofFn, dif_pos (by exact hk),
        dif_pos (by exact hk)]
      rw [le_div_iff₀ (abs_pos.2 hg), mul_comm]
      exact h
    · rw [List.getD_eq_getElem?_getD, List.getD_eq_getElem?_getD, List.getElem?_ofFn, List.getElem?_ofFn, dif_neg (by exact hk),
        dif_neg (by exact hk)]
      simp only [Option.getD_none, sub_zero, abs_zero]
      positivity
  · intro b j hb hj
    have hb' : b < (FlatSail.blocks s θ).length := hb
    obtain ⟨m1, m2⟩ := F.midHeight_mem hb hj
    have hns : (0 : ℝ) < s.ns := by exact_mod_cast F.ok.ns_pos
    have hwd : 0 < (s.head.z - s.tack.z) / s.ns := div_pos (sub_pos.2 F.up) hns
    have e1 := F.strip_of hbig hu1 huz hWl rho g γ hb' hj
    have e2 := F.strip (set := set) hbig hu1 huz hWl rho g hb' hj
    have e0 : stripSum s.nc s.ns (List.ofFn rs.lift) b j = ∑ i ∈ Finset.range s.nc, (List.ofFn (panelForce
        (PlanarBlocks.latOf g s.nc s.ns (FlatSail.blocks s θ)) (PlanarBlocks.leOf s.nc s.ns (FlatSail.blocks s θ) _) s.ns rho γ
        (FlatSail.winds g rho s θ w W))).getD (panelNo s.nc s.ns b i j) 0 := by
      rw [stripSum_eq, hsol]
      simp only [hle']
      rfl
    have hu' : (⟨-u.y, u.x, 0⟩ : V3).norm = 1 := by
      have h2 : (⟨-u.y, u.x, 0⟩ : V3).norm = u.norm := by
        unfold V3.norm
        simp only [V3.dot, huz]
        congr 1
        ring
      rw [h2, hu1]
    have hc := hclose (PlanarBlocks.panelIx g s.nc s.ns (FlatSail.blocks s θ) hb' (Nat.sub_lt F.ok.nc_pos one_pos) hj)
    have hlp := hl _ m1 m2
    have hlM := hM _ m1 m2
    have hM0 := hlp.trans_le hlM
    have hchord := F.chord_pos
    have hpi := Real.pi_pos
    rw [e0, e1, stripSum_eq, e2, ← sub_smul, V3.norm_smul, hu', mul_one]
    calc _ = rho * (l (FlatSail.midHeight s b j) * ((s.head.z - s.tack.z) / s.ns * |g * (γ (PlanarBlocks.panelIx g s.nc s.ns (FlatSail.blocks s θ) hb'
            (Nat.sub_lt F.ok.nc_pos one_pos) hj) - PlanarBlocks.gammaOf g s.nc s.ns (FlatSail.blocks s θ) (FlatSail.winds g rho s θ w W)
            (PlanarBlocks.panelIx g s.nc s.ns (FlatSail.blocks s θ) hb' (Nat.sub_lt F.ok.nc_pos one_pos) hj))|)) := by
          rw [← abs_of_pos hrho, ← abs_of_pos hlp, ← abs_of_pos hwd, ← abs_mul, ← abs_mul, ← abs_mul, ← abs_neg]
          simp only [abs_of_pos hrho, abs_of_pos hlp, abs_of_pos hwd]
          congr 1
          ring
      _ ≤ rho * (M * ((s.head.z - s.tack.z) / s.ns * (Real.pi * chord * 1e-12))) := by gcongr
      _ = _ := by ring

/-- A routine that leaves a rest of `5e-13` in every equation. -/
noncomputable def sloppySolver : LinearSolver := fun _ A b => solveEq A (fun i => b i + 5e-13)

/-- Non-vacuity: results of such a routine are accepted, although they are not the exact ones. -/
theorem sloppy_accepted {a : VlmInput} {r : Vlm} (hr : vlm a = .ok r) (hne : 0 < r.vars.length) :
    ∃ sol : VlmSolution r.vars.length, vlmWith sloppySolver a = .ok ⟨a, r.areas, r.vars, r.inlet, sol⟩ ∧ sol.gamma ≠ r.sol.gamma := by
  obtain ⟨h0, h1, h2, h3, h4⟩ := (vlm_ok_iff _ _).1 hr
  obtain ⟨w, hi, hsol⟩ := (vlmCore_ok_iff _ _ _ _ _ _ _ _ _).1 h4
  have hdet := w.regular
  have hmul : (influence (fun i : Fin r.vars.length => r.vars[i]) (fun i => a.te.getD i false) (fun i => r.inlet.vAppInfs.getD i 0) a.g).mulVec
      ((influence (fun i : Fin r.vars.length => r.vars[i]) (fun i => a.te.getD i false) (fun i => r.inlet.vAppInfs.getD i 0) a.g)⁻¹.mulVec
        fun i => -((r.inlet.vAppInfs.getD i 0).dot r.vars[i].normal) + 5e-13) =
      fun i : Fin r.vars.length => -((r.inlet.vAppInfs.getD i 0).dot r.vars[i].normal) + 5e-13 := by
    rw [Matrix.mulVec_mulVec, Matrix.mul_nonsing_inv _ (Ne.isUnit hdet), Matrix.one_mulVec]
  obtain ⟨sol, hs, hg⟩ := C118_accepted hr (solve := sloppySolver) (by rw [sloppySolver, solveEq, if_neg hdet]) (fun k => by
    rw [V3.dot_add_left]
    have := latticeVelocity_dot (fun i : Fin r.vars.length => r.vars[i]) (fun i => a.te.getD i false) (fun i => r.inlet.vAppInfs.getD i 0) a.g
      ((influence (fun i : Fin r.vars.length => r.vars[i]) (fun i => a.te.getD i false) (fun i => r.inlet.vAppInfs.getD i 0) a.g)⁻¹.mulVec
        fun i => -((r.inlet.vAppInfs.getD i 0).dot r.vars[i].normal) + 5e-13) k
    rw [this, hmul]
    norm_num)
  refine ⟨sol, hs, fun h => ?_⟩
  have hex : r.sol.gamma = coreGamma (fun i : Fin r.vars.length => r.vars[i]) (fun i => a.te.getD i false) a.g
      (fun i => r.inlet.vAppInfs.getD i 0) := by
    rw [hsol]; rfl
  rw [hg, hex] at h
  rw [h, influence_mulVec_coreGamma hdet] at hmul
  have := congrFun hmul ⟨0, hne⟩
  simp only at this
  have h5 : (0 : ℝ) < 5e-13 := by norm_num
  linarith

example : ∃ sail set r r₀, sailGeometry demoFoot = .ok sail ∧ sailSet [sail] = .ok set ∧
    vlmWith sloppySolver ⟨set.panels, 2, 2, 1.2, ⟨60, 5, 0, .flat⟩, set.te, set.le, -1⟩ = .ok r ∧
    vlm ⟨set.panels, 2, 2, 1.2, ⟨60, 5, 0, .flat⟩, set.te, set.le, -1⟩ = .ok r₀ ∧
    List.ofFn r.sol.gamma ≠ List.ofFn r₀.sol.gamma ∧
    ∀ k, |(List.ofFn r.sol.gamma).getD k 0 - (List.ofFn r₀.sol.gamma).getD k 0| ≤ Real.pi * 1 * 1e-12 / |(-1 : ℝ)| := by
  have F := demoFoot_flat
  obtain ⟨sail, hs, -⟩ := sailGeometry_ok F.ok
  obtain ⟨set, hset⟩ : ∃ set, sailSet [sail] = .ok set := by
    unfold sailSet
    rw [if_neg (by simp)]
    exact ⟨_, rfl⟩
  have w := (demoWind_uniform (v := 5) (by norm_num) demoFoot.tack.z demoFoot.head.z).along
  have hd : 0 ≤ (⟨1 / 2, Real.sqrt 3 / 2, 0⟩ : V3).dot (leechDirection demoFoot.csys.leewayDeg 0) := by
    simp [V3.dot, leechDirection, demoFoot]
  have hb : 2e-4 ≤ 1 / (demoFoot.nc : ℝ) * ((demoFoot.head.z - demoFoot.tack.z) / demoFoot.ns) := by norm_num [demoFoot]
  obtain ⟨r₁, hr₁, hlen, -⟩ := C110_solver F hb hs hset w hd (rho := 1.2) (g := -1) (by norm_num) (by norm_num)
  obtain ⟨sol, hsol, hne⟩ := sloppy_accepted hr₁ (by rw [List.length_ofFn] at hlen; rw [hlen]; norm_num [demoFoot])
  obtain ⟨r₀, hr₀, hclose, -⟩ := C118_sail F hb hs hset w hd (by norm_num) (by norm_num) _ hsol
  refine ⟨sail, set, _, r₀, hs, hset, hsol, hr₀, fun h => hne ?_, hclose⟩
  rw [hr₁] at hr₀
  injection hr₀ with hr₀
  subst hr₀
  exact List.ofFn_injective h

end PySailing.Props
