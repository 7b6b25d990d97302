import Verif.Lemmas.Mirror
import Verif.Props.Similarity
import Verif.Props.Sail
import Verif.Demo.TwoPanels

/-!
# C39: the water plane is a mirror plane of the solution
-/

namespace PySailing.Props

open PySailing PySailing.Spec

section setup

variable {nc ns : ℕ} {blocks : List (ℕ → ℕ → V3)}

theorem mirrorSet_get {b : ℕ} (hb : b < 2 * blocks.length) {α : Type} (f : (ℕ → ℕ → V3) → ℕ → ℕ → α)
    (m : α → α) (hm : ∀ x, m (m x) = x)
    (hf : ∀ pts i j, j < ns → f (mirrorMesh ns pts) i j = m (f pts i (ns - 1 - j)))
    {i j : ℕ} (hj : j < ns) (h1 : b < (blocks ++ blocks.map (mirrorMesh ns)).length)
    (h2 : (b + blocks.length) % (2 * blocks.length) <
      (blocks ++ blocks.map (mirrorMesh ns)).length) :
    f (blocks ++ blocks.map (mirrorMesh ns))[b] i j =
      m (f (blocks ++ blocks.map (mirrorMesh ns))[(b + blocks.length) % (2 * blocks.length)] i
        (ns - 1 - j)) := by
  by_cases h : b < blocks.length
  · have e : (b + blocks.length) % (2 * blocks.length) = blocks.length + b := by
      rw [Nat.mod_eq_of_lt (by omega), Nat.add_comm]
    rw [List.getElem_append_left h]
    simp only [e]
    rw [List.getElem_append_right (by omega), List.getElem_map, hf _ _ _ (by omega)]
    simp only [Nat.add_sub_cancel_left]
    rw [hm, show ns - 1 - (ns - 1 - j) = j by omega]
  · have e : (b + blocks.length) % (2 * blocks.length) = b - blocks.length := by
      rw [show b + blocks.length = (b - blocks.length) + 2 * blocks.length by omega,
        Nat.add_mod_right, Nat.mod_eq_of_lt (by omega)]
    rw [List.getElem_append_right (by omega), List.getElem_map, hf _ _ _ hj]
    simp only [e]
    rw [List.getElem_append_left (by omega)]

end setup

theorem trueWindAt_z {w : WindObj} {h : ℝ} {v : V3} (hv : w.trueWindAt h = .ok v) : v.z = 0 := by
  obtain ⟨s, rfl⟩ := trueWindAt_horizontal hv
  simp [heading]

/-- Winds at points at the same height above or below the water are equal and horizontal. -/
theorem inlet_symmetric {w : WindObj} {rho : ℝ} {cps : List V3} {inlet : Inlet}
    (h : inletConditions w rho cps = .ok inlet) {i j : ℕ} (hi : i < cps.length) (hj : j < cps.length)
    (hm : cps[i] = mirror cps[j]) :
    inlet.vAppInfs.getD i 0 = mirror (inlet.vAppInfs.getD j 0) := by
  obtain ⟨-, h2, h3⟩ := (inletConditions_ok_iff _ _ _ _).1 h
  have hV : inlet.vAppInfs = inlet.twsAtCp.map w.appInfs := by rw [h3]
  obtain ⟨-, hget⟩ := mapM_ok_inv h2
  obtain ⟨a, ha, ha'⟩ := hget i hi
  obtain ⟨b, hb, hb'⟩ := hget j hj
  have hz : |(cps[i]).z| = |(cps[j]).z| := by rw [hm]; simp [mirror]
  rw [hz, hb'] at ha'
  injection ha' with ha'
  have hbz := trueWindAt_z hb'
  rw [hV, List.getD_eq_getElem?_getD, List.getD_eq_getElem?_getD, List.getElem?_map,
    List.getElem?_map, ha, hb, ← ha']
  ext <;> simp [mirror, WindObj.appInfs, hbz]

/-- **C39.** Take any number of sails of `nc` by `ns` panels, followed by their mirror images in the
water plane (`z = 0`), and any wind profile.  Whenever `Vlm` returns, then panel `(i, j)` of a sail and
its mirror image have the same circulation, pressure and pressure coefficient; forces, lift, drag and
velocities are mirror images of each other; and no fluid passes through the water plane: at each of its
points the velocity induced by the whole lattice has no vertical component. -/
theorem C39_mirror (a : VlmInput) (blocks : List (ℕ → ℕ → V3)) (hnc : 0 < a.nc) (hns : 0 < a.ns)
    (hp : a.panels = blockPanels a.nc a.ns (blocks ++ blocks.map (mirrorMesh a.ns)))
    (hte : a.te = trailingFlags a.nc a.ns (2 * blocks.length))
    (hle : a.le = leadingFlags a.nc a.ns (2 * blocks.length))
    (r : Vlm) (h : vlm a = .ok r) :
    r.vars.length = 2 * blocks.length * (a.nc * a.ns) ∧
    (∀ b i j, b < blocks.length → i < a.nc → j < a.ns → ∀ k k' : Fin r.vars.length,
      k.val = panelNo a.nc a.ns b i j → k'.val = mirrorPanelNo a.nc a.ns blocks.length b i j →
      r.sol.gamma k' = r.sol.gamma k ∧ r.sol.force k' = mirror (r.sol.force k) ∧
      r.sol.lift k' = mirror (r.sol.lift k) ∧ r.sol.drag k' = mirror (r.sol.drag k) ∧
      r.sol.pressure k' = r.sol.pressure k ∧ r.sol.pCoeffs k' = r.sol.pCoeffs k ∧
      r.sol.vFsCp k' = mirror (r.sol.vFsCp k) ∧ r.sol.vFsCtrl k' = mirror (r.sol.vFsCtrl k)) ∧
    ∀ p, p.z = 0 → (latticeVelocity (fun i => r.vars[i]) (fun i => a.te.getD i false)
      (fun i => r.inlet.vAppInfs.getD i 0) a.g r.sol.gamma p).z = 0 := by
  classical
  obtain ⟨-, har, hv, hin, hs⟩ := (vlm_ok_iff a r).1 h
  obtain ⟨-, -, hvne⟩ := vlm_inlet h
  obtain ⟨n, hn⟩ : ∃ n, n = blocks.length := ⟨_, rfl⟩
  obtain ⟨full, hfull⟩ : ∃ full, full = blocks ++ blocks.map (mirrorMesh a.ns) := ⟨_, rfl⟩
  have hfl : full.length = 2 * n := by rw [hfull, hn]; simp [two_mul]
  rw [← hfull] at hp
  rw [← hn] at hte hle ⊢
  have hbl : full ≠ [] := by
    rintro h0
    rw [hp, h0] at hv
    have hK := (calculateVlmVariables_ok hv).1
    simp [blockPanels] at hK
    exact hvne hK
  have hn0 : 0 < n := by
    have := List.length_pos_of_ne_nil hbl
    omega
  have hK : r.vars.length = 2 * n * (a.nc * a.ns) := by
    rw [(calculateVlmVariables_ok hv).1, hp, blockPanels_length, hfl]
  have hvars : r.vars = (full.map fun pts => (List.range a.nc).flatMap fun i =>
      (List.range a.ns).map fun j => meshVars a.g a.nc pts i j).flatten := by
    have hc := calculateVlmVariables_blocks a.g hnc hns full hbl
    rw [hp, hte, ← hfl, hc] at hv
    split_ifs at hv
    injection hv with hv
    exact hv.symm
  have hget : ∀ (k : Fin r.vars.length) b i j (hb : b < full.length), i < a.nc → j < a.ns →
      k.val = panelNo a.nc a.ns b i j → r.vars[k] = meshVars a.g a.nc full[b] i j := by
    intro k b i j hb hi hj hk
    have h1 := blocks_get full (meshVars a.g a.nc) hb hi hj
    rw [← hvars, ← hk, List.getElem?_eq_getElem k.isLt] at h1
    exact Option.some.inj h1
  have harea : ∀ k b i j (hb : b < full.length), i < a.nc → j < a.ns →
      k = panelNo a.nc a.ns b i j → r.areas.getD k 0 = panelArea (panelOf full[b] i j) := by
    intro k b i j hb hi hj hk
    have h1 := blocks_get full panelOf hb hi hj
    rw [har, getPanelsArea, hp, List.getD_eq_getElem?_getD, List.getElem?_map, hk]
    have e : (blockPanels a.nc a.ns full)[panelNo a.nc a.ns b i j]? =
      some (panelOf full[b] i j) := h1
    rw [e]; rfl
  let σ := mirrorPerm a.nc a.ns n hK
  have hσ : ∀ (k : Fin r.vars.length) b i j, b < 2 * n → i < a.nc → j < a.ns →
      k.val = panelNo a.nc a.ns b i j →
      (σ k).val = panelNo a.nc a.ns ((b + n) % (2 * n)) i (a.ns - 1 - j) := by
    intro k b i j hb hi hj hk
    rw [mirrorPerm_val, hk, mirrorIndex_panelNo hi hj]
  have hcases : ∀ k : Fin r.vars.length, ∃ b i j, b < 2 * n ∧ i < a.nc ∧ j < a.ns ∧
      k.val = panelNo a.nc a.ns b i j := fun k => panelNo_surj (k.isLt.trans_eq hK)
  have hL : ∀ k : Fin r.vars.length, r.vars[k] = (r.vars[σ k]).mirrored := by
    intro k
    obtain ⟨b, i, j, hb, hi, hj, hk⟩ := hcases k
    have hb2 : (b + n) % (2 * n) < 2 * n := Nat.mod_lt _ (by omega)
    rw [hget k b i j (by omega) hi hj hk,
      hget (σ k) _ i (a.ns - 1 - j) (by rw [hfl]; exact hb2) hi (by omega) (hσ k b i j hb hi hj hk)]
    subst hfull hn
    exact mirrorSet_get hb (fun pts i j => meshVars a.g a.nc pts i j) PanelVars.mirrored
      PanelVars.mirrored_mirrored (fun pts i j hj => meshVars_mirror _ _ _ _ hj) hj _ _
  have hflag : ∀ (row : ℕ → Bool) (k : Fin r.vars.length),
      (blockFlags a.nc a.ns (2 * n) row).getD k false =
        (blockFlags a.nc a.ns (2 * n) row).getD (σ k) false := by
    intro row k
    obtain ⟨b, i, j, hb, hi, hj, hk⟩ := hcases k
    rw [List.getD_eq_getElem?_getD, List.getD_eq_getElem?_getD, hσ k b i j hb hi hj hk, hk,
      blockFlags_get row hb hi hj, blockFlags_get row (Nat.mod_lt _ (by omega)) hi (by omega)]
  have T := transfer_mirror (L := fun i => r.vars[i]) (te := fun i => a.te.getD i false)
    (le := fun i => a.le.getD i false) (ns := a.ns) (g := a.g)
    (V := fun i => r.inlet.vAppInfs.getD i 0) (areas := fun i => r.areas.getD i 0) σ hL
    (by rw [hte]; exact hflag _) (by rw [hle]; exact hflag _)
    (by
      intro k
      refine inlet_symmetric hin (by simp) (by simp) ?_
      simp only [List.getElem_map]
      exact congrArg PanelVars.cp (hL k))
    (by
      intro k
      obtain ⟨b, i, j, hb, hi, hj, hk⟩ := hcases k
      have hb2 : (b + n) % (2 * n) < 2 * n := Nat.mod_lt _ (by omega)
      rw [harea k b i j (by omega) hi hj hk,
        harea (σ k) _ i (a.ns - 1 - j) (by rw [hfl]; exact hb2) hi (by omega)
          (hσ k b i j hb hi hj hk)]
      subst hfull hn
      exact mirrorSet_get hb (fun pts i j => panelArea (panelOf pts i j)) id (fun _ => rfl)
        (fun pts i j hj => by rw [panelOf_mirrorMesh' _ _ hj, panelArea_mirror]; rfl) hj _ _)
    (by
      intro k hk0
      obtain ⟨b, i, j, hb, hi, hj, hk⟩ := hcases k
      rw [hle] at hk0
      simp only [hk, leading_at hb hi hj] at hk0
      rw [case1x1_flags hnc hns (by omega) hK] at hk0
      have hi0 : 1 ≤ i := by
        by_contra h0
        have : i = 0 := by omega
        subst this
        simp at hk0
        omega
      have wrap : ∀ (k : Fin r.vars.length) b j, b < 2 * n → j < a.ns →
          k.val = panelNo a.nc a.ns b i j →
          (wrapIndex k a.ns).val = panelNo a.nc a.ns b (i - 1) j := by
        intro k b j hb hj hk
        have hlt : panelNo a.nc a.ns b (i - 1) j < r.vars.length := by
          rw [hK]; exact panelNo_lt hb (by omega) hj
        obtain ⟨i', rfl⟩ : ∃ i', i = i' + 1 := ⟨i - 1, by omega⟩
        unfold wrapIndex
        simp only [hk, panelNo_pred, Nat.add_sub_cancel] at hlt ⊢
        rw [show panelNo a.nc a.ns b i' j + a.ns + r.vars.length - a.ns =
          panelNo a.nc a.ns b i' j + r.vars.length by omega, Nat.add_mod_right,
          Nat.mod_eq_of_lt hlt]
      apply Fin.ext
      rw [hσ _ b (i - 1) j hb (by omega) hj (wrap k b j hb hj hk),
        wrap (σ k) _ _ (Nat.mod_lt _ (by omega)) (by omega) (hσ k b i j hb hi hj hk)])
  have hs' : vlmCore (fun i => r.vars[i]) (fun i => r.areas.getD i 0) (fun i => a.te.getD i false)
      (fun i => a.le.getD i false) a.ns a.rho a.g (fun i => r.inlet.vAppInfs.getD i 0) = .ok r.sol := by
    rw [har]; exact hs
  obtain ⟨hsym, hflow⟩ := symmetric_solution T hs'
  refine ⟨hK, ?_, hflow⟩
  intro b i j hb hi hj k k' hk hk'
  have hkk : σ k' = k := by
    apply Fin.ext
    rw [hσ k' (n + b) i (a.ns - 1 - j) (by omega) hi (by omega) hk', hk,
      show n + b + n = b + 2 * n by omega, Nat.add_mod_right, Nat.mod_eq_of_lt (by omega),
      show a.ns - 1 - (a.ns - 1 - j) = j by omega]
  have := hsym k'
  rwa [hkk] at this

/-- `Vlm` returns for a sail of one panel and its mirror image. -/
example : ∃ r, vlm Demo.input2 = .ok r ∧ r.vars.length = 2 ∧
    Demo.input2.panels = blockPanels 1 1 ([Demo.pts] ++ [Demo.pts].map (mirrorMesh 1)) ∧
    Demo.input2.te = trailingFlags 1 1 2 ∧ Demo.input2.le = leadingFlags 1 1 2 := by
  obtain ⟨r, h, -, hv, -⟩ := Demo.vlm_ok2
  exact ⟨r, h, by rw [hv]; rfl, rfl, rfl, rfl⟩

theorem blockPanels_congr {nc ns : ℕ} {bs bs' : List (ℕ → ℕ → V3)}
    (h : List.Forall₂ (fun p q => ∀ r k, r ≤ ns → p r k = q r k) bs bs') :
    blockPanels nc ns bs = blockPanels nc ns bs' := by
  unfold blockPanels
  induction h with
  | nil => rfl
  | cons h _ ih =>
    simp only [List.map_cons, List.flatten_cons, ih]
    congr 1
    unfold panelGrid
    apply grid_congr
    intro i j _ hj
    rw [h _ _ (by omega), h _ _ (by omega), h _ _ (by omega), h _ _ (by omega)]

/-- **C39**, for sail sets: if along each sail the position of maximum camber is symmetric about the
middle of the girths (in particular if it is constant), the panels of the `SailSet` are the sails
followed by their mirror images, with the flags `C39_mirror` asks for.  For other sails the underwater
part is not a mirror image (`C17_refuted`). -/
theorem C39_sail_set (nc ns : ℕ) (ss : List (SailInput × (ℕ → ℝ))) (sails : List SailGeom)
    (h : List.Forall₂ (BuiltFrom nc ns) ss sails)
    (hd : ∀ s ∈ ss, ∀ r, r ≤ ns → s.1.distance.getD r 0 = s.1.distance.getD (ns - r) 0)
    (set : SailSet) (hs : sailSet sails = .ok set) :
    ∃ blocks : List (ℕ → ℕ → V3), blocks.length = sails.length ∧ 0 < nc ∧ 0 < ns ∧
      set.panels = blockPanels nc ns (blocks ++ blocks.map (mirrorMesh ns)) ∧
      set.te = trailingFlags nc ns (2 * blocks.length) ∧
      set.le = leadingFlags nc ns (2 * blocks.length) := by
  have hl := h.length_eq
  obtain ⟨h1, h2, h3⟩ := sailSet_blocks h hs
  have hpos : 0 < nc ∧ 0 < ns := by
    cases h with
    | nil => unfold sailSet at hs; rw [if_pos rfl] at hs; cases hs
    | cons hb _ =>
      obtain ⟨hok, rfl, rfl, -⟩ := hb
      exact ⟨hok.nc_pos, hok.ns_pos⟩
  refine ⟨ss.map abovePoints, by simpa using hl, hpos.1, hpos.2, ?_, by simpa using h2,
    by simpa using h3⟩
  rw [h1, ← blockPanels_append, ← blockPanels_append]
  congr 1
  apply blockPanels_congr
  clear h1 h2 h3 hs hl hpos set
  induction h with
  | nil => exact .nil
  | @cons s g ss' gs' hb _ ih =>
    refine .cons ?_ (ih fun s' hs' => hd s' (List.mem_cons_of_mem _ hs'))
    obtain ⟨hok, rfl, rfl, -⟩ := hb
    intro r k hr
    exact hok.underTwisted_mirror (hd s List.mem_cons_self) hr k

/-- A sail with constant position of maximum camber meets the hypotheses of `C39_sail_set`. -/
example : ∃ ss sails set, List.Forall₂ (BuiltFrom 2 1) ss sails ∧ sails.length = 2 ∧
    sailSet sails = .ok set ∧
    ∀ s ∈ ss, ∀ r, r ≤ 1 → s.1.distance.getD r 0 = s.1.distance.getD (1 - r) 0 := by
  have hok : SailOk (demoSail 2 [0.1, 0.2] [0.5, 0.5] none none) (fun _ => 0) := by
    apply demoSail_ok <;> first | exact twistOk_none _ _ _ _ | norm_num
  obtain ⟨g, hg, -⟩ := sailGeometry_ok hok
  have hb : BuiltFrom 2 1 (demoSail 2 [0.1, 0.2] [0.5, 0.5] none none, fun _ => 0) g :=
    ⟨hok, rfl, rfl, hg⟩
  have hset : ∃ set, sailSet [g, g] = .ok set := by
    unfold sailSet; rw [if_neg (by simp)]; exact ⟨_, rfl⟩
  obtain ⟨set, hs⟩ := hset
  refine ⟨_, [g, g], set, .cons hb (.cons hb .nil), rfl, hs, ?_⟩
  intro s hs r hr
  simp only [List.mem_cons, List.not_mem_nil, or_false, or_self] at hs
  subst hs
  interval_cases r <;> simp [demoSail]

end PySailing.Props
