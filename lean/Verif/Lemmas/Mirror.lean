import Verif.Lemmas.Motion
import Verif.Lemmas.SailBlocks

/-!
# Mirror-symmetric lattices
-/

namespace PySailing

open Spec

/-- Variables of the mirrored panel (`mirrorPanel`). -/
noncomputable def PanelVars.mirrored (v : PanelVars) : PanelVars where
  normal := mirror v.normal
  ctrP := mirror v.ctrP
  cp := mirror v.cp
  ring := ⟨mirror v.ring.D, mirror v.ring.C, mirror v.ring.B, mirror v.ring.A⟩
  span := -mirror v.span
  leMid := mirror v.leMid
  teMid := mirror v.teMid

theorem mirror_move (p : V3) : mirror p = move mirror 0 p := by simp [move]

theorem normalRaw_mirror (q : Panel) : normalRaw (mirrorPanel q) = mirror (normalRaw q) := by
  unfold normalRaw mirrorPanel
  ext <;> simp [mirror] <;> ring

theorem panelVars_mirror (g : ℝ) (q : Panel) (A D : V3) :
    panelVars g (mirrorPanel q) (mirror D) (mirror A) = (panelVars g q A D).mirrored := by
  unfold panelVars PanelVars.mirrored
  rw [normalRaw_mirror, isIsometry_mirror.norm]
  simp only [PanelVars.mk.injEq, Ring.mk.injEq]
  refine ⟨(isIsometry_mirror.map_smul _ _).symm, ?_, ?_, ⟨trivial, ?_, ?_, trivial⟩, ?_, ?_, ?_⟩ <;>
  · ext <;> simp only [mirrorPanel, mirror, quarterB, quarterC, V3.add_x, V3.add_y, V3.add_z,
      V3.sub_x, V3.sub_y, V3.sub_z, V3.smul_x, V3.smul_y, V3.smul_z, V3.neg_x, V3.neg_y,
      V3.neg_z] <;> ring

theorem quarterB_mirror (q : Panel) : quarterB (mirrorPanel q) = mirror (quarterC q) := by
  ext <;> simp [mirrorPanel, mirror, quarterB, quarterC] <;> ring

theorem quarterC_mirror (q : Panel) : quarterC (mirrorPanel q) = mirror (quarterB q) := by
  ext <;> simp [mirrorPanel, mirror, quarterB, quarterC] <;> ring

theorem behindA_mirror (q : Panel) : behindA (mirrorPanel q) = mirror (behindD q) := by
  ext <;> simp [mirrorPanel, mirror, behindA, behindD] <;> ring

theorem behindD_mirror (q : Panel) : behindD (mirrorPanel q) = mirror (behindA q) := by
  ext <;> simp [mirrorPanel, mirror, behindA, behindD] <;> ring

theorem panelArea_mirror (q : Panel) : panelArea (mirrorPanel q) = panelArea q := by
  unfold panelArea mirrorPanel
  simp only [← isIsometry_mirror.map_sub, isIsometry_mirror.cross_norm]
  have e1 : (V3.cross (q.p3 - q.p4) (q.p2 - q.p3)).norm = (V3.cross (q.p3 - q.p2) (q.p4 - q.p3)).norm := by
    rw [show V3.cross (q.p3 - q.p4) (q.p2 - q.p3) = -V3.cross (q.p3 - q.p2) (q.p4 - q.p3) by
      ext <;> simp <;> ring, V3.norm_neg]
  have e2 : (V3.cross (q.p2 - q.p3) (q.p1 - q.p2)).norm = (V3.cross (q.p2 - q.p1) (q.p3 - q.p2)).norm := by
    rw [show V3.cross (q.p2 - q.p3) (q.p1 - q.p2) = -V3.cross (q.p2 - q.p1) (q.p3 - q.p2) by
      ext <;> simp <;> ring, V3.norm_neg]
  rw [e1, e2]
  ring

/-! ### Kernels -/

theorem vortexRing_mirror (p A B C D : V3) (g : ℝ) :
    vortexRing (mirror p) (mirror D) (mirror C) (mirror B) (mirror A) g =
      mirror (vortexRing p A B C D g) := by
  rw [vortexRing_reverse]
  unfold vortexRing
  simp only [mirror_move p, mirror_move A, mirror_move B, mirror_move C, mirror_move D,
    vortexLine_move isIsometry_mirror, isIsometry_mirror.map_add]
  simp only [neg_smul, one_smul]
  abel

theorem vortexHorseshoeV2_mirror (p A B C D V : V3) (g : ℝ) :
    vortexHorseshoeV2 (mirror p) (mirror D) (mirror C) (mirror B) (mirror A) (mirror V) g =
      mirror (vortexHorseshoeV2 p A B C D V g) := by
  rw [vortexHorseshoeV2_reverse]
  unfold vortexHorseshoeV2
  simp only [mirror_move p, mirror_move A, mirror_move B, mirror_move C, mirror_move D,
    vortexLine_move isIsometry_mirror, vortexInfiniteLine_move isIsometry_mirror,
    isIsometry_mirror.map_add]
  simp only [neg_smul, one_smul]
  abel

/-! ### Symmetric lattices -/

theorem transfer_mirror {K : ℕ} {L : Fin K → PanelVars} {te le : Fin K → Bool} {ns : ℕ} {g : ℝ}
    {V : Fin K → V3} {areas : Fin K → ℝ} (σ : Fin K ≃ Fin K)
    (hL : ∀ i, L i = (L (σ i)).mirrored) (hte : ∀ i, te i = te (σ i)) (hle : ∀ i, le i = le (σ i))
    (hV : ∀ i, V i = mirror (V (σ i))) (ha : ∀ i, areas i = areas (σ i))
    (hup : ∀ i, (le i || case1x1 le) = false → σ (wrapIndex i ns) = wrapIndex (σ i) ns) :
    Transfer L te le ns g V areas L te le ns g V areas mirror (-1) mirror σ 1 1 1 where
  iso := isIsometry_mirror
  sign := by norm_num
  wind_pos := one_pos
  kappa := one_ne_zero
  kernel p j := by
    rw [velCoef_eq, velCoef_eq, hte j, hV j, hL j, mul_one, one_smul]
    split_ifs
    · exact vortexHorseshoeV2_mirror _ _ _ _ _ _ _
    · exact vortexRing_mirror _ _ _ _ _ _
  ctr i := by rw [hL i]; rfl
  cp i := by rw [hL i]; rfl
  normal i := by rw [hL i, one_smul]; rfl
  span i := by
    rw [hL i]
    simp [PanelVars.mirrored]
  wind i := by rw [one_smul]; exact hV i
  clear pts hc := by
    rw [← coefsDefined_iff] at hc ⊢
    intro i j hj
    rw [hte] at hj
    have := hc (σ i) (σ j) hj
    rw [hL j, hV j]
    simp only [PanelVars.mirrored]
    rw [mirror_move (pts (σ i)), mirror_move (L (σ j)).ring.A, mirror_move (L (σ j)).ring.D,
      wakeDefined_move isIsometry_mirror, wakeDefined_move isIsometry_mirror]
    exact this.symm
  area := ha
  leading := hle
  upstream := hup
  index hi := hi

/-- In a symmetric lattice the solution is symmetric. -/
theorem symmetric_solution {K : ℕ} {L : Fin K → PanelVars} {te le : Fin K → Bool} {ns : ℕ} {g : ℝ}
    {V : Fin K → V3} {areas : Fin K → ℝ} {σ : Fin K ≃ Fin K} {rho : ℝ}
    (T : Transfer L te le ns g V areas L te le ns g V areas mirror (-1) mirror σ 1 1 1)
    {sol : VlmSolution K} (h : vlmCore L areas te le ns rho g V = .ok sol) :
    (∀ i, sol.gamma i = sol.gamma (σ i) ∧ sol.force i = mirror (sol.force (σ i)) ∧
      sol.lift i = mirror (sol.lift (σ i)) ∧ sol.drag i = mirror (sol.drag (σ i)) ∧
      sol.pressure i = sol.pressure (σ i) ∧ sol.pCoeffs i = sol.pCoeffs (σ i) ∧
      sol.vFsCp i = mirror (sol.vFsCp (σ i)) ∧ sol.vFsCtrl i = mirror (sol.vFsCtrl (σ i))) ∧
    ∀ p, p.z = 0 → (latticeVelocity L te V g sol.gamma p).z = 0 := by
  have h1 := T.vlmCore_eq 1 rho one_ne_zero h
  rw [one_mul, h] at h1
  have h2 := Except.ok.inj h1
  have hγ : ∀ i, sol.gamma i = sol.gamma (σ i) := fun i => by
    have := congrArg (fun s => s.gamma i) h2
    simpa [VlmSolution.transform] using this
  refine ⟨fun i => ⟨hγ i, ?_, ?_, ?_, ?_, ?_, ?_, ?_⟩, ?_⟩
  · simpa [VlmSolution.transform] using congrArg (fun s => s.force i) h2
  · simpa [VlmSolution.transform] using congrArg (fun s => s.lift i) h2
  · simpa [VlmSolution.transform] using congrArg (fun s => s.drag i) h2
  · simpa [VlmSolution.transform] using congrArg (fun s => s.pressure i) h2
  · simpa [VlmSolution.transform] using congrArg (fun s => s.pCoeffs i) h2
  · simpa [VlmSolution.transform] using congrArg (fun s => s.vFsCp i) h2
  · simpa [VlmSolution.transform] using congrArg (fun s => s.vFsCtrl i) h2
  · intro p hp
    have hv := T.velocity sol.gamma 1 p
    have e : (fun i => 1 * sol.gamma (σ i)) = sol.gamma := by
      funext i; rw [one_mul]; exact (hγ i).symm
    have hm : mirror p = p := by ext <;> simp [mirror, hp]
    rw [e, hm, mul_one, mul_one, one_smul] at hv
    have := congrArg V3.z hv
    simp only [mirror] at this
    linarith

/-! ### Numbering -/

/-- The mirror image of panel number `k`. -/
def mirrorIndex (nc ns n k : ℕ) : ℕ :=
  panelNo nc ns ((k / (nc * ns) + n) % (2 * n)) (k % (nc * ns) / ns) (ns - 1 - k % ns)

theorem mirrorIndex_panelNo {nc ns n b i j : ℕ} (hi : i < nc) (hj : j < ns) :
    mirrorIndex nc ns n (panelNo nc ns b i j) = panelNo nc ns ((b + n) % (2 * n)) i (ns - 1 - j) := by
  have hns : 0 < ns := by omega
  have hn : 0 < nc * ns := Nat.mul_pos (by omega) hns
  have hlt : i * ns + j < nc * ns := by
    have := Nat.mul_le_mul_right ns (Nat.succ_le_of_lt hi)
    rw [Nat.succ_mul] at this
    omega
  have e : panelNo nc ns b i j = (nc * ns) * b + (ns * i + j) := by unfold panelNo; ring
  have e1 : panelNo nc ns b i j / (nc * ns) = b := by
    rw [e, Nat.mul_add_div hn, Nat.div_eq_of_lt (by rw [Nat.mul_comm ns]; exact hlt), add_zero]
  have e2 : panelNo nc ns b i j % (nc * ns) / ns = i := by
    rw [e, Nat.mul_add_mod, Nat.mod_eq_of_lt (by rw [Nat.mul_comm ns]; exact hlt),
      Nat.mul_add_div hns, Nat.div_eq_of_lt hj, add_zero]
  have e3 : panelNo nc ns b i j % ns = j := by
    rw [show panelNo nc ns b i j = ns * (b * nc + i) + j by unfold panelNo; ring, Nat.mul_add_mod,
      Nat.mod_eq_of_lt hj]
  unfold mirrorIndex
  rw [e1, e2, e3]

theorem mod_add_mod_twice {n b : ℕ} (hb : b < 2 * n) : ((b + n) % (2 * n) + n) % (2 * n) = b := by
  by_cases h : b < n
  · rw [Nat.mod_eq_of_lt (a := b + n) (by omega), show b + n + n = b + 2 * n by omega, Nat.add_mod_right,
      Nat.mod_eq_of_lt hb]
  · rw [show b + n = (b - n) + 2 * n by omega, Nat.add_mod_right,
      Nat.mod_eq_of_lt (a := b - n) (by omega),
      show b - n + n = b by omega, Nat.mod_eq_of_lt hb]

theorem mirrorIndex_lt {nc ns n k : ℕ} (hk : k < 2 * n * (nc * ns)) :
    mirrorIndex nc ns n k < 2 * n * (nc * ns) := by
  obtain ⟨b, i, j, hb, hi, hj, rfl⟩ := panelNo_surj hk
  rw [mirrorIndex_panelNo hi hj]
  exact panelNo_lt (Nat.mod_lt _ (by omega)) hi (by omega)

theorem mirrorIndex_invol {nc ns n k : ℕ} (hk : k < 2 * n * (nc * ns)) :
    mirrorIndex nc ns n (mirrorIndex nc ns n k) = k := by
  obtain ⟨b, i, j, hb, hi, hj, rfl⟩ := panelNo_surj hk
  rw [mirrorIndex_panelNo hi hj, mirrorIndex_panelNo hi (by omega), mod_add_mod_twice hb,
    show ns - 1 - (ns - 1 - j) = j by omega]

/-- The mirror images as a permutation of the panel numbers. -/
def mirrorPerm {K : ℕ} (nc ns n : ℕ) (hK : K = 2 * n * (nc * ns)) : Fin K ≃ Fin K :=
  Function.Involutive.toPerm
    (fun k => ⟨mirrorIndex nc ns n k, (mirrorIndex_lt (k.isLt.trans_eq hK)).trans_eq hK.symm⟩)
    (fun k => Fin.ext (mirrorIndex_invol (k.isLt.trans_eq hK)))

theorem mirrorPerm_val {K : ℕ} (nc ns n : ℕ) (hK : K = 2 * n * (nc * ns)) (k : Fin K) :
    (mirrorPerm nc ns n hK k).val = mirrorIndex nc ns n k := rfl

/-! ### Meshes -/

theorem panelOf_mirrorMesh (ns : ℕ) (pts : ℕ → ℕ → V3) {i j : ℕ} (hj : j < ns) :
    panelOf (mirrorMesh ns pts) i (ns - 1 - j) = mirrorPanel (panelOf pts i j) := by
  unfold panelOf mirrorMesh mirrorPanel
  rw [show ns - (ns - 1 - j) = j + 1 by omega, show ns - (ns - 1 - j + 1) = j by omega]

theorem panelOf_mirrorMesh' (ns : ℕ) (pts : ℕ → ℕ → V3) {i j : ℕ} (hj : j < ns) :
    panelOf (mirrorMesh ns pts) i j = mirrorPanel (panelOf pts i (ns - 1 - j)) := by
  have := panelOf_mirrorMesh ns pts (i := i) (j := ns - 1 - j) (by omega)
  rwa [show ns - 1 - (ns - 1 - j) = j by omega] at this

theorem meshVars_mirror (g : ℝ) (nc ns : ℕ) (pts : ℕ → ℕ → V3) {i j : ℕ} (hj : j < ns) :
    meshVars g nc (mirrorMesh ns pts) i j = (meshVars g nc pts i (ns - 1 - j)).mirrored := by
  unfold meshVars
  rw [panelOf_mirrorMesh' ns pts hj, panelOf_mirrorMesh' ns pts hj]
  split_ifs
  · rw [behindA_mirror, behindD_mirror, panelVars_mirror]
  · rw [quarterB_mirror, quarterC_mirror, panelVars_mirror]

theorem PanelVars.mirrored_mirrored (v : PanelVars) : v.mirrored.mirrored = v := by
  unfold PanelVars.mirrored
  simp only [mirror_mirror, ← isIsometry_mirror.map_neg, neg_neg]

end PySailing
