import Verif.Demo.Wing
import Verif.Demo.AlongWing
import Verif.Props.Aircraft

/-!
# C87 - C89: symmetry and incidence of the free wing, sails without load
-/

namespace PySailing.Props

open PySailing PySailing.Spec

/-! ## C87 -/

/-- **C87.** For a free stream without component along the span the load of the free wing is symmetric
about mid-span: the panel in row `i` at position `j` from one tip and the one at position `j` from the
other tip have the same circulation and pressure, and mirror images as forces; the reported coefficients
have no component along the span. -/
theorem C87_symmetric (a : AircraftInput) (w : Aircraft) (h : aircraft a = .ok w) (hV : a.V.z = 0) :
    (∀ i j, i < a.nc → j < a.ns →
      (∃ γ, (List.ofFn w.gamma)[i * a.ns + j]? = some γ ∧
        (List.ofFn w.gamma)[i * a.ns + (a.ns - 1 - j)]? = some γ) ∧
      (∃ p, (List.ofFn w.pressure)[i * a.ns + j]? = some p ∧
        (List.ofFn w.pressure)[i * a.ns + (a.ns - 1 - j)]? = some p) ∧
      (∃ F, (List.ofFn w.force)[i * a.ns + j]? = some F ∧
        (List.ofFn w.force)[i * a.ns + (a.ns - 1 - j)]? = some (mirror F))) ∧
    ∃ c, w.Cxyz = .ok c ∧ c.z = 0 := by
  obtain ⟨-, -, hnc, hns, -, -, -, hp, hte, hle, hv, ⟨sol, hs, h1, h2, h3⟩, -⟩ := aircraft_inv h
  have hK : w.vars.length = 1 * (a.nc * a.ns) := by
    rw [(calculateVlmVariables_ok hv).1, hp, blockPanels_length, List.length_singleton]
  rw [hp, hte] at hv
  rw [hp, hte, hle] at hs
  have T := transfer_flip hnc hns (fun r k hr => wingPoint_mirror a.chord a.half a.aoaDeg a.nc hns hr k)
    hv a.V hV hK
  have hsym := (symmetric_solution T hs).1
  refine ⟨fun i j hi hj => ?_, ?_⟩
  · have e : ∀ j, panelNo a.nc a.ns 0 i j = i * a.ns + j := fun j => by unfold panelNo; ring
    have hl : ∀ j, j < a.ns → i * a.ns + j < w.vars.length := fun j hj => by
      rw [← e, hK]; exact panelNo_lt one_pos hi hj
    have hl1 := hl j hj
    have hl2 := hl (a.ns - 1 - j) (by omega)
    have hσ : flipPerm a.nc a.ns hK ⟨i * a.ns + j, hl1⟩ = ⟨i * a.ns + (a.ns - 1 - j), hl2⟩ := by
      apply Fin.ext
      show flipIndex a.ns (i * a.ns + j) = _
      rw [← e, flipIndex_panelNo hj, e]
    obtain ⟨s1, s2, -, -, s3, -⟩ := hsym ⟨i * a.ns + j, hl1⟩
    rw [hσ] at s1 s2 s3
    rw [h1] at s1
    rw [h2] at s2
    rw [h3] at s3
    refine ⟨⟨w.gamma ⟨_, hl1⟩, ?_, ?_⟩, ⟨w.pressure ⟨_, hl1⟩, ?_, ?_⟩,
      ⟨w.force ⟨_, hl1⟩, ?_, ?_⟩⟩
    · rw [List.getElem?_ofFn, dif_pos hl1]
    · rw [List.getElem?_ofFn, dif_pos hl2, s1]
    · rw [List.getElem?_ofFn, dif_pos hl1]
    · rw [List.getElem?_ofFn, dif_pos hl2, s3]
    · rw [List.getElem?_ofFn, dif_pos hl1]
    · rw [List.getElem?_ofFn, dif_pos hl2, s2]
      simp [mirror]
  · obtain ⟨-, c, hc, -, -, hz⟩ := C41_coefficients_partial a w h
    exact ⟨c, hc, by rw [← hz]; exact C41_CL_is_zero a w h hV⟩

/-- The hypotheses are met. -/
example : ∃ w, aircraft Demo.wing = .ok w ∧ Demo.wing.V.z = 0 := by
  obtain ⟨w, hw, -⟩ := Demo.wing_ok
  exact ⟨w, hw, rfl⟩

/-! ## C88 -/

/-- The arguments of a wing turned by `β` degrees about the span together with the free stream, with the
free stream made `μ` times faster and the fluid `c` times denser. -/
noncomputable def turnedWing (a : AircraftInput) (β μ c : ℝ) : AircraftInput :=
  { a with
    aoaDeg := a.aoaDeg + β
    V := μ • rodrigues ⟨0, 0, 1⟩ (-(β * (Real.pi / 180))) a.V
    rho := c * a.rho }

/-- The arguments of a wing reflected in the x-z plane together with the free stream. -/
noncomputable def reflectedWing (a : AircraftInput) : AircraftInput :=
  { a with aoaDeg := -a.aoaDeg, V := acrossCentre a.V }

theorem cxyz_of {a : AircraftInput} {w : Aircraft} (h : aircraft a = .ok w) :
    w.Cxyz = .ok ((1 / (0.5 * a.rho * a.V.norm ^ 2 * a.S)) • (List.ofFn w.force).sum) := by
  obtain ⟨hin, -, -, -, hq, -⟩ := aircraft_inv h
  unfold Aircraft.Cxyz getVlmCxyz
  rw [hin, if_neg hq]

theorem sum_map_iso {R : V3 → V3} {ε : ℝ} (hR : IsIsometry R ε) (c : ℝ) (l : List V3) :
    (l.map fun v => c • R v).sum = c • R l.sum := by
  induction l with
  | nil => simp [hR.map_zero]
  | cons x l ih => simp only [List.map_cons, List.sum_cons, ih, hR.map_add, smul_add]

/-- **C88.** Only the incidence, that is, the angle between the chord and the free stream matters:
turning both the wing (through `AoA_deg`) and the free stream by the same angle turns every force and the
coefficients `Cxyz` by that angle and changes neither circulations nor pressures; a free stream `μ` times
faster and a fluid `c` times denser multiply the circulations by `μ`, forces and pressures by `c μ²`,
and leave the coefficients alone. -/
theorem C88_incidence (a : AircraftInput) (w : Aircraft) (h : aircraft a = .ok w) (hg : a.g ≠ 0)
    (β μ c : ℝ) (hμ : 0 < μ) (hc : c ≠ 0) :
    ∃ w', aircraft (turnedWing a β μ c) = .ok w' ∧
      List.ofFn w'.gamma = (List.ofFn w.gamma).map (μ * ·) ∧
      List.ofFn w'.force = (List.ofFn w.force).map
        (fun F => (c * μ ^ 2) • rodrigues ⟨0, 0, 1⟩ (-(β * (Real.pi / 180))) F) ∧
      List.ofFn w'.pressure = (List.ofFn w.pressure).map (c * μ ^ 2 * ·) ∧
      ∃ C C', w.Cxyz = .ok C ∧ w'.Cxyz = .ok C' ∧
        C' = rodrigues ⟨0, 0, 1⟩ (-(β * (Real.pi / 180))) C := by
  have hR := isIsometry_rodrigues ⟨0, 0, 1⟩ (by simp [V3.dot]) (-(β * (Real.pi / 180)))
  obtain ⟨w', hw', h1, h2, h3⟩ := aircraft_moved (a' := turnedWing a β μ c) h hR hμ hc hg hg rfl rfl
    rfl rfl rfl rfl (fun r k => by
      simp only [turnedWing, wingPoint, rodrigues, add_mul, Real.cos_add, Real.sin_add, Real.cos_neg,
        Real.sin_neg]
      ext <;> simp [V3.dot] <;> ring)
  refine ⟨w', hw', ?_, h2, ?_, _, _, cxyz_of h, cxyz_of hw', ?_⟩
  · rw [h1]
    congr 1
    funext x
    have : a.g / (turnedWing a β μ c).g = 1 := div_self hg
    rw [this]; ring
  · rw [h3]
    simp only [one_mul]
  · rw [h2, sum_map_iso hR, hR.map_smul, smul_smul]
    congr 1
    simp only [turnedWing, V3.norm_smul, hR.norm, abs_of_pos hμ, AircraftInput.S]
    obtain ⟨-, -, -, -, hq, -⟩ := aircraft_inv h
    rw [AircraftInput.S] at hq
    field_simp

/-- **C88**, reflection: the wing at the opposite angle of attack in the reflected free stream has the
reflected forces and the opposite circulations and pressures. -/
theorem C88_opposite (a : AircraftInput) (w : Aircraft) (h : aircraft a = .ok w) (hg : a.g ≠ 0) :
    ∃ w', aircraft (reflectedWing a) = .ok w' ∧
      List.ofFn w'.gamma = (List.ofFn w.gamma).map (-·) ∧
      List.ofFn w'.force = (List.ofFn w.force).map acrossCentre ∧
      List.ofFn w'.pressure = (List.ofFn w.pressure).map (-·) ∧
      w'.CD = w.CD ∧ w'.CLTheoretical = -w.CLTheoretical ∧ w'.CDTheoretical = w.CDTheoretical := by
  obtain ⟨w', hw', h1, h2, h3⟩ := aircraft_moved (a' := reflectedWing a) h isIsometry_across one_pos
    one_ne_zero hg hg rfl rfl rfl rfl (by simp [reflectedWing]) (by simp [reflectedWing])
    (fun r k => by
      simp only [reflectedWing, wingPoint, acrossCentre, neg_mul, Real.cos_neg, Real.sin_neg]
      ext <;> simp)
  have h2' : List.ofFn w'.force = (List.ofFn w.force).map acrossCentre := by
    rw [h2]; simp
  obtain ⟨-, -, -, -, -, har, hth, -, -, -, -, -, -, hCD, -⟩ := aircraft_inv h
  obtain ⟨-, -, -, -, -, har', hth', -, -, -, -, -, -, hCD', -⟩ := aircraft_inv hw'
  refine ⟨w', hw', ?_, h2', ?_, ?_, ?_⟩
  · rw [h1]
    congr 1
    funext x
    have : a.g / (reflectedWing a).g = 1 := div_self hg
    rw [this]; ring
  · rw [h3]
    congr 1
    funext x
    ring
  · have hs := sum_map_iso isIsometry_across 1 (List.ofFn w.force)
    simp only [one_smul] at hs
    rw [hCD', hCD, h2', hs]
    have hn : (reflectedWing a).V.norm = a.V.norm := isIsometry_across.norm _
    rw [hn]
    rfl
  · rw [har] at hth
    have har2 : w'.AR = 2 * a.half / a.chord := har'
    have haoa : (reflectedWing a).aoaDeg = -a.aoaDeg := rfl
    rw [har2, haoa] at hth'
    unfold getCLCDFreeWing at hth hth'
    simp only at hth hth'
    split_ifs at hth with q1 q2
    rw [if_neg q1, if_neg q2] at hth'
    injection hth with hth
    injection hth' with hth'
    rw [Prod.mk.injEq] at hth hth'
    obtain ⟨t1, t2⟩ := hth
    obtain ⟨t1', t2'⟩ := hth'
    rw [← t1, ← t1', ← t2, ← t2']
    constructor
    · unfold deg2rad; ring
    · unfold deg2rad; ring

/-- **C88**, what is not so: the theoretical coefficients printed beside the computed ones depend on
`AoA_deg` alone.  A free stream that is not along the x axis changes the incidence but not the theory. -/
theorem C88_theory_ignores_stream (a : AircraftInput) (V : V3) (w w' : Aircraft)
    (h : aircraft a = .ok w) (h' : aircraft { a with V := V } = .ok w') :
    w'.CLTheoretical = w.CLTheoretical ∧ w'.CDTheoretical = w.CDTheoretical := by
  obtain ⟨-, -, -, -, -, har, hth, -⟩ := aircraft_inv h
  obtain ⟨-, -, -, -, -, har', hth', -⟩ := aircraft_inv h'
  rw [har'] at hth'
  rw [har, hth'] at hth
  injection hth with hth
  rw [Prod.mk.injEq] at hth
  exact hth

/-- The hypotheses of C88 are met. -/
example : ∃ w, aircraft Demo.wing = .ok w ∧ Demo.wing.g ≠ 0 ∧
    ∃ w', aircraft { Demo.wing with V := (2 : ℝ) • Demo.wing.V } = .ok w' := by
  obtain ⟨w, hw, -⟩ := Demo.wing_ok
  refine ⟨w, hw, by norm_num [Demo.wing], ?_⟩
  obtain ⟨w', hw', -⟩ := C88_incidence _ w hw (by norm_num [Demo.wing]) 0 2 1 (by norm_num)
    (by norm_num)
  refine ⟨w', ?_⟩
  rw [← hw']
  congr 1
  simp [turnedWing, rodrigues]

/-! ## C89 -/

/-- The cross product of the diagonals of a panel. -/
def acrossPanel (q : Panel) : V3 := V3.cross (q.p3 - q.p1) (q.p4 - q.p2)

/-- **C89.** Sails carry no load exactly if the wind blows along every panel: the circulations are all
zero if and only if at every panel the wind is parallel to its plane.  Then all forces, pressures and
induced velocities are zero as well. -/
theorem C89_no_load (a : VlmInput) (V : List V3) (hV : V.length = a.panels.length) (o : VlmArrays)
    (h : vlmWithWinds a V = .ok o) :
    ((∀ γ ∈ o.gamma, γ = 0) ↔ ∀ (k : ℕ) (q : Panel) (v : V3), a.panels[k]? = some q → V[k]? = some v →
      v.dot (acrossPanel q) = 0) ∧
    ((∀ γ ∈ o.gamma, γ = 0) → (∀ F ∈ o.force, F = 0) ∧ (∀ p ∈ o.pressure, p = 0) ∧
      (∀ p ∈ o.pCoeffs, p = 0) ∧ (∀ v ∈ o.vIndCp, v = 0) ∧ ∀ v ∈ o.vIndCtrl, v = 0) := by
  obtain ⟨vars, hv, sol, hs, rfl⟩ := (vlmWithWinds_ok_iff a V o).1 h
  obtain ⟨hw, -, hsol⟩ := (vlmCore_ok_iff _ _ _ _ _ _ _ _ _).1 hs
  obtain ⟨hl, hn, hvk⟩ := calculateVlmVariables_ok hv
  have hz : ∀ p, latticeVelocity (fun i : Fin vars.length => vars[i]) (fun i => a.te.getD i false)
      (fun i => V.getD i 0) a.g (fun _ => 0) p = 0 := by
    intro p
    unfold latticeVelocity
    exact Finset.sum_eq_zero fun j _ => zero_smul _ _
  have hγ : ∀ i, sol.gamma i = coreGamma (fun i : Fin vars.length => vars[i])
      (fun i => a.te.getD i false) a.g (fun i => V.getD i 0) i := fun i => by rw [hsol]; rfl
  have hnormal : ∀ k (hk : k < vars.length) q v, a.panels[k]? = some q → V[k]? = some v →
      (v.dot (acrossPanel q) = 0 ↔ (V.getD k 0).dot (vars[k]).normal = 0) := by
    intro k hk q v hq hvk'
    obtain ⟨A, D, hAD⟩ := hvk k (by rw [← hl]; exact hk)
    obtain ⟨hk', hq'⟩ := List.getElem?_eq_some_iff.1 hq
    rw [List.getElem?_eq_getElem hk] at hAD
    rw [Option.some.inj hAD, List.getD_eq_getElem?_getD, hvk', hq']
    have hne : normalRaw q ≠ 0 := hn q (by rw [← hq']; exact List.getElem_mem hk')
    have hnp := V3.norm_pos hne
    simp only [panelVars, Option.getD_some, V3.dot_smul_right]
    rw [mul_eq_zero, or_iff_right (by positivity)]
    rfl
  have hall : (∀ γ ∈ sol.arrays.gamma, γ = 0) ↔ sol.gamma = fun _ => 0 := by
    constructor
    · intro h0
      funext i
      exact h0 _ ((List.mem_ofFn' _ _).2 ⟨i, rfl⟩)
    · intro h0 γ hm
      obtain ⟨i, rfl⟩ := (List.mem_ofFn' _ _).1 hm
      rw [h0]
  rw [hall]
  refine ⟨⟨fun h0 k q v hq hvk' => ?_, fun h0 => ?_⟩, fun h0 => ?_⟩
  · have hk : k < vars.length := by rw [hl]; exact (List.getElem?_eq_some_iff.1 hq).1
    rw [hnormal k hk q v hq hvk']
    have := coreGamma_flux hw.regular ⟨k, hk⟩
    rw [← funext hγ, h0, hz, add_zero] at this
    exact this
  · have := coreGamma_unique hw.regular (γ := fun _ => 0) (by
      funext i
      rw [← latticeVelocity_dot, hz]
      have hi : i.val < a.panels.length := by rw [← hl]; exact i.isLt
      have hi' : i.val < V.length := by rw [hV]; exact hi
      have := (hnormal i i.isLt _ _ (List.getElem?_eq_getElem hi) (List.getElem?_eq_getElem hi')).1
        (h0 i _ _ (List.getElem?_eq_getElem hi) (List.getElem?_eq_getElem hi'))
      simp only [Fin.getElem_fin] at this ⊢
      rw [this]
      simp [V3.dot])
    rw [this]
    exact funext hγ
  · have h1 : coreGamma (fun i : Fin vars.length => vars[i]) (fun i => a.te.getD i false) a.g
        (fun i => V.getD i 0) = fun _ => 0 := by rw [← funext hγ, h0]
    have hg0 : ∀ i, gammaForForce (fun i : Fin vars.length => a.le.getD i false) (fun _ => (0 : ℝ)) a.ns
        i = 0 := by
      intro i
      unfold gammaForForce
      split_ifs <;> simp
    have hF : ∀ i, sol.force i = 0 := by
      intro i
      rw [hsol, h1]
      simp only [solOf, panelForce, hg0]
      simp
    refine ⟨fun F hm => ?_, fun p hm => ?_, fun p hm => ?_, fun v hm => ?_, fun v hm => ?_⟩
    · obtain ⟨i, rfl⟩ := (List.mem_ofFn' _ _).1 hm
      exact hF i
    · obtain ⟨i, rfl⟩ := (List.mem_ofFn' _ _).1 hm
      have := hF i
      rw [hsol] at this ⊢
      simp only [solOf] at this ⊢
      rw [this]
      simp [V3.dot]
    · obtain ⟨i, rfl⟩ := (List.mem_ofFn' _ _).1 hm
      have := hF i
      rw [hsol] at this ⊢
      simp only [solOf] at this ⊢
      rw [this]
      simp [V3.dot]
    · obtain ⟨i, rfl⟩ := (List.mem_ofFn' _ _).1 hm
      rw [hsol, h1]
      exact hz _
    · obtain ⟨i, rfl⟩ := (List.mem_ofFn' _ _).1 hm
      rw [hsol, h1]
      exact hz _

/-- **C89** for the free wing: no load exactly if the free stream blows along the chord and the span,
that is, has no component along the normal `(sin α, cos α, 0)` of the wing. -/
theorem C89_wing (a : AircraftInput) (w : Aircraft) (h : aircraft a = .ok w) :
    ((∀ γ ∈ List.ofFn w.gamma, γ = 0) ↔ a.V.x * Real.sin (a.aoaDeg * (Real.pi / 180)) +
      a.V.y * Real.cos (a.aoaDeg * (Real.pi / 180)) = 0) ∧
    ((∀ γ ∈ List.ofFn w.gamma, γ = 0) → (∀ F ∈ List.ofFn w.force, F = 0) ∧ w.CL = 0 ∧ w.CD = 0) := by
  obtain ⟨o, ho, h1, h2, -⟩ := C63_same_as_vlm a w h ⟨0, 0, 0, .flat⟩
  obtain ⟨-, hch, hnc, hns, hq, -, -, hp, -, -, -, -, hCL, hCD, -⟩ := aircraft_inv h
  obtain ⟨k1, k2⟩ := C89_no_load _ _ (by rw [List.length_replicate]; rfl) o ho
  rw [h1] at k1 k2
  rw [h2] at k2
  have hcross : ∀ i j, acrossPanel (panelOf (wingPoint a.chord a.half a.aoaDeg a.nc a.ns) i j) =
      (4 * a.half * a.chord / (a.nc * a.ns)) • (⟨Real.sin (a.aoaDeg * (Real.pi / 180)),
        Real.cos (a.aoaDeg * (Real.pi / 180)), 0⟩ : V3) := by
    intro i j
    have n1 : (a.nc : ℝ) ≠ 0 := by positivity
    have n2 : (a.ns : ℝ) ≠ 0 := by positivity
    ext <;> simp [acrossPanel, panelOf, wingPoint] <;> field_simp <;> ring
  have hne : 4 * a.half * a.chord / (a.nc * a.ns) ≠ 0 := by
    have n1 : (a.nc : ℝ) ≠ 0 := by positivity
    have n2 : (a.ns : ℝ) ≠ 0 := by positivity
    have : a.half ≠ 0 := by
      intro h0; apply hq; rw [AircraftInput.S, h0]; ring
    positivity
  refine ⟨k1.trans ⟨fun h0 => ?_, fun h0 k q v hk hv => ?_⟩, fun h0 => ?_⟩
  · have hpos : 0 < a.nc * a.ns := Nat.mul_pos hnc hns
    have hg := C64_wing_geometry a w h
    have hlen := hg.1
    have h00 : w.panelSet.panels[0]? =
        some (panelOf (wingPoint a.chord a.half a.aoaDeg a.nc a.ns) 0 0) := by
      simpa using (hg.2.1 0 0 hnc hns).1
    have := h0 0 _ a.V h00 (by
      rw [List.getElem?_replicate_of_lt (by omega)])
    rw [hcross, V3.dot_smul_right, mul_eq_zero, or_iff_right hne] at this
    simpa [V3.dot] using this
  · have hv' : v = a.V := by
      rw [List.getElem?_replicate] at hv
      split_ifs at hv
      exact (Option.some.inj hv).symm
    have hq : ∃ i j, q = panelOf (wingPoint a.chord a.half a.aoaDeg a.nc a.ns) i j := by
      have hm : q ∈ w.panelSet.panels := List.mem_of_getElem? hk
      rw [hp] at hm
      simp only [blockPanels, panelGrid, List.map_cons, List.map_nil, List.flatten_cons,
        List.flatten_nil, List.append_nil, List.mem_flatMap, List.mem_map] at hm
      obtain ⟨i, -, j, -, hq⟩ := hm
      exact ⟨i, j, hq.symm⟩
    obtain ⟨i, j, rfl⟩ := hq
    rw [hv', hcross, V3.dot_smul_right]
    have : a.V.dot ⟨Real.sin (a.aoaDeg * (Real.pi / 180)), Real.cos (a.aoaDeg * (Real.pi / 180)), 0⟩
        = 0 := by simpa [V3.dot] using h0
    rw [this, mul_zero]
  · have hF := (k2 h0).1
    have hs : (List.ofFn w.force).sum = 0 := List.sum_eq_zero hF
    exact ⟨hF, by rw [hCL, hs]; simp, by rw [hCD, hs]; simp⟩

/-- The hypotheses are met on both sides of the equivalences: a wing along the free stream without load,
and one across it with load. -/
example : (∃ w, aircraft Demo.alongWing = .ok w ∧ ∀ γ ∈ List.ofFn w.gamma, γ = 0) ∧
    ∃ w, aircraft Demo.wing = .ok w ∧ ¬ ∀ γ ∈ List.ofFn w.gamma, γ = 0 := by
  constructor
  · obtain ⟨w, hw⟩ := Demo.alongWing_ok
    exact ⟨w, hw, (C89_wing _ w hw).1.2 (by simp [Demo.alongWing, Demo.wing])⟩
  · obtain ⟨w, hw, -⟩ := Demo.wing_ok
    refine ⟨w, hw, fun h0 => ?_⟩
    have := (C89_wing _ w hw).1.1 h0
    simp [Demo.wing, Demo.V] at this

end PySailing.Props
