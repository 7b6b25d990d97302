import Verif.Lemmas.ArithSail

/-!
# Limits of rounded sails (C132): heel, leeway, twist and `SailGeometry`
-/

namespace PySailing

open Spec Filter Topology

variable {T : Type} {l : Filter T}

/-! ## What the loops return -/

namespace SailArith

variable (A : SailArith)

theorem rotateArbitrary_eq {p1 p2 : V3} (hv : A.axisV p1 p2 ≠ 0) (hn : A.norm (A.vsub p2 p1) ≠ 0) (ps : List V3) (θ : ℝ) :
    A.rotatePointsAroundArbitraryAxis ps p1 p2 θ = .ok (ps.map (A.rotateAboutLineCore p1 p2 θ)) :=
  if_neg fun h => h.2.elim hv hn

theorem rotatePointsAroundLe_eq {p1 p2 : V3} (hv : A.axisV p1 p2 ≠ 0) (hn : A.norm (A.vsub p2 p1) ≠ 0) {points : List V3}
    {twist : List ℝ} (hl : points.length = twist.length) (hne : twist ≠ []) :
    A.rotatePointsAroundLe points p1 p2 twist =
      .ok (List.zipWith (fun p t => A.rotateAboutLineCore p1 p2 (A.deg2rad t) p) points twist) := by
  rcases twist with _ | ⟨t0, ts⟩
  · exact absurd rfl hne
  unfold rotatePointsAroundLe
  simp only
  split_ifs with hall
  · rw [A.rotateArbitrary_eq hv hn]
    congr 1
    apply List.ext_getElem?
    intro i
    rw [List.getElem?_zipWith, List.getElem?_map]
    by_cases hi : i < points.length
    · have hi' : i < (t0 :: ts).length := by omega
      rw [List.getElem?_eq_getElem hi, List.getElem?_eq_getElem hi']
      simp only [Option.map_some]
      rw [hall _ (List.getElem_mem hi')]
    · rw [List.getElem?_eq_none (by omega)]
      simp
  · have : (points.zip (t0 :: ts)).mapM (fun q => A.rotatePointsAroundArbitraryAxis [q.1] p1 p2 (A.deg2rad q.2)) =
        .ok ((points.zip (t0 :: ts)).map fun q => [A.rotateAboutLineCore p1 p2 (A.deg2rad q.2) q.1]) := by
      apply mapM_ok
      intro q _
      rw [A.rotateArbitrary_eq hv hn]
      rfl
    rw [this]
    simp only [Bind.bind, Except.bind, pure, Except.pure]
    congr 1
    rw [← List.flatMap_def, ← List.map_eq_flatMap, List.zip, List.map_zipWith]

/-- The three comparisons of two points. -/
def PointEq (a b : V3) : Prop := A.almostEq a.x b.x ∧ A.almostEq a.y b.y ∧ A.almostEq a.z b.z

/-- The luff is an axis and stays where it is. -/
structure LuffOk (f : ℕ → ℕ → V3) (ns : ℕ) (tw : ℕ → ℝ) : Prop where
  axis : A.axisV (f 0 0) (f ns 0) ≠ 0
  norm : A.norm (A.vsub (f ns 0) (f 0 0)) ≠ 0
  stays : ∀ r ≤ ns, A.PointEq (A.rotateAboutLineCore (f 0 0) (f ns 0) (A.deg2rad (tw r)) (f r 0)) (f r 0)

theorem twistMesh_eq {f : ℕ → ℕ → V3} {ns nc : ℕ} {tw : ℕ → ℝ} (h : A.LuffOk f ns tw) :
    A.twistMesh ((List.range (ns + 1)).flatMap fun i => (List.range (nc + 1)).map fun j => f i j) (ns + 1) (nc + 1)
      ((List.range (ns + 1)).flatMap fun i => (List.range (nc + 1)).map fun _ => tw i) =
    .ok ((List.range (ns + 1)).flatMap fun i => (List.range (nc + 1)).map fun j =>
      A.rotateAboutLineCore (f 0 0) (f ns 0) (A.deg2rad (tw i)) (f i j)) := by
  unfold twistMesh
  rw [everyNth_grid _ _ _ (by omega)]
  have e1 : ((List.range (ns + 1)).map fun i => f i 0).getD (ns + 1 - 1) 0 = f ns 0 := by simp [List.getD_eq_getElem?_getD]
  have e0 : ((List.range (ns + 1)).map fun i => f i 0).getD 0 0 = f 0 0 := by simp [List.getD_eq_getElem?_getD]
  simp only [e1, e0]
  rw [A.rotatePointsAroundLe_eq h.axis h.norm (by rw [grid_length, grid_length (ns + 1) (nc + 1) fun i _ => tw i])
    (grid_ne_nil (fun i _ => tw i) (by omega) (by omega)), grid_zipWith (ns + 1) (nc + 1) f (fun i _ => tw i)]
  simp only [nanFailsAssert, Bind.bind, Except.bind, pure, Except.pure]
  rw [everyNth_grid (ns + 1) (nc + 1) (fun i j => A.rotateAboutLineCore (f 0 0) (f ns 0) (A.deg2rad (tw i)) (f i j)) (by omega)]
  have : A.assertAlmostEqual ((List.range (ns + 1)).map fun i => A.rotateAboutLineCore (f 0 0) (f ns 0) (A.deg2rad (tw i)) (f i 0))
      ((List.range (ns + 1)).map fun i => f i 0) = .ok () := by
    unfold assertAlmostEqual
    rw [if_pos]
    refine ⟨by simp, fun q hq => ?_⟩
    rw [List.zip_map', List.mem_map] at hq
    obtain ⟨r, hr, rfl⟩ := hq
    exact h.stays r (by rw [List.mem_range] at hr; omega)
  rw [this]

/-- Mesh, heel, leeway and twist for one side: the points. -/
noncomputable def twistedPt (f : ℕ → ℕ → V3) (ns : ℕ) (tw : ℕ → ℝ) (r k : ℕ) : V3 :=
  A.rotateAboutLineCore (f 0 0) (f ns 0) (A.deg2rad (tw r)) (f r k)

theorem twistBlock_given {s : SailInput} {tw : List ℝ} {mode : String} (h1 : s.twist = some tw) (h2 : s.mode = some mode)
    (h3 : tw.length = s.ns + 1) (h4 : mode = "sheeting_angle_const" ∨ mode = "average_const" ∨ mode = "real_twist")
    {f g : ℕ → ℕ → V3} {nc : ℕ} (hf : A.LuffOk f s.ns fun r => tw.getD r 0) (hg : A.LuffOk g s.ns fun r => tw.getD (s.ns - r) 0) :
    A.twistBlock s (s.ns + 1) (nc + 1)
      ((List.range (s.ns + 1)).flatMap fun i => (List.range (nc + 1)).map fun j => f i j)
      ((List.range (s.ns + 1)).flatMap fun i => (List.range (nc + 1)).map fun j => g i j) =
    .ok ((List.range (s.ns + 1)).flatMap fun i => (List.range (nc + 1)).map fun j =>
        A.twistedPt f s.ns (fun r => tw.getD r 0) i j,
      (List.range (s.ns + 1)).flatMap fun i => (List.range (nc + 1)).map fun j =>
        A.twistedPt g s.ns (fun r => tw.getD (s.ns - r) 0) i j) := by
  obtain ⟨x, hx⟩ := twistDict_ok (tw := tw) (by rintro rfl; simp at h3) h4
  unfold twistBlock
  rw [h1, h2]
  simp only [hx, Bind.bind, Except.bind, twistPerPoint_ok h3]
  rw [A.twistMesh_eq hf]
  simp only
  rw [grid_reverse (s.ns + 1) (nc + 1) fun i _ => tw.getD i 0]
  simp only [Nat.add_sub_cancel]
  rw [A.twistMesh_eq hg]
  rfl

theorem twistBlock_none {s : SailInput} (h : s.twist = none ∨ s.mode = none) (sh0 sh1 : ℕ) (a b : List V3) :
    A.twistBlock s sh0 sh1 a b = .ok (a, b) := by
  unfold twistBlock
  rcases h with h | h
  · rw [h]
  · rw [h]; cases s.twist <;> rfl

/-- `SailGeometry` returns the panels of its points. -/
theorem sailGeometry_of {s : SailInput} {M : M3 × M3 × M3} (hM : A.csysMatrices s.csys = .ok M) {m m' : NdMesh}
    (h1 : A.makeAirfoilMesh s.tack s.head s.nc s.ns s.chords s.distance s.camber = .ok m)
    (h2 : A.makeAirfoilMesh (flipZ s.head) (flipZ s.tack) s.nc s.ns s.chords.reverse s.distance s.camber.reverse = .ok m')
    (n0 : m.n0 = s.ns + 1) (n1 : m.n1 = s.nc + 1) (n0' : m'.n0 = s.ns + 1) (n1' : m'.n1 = s.nc + 1) {P Q : ℕ → ℕ → V3}
    (ht : A.twistBlock s (s.ns + 1) (s.nc + 1)
      ((List.range (s.ns + 1)).flatMap fun i => (List.range (s.nc + 1)).map fun j => A.rotatePointWithMirror M (m.at' i j))
      ((List.range (s.ns + 1)).flatMap fun i => (List.range (s.nc + 1)).map fun j => A.rotatePointWithMirror M (m'.at' i j)) =
      .ok ((List.range (s.ns + 1)).flatMap fun i => (List.range (s.nc + 1)).map fun j => P i j,
        (List.range (s.ns + 1)).flatMap fun i => (List.range (s.nc + 1)).map fun j => Q i j)) :
    ∃ g, A.sailGeometry s = .ok g ∧ g.ns = s.ns ∧ g.nc = s.nc ∧ g.panelsAbove = panelGrid s.nc s.ns P ∧
      g.panelsUnder = panelGrid s.nc s.ns Q ∧
      g.te = ((List.range s.nc).flatMap fun i => (List.range s.ns).map fun _ => if i + 1 = s.nc then true else false) ∧
      g.le = ((List.range s.nc).flatMap fun i => (List.range s.ns).map fun _ =>
        if i + 1 = s.nc then false else if i = 0 then true else false) := by
  have ef : m.flatten.map (A.rotatePointWithMirror M) =
      (List.range (s.ns + 1)).flatMap fun i => (List.range (s.nc + 1)).map fun j => A.rotatePointWithMirror M (m.at' i j) := by
    unfold NdMesh.flatten
    rw [grid_map, n0, n1]
  have eu : m'.flatten.map (A.rotatePointWithMirror M) =
      (List.range (s.ns + 1)).flatMap fun i => (List.range (s.nc + 1)).map fun j => A.rotatePointWithMirror M (m'.at' i j) := by
    unfold NdMesh.flatten
    rw [grid_map, n0', n1']
  refine ⟨_, by
    unfold sailGeometry
    simp only [hM, h1, h2, Bind.bind, Except.bind, ef, eu, n0, n1, ht]
    rw [if_pos (by rfl), if_pos (by rfl)]
    rfl, rfl, rfl, ?_, ?_, ?_, ?_⟩
  · apply makePanels_swap _ _ _ _ rfl rfl
    intro r k hr hk
    exact reshape_grid _ _ P (by omega) (by omega)
  · apply makePanels_swap _ _ _ _ rfl rfl
    intro r k hr hk
    exact reshape_grid _ _ Q (by omega) (by omega)
  · simp [makePanelsFromMeshSpanwise, NdMesh.swapaxes, NdMesh.reshape]
  · simp [makePanelsFromMeshSpanwise, NdMesh.swapaxes, NdMesh.reshape]

end SailArith

/-! ## Limits -/

/-- The sails `s t`, calculated with the arithmetics `A t`, tend to `s0`. -/
structure Spec.TendsSail (l : Filter T) (A : T → SailArith) (s : T → SailInput) (s0 : SailInput) : Prop where
  nc : ∀ᶠ t in l, (s t).nc = s0.nc
  ns : ∀ᶠ t in l, (s t).ns = s0.ns
  mode : ∀ᶠ t in l, (s t).mode = s0.mode
  tack : Conv l (fun t => (s t).tack) s0.tack
  head : Conv l (fun t => (s t).head) s0.head
  heel : Tendsto (fun t => (s t).csys.heelDeg) l (𝓝 s0.csys.heelDeg)
  leeway : Tendsto (fun t => (s t).csys.leewayDeg) l (𝓝 s0.csys.leewayDeg)
  chords_len : ∀ᶠ t in l, (s t).chords.length = s0.chords.length
  camber_len : ∀ᶠ t in l, (s t).camber.length = s0.camber.length
  distance_len : ∀ᶠ t in l, (s t).distance.length = s0.distance.length
  chords : ∀ r, Tendsto (fun t => (s t).chords.getD r 0) l (𝓝 (s0.chords.getD r 0))
  camber : ∀ r, Tendsto (fun t => (s t).camber.getD r 0) l (𝓝 (s0.camber.getD r 0))
  distance : ∀ r, Tendsto (fun t => (s t).distance.getD r 0) l (𝓝 (s0.distance.getD r 0))
  twist : (s0.twist = none ∧ ∀ᶠ t in l, (s t).twist = none) ∨ ∃ (tw0 : List ℝ) (tw : T → List ℝ), s0.twist = some tw0 ∧
    (∀ r, Tendsto (fun t => (tw t).getD r 0) l (𝓝 (tw0.getD r 0))) ∧ ∀ᶠ t in l, (s t).twist = some (tw t) ∧ (tw t).length = tw0.length
  range : ∀ᶠ t in l, InRange (A t) (s t)

theorem matrix_entry {M : T → Matrix (Fin 4) (Fin 4) ℝ} {M0 : Matrix (Fin 4) (Fin 4) ℝ} (h : Tendsto M l (𝓝 M0)) (i j : Fin 4) :
    Tendsto (fun t => M t i j) l (𝓝 (M0 i j)) := tendsto_pi_nhds.1 (tendsto_pi_nhds.1 h i) j

theorem matrix_size {M : T → Matrix (Fin 4) (Fin 4) ℝ} {M0 : Matrix (Fin 4) (Fin 4) ℝ} (h : Tendsto M l (𝓝 M0)) :
    Tendsto (fun t => 1 + ∑ i, ∑ j, |M t i j|) l (𝓝 (1 + ∑ i, ∑ j, |M0 i j|)) :=
  tendsto_const_nhds.add (tendsto_finsetSum _ fun i _ => tendsto_finsetSum _ fun j _ => (matrix_entry h i j).abs)

theorem matD_conv {p : T → V3} {p0 : V3} (h : Conv l p p0) : Tendsto (fun t => matD (p t)) l (𝓝 (matD p0)) := by
  refine tendsto_pi_nhds.2 fun i => tendsto_pi_nhds.2 fun j => ?_
  fin_cases i <;> fin_cases j <;>
    first | exact tendsto_const_nhds | exact h.x.neg | exact h.y.neg | exact h.z.neg

theorem matDinv_conv {p : T → V3} {p0 : V3} (h : Conv l p p0) : Tendsto (fun t => matDinv (p t)) l (𝓝 (matDinv p0)) := by
  refine tendsto_pi_nhds.2 fun i => tendsto_pi_nhds.2 fun j => ?_
  fin_cases i <;> fin_cases j <;>
    first | exact tendsto_const_nhds | exact h.x | exact h.y | exact h.z

namespace Spec.RefinedSail

variable {growth : ℕ → ℝ} {A : T → SailArith} {u : T → ℝ}

theorem matRx (R : RefinedSail l growth A u) {b c v : T → ℝ} {b0 c0 v0 : ℝ} (hb : Tendsto b l (𝓝 b0)) (hc : Tendsto c l (𝓝 c0))
    (hv : Tendsto v l (𝓝 v0)) (h0 : v0 ≠ 0) :
    Tendsto (fun t => (A t).matRx (b t) (c t) (v t)) l (𝓝 (PySailing.matRx b0 c0 v0)) := by
  have d1 := R.base.div hc hv h0
  have d2 := R.base.div hb hv h0
  have d3 := R.base.div hb.neg hv h0
  refine tendsto_pi_nhds.2 fun i => tendsto_pi_nhds.2 fun j => ?_
  fin_cases i <;> fin_cases j <;>
    first | exact tendsto_const_nhds | exact d1 | exact d2 | exact d3

theorem matRxInv (R : RefinedSail l growth A u) {b c v : T → ℝ} {b0 c0 v0 : ℝ} (hb : Tendsto b l (𝓝 b0)) (hc : Tendsto c l (𝓝 c0))
    (hv : Tendsto v l (𝓝 v0)) (h0 : v0 ≠ 0) :
    Tendsto (fun t => (A t).matRxInv (b t) (c t) (v t)) l (𝓝 (PySailing.matRxInv b0 c0 v0)) := by
  have d1 := R.base.div hc hv h0
  have d2 := R.base.div hb hv h0
  have d3 := R.base.div hb.neg hv h0
  refine tendsto_pi_nhds.2 fun i => tendsto_pi_nhds.2 fun j => ?_
  fin_cases i <;> fin_cases j <;>
    first | exact tendsto_const_nhds | exact d1 | exact d2 | exact d3

theorem matRy (R : RefinedSail l growth A u) {a v w : T → ℝ} {a0 v0 w0 : ℝ} (ha : Tendsto a l (𝓝 a0)) (hv : Tendsto v l (𝓝 v0))
    (hw : Tendsto w l (𝓝 w0)) (h0 : w0 ≠ 0) :
    Tendsto (fun t => (A t).matRy (a t) (v t) (w t)) l (𝓝 (PySailing.matRy a0 v0 w0)) := by
  have d1 := R.base.div hv hw h0
  have d2 := R.base.div ha hw h0
  have d3 := R.base.div ha.neg hw h0
  refine tendsto_pi_nhds.2 fun i => tendsto_pi_nhds.2 fun j => ?_
  fin_cases i <;> fin_cases j <;>
    first | exact tendsto_const_nhds | exact d1 | exact d2 | exact d3

theorem matRyInv (R : RefinedSail l growth A u) {a v w : T → ℝ} {a0 v0 w0 : ℝ} (ha : Tendsto a l (𝓝 a0)) (hv : Tendsto v l (𝓝 v0))
    (hw : Tendsto w l (𝓝 w0)) (h0 : w0 ≠ 0) :
    Tendsto (fun t => (A t).matRyInv (a t) (v t) (w t)) l (𝓝 (PySailing.matRyInv a0 v0 w0)) := by
  have d1 := R.base.div hv hw h0
  have d2 := R.base.div ha hw h0
  have d3 := R.base.div ha.neg hw h0
  refine tendsto_pi_nhds.2 fun i => tendsto_pi_nhds.2 fun j => ?_
  fin_cases i <;> fin_cases j <;>
    first | exact tendsto_const_nhds | exact d1 | exact d2 | exact d3

theorem matRz (R : RefinedSail l growth A u) {θ : T → ℝ} {θ0 : ℝ} (hθ : Tendsto θ l (𝓝 θ0)) :
    Tendsto (fun t => (A t).matRz (θ t)) l (𝓝 (PySailing.matRz θ0)) := by
  have d1 := R.full.cos hθ
  have d2 := R.full.sin hθ
  refine tendsto_pi_nhds.2 fun i => tendsto_pi_nhds.2 fun j => ?_
  fin_cases i <;> fin_cases j <;>
    first | exact tendsto_const_nhds | exact d1 | exact d2 | exact d2.neg

theorem axisV (R : RefinedSail l growth A u) {p q : T → V3} {p0 q0 : V3} (hp : Conv l p p0) (hq : Conv l q q0) (h : AxisOk p0 q0) :
    Tendsto (fun t => (A t).axisV (p t) (q t)) l (𝓝 (Real.sqrt ((q0 - p0).y ^ 2 + (q0 - p0).z ^ 2))) := by
  have ha := R.base.vsub hq hp
  have := R.full.sqrt (R.base.add (R.base.mul ha.y ha.y) (R.base.mul ha.z ha.z)) (by
    have := h.sq
    rw [← sq, ← sq]
    positivity)
  rw [sq, sq]
  exact this

/-- Rounded rotations about a line tend to the exact one. -/
theorem rotateAboutLineCore (R : RefinedSail l growth A u) {p q x : T → V3} {p0 q0 x0 : V3} (hp : Conv l p p0) (hq : Conv l q q0)
    (hx : Conv l x x0) (h : AxisOk p0 q0) {θ : T → ℝ} {θ0 : ℝ} (hθ : Tendsto θ l (𝓝 θ0)) :
    Conv l (fun t => (A t).rotateAboutLineCore (p t) (q t) (θ t) (x t)) (rotateAboutLine p0 q0 θ0 x0) := by
  have B := R.base
  have ha := B.vsub hq hp
  have hv := R.axisV hp hq h
  have hv0 : Real.sqrt ((q0 - p0).y ^ 2 + (q0 - p0).z ^ 2) ≠ 0 := by
    rw [Real.sqrt_ne_zero (by positivity)]; exact h.sq
  have hn := B.norm ha
  have hn0 := (V3.norm_pos h.ne).ne'
  have m1 := matDinv_conv hp
  have m2 := R.matRxInv ha.y ha.z hv hv0
  have m3 := R.matRyInv ha.x hv hn hn0
  have m4 := R.matRz hθ
  have m5 := R.matRy ha.x hv hn hn0
  have m6 := R.matRx ha.y ha.z hv hv0
  have m7 := matD_conv hp
  have key := R.multiDot (Ms := fun t => [matDinv (p t), (A t).matRxInv ((A t).vsub (q t) (p t)).y ((A t).vsub (q t) (p t)).z
      ((A t).axisV (p t) (q t)), (A t).matRyInv ((A t).vsub (q t) (p t)).x ((A t).axisV (p t) (q t)) ((A t).norm ((A t).vsub (q t) (p t))),
      (A t).matRz (θ t), (A t).matRy ((A t).vsub (q t) (p t)).x ((A t).axisV (p t) (q t)) ((A t).norm ((A t).vsub (q t) (p t))),
      (A t).matRx ((A t).vsub (q t) (p t)).y ((A t).vsub (q t) (p t)).z ((A t).axisV (p t) (q t)), matD (p t)])
    (Ms0 := [matDinv p0, PySailing.matRxInv (q0 - p0).y (q0 - p0).z (Real.sqrt ((q0 - p0).y ^ 2 + (q0 - p0).z ^ 2)),
      PySailing.matRyInv (q0 - p0).x (Real.sqrt ((q0 - p0).y ^ 2 + (q0 - p0).z ^ 2)) (q0 - p0).norm, PySailing.matRz θ0,
      PySailing.matRy (q0 - p0).x (Real.sqrt ((q0 - p0).y ^ 2 + (q0 - p0).z ^ 2)) (q0 - p0).norm,
      PySailing.matRx (q0 - p0).y (q0 - p0).z (Real.sqrt ((q0 - p0).y ^ 2 + (q0 - p0).z ^ 2)), matD p0])
    (n := 7) (fun _ => rfl) (by
      simp only [List.prod_cons, List.prod_nil, mul_one]
      exact m1.mul (m2.mul (m3.mul (m4.mul (m5.mul (m6.mul m7)))))) (by
      simp only [List.map_cons, List.map_nil, List.prod_cons, List.prod_nil, mul_one]
      exact (matrix_size m1).mul ((matrix_size m2).mul ((matrix_size m3).mul ((matrix_size m4).mul ((matrix_size m5).mul
        ((matrix_size m6).mul (matrix_size m7)))))))
    (v := fun t => homog (x t)) (v0 := homog x0) (by
      intro i
      fin_cases i
      · exact hx.x
      · exact hx.y
      · exact hx.z
      · exact tendsto_const_nhds)
  rw [← rotateAboutLineCore_eq p0 q0 θ0 h.sq x0]
  unfold PySailing.rotateAboutLineCore arbitraryAxisMatrix
  simp only [List.prod_cons, List.prod_nil, Matrix.mul_one] at key
  simp only [Matrix.mul_assoc]
  exact ⟨key 0, key 1, key 2⟩

theorem csysMatrices (R : RefinedSail l growth A u) {c : T → Csys} {c0 : Csys}
    (h1 : Tendsto (fun t => (c t).heelDeg) l (𝓝 c0.heelDeg)) (h2 : Tendsto (fun t => (c t).leewayDeg) l (𝓝 c0.leewayDeg)) :
    ∃ M : T → M3 × M3 × M3, (∀ᶠ t in l, (A t).csysMatrices (c t) = .ok (M t)) ∧ ConvM l (fun t => (M t).1) c0.heeling ∧
      ConvM l (fun t => (M t).2.1) c0.reverseHeeling ∧ ConvM l (fun t => (M t).2.2) c0.leeway := by
  obtain ⟨a, a1, a2⟩ := R.full.rotationMatrix (conv_const Csys.ex) ExactSail.ex_ne (R.full.deg2rad h1.neg)
  obtain ⟨b, b1, b2⟩ := R.full.rotationMatrix (conv_const Csys.ex) ExactSail.ex_ne (R.full.deg2rad h1)
  obtain ⟨d, d1, d2⟩ := R.full.rotationMatrix (conv_const Csys.ez) ExactSail.ez_ne (R.full.deg2rad h2)
  refine ⟨fun t => (a t, b t, d t), ?_, a2, b2, d2⟩
  filter_upwards [a1, b1, d1] with t t1 t2 t3
  unfold SailArith.csysMatrices
  rw [t1, t2, t3]
  rfl

theorem rotatePointWithMirror (R : RefinedSail l growth A u) {M : T → M3 × M3 × M3} {c : Csys} (m1 : ConvM l (fun t => (M t).1) c.heeling)
    (m2 : ConvM l (fun t => (M t).2.1) c.reverseHeeling) (m3 : ConvM l (fun t => (M t).2.2) c.leeway) {p : T → V3} {p0 : V3}
    (hp : Conv l p p0) (h0 : p0.z ≠ 0 ∨ c.heeling.mulVec p0 = c.reverseHeeling.mulVec p0) :
    Conv l (fun t => (A t).rotatePointWithMirror (M t) (p t)) (c.rotatePointWithMirror p0) := by
  have a := R.full.mulVec m1 hp
  have b := R.full.mulVec m2 hp
  have key : Conv l (fun t => if (p t).z > 0 then (A t).mulVec (M t).1 (p t) else (A t).mulVec (M t).2.1 (p t))
      (if p0.z > 0 then c.heeling.mulVec p0 else c.reverseHeeling.mulVec p0) := by
    rcases h0 with h | h
    · rcases lt_or_gt_of_ne h with h | h
      · rw [if_neg (not_lt.2 h.le)]
        refine b.congr' ?_
        filter_upwards [hp.z.eventually_lt_const h] with t ht
        rw [if_neg (not_lt.2 ht.le)]
      · rw [if_pos h]
        refine a.congr' ?_
        filter_upwards [hp.z.eventually_const_lt h] with t ht
        rw [if_pos ht]
    · rw [← h, ite_self]
      rw [← h] at b
      have e : ∀ (F : V3 → ℝ) t, F (if (p t).z > 0 then (A t).mulVec (M t).1 (p t) else (A t).mulVec (M t).2.1 (p t)) =
          if (p t).z > 0 then F ((A t).mulVec (M t).1 (p t)) else F ((A t).mulVec (M t).2.1 (p t)) := fun F t => by
        split_ifs <;> rfl
      constructor
      · simp only [e V3.x]; exact Tendsto.if' a.x b.x
      · simp only [e V3.y]; exact Tendsto.if' a.y b.y
      · simp only [e V3.z]; exact Tendsto.if' a.z b.z
  have := R.full.mulVec m3 key
  unfold SailArith.rotatePointWithMirror Csys.rotatePointWithMirror
  convert this using 5

end Spec.RefinedSail

end PySailing
