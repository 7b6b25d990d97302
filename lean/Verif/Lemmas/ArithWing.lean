import Verif.Spec.ArithWing
import Verif.Lemmas.ArithNear
import Verif.Lemmas.ArithExact
import Verif.Lemmas.NearWing

/-!
# Limits of rounded wings (C131)
-/

namespace PySailing

open Spec Filter Topology

variable {T : Type} {l : Filter T}

/-- The arithmetics `A t` become exact along `l`. -/
structure Spec.RefinedFull (l : Filter T) (growth : ℕ → ℝ) (A : T → FullArith) (u : T → ℝ) : Prop where
  acc : ∀ᶠ t in l, AccurateFull growth (A t) (u t)
  lim : Tendsto u l (𝓝 0)

/-- The entries of the matrices `M t` tend to those of `M0`. -/
structure Spec.ConvM (l : Filter T) (M : T → M3) (M0 : M3) : Prop where
  r0 : Conv l (fun t => (M t).r0) M0.r0
  r1 : Conv l (fun t => (M t).r1) M0.r1
  r2 : Conv l (fun t => (M t).r2) M0.r2

namespace Spec.RefinedFull

variable {growth : ℕ → ℝ} {A : T → FullArith} {u : T → ℝ}

theorem base (R : RefinedFull l growth A u) : Refined l growth (fun t => (A t).toArith) u :=
  ⟨R.acc.mono fun _ h => h.toAccurateArith, R.lim⟩

theorem below (R : RefinedFull l growth A u) {x : T → ℝ} {x0 : ℝ} (hx : Tendsto x l (𝓝 x0)) : ∀ᶠ t in l, |x t| ≤ 1 / u t := by
  have h1 := R.lim.mul hx.abs
  rw [zero_mul] at h1
  filter_upwards [R.base.pos, h1.eventually_lt_const one_pos] with t t1 t2
  rw [le_div_iff₀ t1, mul_comm]
  exact t2.le

theorem cos (R : RefinedFull l growth A u) {x : T → ℝ} {x0 : ℝ} (hx : Tendsto x l (𝓝 x0)) :
    Tendsto (fun t => (A t).cos (x t)) l (𝓝 (Real.cos x0)) :=
  rounds_conv R.lim R.base.pos ((R.acc.and (R.below hx)).mono fun _ h => h.1.cos _ h.2)
    (Real.continuous_cos.continuousAt.tendsto.comp hx)

theorem sin (R : RefinedFull l growth A u) {x : T → ℝ} {x0 : ℝ} (hx : Tendsto x l (𝓝 x0)) :
    Tendsto (fun t => (A t).sin (x t)) l (𝓝 (Real.sin x0)) :=
  rounds_conv R.lim R.base.pos ((R.acc.and (R.below hx)).mono fun _ h => h.1.sin _ h.2)
    (Real.continuous_sin.continuousAt.tendsto.comp hx)

theorem sqrt (R : RefinedFull l growth A u) {x : T → ℝ} {x0 : ℝ} (hx : Tendsto x l (𝓝 x0)) (h0 : 0 < x0) :
    Tendsto (fun t => (A t).sqrt (x t)) l (𝓝 (Real.sqrt x0)) :=
  rounds_conv R.lim R.base.pos ((R.acc.and (hx.eventually_const_lt h0)).mono fun _ h => h.1.sqrt _ h.2.le)
    (Real.continuous_sqrt.continuousAt.tendsto.comp hx)

theorem sum (R : RefinedFull l growth A u) {x : T → List ℝ} {x0 : List ℝ} (hl : ∀ᶠ t in l, (x t).length = x0.length)
    (h : ∀ k, Tendsto (fun t => (x t).getD k 0) l (𝓝 (x0.getD k 0))) : Tendsto (fun t => (A t).sum (x t)) l (𝓝 x0.sum) := by
  have hs := Props.sum_conv hl h
  have ha : Tendsto (fun t => ((x t).map abs).sum) l (𝓝 (x0.map abs).sum) := by
    have e : ∀ (y : List ℝ) (k : ℕ), (y.map abs).getD k 0 = |y.getD k 0| := fun y k => by
      simp only [List.getD_eq_getElem?_getD, List.getElem?_map]
      cases y[k]? <;> simp
    refine Props.sum_conv (by simpa only [List.length_map] using hl) fun k => ?_
    simp only [e]
    exact (h k).abs
  have h2 : Tendsto (fun t => u t * (growth x0.length * (1 + ((x t).map abs).sum))) l (𝓝 0) := by
    have := R.lim.mul ((ha.const_add 1).const_mul (growth x0.length))
    rwa [zero_mul] at this
  have h3 : Tendsto (fun t => (A t).sum (x t) - (x t).sum) l (𝓝 0) := by
    refine squeeze_zero_norm' ?_ h2
    filter_upwards [R.acc, hl, h2.eventually_lt_const one_pos] with t t1 t2 t3
    have := t1.sum (x t) (by rw [t2]; exact t3.le)
    rw [t2] at this
    exact this
  simpa using h3.add hs

theorem deg2rad (R : RefinedFull l growth A u) {x : T → ℝ} {x0 : ℝ} (hx : Tendsto x l (𝓝 x0)) :
    Tendsto (fun t => (A t).deg2rad (x t)) l (𝓝 (PySailing.deg2rad x0)) :=
  R.base.mul hx (R.base.div (R.base.lit _) (R.base.lit _) (by norm_num))

theorem quatMatrix (R : RefinedFull l growth A u) {a b c d : T → ℝ} {a0 b0 c0 d0 : ℝ} (ha : Tendsto a l (𝓝 a0))
    (hb : Tendsto b l (𝓝 b0)) (hc : Tendsto c l (𝓝 c0)) (hd : Tendsto d l (𝓝 d0)) :
    ConvM l (fun t => (A t).quatMatrix (a t) (b t) (c t) (d t)) (PySailing.quatMatrix a0 b0 c0 d0) := by
  have B := R.base
  exact ⟨⟨B.sub (B.sub (B.add (B.mul ha ha) (B.mul hb hb)) (B.mul hc hc)) (B.mul hd hd),
      B.mul (B.lit _) (B.add (B.mul hb hc) (B.mul ha hd)), B.mul (B.lit _) (B.sub (B.mul hb hd) (B.mul ha hc))⟩,
    ⟨B.mul (B.lit _) (B.sub (B.mul hb hc) (B.mul ha hd)),
      B.sub (B.sub (B.add (B.mul ha ha) (B.mul hc hc)) (B.mul hb hb)) (B.mul hd hd),
      B.mul (B.lit _) (B.add (B.mul hc hd) (B.mul ha hb))⟩,
    ⟨B.mul (B.lit _) (B.add (B.mul hb hd) (B.mul ha hc)), B.mul (B.lit _) (B.sub (B.mul hc hd) (B.mul ha hb)),
      B.sub (B.sub (B.add (B.mul ha ha) (B.mul hd hd)) (B.mul hb hb)) (B.mul hc hc)⟩⟩

/-- Rounded rotation matrices tend to the exact one. -/
theorem rotationMatrix (R : RefinedFull l growth A u) {axis : T → V3} {axis0 : V3} (hk : Conv l axis axis0) (h0 : axis0 ≠ 0)
    {θ : T → ℝ} {θ0 : ℝ} (hθ : Tendsto θ l (𝓝 θ0)) :
    ∃ M : T → M3, (∀ᶠ t in l, (A t).rotationMatrix (axis t) (θ t) = .ok (M t)) ∧ ConvM l M (rotationMatrixCore axis0 θ0) := by
  classical
  have B := R.base
  have hpos : 0 < axis0.dot axis0 := V3.dot_self_pos h0
  have hr := R.sqrt (B.dot hk hk) hpos
  have hr0 : Real.sqrt (axis0.dot axis0) ≠ 0 := (Real.sqrt_pos.2 hpos).ne'
  have hv := B.vdiv hk hr hr0
  have hh := B.div hθ (B.lit 2) (by norm_num)
  have hs := R.sin hh
  refine ⟨fun t => (A t).quatMatrix ((A t).cos ((A t).div (θ t) ((A t).lit 2)))
    ((A t).mul (-((A t).vdiv (axis t) ((A t).sqrt ((A t).dot (axis t) (axis t)))).x) ((A t).sin ((A t).div (θ t) ((A t).lit 2))))
    ((A t).mul (-((A t).vdiv (axis t) ((A t).sqrt ((A t).dot (axis t) (axis t)))).y) ((A t).sin ((A t).div (θ t) ((A t).lit 2))))
    ((A t).mul (-((A t).vdiv (axis t) ((A t).sqrt ((A t).dot (axis t) (axis t)))).z) ((A t).sin ((A t).div (θ t) ((A t).lit 2)))),
    ?_, ?_⟩
  · filter_upwards [hr.eventually_ne hr0] with t ht
    exact if_neg ht
  · have := R.quatMatrix (R.cos hh) (B.mul hv.x.neg hs) (B.mul hv.y.neg hs) (B.mul hv.z.neg hs)
    have e : rotationMatrixCore axis0 θ0 = PySailing.quatMatrix (Real.cos (θ0 / 2))
        (-((1 / Real.sqrt (axis0.dot axis0)) • axis0).x * Real.sin (θ0 / 2))
        (-((1 / Real.sqrt (axis0.dot axis0)) • axis0).y * Real.sin (θ0 / 2))
        (-((1 / Real.sqrt (axis0.dot axis0)) • axis0).z * Real.sin (θ0 / 2)) := by
      unfold rotationMatrixCore
      simp only [V3.smul_x, V3.smul_y, V3.smul_z, V3.neg_x, V3.neg_y, V3.neg_z, mul_comm (Real.sin (θ0 / 2))]
    rw [e]
    exact this

theorem mulVec (R : RefinedFull l growth A u) {M : T → M3} {M0 : M3} (hM : ConvM l M M0) {v : T → V3} {v0 : V3} (hv : Conv l v v0) :
    Conv l (fun t => (A t).mulVec (M t) (v t)) (M0.mulVec v0) :=
  ⟨R.base.dot hM.r0 hv, R.base.dot hM.r1 hv, R.base.dot hM.r2 hv⟩

theorem discreteSegment (R : RefinedFull l growth A u) {p q : T → V3} {p0 q0 : V3} (hp : Conv l p p0) (hq : Conv l q q0) (n k : ℕ) :
    Conv l (fun t => ((A t).discreteSegment (p t) (q t) n).getD k 0) ((PySailing.discreteSegment p0 q0 n).getD k 0) := by
  have B := R.base
  unfold FullArith.discreteSegment PySailing.discreteSegment
  rcases Nat.lt_trichotomy k n with h | h | h
  · have e : ∀ (f : ℕ → V3) (w : V3), ((List.range n).map f ++ [w]).getD k 0 = f k := fun f w => by
      rw [List.getD_eq_getElem?_getD, List.getElem?_append_left (by simpa using h), List.getElem?_map, List.getElem?_range h]
      rfl
    simp only [e]
    have hn : ((n : ℕ) : ℝ) ≠ 0 := by
      have : 0 < n := by omega
      exact_mod_cast this.ne'
    exact B.vadd hp (B.vmul (B.lit _) (B.vdiv (B.vsub hq hp) (B.lit _) hn))
  · subst h
    have e : ∀ (f : ℕ → V3) (w : V3), ((List.range k).map f ++ [w]).getD k 0 = w := fun f w => by
      rw [List.getD_eq_getElem?_getD, List.getElem?_append_right (by simp)]
      simp
    simp only [e]
    exact hq
  · have e : ∀ (f : ℕ → V3) (w : V3), ((List.range n).map f ++ [w]).getD k 0 = 0 := fun f w => by
      rw [List.getD_eq_getElem?_getD, List.getElem?_eq_none (by simp; omega)]
      rfl
    simp only [e]
    exact conv_const 0

end Spec.RefinedFull

theorem FullArith.discreteSegment_length (A : FullArith) (p q : V3) (n : ℕ) : (A.discreteSegment p q n).length = n + 1 := by
  simp [FullArith.discreteSegment]

/-- A row of a mesh of lines between two sequences of points. -/
theorem pointMesh_row {s s' : List V3} {n : ℕ} (h : s.length = n) (h' : s'.length = n) (f : V3 × V3 → List V3) (i : ℕ) :
    ((s.zip s').map f).getD i [] = if i < n then f (s.getD i 0, s'.getD i 0) else [] := by
  split_ifs with hi
  · simp only [List.getD_eq_getElem?_getD, List.getElem?_map]
    rw [List.getElem?_eq_getElem (by simp; omega), List.getElem_zip, List.getElem?_eq_getElem (by omega),
      List.getElem?_eq_getElem (by omega)]
    rfl
  · rw [List.getD_eq_getElem?_getD, List.getElem?_eq_none (by simp; omega)]
    rfl

/-- Positions of the panels of a mesh. -/
def panelIndices (N M : ℕ) : List (ℕ × ℕ) := (List.range N).flatMap fun i => (List.range M).map fun j => (i, j)

theorem panels_indices (m : NdMesh) : (makePanelsFromMeshSpanwise m).panels =
    (panelIndices (m.n0 - 1) (m.n1 - 1)).map fun k => panelAt m k.1 k.2 := by
  simp [makePanelsFromMeshSpanwise, panelIndices, List.map_flatMap, Function.comp_def]

namespace Spec.RefinedFull

variable {growth : ℕ → ℝ} {A : T → FullArith} {u : T → ℝ}

theorem makePanelsFromLeTePoints (R : RefinedFull l growth A u) {a b c d : T → V3} {a0 b0 c0 d0 : V3} (ha : Conv l a a0)
    (hb : Conv l b b0) (hc : Conv l c c0) (hd : Conv l d d0) (nc ns : ℕ) :
    (∀ t, ((A t).makePanelsFromLeTePoints (a t) (b t) (c t) (d t) nc ns).te =
        (PySailing.makePanelsFromLeTePoints a0 b0 c0 d0 nc ns).te ∧
      ((A t).makePanelsFromLeTePoints (a t) (b t) (c t) (d t) nc ns).le =
        (PySailing.makePanelsFromLeTePoints a0 b0 c0 d0 nc ns).le ∧
      ((A t).makePanelsFromLeTePoints (a t) (b t) (c t) (d t) nc ns).panels.length =
        (PySailing.makePanelsFromLeTePoints a0 b0 c0 d0 nc ns).panels.length) ∧
    ∀ k, ConvCorners l (fun t => ((A t).makePanelsFromLeTePoints (a t) (b t) (c t) (d t) nc ns).panels.getD k sparePanel)
      ((PySailing.makePanelsFromLeTePoints a0 b0 c0 d0 nc ns).panels.getD k sparePanel) := by
  have n0 : ∀ t, (NdMesh.ofRows (ns + 1) ((A t).makePointMesh ((A t).discreteSegment (a t) (b t) nc)
      ((A t).discreteSegment (c t) (d t) nc) ns)).n0 = nc + 1 := fun t => by
    simp [NdMesh.ofRows, FullArith.makePointMesh, FullArith.discreteSegment_length]
  have n0' : (NdMesh.ofRows (ns + 1) (makePointMesh (PySailing.discreteSegment a0 b0 nc)
      (PySailing.discreteSegment c0 d0 nc) ns)).n0 = nc + 1 := by
    simp [NdMesh.ofRows, makePointMesh, discreteSegment_length]
  have hpt : ∀ i j, Conv l (fun t => (NdMesh.ofRows (ns + 1) ((A t).makePointMesh ((A t).discreteSegment (a t) (b t) nc)
      ((A t).discreteSegment (c t) (d t) nc) ns)).at' i j) ((NdMesh.ofRows (ns + 1) (makePointMesh
      (PySailing.discreteSegment a0 b0 nc) (PySailing.discreteSegment c0 d0 nc) ns)).at' i j) := by
    intro i j
    simp only [NdMesh.ofRows, FullArith.makePointMesh, makePointMesh]
    rw [pointMesh_row (discreteSegment_length _ _ _) (discreteSegment_length _ _ _)]
    simp only [pointMesh_row ((A _).discreteSegment_length _ _ _) ((A _).discreteSegment_length _ _ _)]
    split_ifs with hi
    · exact R.discreteSegment (R.discreteSegment ha hb nc i) (R.discreteSegment hc hd nc i) ns j
    · simp only [List.getD_nil]
      exact conv_const 0
  refine ⟨fun t => ⟨?_, ?_, ?_⟩, fun k => ?_⟩
  · simp only [FullArith.makePanelsFromLeTePoints, PySailing.makePanelsFromLeTePoints, makePanelsFromMeshSpanwise, n0, n0']
    rfl
  · simp only [FullArith.makePanelsFromLeTePoints, PySailing.makePanelsFromLeTePoints, makePanelsFromMeshSpanwise, n0, n0']
    rfl
  · simp only [FullArith.makePanelsFromLeTePoints, PySailing.makePanelsFromLeTePoints, panels_indices, List.length_map, n0, n0']
    rfl
  · simp only [FullArith.makePanelsFromLeTePoints, PySailing.makePanelsFromLeTePoints, panels_indices, n0, n0',
      List.getD_eq_getElem?_getD, List.getElem?_map]
    show ConvCorners l (fun t => (Option.map _ (panelIndices (nc + 1 - 1) (ns + 1 - 1))[k]?).getD sparePanel)
      ((Option.map _ (panelIndices (nc + 1 - 1) (ns + 1 - 1))[k]?).getD sparePanel)
    cases (panelIndices (nc + 1 - 1) (ns + 1 - 1))[k]? with
    | none => exact ⟨conv_const _, conv_const _, conv_const _, conv_const _⟩
    | some ij => exact ⟨hpt _ _, hpt _ _, hpt _ _, hpt _ _⟩

end Spec.RefinedFull

end PySailing
