import Verif.Spec.ArithSail
import Verif.Lemmas.ArithSailExact
import Verif.Lemmas.ArithWing
import Verif.Props.NearSail
import Mathlib.Topology.Instances.Matrix

/-!
# Limits of rounded sails (C132): the mesh
-/

namespace PySailing

open Spec Filter Topology

variable {T : Type} {l : Filter T}

/-! ## What the loops return -/

namespace SailArith

variable (A : SailArith)

/-- Entry `k` of `linspace01 (nc + 1)`. -/
noncomputable def xAt (nc k : ℕ) : ℝ :=
  if k + 1 = nc + 1 then 1 else A.mul (A.lit k) (A.div 1 (A.lit (((nc + 1 : ℕ) : ℝ) - 1)))

theorem linspace01_eq {nc : ℕ} (h : 0 < nc) : A.linspace01 (nc + 1) = (List.range (nc + 1)).map (A.xAt nc) := by
  unfold linspace01
  rw [if_neg (by omega)]
  rfl

open Classical in
/-- The camber line where it is defined. -/
noncomputable def camberAt (m p x : ℝ) : ℝ :=
  if x < p then A.div (A.mul m (A.sub (A.mul (A.mul (A.lit 2) p) x) (A.mul x x))) (A.mul p p)
  else A.div (A.mul m (A.sub (A.add (A.sub (A.lit 1) (A.mul (A.lit 2) p)) (A.mul (A.mul (A.lit 2) p) x)) (A.mul x x)))
    (A.mul (A.sub (A.lit 1) p) (A.sub (A.lit 1) p))

theorem yCamber_eq {m p x : ℝ} (h0 : 0 ≤ x) (h1 : x ≤ 1) (hp : A.mul p p ≠ 0)
    (hd : A.mul (A.sub (A.lit 1) p) (A.sub (A.lit 1) p) ≠ 0) : A.yCamber m p x = .ok (A.camberAt m p x) := by
  unfold yCamber camberAt
  by_cases h : x < p
  · simp only [h, h0, hp, ge_iff_le, and_self, if_true, if_false]
  · simp only [h, h1, hd, ge_iff_le, not_lt.1 h, false_and, and_self, if_true, if_false]

/-- Settings of one row for which the camber line is calculated. -/
structure RowOk (nc : ℕ) (m p : ℝ) : Prop where
  m_nonneg : 0 ≤ m
  m_le : m ≤ A.lit 0.3
  p_nonneg : 0 ≤ p
  p_le : p ≤ A.lit 0.9
  pp : A.mul p p ≠ 0
  dd : A.mul (A.sub (A.lit 1) p) (A.sub (A.lit 1) p) ≠ 0
  xs : ∀ k ≤ nc, 0 ≤ A.xAt nc k ∧ A.xAt nc k ≤ 1

theorem airfoilLine_eq {nc : ℕ} (hnc : 0 < nc) {m p : ℝ} (h : A.RowOk nc m p) :
    A.airfoilLine m p (nc + 1) = .ok ((List.range (nc + 1)).map fun k => (A.xAt nc k, A.camberAt m p (A.xAt nc k))) := by
  have e : ((List.range (nc + 1)).map (A.xAt nc)).mapM (A.yCamber m p) =
      .ok (((List.range (nc + 1)).map (A.xAt nc)).map (A.camberAt m p)) := mapM_ok fun x hx => by
    obtain ⟨k, hk, rfl⟩ := List.mem_map.1 hx
    have := h.xs k (by rw [List.mem_range] at hk; omega)
    exact A.yCamber_eq this.1 this.2 h.pp h.dd
  unfold airfoilLine
  rw [if_neg (not_not.2 ⟨h.m_le, h.m_nonneg⟩), if_neg (not_not.2 ⟨h.p_le, h.p_nonneg⟩), A.linspace01_eq hnc, e]
  simp only [Bind.bind, Except.bind, pure, Except.pure]
  congr 1
  rw [List.map_map, List.zip_map']
  rfl

theorem teLine_eq {L : List V3} {chords : List ℝ} (h : chords.length = L.length) :
    A.teLine L chords = .ok (List.zipWith (fun p c => A.vadd p ⟨c, 0, 0⟩) L chords) := if_pos h

/-- Point `(r, k)` of the mesh. -/
noncomputable def sailPt (a b : V3) (nc ns : ℕ) (chords distance camber : List ℝ) (r k : ℕ) : V3 :=
  let le := (A.discreteSegment a b ns).getD r 0
  let c := A.sub (A.vadd le ⟨chords.getD r 0, 0, 0⟩).x le.x
  ⟨A.add (A.mul c (A.xAt nc k)) le.x, A.mul c (A.camberAt (camber.getD r 0) (distance.getD r 0) (A.xAt nc k)), le.z⟩

theorem makeAirfoilMesh_eq {nc ns : ℕ} (hnc : 0 < nc) (a b : V3) {chords distance camber : List ℝ}
    (hch : chords.length = ns + 1) (hdi : ns + 1 ≤ distance.length) (hca : ns + 1 ≤ camber.length)
    (h : ∀ r ≤ ns, A.RowOk nc (camber.getD r 0) (distance.getD r 0)) :
    ∃ mesh, A.makeAirfoilMesh a b nc ns chords distance camber = .ok mesh ∧ mesh.n0 = ns + 1 ∧ mesh.n1 = nc + 1 ∧
      ∀ r k, r ≤ ns → k ≤ nc → mesh.at' r k = A.sailPt a b nc ns chords distance camber r k := by
  have hlen := A.discreteSegment_length a b ns
  have hte := A.teLine_eq (L := A.discreteSegment a b ns) (chords := chords) (by rw [hlen, hch])
  set L := A.discreteSegment a b ns with hL
  set S := List.zipWith (fun (p : V3) (c : ℝ) => A.vadd p ⟨c, 0, 0⟩) L chords with hS
  have hSlen : S.length = ns + 1 := by simp [hS, hlen, hch]
  set f : (V3 × V3) × ℕ → List V3 := fun q => (List.range (nc + 1)).map fun k =>
      ⟨A.add (A.mul (A.sub q.1.2.x q.1.1.x) (A.xAt nc k)) q.1.1.x,
        A.mul (A.sub q.1.2.x q.1.1.x) (A.camberAt (camber.getD q.2 0) (distance.getD q.2 0) (A.xAt nc k)), q.1.1.z⟩ with hf
  have hrows : ((L.zip S).zipIdx).mapM (fun q => A.airfoilRow (nc + 1) distance camber q.2 q.1.1 q.1.2) =
      .ok (((L.zip S).zipIdx).map f) := by
    apply mapM_ok
    rintro ⟨⟨p1, p2⟩, r⟩ hq
    have hr : r < ns + 1 := by
      have := List.snd_lt_of_mem_zipIdx hq
      simpa [hlen, hSlen] using this
    have hd : r < distance.length := by omega
    have hc : r < camber.length := by omega
    have h1 := h r (by omega)
    have ed : distance.getD r 0 = distance[r] := by simp [List.getD_eq_getElem?_getD, hd]
    have ec : camber.getD r 0 = camber[r] := by simp [List.getD_eq_getElem?_getD, hc]
    rw [ec, ed] at h1
    simp only [airfoilRow]
    rw [idx_ok hd, idx_ok hc]
    simp only [Bind.bind, Except.bind]
    rw [A.airfoilLine_eq hnc h1]
    simp only [pure, Except.pure, List.map_map, hf, ec, ed]
    rfl
  refine ⟨NdMesh.ofRows (nc + 1) (((L.zip S).zipIdx).map f), ?_, ?_, rfl, ?_⟩
  · unfold makeAirfoilMesh
    simp only [← hL, hte, Bind.bind, Except.bind, hrows, pure, Except.pure]
  · simp [NdMesh.ofRows, hlen, hSlen]
  · intro r k hr hk
    have hrL : r < L.length := by omega
    have hrC : r < chords.length := by omega
    have hzip : (L.zip S)[r]? = some (L[r], A.vadd L[r] ⟨chords[r], 0, 0⟩) := by
      rw [List.getElem?_eq_getElem (by simp [hlen, hSlen]; omega)]
      simp [hS]
    have hrow : (((L.zip S).zipIdx).map f)[r]? = some (f ((L[r], A.vadd L[r] ⟨chords[r], 0, 0⟩), r)) := by
      rw [List.getElem?_map, List.getElem?_zipIdx, hzip]
      simp
    have hk' : k < nc + 1 := by omega
    have hr' : r < ns + 1 := by omega
    have eL : L.getD r 0 = L[r] := by simp [List.getD_eq_getElem?_getD, hrL]
    have eC : chords.getD r 0 = chords[r] := by simp [List.getD_eq_getElem?_getD, hrC]
    have e1 : (((L.zip S).zipIdx).map f).getD r [] = f ((L[r], A.vadd L[r] ⟨chords[r], 0, 0⟩), r) := by
      rw [List.getD_eq_getElem?_getD, hrow]; rfl
    simp only [NdMesh.ofRows, e1, sailPt, ← hL, eL, eC]
    simp only [hf, List.getD_eq_getElem?_getD, List.getElem?_map, List.getElem?_range hk', Option.map_some, Option.getD_some]

end SailArith

/-! ## Limits -/

/-- The arithmetics `A t` become exact along `l`. -/
structure Spec.RefinedSail (l : Filter T) (growth : ℕ → ℝ) (A : T → SailArith) (u : T → ℝ) : Prop where
  acc : ∀ᶠ t in l, AccurateSail growth (A t) (u t)
  lim : Tendsto u l (𝓝 0)

namespace Spec.RefinedSail

variable {growth : ℕ → ℝ} {A : T → SailArith} {u : T → ℝ}

theorem full (R : RefinedSail l growth A u) : RefinedFull l growth (fun t => (A t).toFullArith) u :=
  ⟨R.acc.mono fun _ h => h.toAccurateFull, R.lim⟩

theorem base (R : RefinedSail l growth A u) : Refined l growth (fun t => (A t).toArith) u := R.full.base

theorem log (R : RefinedSail l growth A u) {x : T → ℝ} {x0 : ℝ} (hx : Tendsto x l (𝓝 x0)) (h0 : 0 < x0) :
    Tendsto (fun t => (A t).log (x t)) l (𝓝 (Real.log x0)) :=
  rounds_conv R.lim R.base.pos ((R.acc.and (hx.eventually_const_lt h0)).mono fun _ h => h.1.log _ h.2) (hx.log h0.ne')

theorem pow (R : RefinedSail l growth A u) {x : T → ℝ} {x0 c : ℝ} (hx : Tendsto x l (𝓝 x0)) (h0 : 0 < x0 ∨ x0 ≠ 0 ∧ ∃ n : ℤ, c = n) :
    Tendsto (fun t => (A t).pow (x t) c) l (𝓝 (x0 ^ c)) := by
  have hne : x0 ≠ 0 := h0.elim (fun h => h.ne') fun h => h.1
  refine rounds_conv R.lim R.base.pos ?_ (hx.rpow tendsto_const_nhds (Or.inl hne))
  rcases h0 with h | h
  · filter_upwards [R.acc, hx.eventually_const_lt h] with t t1 t2
    exact t1.pow _ _ (Or.inl t2)
  · filter_upwards [R.acc, hx.eventually_ne h.1] with t t1 t2
    exact t1.pow _ _ (Or.inr ⟨t2, h.2⟩)

/-- Rounded products of matrices tend to the exact one. -/
theorem multiDot (R : RefinedSail l growth A u) {Ms : T → List (Matrix (Fin 4) (Fin 4) ℝ)} {Ms0 : List (Matrix (Fin 4) (Fin 4) ℝ)}
    {n : ℕ} (hn : ∀ t, (Ms t).length = n) (hprod : Tendsto (fun t => (Ms t).prod) l (𝓝 Ms0.prod))
    (hsize : Tendsto (fun t => ((Ms t).map fun M => 1 + ∑ i, ∑ j, |M i j|).prod) l
      (𝓝 (Ms0.map fun M => 1 + ∑ i, ∑ j, |M i j|).prod))
    {v : T → Fin 4 → ℝ} {v0 : Fin 4 → ℝ} (hv : ∀ i, Tendsto (fun t => v t i) l (𝓝 (v0 i))) (i : Fin 4) :
    Tendsto (fun t => (A t).multiDot (Ms t) (v t) i) l (𝓝 (Ms0.prod.mulVec v0 i)) := by
  have hc : Tendsto (fun t => chainSize (Ms t) (v t)) l (𝓝 (chainSize Ms0 v0)) :=
    hsize.mul (tendsto_const_nhds.add (tendsto_finsetSum _ fun i _ => (hv i).abs))
  have he : Tendsto (fun t => (Ms t).prod.mulVec (v t) i) l (𝓝 (Ms0.prod.mulVec v0 i)) := by
    unfold Matrix.mulVec dotProduct
    exact tendsto_finsetSum _ fun j _ => (tendsto_pi_nhds.1 (tendsto_pi_nhds.1 hprod i) j).mul (hv j)
  have h2 : Tendsto (fun t => u t * (growth n * chainSize (Ms t) (v t))) l (𝓝 0) := by
    have := R.lim.mul (hc.const_mul (growth n))
    rwa [zero_mul] at this
  have h3 : Tendsto (fun t => (A t).multiDot (Ms t) (v t) i - (Ms t).prod.mulVec (v t) i) l (𝓝 0) := by
    refine squeeze_zero_norm' ?_ h2
    filter_upwards [R.acc, h2.eventually_lt_const one_pos] with t t1 t2
    have := t1.multiDot (Ms t) (v t) (by rw [hn t]; exact t2.le) i
    rwa [hn t] at this
  simpa using h3.add he

theorem xAt (R : RefinedSail l growth A u) {nc : ℕ} (hnc : 0 < nc) {k : ℕ} (hk : k ≤ nc) :
    Tendsto (fun t => (A t).xAt nc k) l (𝓝 ((k : ℝ) / nc)) ∧ ∀ᶠ t in l, 0 ≤ (A t).xAt nc k ∧ (A t).xAt nc k ≤ 1 := by
  have hn : ((nc : ℕ) : ℝ) ≠ 0 := by positivity
  unfold SailArith.xAt
  by_cases h : k + 1 = nc + 1
  · obtain rfl : k = nc := by omega
    simp only [if_true]
    rw [div_self hn]
    exact ⟨tendsto_const_nhds, Eventually.of_forall fun _ => ⟨zero_le_one, le_rfl⟩⟩
  · simp only [h, if_false]
    have e : ((nc + 1 : ℕ) : ℝ) - 1 = nc := by push_cast; ring
    rw [e]
    have hx : Tendsto (fun t => (A t).mul ((A t).lit k) ((A t).div 1 ((A t).lit nc))) l (𝓝 ((k : ℝ) / nc)) := by
      have := R.base.mul (R.base.lit k) (R.base.div (tendsto_const_nhds (x := (1 : ℝ))) (R.base.lit nc) hn)
      rwa [← div_eq_mul_one_div] at this
    refine ⟨hx, ?_⟩
    have hlt : (k : ℝ) / nc < 1 := by
      rw [div_lt_one (by positivity)]
      exact_mod_cast (by omega : k < nc)
    filter_upwards [R.acc, hx.eventually_lt_const hlt] with t t1 t2
    exact ⟨t1.mul_nonneg _ _ (t1.lit_nonneg _ (by positivity)) (t1.div_nonneg _ _ zero_le_one (t1.lit_nonneg _ (by positivity))), t2.le⟩

theorem camberAt (R : RefinedSail l growth A u) {m p x : T → ℝ} {m0 p0 x0 : ℝ} (hm : Tendsto m l (𝓝 m0)) (hp : Tendsto p l (𝓝 p0))
    (hx : Tendsto x l (𝓝 x0)) (h0 : 0 < p0) (h1 : p0 < 1) :
    Tendsto (fun t => (A t).camberAt (m t) (p t) (x t)) l (𝓝 (camberCurve m0 p0 x0)) := by
  have B := R.base
  have hd := B.sub (B.lit 1) hp
  have hp0 : p0 * p0 ≠ 0 := (mul_pos h0 h0).ne'
  have hd0 : (1 - p0) * (1 - p0) ≠ 0 := (mul_pos (sub_pos.2 h1) (sub_pos.2 h1)).ne'
  have f1 := B.div (B.mul hm (B.sub (B.mul (B.mul (B.lit 2) hp) hx) (B.mul hx hx))) (B.mul hp hp) hp0
  have f2 := B.div (B.mul hm (B.sub (B.add (B.sub (B.lit 1) (B.mul (B.lit 2) hp)) (B.mul (B.mul (B.lit 2) hp) hx)) (B.mul hx hx)))
    (B.mul hd hd) hd0
  have e1 : m0 * (2 * p0 * x0 - x0 * x0) / (p0 * p0) = m0 * (1 - ((x0 - p0) / p0) ^ 2) := by
    field_simp
    ring
  have e2 : m0 * (1 - 2 * p0 + 2 * p0 * x0 - x0 * x0) / ((1 - p0) * (1 - p0)) = m0 * (1 - ((x0 - p0) / (1 - p0)) ^ 2) := by
    have := (sub_pos.2 h1).ne'
    field_simp
    ring
  rw [e1] at f1
  rw [e2] at f2
  unfold SailArith.camberAt camberCurve
  rcases lt_trichotomy x0 p0 with h | h | h
  · rw [if_pos h]
    refine f1.congr' ?_
    filter_upwards [hx.eventually_lt hp h] with t ht
    rw [if_pos ht]
  · subst h
    rw [if_neg (lt_irrefl _)]
    simp only [sub_self, zero_div] at f1 f2 ⊢
    exact Tendsto.if' f1 f2
  · rw [if_neg (not_lt.2 h.le)]
    refine f2.congr' ?_
    filter_upwards [hp.eventually_lt hx h] with t ht
    rw [if_neg (not_lt.2 ht.le)]

theorem rowOk (R : RefinedSail l growth A u) {nc : ℕ} (hnc : 0 < nc) {m p : T → ℝ} {p0 : ℝ} (hp : Tendsto p l (𝓝 p0)) (h0 : 0 < p0)
    (h1 : p0 < 1) (hm : ∀ᶠ t in l, 0 ≤ m t ∧ m t ≤ (A t).lit 0.3) (hp' : ∀ᶠ t in l, p t ≤ (A t).lit 0.9) :
    ∀ᶠ t in l, (A t).RowOk nc (m t) (p t) := by
  have B := R.base
  have hd := B.sub (B.lit 1) hp
  have hx : ∀ᶠ t in l, ∀ k : Fin (nc + 1), 0 ≤ (A t).xAt nc k ∧ (A t).xAt nc k ≤ 1 :=
    eventually_all.2 fun k => (R.xAt hnc (Nat.lt_succ_iff.1 k.isLt)).2
  filter_upwards [hm, hp', hp.eventually_const_lt h0, (B.mul hp hp).eventually_ne (mul_pos h0 h0).ne',
    (B.mul hd hd).eventually_ne (mul_pos (sub_pos.2 h1) (sub_pos.2 h1)).ne', hx] with t t1 t2 t3 t4 t5 t6
  exact ⟨t1.1, t1.2, t3.le, t2, t4, t5, fun k hk => t6 ⟨k, by omega⟩⟩

theorem sailPt (R : RefinedSail l growth A u) {a b : T → V3} {a0 b0 : V3} (ha : Conv l a a0) (hb : Conv l b b0) {nc ns : ℕ}
    (hnc : 0 < nc) (hns : 0 < ns) {ch di ca : T → List ℝ} {ch0 di0 ca0 : List ℝ} {r : ℕ} (hr : r ≤ ns)
    (h1 : Tendsto (fun t => (ch t).getD r 0) l (𝓝 (ch0.getD r 0)))
    (h2 : Tendsto (fun t => (di t).getD r 0) l (𝓝 (di0.getD r 0))) (h3 : Tendsto (fun t => (ca t).getD r 0) l (𝓝 (ca0.getD r 0)))
    (hp0 : 0 < di0.getD r 0) (hp1 : di0.getD r 0 < 1) {k : ℕ} (hk : k ≤ nc) :
    Conv l (fun t => (A t).sailPt (a t) (b t) nc ns (ch t) (di t) (ca t) r k) (sailPoint a0 b0 nc ns ch0 di0 ca0 r k) := by
  have B := R.base
  have hle := R.full.discreteSegment ha hb ns r
  have e : (discreteSegment a0 b0 ns).getD r 0 = lerp a0 b0 ((r : ℝ) / ns) := by
    rw [List.getD_eq_getElem?_getD, discreteSegment_getElem? a0 b0 hns hr]; rfl
  rw [e] at hle
  have hx := (R.xAt hnc hk).1
  have hc : Tendsto (fun t => (A t).sub ((A t).vadd (((A t).discreteSegment (a t) (b t) ns).getD r 0) ⟨(ch t).getD r 0, 0, 0⟩).x
      (((A t).discreteSegment (a t) (b t) ns).getD r 0).x) l (𝓝 (ch0.getD r 0)) := by
    have := B.sub (B.add hle.x h1) hle.x
    rwa [add_sub_cancel_left] at this
  unfold SailArith.sailPt sailPoint
  refine ⟨?_, B.mul hc (R.camberAt h3 h2 hx hp0 hp1), hle.z⟩
  have := B.add (B.mul hc hx) hle.x
  rw [add_comm (ch0.getD r 0 * _)] at this
  exact this

end Spec.RefinedSail

end PySailing
