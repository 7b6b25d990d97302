import Verif.Lemmas.ArithRunSail
import Verif.Lemmas.NearBook

/-!
# Limits of rounded runs (C134): the sheet `Integrals`
-/

namespace PySailing

open Spec Filter Topology

variable {T : Type} {l : Filter T}

/-! ## Dictionaries -/

/-- Dictionaries that converge, uniformly in the keys. -/
def UDict (l : Filter T) (d : T → PyDict) (d0 : PyDict) : Prop := ∀ ε > 0, ∀ᶠ t in l, CloseIntegrals ε (d t) d0

theorem closeNumber_refl {ε : ℝ} (hε : 0 ≤ ε) (x : Option ℝ) : CloseNumber ε x x := by
  cases x with
  | none => exact Option.Rel.none
  | some a => exact Option.Rel.some (by simpa using hε)

theorem UDict.empty : UDict l (fun _ => PyDict.empty) PyDict.empty := fun _ hε => .of_forall fun _ _ => closeNumber_refl hε.le _

theorem UDict.set {d : T → PyDict} {d0 : PyDict} (h : UDict l d d0) (key : String) {v : T → ℝ} {v0 : ℝ} (hv : Tendsto v l (𝓝 v0)) :
    UDict l (fun t => (d t).set key (v t)) (d0.set key v0) := by
  intro ε hε
  filter_upwards [h ε hε, eventually_le hε hv] with t t1 t2 k
  unfold PyDict.set
  simp only [Function.update_apply]
  split_ifs
  · exact Option.Rel.some t2
  · exact t1 k

theorem UDict.setVec {d : T → PyDict} {d0 : PyDict} (h : UDict l d d0) (key : String) {v : T → V3} {v0 : V3} (hv : Conv l v v0) :
    UDict l (fun t => (d t).setVec key (v t)) (d0.setVec key v0) :=
  ((h.set _ hv.x).set _ hv.y).set _ hv.z

theorem UDict.setMomentCow {d : T → PyDict} {d0 : PyDict} (h : UDict l d d0) (key : String) {v : T → V3} {v0 : V3} (hv : Conv l v v0) :
    UDict l (fun t => (d t).setMomentCow key (v t)) (d0.setMomentCow key v0) :=
  (((h.set _ hv.x).set _ hv.y).set _ hv.z).set _ hv.z.neg

theorem UDict.update {d e : T → PyDict} {d0 e0 : PyDict} (h : UDict l d d0) (h' : UDict l e e0) :
    UDict l (fun t => (d t).update (e t)) (d0.update e0) := by
  intro ε hε
  filter_upwards [h ε hε, h' ε hε] with t t1 t2 k
  have a := t1 k
  have b := t2 k
  unfold PyDict.update
  unfold CloseNumber at *
  cases hb : e0 k with
  | none =>
    rw [hb] at b
    cases hb' : e t k with
    | none => simpa [hb, hb'] using a
    | some y => rw [hb'] at b; cases b
  | some x =>
    rw [hb] at b
    cases hb' : e t k with
    | none => rw [hb'] at b; cases b
    | some y => rw [hb'] at b; simpa [hb, hb'] using b

theorem UDict.congr' {d e : T → PyDict} {d0 : PyDict} (h : UDict l d d0) (he : ∀ᶠ t in l, d t = e t) : UDict l e d0 := by
  intro ε hε
  filter_upwards [h ε hε, he] with t t1 t2
  rw [← t2]; exact t1

/-! ## Lists of vectors -/

/-- Lists of vectors that converge: finally of the same length, and in every entry. -/
def ConvVL (l : Filter T) (x : T → List V3) (x0 : List V3) : Prop :=
  (∀ᶠ t in l, (x t).length = x0.length) ∧ ∀ k, Conv l (fun t => (x t).getD k 0) (x0.getD k 0)

theorem convVL_of {v : T → List V3} {v0 : List V3} (hl : ∀ᶠ t in l, (v t).length = v0.length)
    (h : ∀ r, r < v0.length → Conv l (fun t => (v t).getD r 0) (v0.getD r 0)) : ConvVL l v v0 := by
  refine ⟨hl, fun r => ?_⟩
  by_cases hr : r < v0.length
  · exact h r hr
  · have e0 : v0.getD r 0 = 0 := by rw [List.getD_eq_getElem?_getD, List.getElem?_eq_none (by omega)]; rfl
    rw [e0]
    refine (conv_const 0).congr' ?_
    filter_upwards [hl] with t t1
    rw [List.getD_eq_getElem?_getD, List.getElem?_eq_none (by omega)]; rfl

theorem getD_of_lt {α : Type} {xs : List α} {k : ℕ} (h : k < xs.length) (d : α) : xs.getD k d = xs[k] := by
  rw [List.getD_eq_getElem?_getD, List.getElem?_eq_getElem h]; rfl

theorem getD_map_v {f : V3 → V3} {xs : List V3} {k : ℕ} (h : k < xs.length) : (xs.map f).getD k 0 = f (xs.getD k 0) := by
  rw [getD_of_lt h, getD_of_lt (by simpa using h), List.getElem_map]

theorem ConvVL.map {x : T → List V3} {x0 : List V3} (h : ConvVL l x x0) {f : T → V3 → V3} {f0 : V3 → V3}
    (hf : ∀ k, k < x0.length → Conv l (fun t => f t ((x t).getD k 0)) (f0 (x0.getD k 0))) :
    ConvVL l (fun t => (x t).map (f t)) (x0.map f0) := by
  refine convVL_of ?_ fun k hk => ?_
  · filter_upwards [h.1] with t t1
    simp only [List.length_map, t1]
  · have hk' : k < x0.length := by simpa using hk
    rw [getD_map_v hk']
    refine (hf k hk').congr' ?_
    filter_upwards [h.1] with t t1
    rw [getD_map_v (by omega)]

theorem ConvVL.zipWith {x y : T → List V3} {x0 y0 : List V3} (hx : ConvVL l x x0) (hy : ConvVL l y y0) {f : T → V3 → V3 → V3}
    {f0 : V3 → V3 → V3} (hf : ∀ k, Conv l (fun t => f t ((x t).getD k 0) ((y t).getD k 0)) (f0 (x0.getD k 0) (y0.getD k 0))) :
    ConvVL l (fun t => List.zipWith (f t) (x t) (y t)) (List.zipWith f0 x0 y0) := by
  have e : ∀ (g : V3 → V3 → V3) (a b : List V3) (k : ℕ), k < a.length → k < b.length →
      (List.zipWith g a b).getD k 0 = g (a.getD k 0) (b.getD k 0) := fun g a b k h1 h2 => by
    rw [getD_of_lt h1, getD_of_lt h2, getD_of_lt (by simp; omega), List.getElem_zipWith]
  refine convVL_of ?_ fun k hk => ?_
  · filter_upwards [hx.1, hy.1] with t t1 t2
    simp only [List.length_zipWith, t1, t2]
  · have hk' : k < x0.length ∧ k < y0.length := by simpa using hk
    rw [e _ _ _ _ hk'.1 hk'.2]
    refine (hf k).congr' ?_
    filter_upwards [hx.1, hy.1] with t t1 t2
    rw [e _ _ _ _ (by omega) (by omega)]

theorem getD_take {α : Type} (xs : List α) (n k : ℕ) (d : α) : (xs.take n).getD k d = if k < n then xs.getD k d else d := by
  simp only [List.getD_eq_getElem?_getD, List.getElem?_take]
  split_ifs <;> rfl

theorem getD_drop {α : Type} (xs : List α) (n k : ℕ) (d : α) : (xs.drop n).getD k d = xs.getD (n + k) d := by
  simp only [List.getD_eq_getElem?_getD, List.getElem?_drop]

theorem ConvVL.take {x : T → List V3} {x0 : List V3} (h : ConvVL l x x0) (n : ℕ) : ConvVL l (fun t => (x t).take n) (x0.take n) := by
  refine ⟨h.1.mono fun t t1 => by simp only [List.length_take, t1], fun k => ?_⟩
  simp only [getD_take]
  split_ifs
  · exact h.2 k
  · exact conv_const 0

theorem ConvVL.drop {x : T → List V3} {x0 : List V3} (h : ConvVL l x x0) (n : ℕ) : ConvVL l (fun t => (x t).drop n) (x0.drop n) := by
  refine ⟨h.1.mono fun t t1 => by simp only [List.length_drop, t1], fun k => ?_⟩
  simp only [getD_drop]
  exact h.2 _

theorem ConvVL.congr' {x y : T → List V3} {x0 : List V3} (h : ConvVL l x x0) (he : ∀ᶠ t in l, x t = y t) : ConvVL l y x0 :=
  ⟨by filter_upwards [h.1, he] with t t1 t2; rw [← t2]; exact t1, fun k => (h.2 k).congr' (he.mono fun t e => by rw [e])⟩

/-- Lists of lists. -/
def ConvLL (l : Filter T) (x : T → List (List V3)) (x0 : List (List V3)) : Prop :=
  (∀ᶠ t in l, (x t).length = x0.length) ∧ ∀ b, ConvVL l (fun t => (x t).getD b []) (x0.getD b [])

theorem chunks_conv : ∀ (sizes : List ℕ) {x : T → List V3} {x0 : List V3}, ConvVL l x x0 →
    ConvLL l (fun t => chunksOf (x t) sizes) (chunksOf x0 sizes)
  | [], _, _, _ => ⟨.of_forall fun _ => rfl, fun _ => ⟨.of_forall fun _ => rfl, fun _ => conv_const _⟩⟩
  | n :: ns, x, x0, h => by
    have ih := chunks_conv ns (h.drop n)
    refine ⟨ih.1.mono fun t t1 => by beta_reduce at t1; simp only [chunksOf, List.length_cons, t1], fun b => ?_⟩
    cases b with
    | zero => simpa only [chunksOf, List.getD_cons_zero] using h.take n
    | succ b => simpa only [chunksOf, List.getD_cons_succ] using ih.2 b

theorem arraySplit_conv {x : T → List V3} {x0 : List V3} (h : ConvVL l x x0) {g : ℕ} {X0 : List (List V3)} (h0 : arraySplit x0 g = .ok X0) :
    ∃ X : T → List (List V3), (∀ᶠ t in l, arraySplit (x t) g = .ok (X t)) ∧ ConvLL l X X0 := by
  unfold arraySplit at h0
  split_ifs at h0 with hg
  cases h0
  refine ⟨_, ?_, chunks_conv _ h⟩
  filter_upwards [h.1] with t t1
  unfold arraySplit
  rw [if_neg hg, t1]

namespace Spec.RefinedRun

variable {growth : ℕ → ℝ} {condition : ℕ → ℝ → ℝ} {A : T → RunArith} {u : T → ℝ}

theorem vsumOf (R : RefinedRun l growth condition A u) {x : T → List V3} {x0 : List V3} (h : ConvVL l x x0) :
    Conv l (fun t => (A t).vsum (x t)) x0.sum := R.full.vsum h.1 h.2

theorem momentArm (R : RefinedRun l growth condition A u) {v p : T → V3} {v0 p0 : V3} (hv : Conv l v v0) (hp : Conv l p p0) (hz : p0.z ≠ 0) :
    Conv l (fun t => (A t).momentArm (v t) (p t)) (PySailing.momentArm v0 p0) := by
  have B := R.base
  refine ⟨B.sub hp.x hv.x, B.sub hp.y hv.y, ?_⟩
  unfold RunArith.momentArm PySailing.momentArm
  rcases lt_or_gt_of_ne hz with h0 | h0
  · rw [if_neg (not_lt.2 h0.le)]
    refine (B.add hp.z hv.z).congr' ((hp.z.eventually_lt_const h0).mono fun t ht => ?_)
    simp only [if_neg (not_lt.2 (le_of_lt ht))]
  · rw [if_pos h0]
    refine (B.sub hp.z hv.z).congr' ((hp.z.eventually_const_lt h0).mono fun t ht => ?_)
    simp only [if_pos ht]

theorem calcMoments (R : RefinedRun l growth condition A u) {r F : T → List V3} {r0 F0 : List V3} (hr : ConvVL l r r0) (hF : ConvVL l F F0)
    {M0 : List V3} (h0 : PySailing.calcMoments r0 F0 = .ok M0) :
    ∃ M : T → List V3, (∀ᶠ t in l, (A t).calcMoments (r t) (F t) = .ok (M t)) ∧ ConvVL l M M0 := by
  unfold PySailing.calcMoments at h0
  split_ifs at h0 with hl
  cases h0
  refine ⟨fun t => List.zipWith (A t).cross (r t) (F t), ?_, hr.zipWith hF fun k => R.base.cross (hr.2 k) (hF.2 k)⟩
  filter_upwards [hr.1, hF.1] with t t1 t2
  unfold RunArith.calcMoments
  rw [if_pos (by omega)]

theorem flowSails_names (B : RunArith) : ∀ {ss ss' : List SailGeom} (Fs rs : List (List V3)) (d : PyDict),
    ss.map SailGeom.name = ss'.map SailGeom.name → B.flowSails ss Fs rs d = B.flowSails ss' Fs rs d
  | [], [], _, _, _, _ => rfl
  | [], _ :: _, _, _, _, h => by simp at h
  | _ :: _, [], _, _, _, h => by simp at h
  | s :: ss, s' :: ss', [], _, _, _ => rfl
  | s :: ss, s' :: ss', _ :: _, [], _, _ => rfl
  | s :: ss, s' :: ss', F :: Fs, r :: rs, d, h => by
    simp only [List.map_cons, List.cons.injEq] at h
    unfold RunArith.flowSails
    rw [h.1]
    congr 1
    funext M
    exact flowSails_names B Fs rs _ h.2

theorem convLL_cons {X : T → List (List V3)} {F0 : List V3} {X0 : List (List V3)} (h : ConvLL l X (F0 :: X0)) :
    ∃ (F : T → List V3) (X' : T → List (List V3)), (∀ᶠ t in l, X t = F t :: X' t) ∧ ConvVL l F F0 ∧ ConvLL l X' X0 := by
  have e : ∀ᶠ t in l, X t = (X t).getD 0 [] :: (X t).tail := by
    filter_upwards [h.1] with t t1
    cases hX : X t with
    | nil => rw [hX] at t1; simp at t1
    | cons a b => rfl
  refine ⟨fun t => (X t).getD 0 [], fun t => (X t).tail, e, h.2 0, ?_, fun b => ?_⟩
  · filter_upwards [h.1] with t t1
    simp only [List.length_tail, t1, List.length_cons, Nat.add_sub_cancel]
  · refine (h.2 (b + 1)).congr' ?_
    filter_upwards [e] with t t1
    rw [t1]; simp

/-- The totals of the single sails. -/
theorem flowSails (R : RefinedRun l growth condition A u) : ∀ (ss : List SailGeom) {Fs rs : T → List (List V3)} {Fs0 rs0 : List (List V3)}
    {d : T → PyDict} {d0 e0 : PyDict}, ConvLL l Fs Fs0 → ConvLL l rs rs0 → UDict l d d0 → PySailing.flowSails ss Fs0 rs0 d0 = .ok e0 →
    ∃ e : T → PyDict, (∀ᶠ t in l, (A t).flowSails ss (Fs t) (rs t) (d t) = .ok (e t)) ∧ UDict l e e0
  | [], _, _, _, _, d, d0, e0, _, _, hd, h0 => by
    cases h0
    exact ⟨d, .of_forall fun _ => rfl, hd⟩
  | s :: ss, Fs, rs, Fs0, rs0, d, d0, e0, hF, hr, hd, h0 => by
    cases Fs0 with
    | nil => cases h0
    | cons F0 Fs0 =>
      cases rs0 with
      | nil => cases h0
      | cons r0 rs0 =>
        obtain ⟨F, Fs', eF, F1, F2⟩ := convLL_cons hF
        obtain ⟨r, rs', er, r1, r2⟩ := convLL_cons hr
        rw [← ExactRun.flowSails] at h0
        unfold RunArith.flowSails at h0
        rw [ExactRun.calcMoments] at h0
        cases hM : PySailing.calcMoments r0 F0 with
        | error e => rw [hM] at h0; cases h0
        | ok M0 =>
          rw [hM] at h0
          simp only [Bind.bind, Except.bind] at h0
          rw [ExactRun.flowSails, ExactRun.vsum, ExactRun.vsum] at h0
          obtain ⟨M, M1, M2⟩ := R.calcMoments r1 F1 hM
          obtain ⟨e, e1, e2⟩ := flowSails R ss F2 r2 ((hd.setVec _ (R.vsumOf F1)).setVec _ (R.vsumOf M2)) h0
          refine ⟨e, ?_, e2⟩
          filter_upwards [eF, er, M1, e1] with t t1 t2 t3 t4
          rw [t1, t2]
          unfold RunArith.flowSails
          rw [t3]
          exact t4

/-- The sheet `Integrals`. -/
theorem integrals (R : RefinedRun l growth condition A u) {sails : T → List SailGeom} {sails0 : List SailGeom}
    (hn : ∀ᶠ t in l, (sails t).map SailGeom.name = sails0.map SailGeom.name) {Y : T → M3} {Y0 : M3} (hY : ConvM l Y Y0)
    {v clr : T → V3} {v0 clr0 : V3} (hv : Conv l v v0) (hc : Conv l clr clr0) {cps F : T → List V3} {cps0 F0 : List V3}
    (hp : ConvVL l cps cps0) (hF : ConvVL l F F0) (hz : ∀ k, k < cps0.length → (cps0.getD k 0).z ≠ 0) {d0 : PyDict}
    (h0 : exactRun.integrals sails0 Y0 v0 clr0 cps0 F0 = .ok d0) :
    ∃ d : T → PyDict, (∀ᶠ t in l, (A t).integrals (sails t) (Y t) (v t) (clr t) (cps t) (F t) = .ok (d t)) ∧ UDict l d d0 := by
  unfold RunArith.integrals at h0
  simp only [Bind.bind, Except.bind] at h0
  rw [show exactRun.momentArm v0 = PySailing.momentArm v0 from rfl] at h0
  have hr : ConvVL l (fun t => (cps t).map ((A t).momentArm (v t))) (cps0.map (PySailing.momentArm v0)) :=
    hp.map fun k hk => R.momentArm hv (hp.2 k) (hz k hk)
  cases h1 : arraySplit (F0.take (F0.length / 2)) sails0.length with
  | error e => rw [h1] at h0; cases h0
  | ok Fs0 =>
    cases h2 : arraySplit ((cps0.map (PySailing.momentArm v0)).take (F0.length / 2)) sails0.length with
    | error e => rw [h1, h2] at h0; cases h0
    | ok rs0 =>
      rw [h1, h2] at h0
      simp only [ExactRun.flowSails, ExactRun.calcMoments, ExactRun.vsum] at h0
      cases h3 : PySailing.flowSails sails0 Fs0 rs0 PyDict.empty with
      | error e => rw [h3] at h0; cases h0
      | ok dyn0 =>
        cases h4 : PySailing.calcMoments (cps0.map (PySailing.momentArm v0)) F0 with
        | error e => rw [h3, h4] at h0; cases h0
        | ok M0 =>
          rw [h3, h4] at h0
          simp only at h0
          obtain ⟨Fs, a1, a2⟩ := arraySplit_conv (hF.take (F0.length / 2)) h1
          obtain ⟨rs, b1, b2⟩ := arraySplit_conv (hr.take (F0.length / 2)) h2
          obtain ⟨dyn, c1, c2⟩ := R.flowSails sails0 a2 b2 UDict.empty h3
          obtain ⟨M, m1, m2⟩ := R.calcMoments hr hF h4
          have k1 := R.vsumOf (hF.take (F0.length / 2))
          have k2 := R.vsumOf (m2.take (M0.length / 2))
          have k3 := R.vsumOf ((hF.map fun k _ => R.full.mulVec hY (hF.2 k)).take (F0.length / 2))
          have k4 := R.vsumOf ((m2.map fun k _ => R.full.mulVec hY (m2.2 k)).take (M0.length / 2))
          have k5 := R.base.cross hc (show Conv l (fun t => -(A t).vsum ((F t).take (F0.length / 2))) (-(F0.take (F0.length / 2)).sum) from
            ⟨k1.x.neg, k1.y.neg, k1.z.neg⟩)
          have k6 := R.full.mulVec hY k5
          cases h0
          have key := ((((((UDict.empty.setVec "F_sails_total_COG" k1).setVec "F_sails_total_COW" k3).setVec "M_sails_total_COG" k2).setMomentCow
              "M_sails_total_COW" k4).update
              ((((UDict.empty.setVec "M_keel_total_COG" k5).setMomentCow "M_keel_total_COW" k6).setVec
                "M_total_COG" (R.base.vadd k2 k5)).setMomentCow "M_total_COW" (R.base.vadd k4 k6))).update c2)
          refine ⟨_, ?_, key⟩
          · filter_upwards [hn, a1, b1, c1, m1, hF.1, m2.1] with t t0 t1 t2 t3 t4 t5 t6
            have hlen : (sails t).length = sails0.length := by simpa using congrArg List.length t0
            unfold RunArith.integrals
            simp only [Bind.bind, Except.bind]
            rw [hlen, t5, t1, t2]
            simp only
            rw [flowSails_names (A t) _ _ _ t0, t3, t4]
            simp only
            rw [t6]

end Spec.RefinedRun

end PySailing
