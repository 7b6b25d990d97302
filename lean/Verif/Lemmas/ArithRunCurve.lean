import Verif.Spec.ArithRun
import Verif.Lemmas.ArithRunExact
import Verif.Lemmas.ArithSailSet
import Verif.Lemmas.CurveConv
import Verif.Props.Spline
import Verif.Lemmas.NearRun

/-!
# Limits of rounded runs (C134): interpolated arrays
-/

namespace PySailing

open Spec Filter Topology

variable {T : Type} {l : Filter T}

/-- The arithmetics `A t` become exact along `l`. -/
structure Spec.RefinedRun (l : Filter T) (growth : ℕ → ℝ) (condition : ℕ → ℝ → ℝ) (A : T → RunArith) (u : T → ℝ) : Prop where
  acc : ∀ᶠ t in l, AccurateRun growth condition (A t) (u t)
  lim : Tendsto u l (𝓝 0)

/-- Lists of numbers that converge: finally of the same length, and in every entry. -/
def ConvL (l : Filter T) (v : T → List ℝ) (v0 : List ℝ) : Prop :=
  (∀ᶠ t in l, (v t).length = v0.length) ∧ ∀ r, Tendsto (fun t => (v t).getD r 0) l (𝓝 (v0.getD r 0))

/-- It suffices to look at the entries of the limit. -/
theorem convL_of {v : T → List ℝ} {v0 : List ℝ} (hl : ∀ᶠ t in l, (v t).length = v0.length)
    (h : ∀ r, r < v0.length → Tendsto (fun t => (v t).getD r 0) l (𝓝 (v0.getD r 0))) : ConvL l v v0 := by
  refine ⟨hl, fun r => ?_⟩
  by_cases hr : r < v0.length
  · exact h r hr
  · have e0 : v0.getD r 0 = 0 := by rw [List.getD_eq_getElem?_getD, List.getElem?_eq_none (by omega)]; rfl
    rw [e0]
    refine tendsto_const_nhds.congr' ?_
    filter_upwards [hl] with t t1
    rw [List.getD_eq_getElem?_getD, List.getElem?_eq_none (by omega)]; rfl

/-- A bound for all numbers of a list and the inverse gaps of another. -/
theorem exists_bound (xs gi : List ℝ) (hinc : ∀ i, i + 1 < gi.length → gi.getD i 0 < gi.getD (i + 1) 0) :
    ∃ B : ℝ, 0 < B ∧ (∀ x ∈ xs, |x| < B) ∧ ∀ i, i + 1 < gi.length → 1 / B < gi.getD (i + 1) 0 - gi.getD i 0 := by
  have h1 : ∀ᶠ B : ℝ in atTop, 0 < B := eventually_gt_atTop 0
  have h2 : ∀ᶠ B : ℝ in atTop, ∀ x ∈ {x | x ∈ xs}, |x| < B := (eventually_all_finite xs.finite_toSet).2 fun x _ => eventually_gt_atTop _
  have h3 : ∀ᶠ B : ℝ in atTop, ∀ i ∈ Finset.range gi.length, i + 1 < gi.length → 1 / B < gi.getD (i + 1) 0 - gi.getD i 0 := by
    rw [eventually_all_finset]
    intro i _
    by_cases hi : i + 1 < gi.length
    · have : Tendsto (fun B : ℝ => 1 / B) atTop (𝓝 0) := by simpa using tendsto_inv_atTop_zero (𝕜 := ℝ)
      exact (this.eventually_lt_const (sub_pos.2 (hinc i hi))).mono fun _ h _ => h
    · exact .of_forall fun _ h => absurd h hi
  obtain ⟨B, a, b, c⟩ := (h1.and (h2.and h3)).exists
  exact ⟨B, a, b, fun i hi => c i (Finset.mem_range.2 (by omega)) hi⟩

theorem mem_getD {xs : List ℝ} {x : ℝ} (h : x ∈ xs) : ∃ r, r < xs.length ∧ xs.getD r 0 = x := by
  obtain ⟨r, hr, e⟩ := List.getElem_of_mem h
  exact ⟨r, hr, by rw [List.getD_eq_getElem?_getD, List.getElem?_eq_getElem hr]; exact e⟩

/-- Entries finally keep a bound of the limit. -/
theorem ConvL.bounded {v : T → List ℝ} {v0 : List ℝ} (h : ConvL l v v0) {B : ℝ} (hB : ∀ x ∈ v0, |x| < B) :
    ∀ᶠ t in l, ∀ x ∈ v t, |x| ≤ B := by
  have : ∀ᶠ t in l, ∀ r ∈ Finset.range v0.length, |(v t).getD r 0| < B := by
    rw [eventually_all_finset]
    exact fun r hr => (h.2 r).abs.eventually_lt_const (hB _ (getD_mem (Finset.mem_range.1 hr)))
  filter_upwards [h.1, this] with t t1 t2 x hx
  obtain ⟨r, hr, rfl⟩ := mem_getD hx
  exact (t2 r (Finset.mem_range.2 (t1 ▸ hr))).le

/-- Increasing lists finally increase. -/
theorem ConvL.increasing {v : T → List ℝ} {v0 : List ℝ} (h : ConvL l v v0) {δ : ℝ}
    (hB : ∀ i, i + 1 < v0.length → δ < v0.getD (i + 1) 0 - v0.getD i 0) :
    ∀ᶠ t in l, ∀ i, i + 1 < (v t).length → δ ≤ (v t).getD (i + 1) 0 - (v t).getD i 0 := by
  have : ∀ᶠ t in l, ∀ i ∈ Finset.range v0.length, i + 1 < v0.length → δ < (v t).getD (i + 1) 0 - (v t).getD i 0 := by
    rw [eventually_all_finset]
    intro i _
    by_cases hi : i + 1 < v0.length
    · exact (((h.2 (i + 1)).sub (h.2 i)).eventually_const_lt (hB i hi)).mono fun _ h _ => h
    · exact .of_forall fun _ h => absurd h hi
  filter_upwards [h.1, this] with t t1 t2 i hi
  exact (t2 i (Finset.mem_range.2 (by omega)) (t1 ▸ hi)).le

theorem getD_map {α : Type} {f : ℝ → α} {xs : List ℝ} {r : ℕ} (hr : r < xs.length) (d : α) : (xs.map f).getD r d = f (xs.getD r 0) := by
  simp [List.getD_eq_getElem?_getD, List.getElem?_eq_getElem hr]

theorem fitpack_ok {xn gi da : List ℝ} (h4 : 4 ≤ gi.length) (hl : da.length = gi.length)
    (hinc : ∀ i, i + 1 < gi.length → gi.getD i 0 < gi.getD (i + 1) 0) :
    fitpackSpline xn gi da = .ok (xn.map (splineThrough (gi.length - 1) (fun i => gi.getD i 0) fun i => da.getD i 0)) := by
  unfold fitpackSpline
  rw [if_neg (by simp [hl]), if_neg (by omega), if_neg, if_neg]
  · rintro ⟨i, hi, e⟩; exact absurd e (hinc i hi).ne'
  · rintro ⟨i, hi, e⟩; exact absurd e (hinc i hi).not_gt

/-- Points of a polygon. -/
def knots (n : ℕ) (xs ys : ℕ → ℝ) : List (ℝ × ℝ) := (List.range (n + 1)).map fun i => (xs i, ys i)

theorem knots_zero (xs ys : ℕ → ℝ) : knots 0 xs ys = [(xs 0, ys 0)] := by simp [knots]

theorem knots_succ (n : ℕ) (xs ys : ℕ → ℝ) :
    knots (n + 1) xs ys = (xs 0, ys 0) :: knots n (fun i => xs (i + 1)) fun i => ys (i + 1) := by
  unfold knots
  rw [List.range_succ_eq_map, List.map_cons, List.map_map]
  rfl

theorem knots_zip {n : ℕ} {xs ys : List ℝ} (h : xs.length = n + 1) (h' : ys.length = n + 1) :
    xs.zip ys = knots n (fun i => xs.getD i 0) fun i => ys.getD i 0 := by
  apply List.ext_getElem
  · simp [knots, h, h']
  · intro i h1 h2
    have hi : i < n + 1 := by simpa [knots] using h2
    simp [knots, List.getD_eq_getElem?_getD, List.getElem?_eq_getElem (show i < xs.length by omega),
      List.getElem?_eq_getElem (show i < ys.length by omega)]

theorem interp1_first {x y : ℝ} {n : ℕ} {xs ys : ℕ → ℝ} (hx : xs 0 = x) (hy : ys 0 = y) (hinc : ∀ i < n, xs i < xs (i + 1)) :
    interp1 x (knots n xs ys) = y := by
  subst hx hy
  cases n with
  | zero => rw [knots_zero]; rfl
  | succ n =>
    rw [knots_succ]
    cases n with
    | zero =>
      rw [knots_zero]
      unfold interp1
      simp only [if_pos (hinc 0 one_pos), le_refl, if_true]
    | succ n =>
      rw [knots_succ]
      unfold interp1
      simp only [if_pos (hinc 0 (by omega)), le_refl, if_true]

namespace Spec.RefinedRun

variable {growth : ℕ → ℝ} {condition : ℕ → ℝ → ℝ} {A : T → RunArith} {u : T → ℝ}

theorem sail (R : RefinedRun l growth condition A u) : RefinedSail l growth (fun t => (A t).toSailArith) u :=
  ⟨R.acc.mono fun _ h => h.toAccurateSail, R.lim⟩

theorem full (R : RefinedRun l growth condition A u) : RefinedFull l growth (fun t => (A t).toFullArith) u := R.sail.full

theorem base (R : RefinedRun l growth condition A u) : Refined l growth (fun t => (A t).toArith) u := R.full.base

theorem interp1_step (R : RefinedRun l growth condition A u) {x a b fa fb v : T → ℝ} {x0 a0 b0 fa0 fb0 v0 : ℝ}
    (hx : Tendsto x l (𝓝 x0)) (ha : Tendsto a l (𝓝 a0)) (hb : Tendsto b l (𝓝 b0)) (hfa : Tendsto fa l (𝓝 fa0))
    (hfb : Tendsto fb l (𝓝 fb0)) (hab : a0 < b0) (hv : Tendsto v l (𝓝 v0)) (hv0 : x0 = b0 → v0 = fb0) :
    ∃ w : T → ℝ, (∀ᶠ t in l, ∀ rest, (A t).interp1 (x t) ((b t, fb t) :: rest) = .ok (v t) →
        (A t).interp1 (x t) ((a t, fa t) :: (b t, fb t) :: rest) = .ok (w t)) ∧
      ∀ rest, interp1 x0 ((b0, fb0) :: rest) = v0 → Tendsto w l (𝓝 (interp1 x0 ((a0, fa0) :: (b0, fb0) :: rest))) := by
  classical
  have B := R.base
  have hseg := B.add (B.mul (B.div (B.sub hfb hfa) (B.sub hb ha) (by linarith)) (B.sub hx ha)) hfa
  have hne := (B.sub hb ha).eventually_ne (show b0 - a0 ≠ 0 by linarith)
  refine ⟨fun t => if x t < b t then if x t ≤ a t then fa t else
    (A t).add ((A t).mul ((A t).div ((A t).sub (fb t) (fa t)) ((A t).sub (b t) (a t))) ((A t).sub (x t) (a t))) (fa t) else v t, ?_, fun rest h0 => ?_⟩
  rotate_right
  · have hin : x0 < b0 ∨ x0 = b0 → Tendsto (fun t => if x t ≤ a t then fa t else
        (A t).add ((A t).mul ((A t).div ((A t).sub (fb t) (fa t)) ((A t).sub (b t) (a t))) ((A t).sub (x t) (a t))) (fa t)) l
        (𝓝 (if x0 ≤ a0 then fa0 else (fb0 - fa0) / (b0 - a0) * (x0 - a0) + fa0)) := by
      intro _
      rcases lt_trichotomy x0 a0 with h | h | h
      · rw [if_pos h.le]
        refine hfa.congr' ?_
        filter_upwards [hx.eventually_lt ha h] with t t1
        rw [if_pos t1.le]
      · rw [if_pos h.le]
        refine Tendsto.if' hfa ?_
        have e : (fb0 - fa0) / (b0 - a0) * (x0 - a0) + fa0 = fa0 := by rw [h]; ring
        rw [e] at hseg
        exact hseg
      · rw [if_neg (not_le.2 h)]
        refine hseg.congr' ?_
        filter_upwards [ha.eventually_lt hx h] with t t1
        rw [if_neg (not_le.2 t1)]
    rcases lt_trichotomy x0 b0 with h | h | h
    · have e : interp1 x0 ((a0, fa0) :: (b0, fb0) :: rest) = if x0 ≤ a0 then fa0 else (fb0 - fa0) / (b0 - a0) * (x0 - a0) + fa0 := by
        conv_lhs => unfold interp1
        rw [if_pos h]
      rw [e]
      refine (hin (Or.inl h)).congr' ?_
      filter_upwards [hx.eventually_lt hb h] with t t1
      rw [if_pos t1]
    · have e : interp1 x0 ((a0, fa0) :: (b0, fb0) :: rest) = v0 := by
        conv_lhs => unfold interp1
        rw [if_neg (not_lt.2 h.ge)]
        exact h0
      rw [e]
      refine Tendsto.if' ?_ hv
      have := hin (Or.inr h)
      rw [if_neg (by rw [h]; exact not_le.2 hab)] at this
      have e2 : (fb0 - fa0) / (b0 - a0) * (x0 - a0) + fa0 = v0 := by
        rw [hv0 h, h]
        have : b0 - a0 ≠ 0 := by linarith
        field_simp
        ring
      rw [e2] at this
      exact this
    · have e : interp1 x0 ((a0, fa0) :: (b0, fb0) :: rest) = v0 := by
        conv_lhs => unfold interp1
        rw [if_neg (not_lt.2 h.le)]
        exact h0
      rw [e]
      refine hv.congr' ?_
      filter_upwards [hb.eventually_lt hx h] with t t1
      rw [if_neg (not_lt.2 t1.le)]
  · filter_upwards [hne] with t t1 rest h
    conv_lhs => unfold RunArith.interp1
    split_ifs with h1 h2
    · rfl
    · rfl
    · exact h

/-- A value of a polygon. -/
theorem interp1 (R : RefinedRun l growth condition A u) {x : T → ℝ} {x0 : ℝ} (hx : Tendsto x l (𝓝 x0)) : ∀ (n : ℕ) {xs ys : T → ℕ → ℝ}
    {xs0 ys0 : ℕ → ℝ}, (∀ i ≤ n, Tendsto (fun t => xs t i) l (𝓝 (xs0 i))) → (∀ i ≤ n, Tendsto (fun t => ys t i) l (𝓝 (ys0 i))) →
    (∀ i < n, xs0 i < xs0 (i + 1)) →
    ∃ v : T → ℝ, (∀ᶠ t in l, (A t).interp1 (x t) (knots n (xs t) (ys t)) = .ok (v t)) ∧
      Tendsto v l (𝓝 (PySailing.interp1 x0 (knots n xs0 ys0)))
  | 0, xs, ys, xs0, ys0, _, hy, _ => by
    refine ⟨fun t => ys t 0, .of_forall fun t => ?_, ?_⟩
    · rw [knots_zero]; rfl
    · rw [knots_zero]; exact hy 0 le_rfl
  | n + 1, xs, ys, xs0, ys0, hxs, hys, hinc => by
    obtain ⟨v, v1, v2⟩ := interp1 R hx n (xs := fun t i => xs t (i + 1)) (ys := fun t i => ys t (i + 1)) (xs0 := fun i => xs0 (i + 1))
      (ys0 := fun i => ys0 (i + 1)) (fun i hi => hxs _ (by omega)) (fun i hi => hys _ (by omega)) (fun i hi => hinc _ (by omega))
    obtain ⟨w, w1, w2⟩ := R.interp1_step hx (hxs 0 (by omega)) (hxs 1 (by omega)) (hys 0 (by omega)) (hys 1 (by omega)) (hinc 0 (by omega)) v2
      (fun e => interp1_first e.symm rfl fun i hi => hinc _ (by omega))
    have key : ∀ xs ys : ℕ → ℝ, ∃ rest, knots n (fun i => xs (i + 1)) (fun i => ys (i + 1)) = (xs 1, ys 1) :: rest := fun xs ys => by
      cases n with
      | zero => exact ⟨[], knots_zero _ _⟩
      | succ n => exact ⟨_, knots_succ _ _ _⟩
    refine ⟨w, ?_, ?_⟩
    · filter_upwards [v1, w1] with t t1 t2
      obtain ⟨rest, e⟩ := key (xs t) (ys t)
      rw [knots_succ, e]
      rw [e] at t1
      exact t2 rest t1
    · obtain ⟨rest, e⟩ := key xs0 ys0
      rw [knots_succ]
      rw [e] at w2 ⊢
      exact w2 rest rfl

/-- Points at which the arrays are read. -/
theorem linspace_getD (R : RefinedRun l growth condition A u) {ns : ℕ} (hns : 0 < ns) {r : ℕ} (hr : r ≤ ns) :
    Tendsto (fun t => ((A t).linspace01 (ns + 1)).getD r 0) l (𝓝 ((PySailing.linspace01 (ns + 1)).getD r 0)) := by
  have e : ∀ B : SailArith, (B.linspace01 (ns + 1)).getD r 0 = B.xAt ns r := fun B => by
    rw [B.linspace01_eq hns]
    simp [List.getD_eq_getElem?_getD, List.getElem?_range (show r < ns + 1 by omega)]
  rw [← ExactSail.linspace01, e]
  simp only [e]
  have h := (R.sail.xAt hns hr).1
  have e0 : exactSail.xAt ns r = (r : ℝ) / ns := by
    have hn : (ns : ℝ) ≠ 0 := by positivity
    unfold SailArith.xAt
    split_ifs with h
    · have : r = ns := by omega
      rw [this, div_self hn]
    · show (r : ℝ) * (1 / ((((ns + 1 : ℕ) : ℝ)) - 1)) = _
      push_cast
      rw [add_sub_cancel_right]; ring
  rw [e0]
  exact h

theorem linspace_length (B : SailArith) (n : ℕ) (hn : 0 < n) : (B.linspace01 (n + 1)).length = n + 1 := by
  rw [B.linspace01_eq hn]; simp

theorem linspace_conv (R : RefinedRun l growth condition A u) {ns : ℕ} (hns : 0 < ns) :
    ConvL l (fun t => (A t).linspace01 (ns + 1)) (PySailing.linspace01 (ns + 1)) := by
  have e0 : (PySailing.linspace01 (ns + 1)).length = ns + 1 := by rw [← ExactSail.linspace01]; exact linspace_length _ _ hns
  refine convL_of (.of_forall fun t => ?_) fun r hr => R.linspace_getD hns (by omega)
  rw [linspace_length _ _ hns, e0]

/-- Values of the spline. -/
theorem spline (R : RefinedRun l growth condition A u) {xn gi da : T → List ℝ} {xn0 gi0 da0 : List ℝ} (h4 : 4 ≤ gi0.length)
    (hl0 : da0.length = gi0.length) (hxn : ConvL l xn xn0) (hgi : ConvL l gi gi0) (hda : ConvL l da da0)
    (hinc : ∀ i, i + 1 < gi0.length → gi0.getD i 0 < gi0.getD (i + 1) 0) {v0 : List ℝ} (h0 : fitpackSpline xn0 gi0 da0 = .ok v0) :
    ∃ v : T → List ℝ, (∀ᶠ t in l, (A t).spline (xn t) (gi t) (da t) = .ok (v t)) ∧ ConvL l v v0 := by
  rw [fitpack_ok h4 hl0 hinc] at h0
  have h0 := (Except.ok.inj h0).symm
  obtain ⟨B, hB, hb, hg⟩ := exists_bound (xn0 ++ gi0 ++ da0 ++ v0) gi0 hinc
  simp only [List.mem_append] at hb
  have hgap := hgi.increasing hg
  have hpos : 0 < 1 / B := by positivity
  have hincT : ∀ᶠ t in l, ∀ i, i + 1 < (gi t).length → (gi t).getD i 0 < (gi t).getD (i + 1) 0 :=
    hgap.mono fun t h i hi => by linarith [h i hi]
  -- the exact spline of the rounded data
  set w : T → List ℝ := fun t => (xn t).map (splineThrough (gi0.length - 1) (fun i => (gi t).getD i 0) fun i => (da t).getD i 0) with hw
  have hwc : ConvL l w v0 := by
    refine convL_of ?_ fun r hr => ?_
    · filter_upwards [hxn.1] with t t1
      rw [hw, h0]; simp only [List.length_map, t1]
    · have hr0 : r < xn0.length := by rw [h0] at hr; simpa using hr
      have e0 : v0.getD r 0 = splineThrough (gi0.length - 1) (fun i => gi0.getD i 0) (fun i => da0.getD i 0) (xn0.getD r 0) := by
        rw [h0, getD_map hr0]
      refine spline_conv_at (m := gi0.length - 1) (by omega) (xs := fun t i => (gi t).getD i 0) (ys := fun t i => (da t).getD i 0)
        (xs0 := fun i => gi0.getD i 0) (ys0 := fun i => da0.getD i 0) (fun i _ => hgi.2 i) (fun i _ => hda.2 i) ?_
        (fun i hi => hinc i (by omega)) (hxn.2 r) ?_ ⟨_, splineThrough_isSpline (by omega) (fun i hi => hinc i (by omega)) _, e0⟩
      · filter_upwards [hincT, hgi.1] with t t1 t2 i hi
        exact t1 i (by omega)
      · filter_upwards [hincT, hgi.1, hxn.1] with t t1 t2 t3
        exact ⟨_, splineThrough_isSpline (by omega) (fun i hi => t1 i (by omega)) _, getD_map (by omega) 0⟩
  have hu : Tendsto (fun t => u t * condition gi0.length B) l (𝓝 0) := by simpa using R.lim.mul_const (condition gi0.length B)
  have hex : ∀ᶠ t in l, ∃ v, (A t).spline (xn t) (gi t) (da t) = .ok v ∧ NearList (u t * condition gi0.length B) v (w t) := by
    filter_upwards [R.acc, hgap, hincT, hgi.1, hda.1, hu.eventually_le_const one_pos, hxn.bounded fun x hx => hb x (by tauto),
      hgi.bounded fun x hx => hb x (by tauto), hda.bounded fun x hx => hb x (by tauto), hwc.bounded fun x hx => hb x (by tauto)]
      with t a t1 t2 t3 t4 t5 b1 b2 b3 b4
    have hf : fitpackSpline (xn t) (gi t) (da t) = .ok (w t) := by
      rw [fitpack_ok (by omega) (by omega) t2, t3]
    have := a.spline B (xn t) (gi t) (da t) (w t) hB hf t1 (fun x hx => by
      simp only [List.mem_append] at hx
      rcases hx with ((hx | hx) | hx) | hx
      exacts [b1 x hx, b2 x hx, b3 x hx, b4 x hx]) (by rw [t3]; exact t5)
    rw [t3] at this
    exact this
  obtain ⟨v, hv⟩ := RefinedFull.choice_of [] hex
  refine ⟨v, hv.mono fun t h => h.1, convL_of ?_ fun r hr => ?_⟩
  · filter_upwards [hv, hwc.1] with t t1 t2
    rw [t1.2.length_eq, t2]
  · have hd : Tendsto (fun t => (v t).getD r 0 - (w t).getD r 0) l (𝓝 0) := by
      refine squeeze_zero_norm' ?_ hu
      filter_upwards [hv, hwc.1] with t t1 t2
      have h := (List.forall₂_iff_get.1 t1.2).2 r (by rw [t1.2.length_eq]; omega) (by omega)
      simpa [List.getD_eq_getElem?_getD, List.getElem?_eq_getElem (show r < (v t).length by rw [t1.2.length_eq]; omega),
        List.getElem?_eq_getElem (show r < (w t).length by omega)] using h
    simpa using hd.add (hwc.2 r)

theorem mapM_getD {f : ℝ → Py ℝ} : ∀ {xs : List ℝ} {w : ℕ → ℝ}, (∀ r, r < xs.length → f (xs.getD r 0) = .ok (w r)) →
    xs.mapM f = .ok ((List.range xs.length).map w)
  | [], _, _ => rfl
  | x :: xs, w, h => by
    have e0 : f x = .ok (w 0) := h 0 (by simp)
    have ih := mapM_getD (xs := xs) (w := fun r => w (r + 1)) fun r hr => h (r + 1) (by simpa using hr)
    rw [List.mapM_cons, e0, ih, List.length_cons, List.range_succ_eq_map, List.map_cons, List.map_map]
    rfl

/-- Values of the polygon. -/
theorem linear (R : RefinedRun l growth condition A u) {xn gi da : T → List ℝ} {xn0 gi0 da0 : List ℝ} (h1 : gi0 ≠ [])
    (hl0 : da0.length = gi0.length) (hxn : ConvL l xn xn0) (hgi : ConvL l gi gi0) (hda : ConvL l da da0)
    (hinc : ∀ i, i + 1 < gi0.length → gi0.getD i 0 < gi0.getD (i + 1) 0) :
    ∃ v : T → List ℝ, (∀ᶠ t in l, (A t).npInterp (xn t) (gi t) (da t) = .ok (v t)) ∧
      ConvL l v (xn0.map fun x => PySailing.interp1 x (gi0.zip da0)) := by
  obtain ⟨n, hn⟩ : ∃ n, gi0.length = n + 1 := ⟨gi0.length - 1, by have := List.length_pos_iff.2 h1; omega⟩
  have hr : ∀ r, ∃ w : T → ℝ, r < xn0.length → (∀ᶠ t in l, (A t).interp1 ((xn t).getD r 0) ((gi t).zip (da t)) = .ok (w t)) ∧
      Tendsto w l (𝓝 (PySailing.interp1 (xn0.getD r 0) (gi0.zip da0))) := fun r => by
    obtain ⟨w, w1, w2⟩ := R.interp1 (hxn.2 r) n (xs := fun t i => (gi t).getD i 0) (ys := fun t i => (da t).getD i 0)
      (xs0 := fun i => gi0.getD i 0) (ys0 := fun i => da0.getD i 0) (fun i _ => hgi.2 i) (fun i _ => hda.2 i) (fun i hi => hinc i (by omega))
    refine ⟨w, fun _ => ⟨?_, ?_⟩⟩
    · filter_upwards [w1, hgi.1, hda.1] with t t1 t2 t3
      rw [knots_zip (n := n) (by omega) (by omega)]
      exact t1
    · rw [knots_zip (n := n) (by omega) (by omega)]
      exact w2
  choose w hw using hr
  have hall : ∀ᶠ t in l, ∀ r ∈ Finset.range xn0.length, (A t).interp1 ((xn t).getD r 0) ((gi t).zip (da t)) = .ok (w r t) := by
    rw [eventually_all_finset]
    exact fun r hr => (hw r (Finset.mem_range.1 hr)).1
  refine ⟨fun t => (List.range xn0.length).map fun r => w r t, ?_, convL_of (.of_forall fun t => by simp) fun r hr => ?_⟩
  · filter_upwards [hall, hgi.1, hda.1, hxn.1] with t t1 t2 t3 t4
    unfold RunArith.npInterp
    have hne : gi t ≠ [] := List.length_pos_iff.1 (by omega)
    rw [if_neg hne, if_neg (by omega), mapM_getD (w := fun r => w r t) fun r hr => t1 r (Finset.mem_range.2 (t4 ▸ hr)), t4]
  · have hr : r < xn0.length := by simpa using hr
    rw [getD_map hr]
    refine (hw r hr).2.congr fun t => ?_
    simp [List.getD_eq_getElem?_getD, List.getElem?_range hr]

/-- An interpolated array. -/
theorem interpolateGirths (R : RefinedRun l growth condition A u) {kind : String} {ns : ℕ} (hns : 0 < ns) {gi da : T → List ℝ}
    {gi0 da0 : List ℝ} (h1 : gi0 ≠ []) (hkind : kind = "linear" ∨ (kind = "spline" ∧ 4 ≤ gi0.length)) (hl0 : da0.length = gi0.length)
    (hgi : ConvL l gi gi0) (hda : ConvL l da da0) (hinc : ∀ i, i + 1 < gi0.length → gi0.getD i 0 < gi0.getD (i + 1) 0) {v0 : List ℝ}
    (h0 : PySailing.interpolateGirths fitpackSpline kind gi0 da0 (ns + 1) = .ok v0) :
    ∃ v : T → List ℝ, (∀ᶠ t in l, (A t).interpolateGirths kind (gi t) (da t) (ns + 1) = .ok (v t)) ∧ ConvL l v v0 := by
  unfold PySailing.interpolateGirths at h0
  unfold RunArith.interpolateGirths
  rcases hkind with rfl | ⟨rfl, h4⟩
  · simp only [if_true] at h0 ⊢
    unfold PySailing.npInterp at h0
    rw [if_neg h1, if_neg (by omega)] at h0
    cases h0
    exact R.linear h1 hl0 (R.linspace_conv hns) hgi hda hinc
  · have e : ¬ "spline" = "linear" := by decide
    simp only [if_true, if_neg e] at h0 ⊢
    exact R.spline h4 hl0 (R.linspace_conv hns) hgi hda hinc h0

end Spec.RefinedRun

theorem nearArray_conv {x : T → Option (List ℝ)} {x0 : Option (List ℝ)} (h : NearArray l x x0) {a : List ℝ} (h0 : x0 = some a) :
    ∃ f : T → List ℝ, (∀ᶠ t in l, x t = some (f t)) ∧ ConvL l f a := by
  obtain ⟨f, f1, f2⟩ := nearArray_some h h0
  exact ⟨f, f1.mono fun t h => h.1, convL_of (f1.mono fun t h => h.2) f2⟩

namespace Spec.RefinedRun

variable {growth : ℕ → ℝ} {condition : ℕ → ℝ → ℝ} {A : T → RunArith} {u : T → ℝ}

/-- The interpolated arrays of a sail. -/
theorem interpolatedSail (R : RefinedRun l growth condition A u) {s : SolverConf} (hns : 0 < s.ns) {c : T → SailConf} {c0 : SailConf}
    (hc : NearSailConf l c c0) {gi0 ch0 tw0 ca0 di0 : List ℝ} (G : GoodSail s.interpolation c0 gi0 ch0 tw0 ca0 di0)
    {a1 a2 a3 a4 : List ℝ} (h0 : PySailing.interpolatedSail fitpackSpline s c0 = .ok (a1, a2, a3, a4)) :
    ∃ v1 v2 v3 v4 : T → List ℝ, (∀ᶠ t in l, (A t).interpolatedSail s (c t) = .ok (v1 t, v2 t, v3 t, v4 t)) ∧
      ConvL l v1 a1 ∧ ConvL l v2 a2 ∧ ConvL l v3 a3 ∧ ConvL l v4 a4 := by
  have hone : ∀ {ys : List ℝ}, ys.length = gi0.length → ∃ v, PySailing.interpolateGirths fitpackSpline s.interpolation gi0 ys (s.ns + 1) = .ok v :=
    fun h => by
      obtain ⟨v, e, -⟩ := interpolateGirths_curve (Or.inr rfl) G.nonempty G.kind_ok G.increasing h s.ns
      exact ⟨v, e⟩
  obtain ⟨w1, e1⟩ := hone G.chords_len
  obtain ⟨w2, e2⟩ := hone G.twist_len
  obtain ⟨w3, e3⟩ := hone G.camber_len
  obtain ⟨w4, e4⟩ := hone G.distance_len
  unfold PySailing.interpolatedSail at h0
  rw [G.girths_eq, G.chords_eq, G.twist_eq, G.camber_eq, G.distance_eq] at h0
  simp only [needArray, Bind.bind, Except.bind, e1, e2, e3, e4] at h0
  cases h0
  obtain ⟨gi, gi1, gi2⟩ := nearArray_conv hc.girths G.girths_eq
  obtain ⟨ch, ch1, ch2⟩ := nearArray_conv hc.chords G.chords_eq
  obtain ⟨tw, tw1, tw2⟩ := nearArray_conv hc.twist G.twist_eq
  obtain ⟨ca, ca1, ca2⟩ := nearArray_conv hc.camber G.camber_eq
  obtain ⟨di, di1, di2⟩ := nearArray_conv hc.distance G.distance_eq
  obtain ⟨v1, p1, q1⟩ := R.interpolateGirths hns G.nonempty G.kind_ok G.chords_len gi2 ch2 G.increasing e1
  obtain ⟨v2, p2, q2⟩ := R.interpolateGirths hns G.nonempty G.kind_ok G.twist_len gi2 tw2 G.increasing e2
  obtain ⟨v3, p3, q3⟩ := R.interpolateGirths hns G.nonempty G.kind_ok G.camber_len gi2 ca2 G.increasing e3
  obtain ⟨v4, p4, q4⟩ := R.interpolateGirths hns G.nonempty G.kind_ok G.distance_len gi2 di2 G.increasing e4
  refine ⟨v1, v2, v3, v4, ?_, q1, q2, q3, q4⟩
  filter_upwards [gi1, ch1, tw1, ca1, di1, p1, p2, p3, p4] with t g1 g2 g3 g4 g5 t1 t2 t3 t4
  unfold RunArith.interpolatedSail
  rw [g1, g2, g3, g4, g5]
  simp only [needArray, Bind.bind, Except.bind, t1, t2, t3, t4]

/-- The default twist. -/
theorem withTwist (R : RefinedRun l growth condition A u) {s : T → SailConf} {s0 : SailConf} (h : NearSailConf l s s0)
    (ht : s0.twist ≠ none ∨ s0.girths ≠ none) (a b : ℝ) :
    ∃ s' : T → SailConf, (∀ᶠ t in l, (A t).withTwist (s t) a b = .ok (s' t)) ∧ NearSailConf l s' (withDefaultTwist a b s0) := by
  cases e : s0.twist with
  | some x =>
    obtain ⟨f, f1, f2⟩ := nearArray_some h.twist e
    refine ⟨s, ?_, ?_⟩
    · filter_upwards [f1] with t t1
      unfold RunArith.withTwist
      rw [t1.1]
    · have : withDefaultTwist a b s0 = s0 := by
        unfold withDefaultTwist; rw [e]; cases s0; simp_all
      rw [this]; exact h
  | none =>
    have hg : s0.girths ≠ none := by rcases ht with ht | ht; exact absurd e ht; exact ht
    obtain ⟨g, eg⟩ := Option.ne_none_iff_exists'.1 hg
    have h1 := h.twist
    rw [e] at h1
    have h1 : ∀ᶠ t in l, (s t).twist = none := h1
    obtain ⟨f, f1, f2⟩ := nearArray_some h.girths eg
    refine ⟨fun t => { s t with twist := some ((f t).map fun x => (A t).add ((A t).mul ((A t).lit a) x) ((A t).lit b)) }, ?_,
      ⟨?_, h.girths, h.chords, h.camber, h.distance⟩⟩
    · filter_upwards [h1, f1] with t t1 t2
      simp only [RunArith.withTwist, t1, t2.1]
    · have e' : (withDefaultTwist a b s0).twist = some (g.map fun x => a * x + b) := by
        unfold withDefaultTwist; rw [e, eg]; rfl
      rw [e']
      refine ⟨fun t => (f t).map fun x => (A t).add ((A t).mul ((A t).lit a) x) ((A t).lit b), ?_, fun i hi => ?_⟩
      · filter_upwards [f1] with t t1
        exact ⟨rfl, by simp only [List.length_map]; exact t1.2⟩
      · rw [List.length_map] at hi
        rw [getD_map hi]
        have B := R.base
        refine (B.add (B.mul (B.lit a) (f2 i hi)) (B.lit b)).congr' ?_
        filter_upwards [f1] with t t1
        rw [getD_map (by rw [t1.2]; exact hi)]

end Spec.RefinedRun

end PySailing
