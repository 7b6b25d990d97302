import Verif.Spec.NearSail
import Verif.Lemmas.SailBlocks
import Verif.Lemmas.Wind
import Mathlib.Analysis.SpecialFunctions.Pow.Continuity

/-!
# The nodes of a sail depend continuously on its data
-/

namespace PySailing

open Spec Filter Topology

variable {T : Type} {l : Filter T}

theorem deg2rad_tendsto {f : T → ℝ} {a : ℝ} (h : Tendsto f l (𝓝 a)) : Tendsto (fun t => deg2rad (f t)) l (𝓝 (deg2rad a)) := by
  unfold deg2rad
  exact h.mul_const _

theorem leeway_conv {c : T → Csys} {c0 : Csys} (h : Tendsto (fun t => (c t).leewayDeg) l (𝓝 c0.leewayDeg)) {p : T → V3} {p0 : V3}
    (hp : Conv l p p0) : Conv l (fun t => (c t).leeway.mulVec (p t)) (c0.leeway.mulVec p0) := by
  have hd := deg2rad_tendsto h
  have hc := (Real.continuous_cos.tendsto _).comp hd
  have hs := (Real.continuous_sin.tendsto _).comp hd
  simp only [Csys.leeway_mulVec]
  exact ⟨(hc.mul hp.x).sub (hs.mul hp.y), (hs.mul hp.x).add (hc.mul hp.y), hp.z⟩

theorem heeling_conv {c : T → Csys} {c0 : Csys} (h : Tendsto (fun t => (c t).heelDeg) l (𝓝 c0.heelDeg)) {p : T → V3} {p0 : V3}
    (hp : Conv l p p0) : Conv l (fun t => (c t).heeling.mulVec (p t)) (c0.heeling.mulVec p0) := by
  have hd := deg2rad_tendsto h
  have hc := (Real.continuous_cos.tendsto _).comp hd
  have hs := (Real.continuous_sin.tendsto _).comp hd
  simp only [Csys.heeling_mulVec]
  exact ⟨hp.x, (hc.mul hp.y).add (hs.mul hp.z), (hs.neg.mul hp.y).add (hc.mul hp.z)⟩

theorem reverseHeeling_conv {c : T → Csys} {c0 : Csys} (h : Tendsto (fun t => (c t).heelDeg) l (𝓝 c0.heelDeg)) {p : T → V3} {p0 : V3}
    (hp : Conv l p p0) : Conv l (fun t => (c t).reverseHeeling.mulVec (p t)) (c0.reverseHeeling.mulVec p0) := by
  have hd := deg2rad_tendsto h
  have hc := (Real.continuous_cos.tendsto _).comp hd
  have hs := (Real.continuous_sin.tendsto _).comp hd
  simp only [Csys.reverseHeeling_mulVec]
  exact ⟨hp.x, (hc.mul hp.y).sub (hs.mul hp.z), (hs.mul hp.y).add (hc.mul hp.z)⟩

theorem mirror_conv {p : T → V3} {p0 : V3} (hp : Conv l p p0) : Conv l (fun t => mirror (p t)) (mirror p0) := ⟨hp.x, hp.y, hp.z.neg⟩

theorem camberCurve_conv {m p : T → ℝ} {m0 p0 : ℝ} (hm : Tendsto m l (𝓝 m0)) (hp : Tendsto p l (𝓝 p0)) (h0 : 0 < p0) (h1 : p0 < 1)
    (x : ℝ) : Tendsto (fun t => camberCurve (m t) (p t) x) l (𝓝 (camberCurve m0 p0 x)) := by
  have hf : Tendsto (fun t => m t * (1 - ((x - p t) / p t) ^ 2)) l (𝓝 (m0 * (1 - ((x - p0) / p0) ^ 2))) :=
    hm.mul (tendsto_const_nhds.sub (((tendsto_const_nhds.sub hp).div hp h0.ne').pow 2))
  have hr : Tendsto (fun t => m t * (1 - ((x - p t) / (1 - p t)) ^ 2)) l (𝓝 (m0 * (1 - ((x - p0) / (1 - p0)) ^ 2))) :=
    hm.mul (tendsto_const_nhds.sub (((tendsto_const_nhds.sub hp).div (tendsto_const_nhds.sub hp) (sub_pos.2 h1).ne').pow 2))
  unfold camberCurve
  rcases lt_trichotomy x p0 with h | h | h
  · rw [if_pos h]
    refine hf.congr' ?_
    filter_upwards [hp.eventually_const_lt h] with t ht
    rw [if_pos ht]
  · subst h
    rw [if_neg (lt_irrefl _)]
    simp only [sub_self, zero_div] at hf hr ⊢
    exact Tendsto.if' hf hr
  · rw [if_neg (not_lt.2 h.le)]
    refine hr.congr' ?_
    filter_upwards [hp.eventually_lt_const h] with t ht
    rw [if_neg (not_lt.2 ht.le)]

theorem sailPoint_conv {a b : T → V3} {a0 b0 : V3} (ha : Conv l a a0) (hb : Conv l b b0) (nc ns : ℕ) {ch di ca : T → List ℝ}
    {ch0 di0 ca0 : List ℝ} {r : ℕ} (h1 : Tendsto (fun t => (ch t).getD r 0) l (𝓝 (ch0.getD r 0)))
    (h2 : Tendsto (fun t => (di t).getD r 0) l (𝓝 (di0.getD r 0))) (h3 : Tendsto (fun t => (ca t).getD r 0) l (𝓝 (ca0.getD r 0)))
    (hp0 : 0 < di0.getD r 0) (hp1 : di0.getD r 0 < 1) (k : ℕ) :
    Conv l (fun t => sailPoint (a t) (b t) nc ns (ch t) (di t) (ca t) r k) (sailPoint a0 b0 nc ns ch0 di0 ca0 r k) := by
  have hl : Conv l (fun t => lerp (a t) (b t) ((r : ℝ) / ns)) (lerp a0 b0 ((r : ℝ) / ns)) := ha.add (Conv.const_smul _ (hb.sub ha))
  unfold sailPoint
  exact ⟨hl.x.add (h1.mul_const _), h1.mul (camberCurve_conv h3 h2 hp0 hp1 _), hl.z⟩

theorem rotateAboutLine_conv {a b p : T → V3} {a0 b0 p0 : V3} (ha : Conv l a a0) (hb : Conv l b b0) (hp : Conv l p p0) (hne : b0 - a0 ≠ 0)
    {θ : T → ℝ} {θ0 : ℝ} (hθ : Tendsto θ l (𝓝 θ0)) :
    Conv l (fun t => rotateAboutLine (a t) (b t) (θ t) (p t)) (rotateAboutLine a0 b0 θ0 p0) := by
  have hu : Conv l (fun t => unit (b t - a t)) (unit (b0 - a0)) :=
    Conv.smul (tendsto_const_nhds.div (hb.sub ha).norm (V3.norm_pos hne).ne') (hb.sub ha)
  have hc := (Real.continuous_cos.tendsto _).comp hθ
  have hs := (Real.continuous_sin.tendsto _).comp hθ
  have hq := hp.sub ha
  exact ha.add (((Conv.smul hc hq).add (Conv.smul hs (hu.cross hq))).add (Conv.smul ((tendsto_const_nhds.sub hc).mul (hu.dot hq)) hu))

/-! ### wind -/

/-- Near the height `h` the profile gives wind at all heights, with a factor continuous at `h`. -/
def WindNear (P : WindProfile) (h : ℝ) : Prop :=
  ∃ f : ℝ → ℝ, (∀ᶠ h' in 𝓝 h, ∀ w : WindObj, w.profile = P → w.trueWindAt h' = .ok (w.lengthToXyz (w.twsRef * f h'))) ∧ ContinuousAt f h

theorem windNear_of {w : WindObj} {h : ℝ} {v : V3} (hv : w.trueWindAt h = .ok v) (hl : ¬ AtWaterLevel w.profile h) :
    WindNear w.profile h := by
  obtain ⟨al, tws, vy, P⟩ := w
  simp only at hl ⊢
  cases P with
  | flat =>
    refine ⟨fun _ => 1, Eventually.of_forall fun h' w hw => ?_, continuousAt_const⟩
    simp only [WindObj.trueWindAt, hw, mul_one]
  | log a b =>
    rcases a with _ | r
    · cases b <;> cases hv
    rcases b with _ | ref
    · cases hv
    simp only [WindObj.trueWindAt] at hv
    unfold WindObj.logFactor at hv
    split_ifs at hv with h1 h2 h3 h4 h5
    all_goals try cases hv
    · have e : ∀ᶠ h' in 𝓝 h, 0 < h' / r := (continuousAt_id.div_const r).eventually_const_lt (not_le.1 h2)
      refine ⟨fun _ => 0, e.mono fun h' he w hw => ?_, continuousAt_const⟩
      simp only [WindObj.trueWindAt, hw]
      unfold WindObj.logFactor
      rw [if_neg h1, if_neg (not_le.2 he), if_neg h3, if_pos h4]
      rfl
    · have e : ∀ᶠ h' in 𝓝 h, 0 < h' / r := (continuousAt_id.div_const r).eventually_const_lt (not_le.1 h2)
      refine ⟨fun h' => Real.log (h' / r) / Real.log (ref / r), e.mono fun h' he w hw => ?_, ?_⟩
      · simp only [WindObj.trueWindAt, hw]
        unfold WindObj.logFactor
        rw [if_neg h1, if_neg (not_le.2 he), if_neg h3, if_neg h4, if_neg h5]
        rfl
      · exact ((continuousAt_id.div_const r).log (not_le.1 h2).ne').div_const _
  | exp a b c =>
    rcases a with _ | co
    · cases b <;> cases c <;> cases hv
    rcases b with _ | ref
    · cases c <;> cases hv
    rcases c with _ | wl
    · cases hv
    have hne : h - wl ≠ 0 := fun h0 => hl ⟨_, _, wl, rfl, sub_eq_zero.1 h0⟩
    have e : ∀ᶠ h' in 𝓝 h, h' - wl ≠ 0 := (continuousAt_id.sub continuousAt_const).eventually_ne hne
    simp only [WindObj.trueWindAt] at hv
    unfold WindObj.expFactor at hv
    split_ifs at hv with h1 h2 h3 h4
    all_goals first | cases hv | skip
    · refine ⟨fun _ => 1, Eventually.of_forall fun h' w hw => ?_, continuousAt_const⟩
      simp only [WindObj.trueWindAt, hw]
      unfold WindObj.expFactor
      rw [if_pos h1, if_pos h2]
      rfl
    · refine ⟨fun _ => 0, e.mono fun h' he w hw => ?_, continuousAt_const⟩
      simp only [WindObj.trueWindAt, hw]
      unfold WindObj.expFactor
      rw [if_pos h1, if_neg h2, if_pos ⟨h3.1, he⟩]
      rfl
    · refine ⟨fun _ => 1, Eventually.of_forall fun h' w hw => ?_, continuousAt_const⟩
      simp only [WindObj.trueWindAt, hw]
      unfold WindObj.expFactor
      rw [if_neg h1]
      simp only [h4, if_true]
      rfl
    · have hb : (h - wl) / ref ≠ 0 := div_ne_zero hne h1
      refine ⟨fun h' => ((h' - wl) / ref) ^ co, ?_, ?_⟩
      · rcases lt_or_gt_of_ne hb with hn | hp
        · have hint : ∃ n : ℤ, co = n := by
            by_contra hc
            simp only [if_pos (⟨hn, hc⟩ : (h - wl) / ref < 0 ∧ ¬ ∃ n : ℤ, co = n)] at hv
            cases hv
          filter_upwards [e] with h' he w hw
          simp only [WindObj.trueWindAt, hw]
          unfold WindObj.expFactor
          rw [if_neg h1]
          simp only
          rw [if_neg h4, if_neg (fun hh => hh.2 hint), if_neg (fun hh => div_ne_zero he h1 hh.1)]
          rfl
        · have hp' : ∀ᶠ h' in 𝓝 h, 0 < (h' - wl) / ref :=
            ((continuousAt_id.sub continuousAt_const).div_const ref).eventually_const_lt hp
          filter_upwards [hp'] with h' he w hw
          simp only [WindObj.trueWindAt, hw]
          unfold WindObj.expFactor
          rw [if_neg h1]
          simp only
          rw [if_neg h4, if_neg (fun hh => absurd hh.1 (not_lt.2 he.le)), if_neg (fun hh => he.ne' hh.1)]
          rfl
      · exact ((continuousAt_id.sub continuousAt_const).div_const ref).rpow continuousAt_const (Or.inl hb)

end PySailing

namespace PySailing.Spec.NearSail

open PySailing Spec Filter Topology

variable {T : Type} {l : Filter T} {s : T → SailInput × (ℕ → ℝ)} {s0 : SailInput × (ℕ → ℝ)} (N : NearSail l s s0)
include N

theorem dist_mem {r : ℕ} (hr : r ≤ s0.1.ns) : 0 < s0.1.distance.getD r 0 ∧ s0.1.distance.getD r 0 < 1 := by
  refine ⟨N.ok0.pos r hr, ?_⟩
  have h := N.ok0.valid
  have hlt : r < s0.1.distance.length := by have := h.distance_len; omega
  have := (h.distance_range (s0.1.distance.getD r 0) (by
    rw [List.getD_eq_getElem?_getD, List.getElem?_eq_getElem hlt, Option.getD_some]
    rw [List.mem_take_iff_getElem]
    exact ⟨r, by omega, rfl⟩)).2
  linarith

theorem abovePt_conv {r : ℕ} (hr : r ≤ s0.1.ns) (k : ℕ) : Conv l (fun t => (s t).1.abovePt r k) (s0.1.abovePt r k) := by
  obtain ⟨d0, d1⟩ := N.dist_mem hr
  rw [N.ok0.abovePt_eq hr]
  have h := leeway_conv N.leeway (heeling_conv (c := fun t => (s t).1.csys) N.heel
    (sailPoint_conv N.tack N.head s0.1.nc s0.1.ns (N.chords r) (N.distance r) (N.camber r) d0 d1 k))
  refine h.congr' ?_
  filter_upwards [N.ok, N.nc, N.ns] with t h1 h2 h3
  rw [h1.abovePt_eq (by rw [h3]; exact hr), h2, h3]

omit N in
theorem reverse_getD {x : List ℝ} {n r : ℕ} (hx : x.length = n + 1) (hr : r ≤ n) : x.reverse.getD r 0 = x.getD (n - r) 0 := by
  rw [List.getD_eq_getElem?_getD, List.getD_eq_getElem?_getD, List.getElem?_reverse (by omega), hx, show n + 1 - 1 - r = n - r by omega]

theorem underPt_conv {r : ℕ} (hr : r ≤ s0.1.ns) (k : ℕ) : Conv l (fun t => (s t).1.underPt r k) (s0.1.underPt r k) := by
  obtain ⟨d0, d1⟩ := N.dist_mem hr
  rw [N.ok0.underPt_eq hr]
  have c1 : Tendsto (fun t => (s t).1.chords.reverse.getD r 0) l (𝓝 (s0.1.chords.reverse.getD r 0)) := by
    rw [reverse_getD N.ok0.valid.chords_len hr]
    refine (N.chords (s0.1.ns - r)).congr' ?_
    filter_upwards [N.ok, N.ns] with t h1 h3
    rw [reverse_getD h1.valid.chords_len (by rw [h3]; exact hr), h3]
  have c2 : Tendsto (fun t => (s t).1.camber.reverse.getD r 0) l (𝓝 (s0.1.camber.reverse.getD r 0)) := by
    rw [reverse_getD N.ok0.camber_len hr]
    refine (N.camber (s0.1.ns - r)).congr' ?_
    filter_upwards [N.ok, N.ns] with t h1 h3
    rw [reverse_getD h1.camber_len (by rw [h3]; exact hr), h3]
  have h := leeway_conv N.leeway (reverseHeeling_conv (c := fun t => (s t).1.csys) N.heel
    (sailPoint_conv (mirror_conv N.head) (mirror_conv N.tack) s0.1.nc s0.1.ns c1 (N.distance r) c2 d0 d1 k))
  refine h.congr' ?_
  filter_upwards [N.ok, N.nc, N.ns] with t h1 h2 h3
  rw [h1.underPt_eq (by rw [h3]; exact hr), h2, h3]

theorem above_conv {r : ℕ} (hr : r ≤ s0.1.ns) (k : ℕ) : Conv l (fun t => abovePoints (s t) r k) (abovePoints s0 r k) := by
  have h := rotateAboutLine_conv (N.abovePt_conv (Nat.zero_le _) 0) (N.abovePt_conv le_rfl 0) (N.abovePt_conv hr k)
    N.ok0.above_axis.ne (deg2rad_tendsto (N.twist r))
  refine h.congr' ?_
  filter_upwards [N.ns] with t h3
  unfold abovePoints SailInput.aboveTwisted
  rw [h3]

theorem under_conv {r : ℕ} (hr : r ≤ s0.1.ns) (k : ℕ) : Conv l (fun t => underPoints (s t) r k) (underPoints s0 r k) := by
  have h := rotateAboutLine_conv (N.underPt_conv (Nat.zero_le _) 0) (N.underPt_conv le_rfl 0) (N.underPt_conv hr k)
    N.ok0.under_axis.ne (deg2rad_tendsto (N.twist (s0.1.ns - r)))
  refine h.congr' ?_
  filter_upwards [N.ns] with t h3
  unfold underPoints SailInput.underTwisted
  rw [h3]

end PySailing.Spec.NearSail
