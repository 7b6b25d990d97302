import Verif.Lemmas.ArithCore

/-!
# From bounds to limits and back
-/

namespace PySailing

open Spec Filter Topology

variable {T : Type} {l : Filter T}

theorem tendsto_near {u x : T → ℝ} {x0 : ℝ} (hu : Tendsto u l (𝓝 0)) (h : ∀ t, |x t - x0| ≤ u t) : Tendsto x l (𝓝 x0) := by
  rw [tendsto_iff_norm_sub_tendsto_zero]
  exact squeeze_zero (fun _ => norm_nonneg _) h hu

theorem conv_near {u : T → ℝ} {v : T → V3} {v0 : V3} (hu : Tendsto u l (𝓝 0)) (h : ∀ t, NearV (u t) (v t) v0) : Conv l v v0 :=
  ⟨tendsto_near hu fun t => (h t).1, tendsto_near hu fun t => (h t).2.1, tendsto_near hu fun t => (h t).2.2⟩

theorem forall₂_getD {α β : Type} {R : α → β → Prop} {xs : List α} {ys : List β} (h : List.Forall₂ R xs ys) (k : ℕ) (d : α) (d' : β)
    (hd : R d d') : R (xs.getD k d) (ys.getD k d') := by
  induction h generalizing k with
  | nil => simpa using hd
  | cons h1 h2 ih =>
    cases k with
    | zero => simpa using h1
    | succ k => simpa using ih k

theorem nearV_refl {ε : ℝ} (hε : 0 ≤ ε) (v : V3) : NearV ε v v := by simp [NearV, hε]

theorem forall₂_ofFn {α β : Type} {R : α → β → Prop} {n : ℕ} {f : Fin n → α} {g : Fin n → β} (h : ∀ i, R (f i) (g i)) :
    List.Forall₂ R (List.ofFn f) (List.ofFn g) := by
  induction n with
  | zero => simp
  | succ n ih =>
    rw [List.ofFn_succ, List.ofFn_succ]
    exact List.Forall₂.cons (h 0) (ih fun i => h i.succ)

theorem eventually_near {K : ℕ} {ε : ℝ} (hε : 0 < ε) {f : T → Fin K → ℝ} {f0 : Fin K → ℝ}
    (h : ∀ i, Tendsto (fun t => f t i) l (𝓝 (f0 i))) :
    ∀ᶠ t in l, List.Forall₂ (fun x y => |x - y| ≤ ε) (List.ofFn (f t)) (List.ofFn f0) := by
  have : ∀ᶠ t in l, ∀ i, |f t i - f0 i| ≤ ε := eventually_all.2 fun i =>
    ((Metric.tendsto_nhds.1 (h i)) ε hε).mono fun t ht => by rw [Real.dist_eq] at ht; exact ht.le
  exact this.mono fun t ht => forall₂_ofFn ht

theorem eventually_nearV {K : ℕ} {ε : ℝ} (hε : 0 < ε) {f : T → Fin K → V3} {f0 : Fin K → V3}
    (h : ∀ i, Conv l (fun t => f t i) (f0 i)) :
    ∀ᶠ t in l, List.Forall₂ (NearV ε) (List.ofFn (f t)) (List.ofFn f0) := by
  have key : ∀ {g : T → ℝ} {g0 : ℝ}, Tendsto g l (𝓝 g0) → ∀ᶠ t in l, |g t - g0| ≤ ε := fun hg =>
    ((Metric.tendsto_nhds.1 hg) ε hε).mono fun t ht => by rw [Real.dist_eq] at ht; exact ht.le
  have : ∀ᶠ t in l, ∀ i, NearV ε (f t i) (f0 i) := eventually_all.2 fun i => by
    filter_upwards [key (h i).x, key (h i).y, key (h i).z] with t t1 t2 t3
    exact ⟨t1, t2, t3⟩
  exact this.mono fun t ht => forall₂_ofFn ht

theorem eventually_nearArrays {K : ℕ} {ε : ℝ} (hε : 0 < ε) {f : T → VlmSolution K} {s : VlmSolution K} (h : ConvSol l f s) :
    ∀ᶠ t in l, NearArrays ε (f t).arrays s.arrays := by
  filter_upwards [eventually_near hε h.gamma, eventually_nearV hε h.vIndCtrl, eventually_nearV hε h.vFsCtrl, eventually_nearV hε h.force,
    eventually_nearV hε h.vFsCp, eventually_nearV hε h.vIndCp, eventually_near hε h.pressure, eventually_near hε h.pCoeffs,
    eventually_nearV hε h.lift, eventually_nearV hε h.drag] with t t1 t2 t3 t4 t5 t6 t7 t8 t9 t10
  exact ⟨t1, t2, t3, t4, t5, t6, t7, t8, t9, t10⟩

end PySailing
