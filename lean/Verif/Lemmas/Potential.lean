import Verif.Spec.Potential
import Verif.Lemmas.Kernels
import Mathlib.Analysis.Calculus.Deriv.Mul
import Mathlib.Analysis.Calculus.Deriv.Inv
import Mathlib.Analysis.Calculus.Deriv.Add
import Mathlib.Analysis.SpecialFunctions.Sqrt

/-!
# Derivatives of the vortex kernels
-/

namespace PySailing

open Spec

/-- Derivative at 0 of a curve. -/
structure HasVD (f : ℝ → V3) (f' : V3) : Prop where
  x : HasDerivAt (fun t => (f t).x) f'.x 0
  y : HasDerivAt (fun t => (f t).y) f'.y 0
  z : HasDerivAt (fun t => (f t).z) f'.z 0

namespace HasVD

variable {f g : ℝ → V3} {f' g' : V3} {s : ℝ → ℝ} {s' : ℝ}

theorem const (a : V3) : HasVD (fun _ => a) 0 :=
  ⟨hasDerivAt_const _ _, hasDerivAt_const _ _, hasDerivAt_const _ _⟩

theorem line (a d b : V3) : HasVD (fun t => a + t • d - b) d := by
  have h : ∀ u v w : ℝ, HasDerivAt (fun t : ℝ => u + t * v - w) v 0 := fun u v w => by
    simpa using (((hasDerivAt_id (0 : ℝ)).mul_const v).const_add u).sub_const w
  exact ⟨h _ _ _, h _ _ _, h _ _ _⟩

theorem add (hf : HasVD f f') (hg : HasVD g g') : HasVD (fun t => f t + g t) (f' + g') :=
  ⟨hf.x.add hg.x, hf.y.add hg.y, hf.z.add hg.z⟩

theorem sub (hf : HasVD f f') (hg : HasVD g g') : HasVD (fun t => f t - g t) (f' - g') :=
  ⟨hf.x.sub hg.x, hf.y.sub hg.y, hf.z.sub hg.z⟩

theorem smul (hs : HasDerivAt s s' 0) (hf : HasVD f f') :
    HasVD (fun t => s t • f t) (s' • f 0 + s 0 • f') :=
  ⟨hs.mul hf.x, hs.mul hf.y, hs.mul hf.z⟩

theorem const_smul (c : ℝ) (hf : HasVD f f') : HasVD (fun t => c • f t) (c • f') :=
  ⟨hf.x.const_mul c, hf.y.const_mul c, hf.z.const_mul c⟩

theorem dot (hf : HasVD f f') (hg : HasVD g g') :
    HasDerivAt (fun t => (f t).dot (g t)) (f'.dot (g 0) + (f 0).dot g') 0 := by
  have h := ((hf.x.mul hg.x).add (hf.y.mul hg.y)).add (hf.z.mul hg.z)
  refine h.congr_deriv ?_
  simp only [V3.dot]; ring

theorem cross (hf : HasVD f f') (hg : HasVD g g') :
    HasVD (fun t => V3.cross (f t) (g t)) (V3.cross f' (g 0) + V3.cross (f 0) g') := by
  refine ⟨((hf.y.mul hg.z).sub (hf.z.mul hg.y)).congr_deriv ?_,
    ((hf.z.mul hg.x).sub (hf.x.mul hg.z)).congr_deriv ?_,
    ((hf.x.mul hg.y).sub (hf.y.mul hg.x)).congr_deriv ?_⟩ <;> simp <;> ring

theorem norm (hf : HasVD f f') (h0 : f 0 ≠ 0) :
    HasDerivAt (fun t => (f t).norm) ((f 0).dot f' / (f 0).norm) 0 := by
  have h := (hf.dot hf).sqrt (V3.dot_self_pos h0).ne'
  refine h.congr_deriv ?_
  rw [V3.dot_comm f' (f 0)]
  have : Real.sqrt ((f 0).dot (f 0)) = (f 0).norm := rfl
  rw [this]
  field_simp
  ring

theorem congr (hf : HasVD f f') (h : ∀ᶠ t in nhds (0 : ℝ), g t = f t) : HasVD g f' :=
  ⟨hf.x.congr_of_eventuallyEq (h.mono fun t ht => by simp [ht]),
    hf.y.congr_of_eventuallyEq (h.mono fun t ht => by simp [ht]),
    hf.z.congr_of_eventuallyEq (h.mono fun t ht => by simp [ht])⟩

end HasVD

theorem hasJacobian_iff (v : V3 → V3) (p : V3) (J : M3) :
    HasJacobian v p J ↔ ∀ d, HasVD (fun t => v (p + t • d)) (J.mulVec d) :=
  forall_congr' fun _ => ⟨fun h => ⟨h.1, h.2.1, h.2.2⟩, fun h => ⟨h.x, h.y, h.z⟩⟩

/-- The matrix `d ↦ (G·d) c + k × d`. -/
noncomputable def jac (G c k : V3) : M3 :=
  ⟨c.x • G + ⟨0, -k.z, k.y⟩, c.y • G + ⟨k.z, 0, -k.x⟩, c.z • G + ⟨-k.y, k.x, 0⟩⟩

theorem jac_mulVec (G c k d : V3) : (jac G c k).mulVec d = G.dot d • c + V3.cross k d := by
  ext <;> simp [jac, V3.dot] <;> ring

theorem jac_divergence (G c k : V3) : divergence (jac G c k) = G.dot c := by
  simp [jac, divergence, V3.dot]; ring

theorem jac_curl (G c k : V3) : curl (jac G c k) = V3.cross G c + (2 : ℝ) • k := by
  ext <;> simp [jac, curl] <;> ring

/-- Sum of matrices. -/
def M3.sum (A B : M3) : M3 := ⟨A.r0 + B.r0, A.r1 + B.r1, A.r2 + B.r2⟩

/-- Multiple of a matrix. -/
noncomputable def M3.times (c : ℝ) (A : M3) : M3 := ⟨c • A.r0, c • A.r1, c • A.r2⟩

/-- A velocity field with Jacobian matrix `J` at `p` whose divergence is `a` and curl `w`. -/
structure Flow (v : V3 → V3) (p : V3) (a : ℝ) (w : V3) : Prop where
  ex : ∃ J, HasJacobian v p J ∧ divergence J = a ∧ curl J = w

theorem Flow.add {v v' : V3 → V3} {p : V3} {a a' : ℝ} {w w' : V3} (h : Flow v p a w) (h' : Flow v' p a' w') :
    Flow (fun q => v q + v' q) p (a + a') (w + w') := by
  obtain ⟨J, h1, h2, h3⟩ := h.ex
  obtain ⟨J', h1', h2', h3'⟩ := h'.ex
  refine ⟨J.sum J', ?_, ?_, ?_⟩
  · rw [hasJacobian_iff] at *
    intro d
    have e : (J.sum J').mulVec d = J.mulVec d + J'.mulVec d := by
      ext <;> simp [M3.sum, V3.dot_add_left]
    rw [e]
    exact (h1 d).add (h1' d)
  · rw [← h2, ← h2']; simp [divergence, M3.sum]; ring
  · rw [← h3, ← h3']; ext <;> simp [curl, M3.sum] <;> ring

theorem Flow.smul {v : V3 → V3} {p : V3} {a : ℝ} {w : V3} (c : ℝ) (h : Flow v p a w) :
    Flow (fun q => c • v q) p (c * a) (c • w) := by
  obtain ⟨J, h1, h2, h3⟩ := h.ex
  refine ⟨J.times c, ?_, ?_, ?_⟩
  · rw [hasJacobian_iff] at *
    intro d
    have e : (J.times c).mulVec d = c • J.mulVec d := by
      ext <;> simp [M3.times, V3.dot_smul_left]
    rw [e]
    exact (h1 d).const_smul c
  · rw [← h2]; simp [divergence, M3.times]; ring
  · rw [← h3]; ext <;> simp [curl, M3.times] <;> ring

theorem Flow.const (u p : V3) : Flow (fun _ => u) p 0 0 := by
  refine ⟨⟨0, 0, 0⟩, ?_, by simp [divergence], by ext <;> simp [curl]⟩
  rw [hasJacobian_iff]
  intro d
  have : (M3.mulVec ⟨0, 0, 0⟩ d) = 0 := by ext <;> simp
  rw [this]
  exact HasVD.const u

theorem Flow.sum {ι : Type} (s : Finset ι) {v : ι → V3 → V3} {p : V3} {a : ι → ℝ} {w : ι → V3}
    (h : ∀ i ∈ s, Flow (v i) p (a i) (w i)) :
    Flow (fun q => ∑ i ∈ s, v i q) p (∑ i ∈ s, a i) (∑ i ∈ s, w i) := by
  classical
  induction s using Finset.induction_on with
  | empty => simpa using Flow.const 0 p
  | insert i s hi ih =>
    have := (h i (Finset.mem_insert_self _ _)).add (ih fun j hj => h j (Finset.mem_insert_of_mem hj))
    simpa [Finset.sum_insert hi] using this

theorem Flow.congr {v v' : V3 → V3} {p : V3} {a : ℝ} {w : V3} (h : Flow v p a w)
    (e : ∀ d, ∀ᶠ t in nhds (0 : ℝ), v' (p + t • d) = v (p + t • d)) : Flow v' p a w := by
  obtain ⟨J, h1, h2, h3⟩ := h.ex
  refine ⟨J, ?_, h2, h3⟩
  rw [hasJacobian_iff] at *
  exact fun d => (h1 d).congr (e d)

/-! ## A straight filament -/

/-- The field of a point source at `a`, up to a constant. -/
noncomputable def poleField (p a : V3) : V3 := (1 / (p - a).norm ^ 3) • (p - a)

/-- Value of the kernel outside of the core, for the circulation `4 π`. -/
noncomputable def lineOut (p p1 p2 : V3) : V3 :=
  (((p2 - p1).dot (p - p1) / (p - p1).norm - (p2 - p1).dot (p - p2) / (p - p2).norm) /
    (V3.cross (p - p1) (p - p2)).dot (V3.cross (p - p1) (p - p2))) • V3.cross (p - p1) (p - p2)

theorem vortexLine_lineOut {p p1 p2 : V3} (γ : ℝ) (h : ¬ coreTest p p1 p2) :
    vortexLine p p1 p2 γ = (γ / (4 * Real.pi)) • lineOut p p1 p2 := by
  rw [vortexLine_out γ h, lineOut, V3.norm_sq]
  simp only [smul_smul, V3.dot_sub_right, V3.dot_smul_right]
  congr 1
  ring

theorem grad_first {r0 a c : V3} {n : ℝ} (hn : n ≠ 0) (h2 : n ^ 2 = a.dot a) (hc : V3.cross r0 a = c) :
    (1 / n) • r0 - (r0.dot a / n ^ 3) • a = (1 / n ^ 3) • V3.cross a c := by
  subst hc
  have e : 1 / n = a.dot a / n ^ 3 := by rw [← h2]; field_simp
  rw [e]
  ext <;> simp [V3.dot] <;> ring

theorem cross_cross_orth {a c : V3} (h : a.dot c = 0) : V3.cross (V3.cross a c) c = -(c.dot c • a) := by
  have h' : a.x * c.x + a.y * c.y + a.z * c.z = 0 := h
  ext <;> simp [V3.dot]
  · linear_combination c.x * h'
  · linear_combination c.y * h'
  · linear_combination c.z * h'

theorem cross_cross_orth' {a c : V3} (h : a.dot c = 0) : V3.cross (V3.cross c a) c = c.dot c • a := by
  have h' : a.x * c.x + a.y * c.y + a.z * c.z = 0 := h
  ext <;> simp [V3.dot]
  · linear_combination -c.x * h'
  · linear_combination -c.y * h'
  · linear_combination -c.z * h'

theorem lineOut_flow (p p1 p2 : V3) (hc : V3.cross (p - p1) (p - p2) ≠ 0) :
    Flow (fun q => lineOut q p1 p2) p 0 (poleField p p2 - poleField p p1) := by
  obtain ⟨a, ha⟩ : ∃ a, a = p - p1 := ⟨_, rfl⟩
  obtain ⟨b, hb⟩ : ∃ b, b = p - p2 := ⟨_, rfl⟩
  obtain ⟨r, hr⟩ : ∃ r, r = p2 - p1 := ⟨_, rfl⟩
  obtain ⟨c, hcd⟩ : ∃ c, c = V3.cross a b := ⟨_, rfl⟩
  have hrab : r = a - b := by rw [ha, hb, hr]; abel
  rw [← ha, ← hb, ← hcd] at hc
  have ha0 : a ≠ 0 := by rintro rfl; simp at hcd; exact hc hcd
  have hb0 : b ≠ 0 := by rintro rfl; simp at hcd; exact hc hcd
  have hna := (V3.norm_pos ha0).ne'
  have hnb := (V3.norm_pos hb0).ne'
  have hcc := (V3.dot_self_pos hc).ne'
  have hac : a.dot c = 0 := by rw [hcd]; simp [V3.dot]; ring
  have hbc : b.dot c = 0 := by rw [hcd]; simp [V3.dot]; ring
  have hrc : r.dot c = 0 := by rw [hrab, V3.dot_sub_left, hac, hbc, sub_zero]
  have hra : V3.cross r a = c := by rw [hrab, hcd]; ext <;> simp <;> ring
  have hrb : V3.cross r b = c := by rw [hrab, hcd]; ext <;> simp <;> ring
  have ga := grad_first hna (V3.norm_sq a) hra
  have gb := grad_first hnb (V3.norm_sq b) hrb
  obtain ⟨N, hN⟩ : ∃ N, N = r.dot a / a.norm - r.dot b / b.norm := ⟨_, rfl⟩
  obtain ⟨G, hG⟩ : ∃ G : V3, G = (1 / c.dot c) • ((1 / a.norm ^ 3) • V3.cross a c - (1 / b.norm ^ 3) • V3.cross b c)
    - (2 * N / (c.dot c) ^ 2) • V3.cross c r := ⟨_, rfl⟩
  refine ⟨jac G c ((N / c.dot c) • r), ?_, ?_, ?_⟩
  · rw [hasJacobian_iff]
    intro d
    rw [jac_mulVec]
    have h1 := HasVD.line p d p1
    have h2 := HasVD.line p d p2
    have hx := h1.cross h2
    have e0 : p + (0 : ℝ) • d = p := by simp
    have hr1 := (HasVD.const r).dot h1
    have hr2 := (HasVD.const r).dot h2
    have hn1 := h1.norm (by rw [e0, ← ha]; exact ha0)
    have hn2 := h2.norm (by rw [e0, ← hb]; exact hb0)
    have q1 := hr1.div hn1 (by rw [e0, ← ha]; exact hna)
    have q2 := hr2.div hn2 (by rw [e0, ← hb]; exact hnb)
    have hD := hx.dot hx
    have q3 := (q1.sub q2).div hD (by rw [e0, ← ha, ← hb, ← hcd]; exact hcc)
    have q4 := HasVD.smul q3 hx
    have e1 : V3.cross d b + V3.cross a d = V3.cross r d := by
      rw [hrab]; ext <;> simp <;> ring
    simp only [Pi.sub_apply, Pi.div_apply, e0, ← ha, ← hb, ← hcd, e1, V3.dot_zero_left, zero_add] at q4
    simp only [lineOut, ← hr]
    have e2 : V3.cross ((N / c.dot c) • r) d = ((r.dot a / a.norm - r.dot b / b.norm) / c.dot c) • V3.cross r d := by
      rw [← hN, V3.cross_smul_left]
    rw [e2]
    refine cast ?_ q4
    congr 3
    rw [hG, ← ga, ← gb, ← hN]
    have e3 : (V3.cross c r).dot d = c.dot (V3.cross r d) := by simp [V3.dot]; ring
    rw [V3.dot_comm (V3.cross r d) c, ← e3]
    simp only [V3.dot_sub_left, V3.dot_smul_left]
    field_simp
    ring
  · rw [jac_divergence, hG]
    have e1 : (V3.cross a c).dot c = 0 := V3.dot_cross_right _ _
    have e2 : (V3.cross b c).dot c = 0 := V3.dot_cross_right _ _
    have e3 : (V3.cross c r).dot c = 0 := V3.dot_cross_left _ _
    simp [V3.dot_sub_left, V3.dot_smul_left, e1, e2, e3]
  · rw [jac_curl, hG]
    have e : V3.cross ((1 / c.dot c) • ((1 / a.norm ^ 3) • V3.cross a c - (1 / b.norm ^ 3) • V3.cross b c)
        - (2 * N / (c.dot c) ^ 2) • V3.cross c r) c =
        (1 / c.dot c) • ((1 / a.norm ^ 3) • V3.cross (V3.cross a c) c - (1 / b.norm ^ 3) • V3.cross (V3.cross b c) c)
          - (2 * N / (c.dot c) ^ 2) • V3.cross (V3.cross c r) c := by
      ext <;> simp <;> ring
    rw [e, cross_cross_orth hac, cross_cross_orth hbc, cross_cross_orth' hrc, poleField, poleField, ← ha, ← hb]
    ext <;> simp <;> field_simp <;> ring

/-! ## A trailing vortex -/

theorem wake_flow (p A V : V3) (h : wakeDefined p A V) :
    Flow (fun q => vortexInfiniteLine q A V (4 * Real.pi)) p 0 (-poleField p A) := by
  have h' := (wakeDefined_iff p A V).1 h
  obtain ⟨hV, hden⟩ := h
  obtain ⟨a, ha⟩ : ∃ a, a = p - A := ⟨_, rfl⟩
  obtain ⟨u, hu⟩ : ∃ u, u = (1 / V.norm) • V := ⟨_, rfl⟩
  rw [← ha, ← hu] at hden
  have hpi : 4 * Real.pi / (4 * Real.pi) = 1 := div_self (by positivity)
  have hna : a.norm ≠ 0 := left_ne_zero_of_mul hden
  have hm : a.norm - u.dot a ≠ 0 := right_ne_zero_of_mul hden
  have ha0 : a ≠ 0 := by rintro rfl; simp at hna
  have huu : u.dot u = 1 := by
    have := (V3.norm_pos hV).ne'
    rw [hu, V3.dot_smul_left, V3.dot_smul_right, ← V3.norm_mul_self]
    field_simp
  obtain ⟨n, hn⟩ : ∃ n, n = a.norm := ⟨_, rfl⟩
  obtain ⟨m, hmd⟩ : ∃ m, m = u.dot a := ⟨_, rfl⟩
  have hn2 : n ^ 2 = a.dot a := by rw [hn, V3.norm_sq]
  rw [← hn] at hna hm
  rw [← hmd] at hm
  obtain ⟨G, hG⟩ : ∃ G : V3, G = (-1 / (n * (n - m)) ^ 2) • (((2 * n - m) / n) • a - n • u) := ⟨_, rfl⟩
  refine ⟨jac G (V3.cross u a) ((1 / (n * (n - m))) • u), ?_, ?_, ?_⟩
  · rw [hasJacobian_iff]
    intro d
    rw [jac_mulVec]
    have e0 : p + (0 : ℝ) • d = p := by simp
    have h1 := HasVD.line p d A
    have hn1 := h1.norm (by rw [e0, ← ha]; exact ha0)
    have hm1 := (HasVD.const u).dot h1
    have hx := (HasVD.const u).cross h1
    have hD := hn1.mul (hn1.sub hm1)
    have q := HasVD.smul ((hasDerivAt_const (0 : ℝ) (1 : ℝ)).div hD (by
      simp only [Pi.mul_apply, Pi.sub_apply, e0, ← ha, ← hn, ← hmd]; exact mul_ne_zero hna hm)) hx
    simp only [Pi.mul_apply, Pi.sub_apply, Pi.div_apply, e0, ← ha, ← hn, ← hmd, V3.dot_zero_left, V3.cross_zero_left, zero_add] at q
    simp only [vortexInfiniteLine, ← hu, hpi, one_smul]
    rw [V3.cross_smul_left]
    refine cast ?_ q
    congr 3
    rw [hG]
    simp only [V3.dot_sub_left, V3.dot_smul_left]
    field_simp
    ring
  · rw [jac_divergence, hG]
    have e1 : a.dot (V3.cross u a) = 0 := by rw [V3.dot_comm, V3.dot_cross_right]
    have e2 : u.dot (V3.cross u a) = 0 := by rw [V3.dot_comm, V3.dot_cross_left]
    simp [V3.dot_sub_left, V3.dot_smul_left, e1, e2]
  · rw [jac_curl, hG]
    have e : V3.cross ((-1 / (n * (n - m)) ^ 2) • (((2 * n - m) / n) • a - n • u)) (V3.cross u a) =
        (-1 / (n * (n - m)) ^ 2) • (((2 * n - m) / n) • V3.cross a (V3.cross u a) - n • V3.cross u (V3.cross u a)) := by
      ext <;> simp <;> ring
    have e1 : V3.cross a (V3.cross u a) = n ^ 2 • u - m • a := by
      rw [hn2, hmd]; ext <;> simp [V3.dot] <;> ring
    have e2 : V3.cross u (V3.cross u a) = m • u - a := by
      have : V3.cross u (V3.cross u a) = m • u - u.dot u • a := by
        rw [hmd]; ext <;> simp [V3.dot] <;> ring
      rw [this, huu, one_smul]
    rw [e, e1, e2, poleField, ← ha, ← hn]
    ext <;> simp <;> field_simp <;> ring

/-! ## The kernels of the program -/

theorem continuous_norm_line (p d a : V3) : Continuous fun t : ℝ => (p + t • d - a).norm := by
  unfold V3.norm V3.dot
  simp only [V3.sub_x, V3.sub_y, V3.sub_z, V3.add_x, V3.add_y, V3.add_z, V3.smul_x, V3.smul_y, V3.smul_z]
  fun_prop

theorem continuous_cross_line (p d a b : V3) :
    Continuous fun t : ℝ => (V3.cross (p + t • d - a) (p + t • d - b)).norm ^ 2 := by
  unfold V3.norm V3.dot
  simp only [V3.cross_x, V3.cross_y, V3.cross_z, V3.sub_x, V3.sub_y, V3.sub_z, V3.add_x, V3.add_y, V3.add_z, V3.smul_x, V3.smul_y, V3.smul_z]
  fun_prop

theorem eventually_lt_line {f : ℝ → ℝ} (hf : Continuous f) {c : ℝ} (h : f 0 < c) :
    ∀ᶠ t in nhds (0 : ℝ), f t < c :=
  hf.continuousAt.eventually_lt continuousAt_const h

theorem eventually_gt_line {f : ℝ → ℝ} (hf : Continuous f) {c : ℝ} (h : c < f 0) :
    ∀ᶠ t in nhds (0 : ℝ), c < f t :=
  continuousAt_const.eventually_lt hf.continuousAt h

theorem outsideCore_iff (p a b : V3) : outsideCore p a b ↔
    1e-8 < (p - a).norm ∧ 1e-8 < (p - b).norm ∧ 1e-8 < (V3.cross (p - a) (p - b)).norm ^ 2 := by
  simp [outsideCore, coreLengths]

theorem offCoreSurface_iff (p a b : V3) : offCoreSurface p a b ↔
    (p - a).norm ≠ 1e-8 ∧ (p - b).norm ≠ 1e-8 ∧ (V3.cross (p - a) (p - b)).norm ^ 2 ≠ 1e-8 := by
  simp [offCoreSurface, coreLengths]

theorem outsideCore.off {p a b : V3} (h : outsideCore p a b) : offCoreSurface p a b :=
  fun l hl => (h l hl).ne'

theorem vortexLine_flow_out {p a b : V3} (h : outsideCore p a b) (γ : ℝ) :
    Flow (fun q => vortexLine q a b γ) p 0 ((γ / (4 * Real.pi)) • (poleField p b - poleField p a)) := by
  obtain ⟨h1, h2, h3⟩ := (outsideCore_iff _ _ _).1 h
  have hn : ¬ coreTest p a b := by
    unfold coreTest; push Not; exact ⟨h1.le, h2.le, h3.le⟩
  have hf := (lineOut_flow p a b (not_core_cross hn)).smul (γ / (4 * Real.pi))
  rw [mul_zero] at hf
  refine hf.congr fun d => ?_
  have e0 : p + (0 : ℝ) • d = p := by simp
  filter_upwards [eventually_gt_line (continuous_norm_line p d a) (c := 1e-8) (by simpa only [e0] using h1),
    eventually_gt_line (continuous_norm_line p d b) (c := 1e-8) (by simpa only [e0] using h2),
    eventually_gt_line (continuous_cross_line p d a b) (c := 1e-8) (by simpa only [e0] using h3)] with t t1 t2 t3
  refine vortexLine_lineOut γ ?_
  unfold coreTest; push Not; exact ⟨t1.le, t2.le, t3.le⟩

theorem vortexLine_flow {p a b : V3} (h : offCoreSurface p a b) (γ : ℝ) :
    ∃ w, Flow (fun q => vortexLine q a b γ) p 0 w := by
  by_cases hc : coreTest p a b
  · refine ⟨0, (Flow.const 0 p).congr fun d => ?_⟩
    have e0 : p + (0 : ℝ) • d = p := by simp
    rcases hc with hc | hc | hc
    · filter_upwards [eventually_lt_line (continuous_norm_line p d a) (c := 1e-8) (by simpa only [e0] using hc)] with t ht
      exact vortexLine_core γ (Or.inl ht)
    · filter_upwards [eventually_lt_line (continuous_norm_line p d b) (c := 1e-8) (by simpa only [e0] using hc)] with t ht
      exact vortexLine_core γ (Or.inr (Or.inl ht))
    · filter_upwards [eventually_lt_line (continuous_cross_line p d a b) (c := 1e-8) (by simpa only [e0] using hc)] with t ht
      exact vortexLine_core γ (Or.inr (Or.inr ht))
  · obtain ⟨h1, h2, h3⟩ := (offCoreSurface_iff _ _ _).1 h
    unfold coreTest at hc
    push Not at hc
    exact ⟨_, vortexLine_flow_out ((outsideCore_iff _ _ _).2
      ⟨lt_of_le_of_ne hc.1 h1.symm, lt_of_le_of_ne hc.2.1 h2.symm, lt_of_le_of_ne hc.2.2 h3.symm⟩) γ⟩

theorem vortexInfiniteLine_flow {p a V : V3} (h : offRay p a V) (γ : ℝ) :
    Flow (fun q => vortexInfiniteLine q a V γ) p 0 (-((γ / (4 * Real.pi)) • poleField p a)) := by
  have hf := (wake_flow p a V ((wakeDefined_iff _ _ _).2 h)).smul (γ / (4 * Real.pi))
  rw [mul_zero, smul_neg] at hf
  have e : ∀ q, (γ / (4 * Real.pi)) • vortexInfiniteLine q a V (4 * Real.pi) = vortexInfiniteLine q a V γ := fun q => by
    rw [vortexInfiniteLine_gamma q a V (4 * Real.pi), vortexInfiniteLine_gamma q a V γ, smul_smul]
    congr 1
    field_simp
  simpa only [e] using hf

theorem vortexRing_flow {p A B C D : V3} (g : ℝ) (h1 : offCoreSurface p A B) (h2 : offCoreSurface p B C)
    (h3 : offCoreSurface p C D) (h4 : offCoreSurface p D A) :
    ∃ w, Flow (fun q => vortexRing q A B C D g) p 0 w := by
  obtain ⟨w1, f1⟩ := vortexLine_flow h1 g
  obtain ⟨w2, f2⟩ := vortexLine_flow h2 g
  obtain ⟨w3, f3⟩ := vortexLine_flow h3 g
  obtain ⟨w4, f4⟩ := vortexLine_flow h4 g
  exact ⟨_, by simpa [vortexRing] using ((f1.add f2).add f3).add f4⟩

theorem vortexRing_flow_out {p A B C D : V3} (g : ℝ) (h1 : outsideCore p A B) (h2 : outsideCore p B C)
    (h3 : outsideCore p C D) (h4 : outsideCore p D A) : Flow (fun q => vortexRing q A B C D g) p 0 0 := by
  have f := (((vortexLine_flow_out h1 g).add (vortexLine_flow_out h2 g)).add (vortexLine_flow_out h3 g)).add
    (vortexLine_flow_out h4 g)
  have e : (g / (4 * Real.pi)) • (poleField p B - poleField p A) + (g / (4 * Real.pi)) • (poleField p C - poleField p B)
    + (g / (4 * Real.pi)) • (poleField p D - poleField p C) + (g / (4 * Real.pi)) • (poleField p A - poleField p D) = 0 := by
    ext <;> simp <;> ring
  rw [e] at f
  simpa [vortexRing] using f

theorem vortexHorseshoe_flow {p A B C D V : V3} (g : ℝ) (h1 : offCoreSurface p A B) (h2 : offCoreSurface p B C)
    (h3 : offCoreSurface p C D) (h4 : offRay p A V) (h5 : offRay p D V) :
    ∃ w, Flow (fun q => vortexHorseshoeV2 q A B C D V g) p 0 w := by
  obtain ⟨w1, f1⟩ := vortexLine_flow h1 g
  obtain ⟨w2, f2⟩ := vortexLine_flow h2 g
  obtain ⟨w3, f3⟩ := vortexLine_flow h3 g
  have f4 := vortexInfiniteLine_flow h5 g
  have f5 := vortexInfiniteLine_flow h4 (-1 * g)
  exact ⟨_, by simpa [vortexHorseshoeV2] using (((f1.add f2).add f3).add f4).add f5⟩

theorem vortexHorseshoe_flow_out {p A B C D V : V3} (g : ℝ) (h1 : outsideCore p A B) (h2 : outsideCore p B C)
    (h3 : outsideCore p C D) (h4 : offRay p A V) (h5 : offRay p D V) :
    Flow (fun q => vortexHorseshoeV2 q A B C D V g) p 0 0 := by
  have f := ((((vortexLine_flow_out h1 g).add (vortexLine_flow_out h2 g)).add (vortexLine_flow_out h3 g)).add
    (vortexInfiniteLine_flow h5 g)).add (vortexInfiniteLine_flow h4 (-1 * g))
  have e : (g / (4 * Real.pi)) • (poleField p B - poleField p A) + (g / (4 * Real.pi)) • (poleField p C - poleField p B)
    + (g / (4 * Real.pi)) • (poleField p D - poleField p C) + -((g / (4 * Real.pi)) • poleField p D)
    + -((-1 * g / (4 * Real.pi)) • poleField p A) = 0 := by
    ext <;> simp <;> ring
  rw [e] at f
  simpa [vortexHorseshoeV2] using f

variable {K : ℕ}

theorem lattice_flow (L : Fin K → PanelVars) (te : Fin K → Bool) (V : Fin K → V3) (g : ℝ) (γ : Fin K → ℝ) (p : V3)
    (h : eachFilament L te V (offCoreSurface p) (offRay p)) :
    ∃ w, Flow (latticeVelocity L te V g γ) p 0 w := by
  have hj : ∀ j, ∃ w, Flow (fun q => γ j • (if te j then
      vortexHorseshoeV2 q (L j).ring.A (L j).ring.B (L j).ring.C (L j).ring.D (V j) g
    else vortexRing q (L j).ring.A (L j).ring.B (L j).ring.C (L j).ring.D g)) p 0 w := fun j => by
    obtain ⟨h1, h2, h3, h4⟩ := h j
    by_cases ht : te j = true
    · simp only [ht, if_true] at h4 ⊢
      obtain ⟨w, f⟩ := vortexHorseshoe_flow g h1 h2 h3 h4.1 h4.2
      exact ⟨_, by simpa using f.smul (γ j)⟩
    · simp only [ht, if_false, Bool.false_eq_true] at h4 ⊢
      obtain ⟨w, f⟩ := vortexRing_flow g h1 h2 h3 h4
      exact ⟨_, by simpa using f.smul (γ j)⟩
  choose w hw using hj
  have f := Flow.sum Finset.univ fun j _ => hw j
  rw [Finset.sum_const_zero] at f
  exact ⟨_, f⟩

theorem lattice_flow_out (L : Fin K → PanelVars) (te : Fin K → Bool) (V : Fin K → V3) (g : ℝ) (γ : Fin K → ℝ) (p : V3)
    (h : eachFilament L te V (outsideCore p) (offRay p)) :
    Flow (latticeVelocity L te V g γ) p 0 0 := by
  have hj : ∀ j, Flow (fun q => γ j • (if te j then
      vortexHorseshoeV2 q (L j).ring.A (L j).ring.B (L j).ring.C (L j).ring.D (V j) g
    else vortexRing q (L j).ring.A (L j).ring.B (L j).ring.C (L j).ring.D g)) p 0 0 := fun j => by
    obtain ⟨h1, h2, h3, h4⟩ := h j
    by_cases ht : te j = true
    · simp only [ht, if_true] at h4 ⊢
      simpa using (vortexHorseshoe_flow_out g h1 h2 h3 h4.1 h4.2).smul (γ j)
    · simp only [ht, if_false, Bool.false_eq_true] at h4 ⊢
      simpa using (vortexRing_flow_out g h1 h2 h3 h4).smul (γ j)
  have f := Flow.sum Finset.univ fun j _ => hj j
  rw [Finset.sum_const_zero, Finset.sum_const_zero] at f
  exact f

end PySailing
