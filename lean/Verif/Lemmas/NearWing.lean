import Verif.Spec.NearWing
import Verif.Lemmas.Wing

/-!
# Lemmas for C127: limits of lists, of the wing's mesh and of the theoretical coefficients
-/

namespace PySailing.Props

open PySailing PySailing.Spec Filter Topology

variable {T : Type} {l : Filter T}

theorem list_sum_eq (x : List ℝ) : x.sum = ∑ k ∈ Finset.range x.length, x.getD k 0 := by
  induction x with
  | nil => simp
  | cons a x ih => rw [List.sum_cons, List.length_cons, Finset.sum_range_succ', ih, add_comm]; simp

theorem v3_sum_x (x : List V3) : x.sum.x = (x.map V3.x).sum ∧ x.sum.z = (x.map V3.z).sum := by
  induction x with
  | nil => simp
  | cons a x ih => simp [ih.1, ih.2]

theorem sum_conv {x : T → List ℝ} {x0 : List ℝ} (hl : ∀ᶠ t in l, (x t).length = x0.length)
    (h : ∀ k, Tendsto (fun t => (x t).getD k 0) l (𝓝 (x0.getD k 0))) : Tendsto (fun t => (x t).sum) l (𝓝 x0.sum) := by
  rw [list_sum_eq]
  refine (tendsto_finsetSum (Finset.range x0.length) fun k _ => h k).congr' ?_
  filter_upwards [hl] with t ht
  rw [list_sum_eq, ht]

theorem getD_map_x (x : List V3) (k : ℕ) : (x.map V3.x).getD k 0 = (x.getD k 0).x ∧ (x.map V3.z).getD k 0 = (x.getD k 0).z := by
  simp only [List.getD_eq_getElem?_getD, List.getElem?_map]
  cases x[k]? <;> simp

theorem wingPoint_conv {a : T → AircraftInput} {a0 : AircraftInput} (N : NearWing l a a0) (r k : ℕ) :
    Conv l (fun t => wingPoint (a t).chord (a t).half (a t).aoaDeg a0.nc a0.ns r k)
      (wingPoint a0.chord a0.half a0.aoaDeg a0.nc a0.ns r k) := by
  have hang := N.aoa.mul_const (Real.pi / 180)
  have hx := N.chord.mul_const ((k : ℝ) / a0.nc)
  exact ⟨hx.mul (Real.continuous_cos.continuousAt.tendsto.comp hang),
    (hx.mul (Real.continuous_sin.continuousAt.tendsto.comp hang)).neg, N.half.mul_const _⟩

theorem theory_conv {AR aoa : T → ℝ} {AR0 aoa0 : ℝ} {th0 : ℝ × ℝ} (h0 : getCLCDFreeWing AR0 aoa0 = .ok th0)
    (hA : Tendsto AR l (𝓝 AR0)) (ha : Tendsto aoa l (𝓝 aoa0)) :
    ∃ th : T → ℝ × ℝ, (∀ᶠ t in l, getCLCDFreeWing (AR t) (aoa t) = .ok (th t)) ∧ Tendsto (fun t => (th t).1) l (𝓝 th0.1) ∧
      Tendsto (fun t => (th t).2) l (𝓝 th0.2) := by
  classical
  unfold getCLCDFreeWing at h0 ⊢
  simp only at h0 ⊢
  split_ifs at h0 with h1 h2
  have hq : Tendsto (fun t => Real.pi * AR t * 0.8) l (𝓝 (Real.pi * AR0 * 0.8)) := (hA.const_mul _).mul_const _
  have hd : Tendsto (fun t => 1 + 2 * Real.pi / (Real.pi * AR t * 0.8)) l (𝓝 (1 + 2 * Real.pi / (Real.pi * AR0 * 0.8))) :=
    tendsto_const_nhds.add (tendsto_const_nhds.div hq h1)
  have hang : Tendsto (fun t => deg2rad (aoa t)) l (𝓝 (deg2rad aoa0)) := ha.mul_const _
  have hCL : Tendsto (fun t => 2 * Real.pi / (1 + 2 * Real.pi / (Real.pi * AR t * 0.8)) * deg2rad (aoa t)) l
      (𝓝 (2 * Real.pi / (1 + 2 * Real.pi / (Real.pi * AR0 * 0.8)) * deg2rad aoa0)) := (tendsto_const_nhds.div hd h2).mul hang
  injection h0 with h0
  subst h0
  refine ⟨fun t => (_, _), ?_, hCL, (hCL.mul hCL).div hq h1⟩
  filter_upwards [hq.eventually_ne h1, hd.eventually_ne h2] with t t1 t2
  rw [if_neg t1, if_neg t2]
  rfl

end PySailing.Props
