import Verif.Spec.NearRun
import Verif.Model.Plotter
import Verif.Model.Coefs

/-!
# Specification: figures tend to a figure
-/

namespace PySailing.Spec

open Filter Topology

variable {T : Type}

/-- The numbers `f t` tend to `a`. -/
def Tends (l : Filter T) (f : T → ℝ) (a : ℝ) : Prop := Tendsto f l (𝓝 a)

/-- The lists `xs t` eventually have the length of `xs0`, and their elements tend (in the sense `R`) to those of `xs0`: the pairs
`zs` consist of a family of elements and its limit. -/
def TendList (l : Filter T) {α : Type} (R : (T → α) → α → Prop) (xs : T → List α) (xs0 : List α) : Prop :=
  ∃ zs : List ((T → α) × α), xs0 = zs.map Prod.snd ∧ (∀ᶠ t in l, xs t = zs.map fun z => z.1 t) ∧ ∀ z ∈ zs, R z.1 z.2

/-- Maps of the pressure coefficient tend to a map: as many outlines with as many points, points and values tend. -/
def NearMap (l : Filter T) (m : T → List (List (ℝ × ℝ) × ℝ)) (m0 : List (List (ℝ × ℝ) × ℝ)) : Prop :=
  TendList l (fun q q0 => TendList l (fun u u0 => Tends l (fun t => (u t).1) u0.1 ∧ Tends l (fun t => (u t).2) u0.2)
    (fun t => (q t).1) q0.1 ∧ Tends l (fun t => (q t).2) q0.2) m m0

/-- Section plots tend to a plot: same file and labels, as many series with the same label, marker and colour, as many dots, and
both coordinates of every dot tend. -/
structure NearFigure (l : Filter T) (f : T → Figure) (f0 : Figure) : Prop where
  file : ∀ᶠ t in l, (f t).file = f0.file
  xlabel : ∀ᶠ t in l, (f t).xlabel = f0.xlabel
  series : TendList l (fun s s0 => (∀ᶠ t in l, (s t).1 = s0.1 ∧ (s t).2.1 = s0.2.1 ∧ (s t).2.2.1 = s0.2.2.1) ∧
    TendList l (Tends l) (fun t => (s t).2.2.2.1) s0.2.2.2.1 ∧ TendList l (Tends l) (fun t => (s t).2.2.2.2) s0.2.2.2.2)
    (fun t => (f t).series) f0.series

end PySailing.Spec
