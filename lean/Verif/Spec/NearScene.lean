import Verif.Spec.NearFigures

/-!
# Specification: three-dimensional pictures tend to a picture
-/

namespace PySailing.Spec

open Filter Topology

variable {T : Type}

/-- Eventually the same. -/
def Stays (l : Filter T) {α : Type} (x : T → α) (x0 : α) : Prop := ∀ᶠ t in l, x t = x0

/-- Arrows tend to an arrow: tail and tip tend, colour and opacity stay. -/
structure NearArrow (l : Filter T) (a : T → Arrow) (a0 : Arrow) : Prop where
  tail : Conv l (fun t => (a t).tail) a0.tail
  tip : Conv l (fun t => (a t).tip) a0.tip
  color : Stays l (fun t => (a t).color) a0.color
  alpha : Stays l (fun t => (a t).alpha) a0.alpha

/-- Coloured polygons tend to a polygon: the four corners and the number that gives the colour. -/
structure NearPolygon (l : Filter T) (q : T → Panel × ℝ) (q0 : Panel × ℝ) : Prop where
  p1 : Conv l (fun t => (q t).1.p1) q0.1.p1
  p2 : Conv l (fun t => (q t).1.p2) q0.1.p2
  p3 : Conv l (fun t => (q t).1.p3) q0.1.p3
  p4 : Conv l (fun t => (q t).1.p4) q0.1.p4
  colour : Tends l (fun t => (q t).2) q0.2

/-- The sails and the water. -/
structure NearPanelPlot (l : Filter T) (p : T → PanelPlot) (p0 : PanelPlot) : Prop where
  polygons : TendList l (NearPolygon l) (fun t => (p t).polygons) p0.polygons
  vmin : Tends l (fun t => (p t).vmin) p0.vmin
  vmax : Tends l (fun t => (p t).vmax) p0.vmax
  water : Stays l (fun t => (p t).water) p0.water
  xlim : Stays l (fun t => (p t).xlim) p0.xlim
  ylim : Stays l (fun t => (p t).ylim) p0.ylim
  zlim : Stays l (fun t => (p t).zlim) p0.zlim

/-- The force and its points of attack. -/
structure NearForcePlot (l : Filter T) (f : T → ForcePlot) (f0 : ForcePlot) : Prop where
  scale : Tends l (fun t => (f t).scale) f0.scale
  clr : Conv l (fun t => (f t).clr) f0.clr
  ce : Conv l (fun t => (f t).ce) f0.ce
  F : Conv l (fun t => (f t).F) f0.F
  arrows : TendList l (NearArrow l) (fun t => (f t).arrows) f0.arrows

/-- Pictures tend to a picture: the title, the water, the axes, and all numbers of lines, polygons and arrows, stay; all
corners, colours, ends of the colour scale, points of the hull and ends of arrows tend. -/
structure NearScene (l : Filter T) (s : T → Scene) (s0 : Scene) : Prop where
  title : Stays l (fun t => (s t).title) s0.title
  panels : NearPanelPlot l (fun t => (s t).panels) s0.panels
  hull : TendList l (fun h h0 => TendList l (Conv l) (fun t => (h t).1) h0.1 ∧ Stays l (fun t => (h t).2) h0.2)
    (fun t => (s t).hullLines) s0.hullLines
  winds : TendList l (NearArrow l) (fun t => (s t).winds) s0.winds
  force : NearForcePlot l (fun t => (s t).force) s0.force

/-- The highest edge (middle of the leading or trailing edge of a panel, above the water or mirrored) is at a whole number of
metres: there the water surface of the picture, whose size is rounded up, jumps. -/
def HighestAtWholeMetre (vars : List PanelVars) : Prop :=
  ∃ n : ℤ, IsGreatest {z : ℝ | ∃ v ∈ vars, z = |v.leMid.z| ∨ z = |v.teMid.z|} n

end PySailing.Spec
