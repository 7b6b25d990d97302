import Verif.Model.Drawing

/-!
# Specification: plots of meshes
-/

namespace PySailing.Spec

open PySailing

/-- The coordinate an axis label names. -/
def named (label : String) (p : V3) : Option ℝ :=
  if label = "X" then some p.x else if label = "Y" then some p.y else if label = "Z" then some p.z else none

/-- The numbers drawn for a point are, axis by axis, the coordinates the axes are labelled with. -/
def ShownTruly (labels : List String) (numbers : List ℝ) (p : V3) : Prop :=
  numbers.map some = labels.map fun l => named l p

/-- The line shows row `i` of the mesh: all its points in order, each under the right labels, in the colour. -/
def ShowsRow (labels : List String) (line : MeshLine) (mesh : NdMesh) (i : ℕ) (color : String) : Prop :=
  line.color = color ∧ line.points.length = mesh.n1 ∧
    ∀ j, j < mesh.n1 → ∃ numbers, line.points[j]? = some numbers ∧ ShownTruly labels numbers (mesh.at' i j)

end PySailing.Spec
