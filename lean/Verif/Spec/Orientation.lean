import Verif.Spec.Geometry
import Verif.Spec.Vtk3w

/-! # Orientation of exported solids -/

namespace GTMesh.Spec
open Vec

/-- The number of vertices of the base of a solid: the base of a tetrahedron (300) and of a wedge (302) is a triangle, that of a
pyramid (303) and of a hexahedron (301) is a quadrilateral. The vertices of a solid begin with those of its base. -/
def baseSize (t : Nat) : Nat := if t = 300 ∨ t = 302 then 3 else 4

/-- The position of vertex `v`. -/
def posAt (m : Mesh (Vec 3 ℝ)) (v : Idx) : Vec 3 ℝ := (m.vertices[v]?).getD 0

/-- The vertices `base`, in this order, go around the center of face `f`, in a plane, and the right-hand rule gives the unit vector `μ`. -/
def GoesAround (g : GMesh 3 ℝ) (f : Idx) (base : List Idx) (μ : Vec 3 ℝ) : Prop :=
  SeesAround (g.faceCenter f) μ (base.map (posAt g.mesh)) ∧
  ∃ u v, base[0]? = some u ∧ base[1]? = some v ∧ 0 < dot μ (cross (posAt g.mesh u - g.faceCenter f) (posAt g.mesh v - g.faceCenter f))

/-- The right-hand rule for the base, in the order of its vertices, points from face `f` into the cell `i`. -/
def BaseInward (g : GMesh 3 ℝ) (i f : Idx) (base : List Idx) : Prop :=
  ∃ μ, GoesAround g f base μ ∧ 0 < dot μ (g.cellCenter i - g.faceCenter f)

/-- The right-hand rule for the base, in the order of its vertices, points out of the cell `i`. -/
def BaseOutward (g : GMesh 3 ℝ) (i f : Idx) (base : List Idx) : Prop :=
  ∃ μ, GoesAround g f base μ ∧ dot μ (g.cellCenter i - g.faceCenter f) < 0

/-- `faceEdgeOri[face][0]`, the orientation of the first edge of face `f`. VTKMeshWriter.h:246 -/
def firstOri (bs : List (List Bool)) (f : Idx) : Bool := ((bs[f]?).bind fun b => b[0]?).getD false

/-- Six times the signed volume of the tetrahedron with the vertices `P`, `Q`, `R`, `S`. -/
noncomputable def sixVolume (P Q R S : Vec 3 ℝ) : ℝ := dot (cross (Q - P) (R - P)) (S - P)

end GTMesh.Spec
