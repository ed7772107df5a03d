import Verif.Model.Vtk3
import Verif.Spec.Vtk

/-! # The 3D cells of the VTK format

Vertices are numbered as in the description of the VTK file formats: tetrahedron 0-1-2 with apex 3, pyramid
0-1-2-3 with apex 4, wedge 0-1-2 and 3-4-5, hexahedron 0-1-2-3 and 4-5-6-7. -/

namespace GTMesh.Vtk
open Spec
variable {R : Type}

/-- The faces of the cell with `n` vertices, as polygons of vertex positions. -/
def cellPolygons : Nat → List (List Nat)
  | 4 => [[0, 1, 2], [0, 1, 3], [1, 2, 3], [2, 0, 3]]
  | 5 => [[0, 1, 2, 3], [0, 1, 4], [1, 2, 4], [2, 3, 4], [3, 0, 4]]
  | 6 => [[0, 1, 2], [0, 1, 4, 3], [1, 2, 5, 4], [2, 0, 3, 5], [3, 4, 5]]
  | 8 => [[0, 1, 2, 3], [0, 1, 5, 4], [1, 2, 6, 5], [2, 3, 7, 6], [3, 0, 4, 7], [4, 5, 6, 7]]
  | _ => []

/-- The faces of a cell with the vertices `vs`, as polygons of vertex numbers. -/
def facePolygons (vs : List Idx) : List (List Idx) :=
  (cellPolygons vs.length).map fun p => p.map fun i => (vs[i]?).getD 0

/-- Two polygons with the same sides. -/
def SameSides (p q : List Idx) : Prop := ∀ u v, HasSide p u v ↔ HasSide q u v

/-- The cells of a 3D file are tetrahedra, pyramids, wedges or hexahedra with different vertices; the numbers fit
in the index type. -/
structure File.Solids (F : File R) : Prop where
  known : ∀ vs ∈ F.cells, vs.length = 4 ∨ vs.length = 5 ∨ vs.length = 6 ∨ vs.length = 8
  nodup : ∀ vs ∈ F.cells, NoRepetition vs
  fit : 12 * F.cells.length ≤ INVALID

/-- Cell number `c` of the file has a face with the sides of the polygon `p`. -/
def UsesFace (F : File R) (c : Nat) (p : List Idx) : Prop :=
  ∃ vs, F.cells[c]? = some vs ∧ ∃ q ∈ facePolygons vs, SameSides p q

/-- At most two cells of the file have the face `p`. -/
def AtMostTwoFace (F : File R) (p : List Idx) : Prop :=
  ∀ a b c, UsesFace F a p → UsesFace F b p → UsesFace F c p → a = b ∨ b = c ∨ a = c

/-- The faces `l` are the faces of a cell with the vertices `vs`. -/
def FacesOf (es : List Edge) (fs : List Face) (l vs : List Idx) : Prop :=
  l.length = (facePolygons vs).length ∧
  ∀ (j : Nat) p, (facePolygons vs)[j]? = some p → ∃ i x, l[j]? = some i ∧ fs[i]? = some x ∧ IsPolygon es x.sub p

end GTMesh.Vtk
