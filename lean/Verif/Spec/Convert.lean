import Verif.Spec.Fpma
import Verif.Spec.Vtk3w

/-! # Conversion of a polyhedral mesh to tetrahedra -/

namespace GTMesh.Fpma
open Spec

/-- The consecutive vertices of the closed polygon `vs`: its sides. -/
def sideList (vs : List Idx) : List (Idx × Idx) := vs.zip (vs.rotate 1)

/-- A side of a face of a cell. -/
structure CellSide where
  cell : Idx
  face : Idx
  u : Idx
  v : Idx
  deriving DecidableEq, Repr

/-- The vertices of face number `f`. -/
def File.face {R : Type} (F : File R) (f : Idx) : List Idx := (F.faces[f]?).getD []

/-- The faces of cell number `i`. -/
def File.cell {R : Type} (F : File R) (i : Idx) : List Idx := (F.cells[i]?).getD []

/-- The sides of the faces of the cells in the order of the file. -/
def File.cellSides {R : Type} (F : File R) : List CellSide :=
  (List.range F.cells.length).flatMap fun i => (F.cell i).flatMap fun f => (sideList (F.face f)).map fun s => ⟨i, f, s.1, s.2⟩

/-- The file describes polyhedra: the faces are simple polygons with at least three of the listed points, no two of them with the same sides,
and no side lies in more than two faces of a cell. -/
structure File.Polyhedra {R : Type} (F : File R) : Prop where
  nodup : ∀ vs ∈ F.faces, NoRepetition vs
  three : ∀ vs ∈ F.faces, 3 ≤ vs.length
  range : ∀ vs ∈ F.faces, ∀ v ∈ vs, v < F.verts.length
  distinct : ∀ (i j : Nat) vs ws, F.faces[i]? = some vs → F.faces[j]? = some ws → Vtk.SameSides vs ws → i = j
  closed : ∀ i f f' f'' u v, f ∈ F.cell i → f' ∈ F.cell i → f'' ∈ F.cell i → Vtk.HasSide (F.face f) u v → Vtk.HasSide (F.face f') u v →
    Vtk.HasSide (F.face f'') u v → f = f' ∨ f' = f'' ∨ f = f''

end GTMesh.Fpma
