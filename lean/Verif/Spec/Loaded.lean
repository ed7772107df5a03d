import Verif.Spec.Vtk3
import Verif.Spec.Fpma
import Verif.Model.Coloring

/-! # What a user asks of a loaded mesh -/

namespace GTMesh.Spec

/-- The table `r` has one list for each of `n` elements; the list of `s` is strictly increasing and holds the `t` with `rel s t`. -/
def IsTable (r : List (List Idx)) (n : Nat) (rel : Idx → Idx → Prop) : Prop :=
  r.length = n ∧ ∀ (s : Nat) l, r[s]? = some l → StrictlyIncreasing l ∧ ∀ t, t ∈ l ↔ rel s t

/-- Each of `n` elements has a color; different elements with `rel s t` have different colors. -/
def Separates (colors : List Nat) (n : Nat) (rel : Idx → Idx → Prop) : Prop :=
  colors.length = n ∧ ∀ (s t k : Nat), s < n → t < n → s ≠ t → rel s t → colors[s]? = some k → colors[t]? ≠ some k

/-- The mesh `m` has `nc` cells and `nv` vertices, of which `hasVertex c v` says which vertices belong to which cell, `adjacent` which cells
have a common face (side in 2D) and `joined` which vertices are joined by an edge; the queries of the library say the same. -/
structure Answers {V : Type} (m : Mesh V) (nc nv : Nat) (hasVertex adjacent joined : Idx → Idx → Prop) : Prop where
  vertices_of_cells : ∃ r, m.connectionsAsc m.dim 0 = .ok r ∧ IsTable r nc hasVertex
  cells_of_vertices : ∃ r, m.connectionsAsc 0 m.dim = .ok r ∧ IsTable r nv fun v c => hasVertex c v
  neighbors : ∃ r, m.neighborsAsc m.dim (m.dim - 1) m.dim = .ok r ∧ IsTable r nc fun c c' => adjacent c c' ∧ c ≠ c'
  neighbors_by_vertices : ∃ r, m.neighborsAsc m.dim 0 m.dim = .ok r ∧
    IsTable r nc fun c c' => (∃ v, hasVertex c v ∧ hasVertex c' v) ∧ c ≠ c'
  joined_vertices : ∃ r, m.neighborsAsc 0 1 0 = .ok r ∧ IsTable r nv fun u v => joined u v ∧ u ≠ v
  coloring : ∃ cs, m.colorGreedy m.dim (m.dim - 1) = .ok cs ∧ Separates cs nc adjacent
  coloring_by_vertices : ∃ cs, m.colorGreedy m.dim 0 = .ok cs ∧ Separates cs nc fun c c' => ∃ v, hasVertex c v ∧ hasVertex c' v
  random_coloring : 0 < nc → ∀ draw : Nat → Nat → Nat, (∀ i n, draw i n ≤ n) →
    ∃ cs, m.colorRandom m.dim (m.dim - 1) draw = .ok cs ∧ Separates cs nc adjacent

end GTMesh.Spec

namespace GTMesh.Vtk
open Spec
variable {R : Type}

/-- Vertex `v` belongs to cell `c` of the file. -/
def HasVertex (F : File R) (c v : Idx) : Prop := ∃ vs, F.cells[c]? = some vs ∧ v ∈ vs

/-- Cells `c` and `c'` of a 2D file have a common side. -/
def ShareSide (F : File R) (c c' : Idx) : Prop := ∃ u v, Uses F c u v ∧ Uses F c' u v

/-- Cells `c` and `c'` of a 3D file have a common face. -/
def ShareFace (F : File R) (c c' : Idx) : Prop := ∃ p, UsesFace F c p ∧ UsesFace F c' p

/-- Vertices `u` and `v` are joined by a side of a face of a cell of the 3D file. -/
def HasEdge3 (F : File R) (u v : Idx) : Prop := ∃ vs ∈ F.cells, ∃ p ∈ facePolygons vs, HasSide p u v

end GTMesh.Vtk

namespace GTMesh.Fpma
open Spec
variable {R : Type}

/-- Cell `c` of the file lists face `f`. -/
def HasFace (F : File R) (c f : Idx) : Prop := ∃ fs, F.cells[c]? = some fs ∧ f ∈ fs

/-- Face `f` of the file lists vertex `v`. -/
def FaceVertex (F : File R) (f v : Idx) : Prop := ∃ vs, F.faces[f]? = some vs ∧ v ∈ vs

/-- A face of cell `c` lists vertex `v`. -/
def HasVertex (F : File R) (c v : Idx) : Prop := ∃ f, HasFace F c f ∧ FaceVertex F f v

/-- Cells `c` and `c'` list a common face. -/
def ShareFace (F : File R) (c c' : Idx) : Prop := ∃ f, HasFace F c f ∧ HasFace F c' f

/-- Some face of the file has the side `u`-`v`. -/
def HasEdge (F : File R) (u v : Idx) : Prop := ∃ vs ∈ F.faces, Vtk.HasSide vs u v

end GTMesh.Fpma
