import Verif.Model.Fpma
import Verif.Spec.Polygon
import Verif.Spec.Incidence

/-! # What an FPMA file says -/

namespace GTMesh.Fpma
open Spec

/-- Content of an FPMA file: positions, vertex numbers of each face, face numbers of each cell. -/
structure File (R : Type) where
  verts : List (Point R)
  faces : List (List Idx)
  cells : List (List Idx)

/-- The tokens of a list with its size in front. -/
def listTokens {R : Type} (l : List Idx) : List (Tok R) := .num l.length :: l.map .num

/-- The tokens of the file. -/
def File.tokens {R : Type} (F : File R) : List (Tok R) :=
  .num F.verts.length :: (F.verts.flatMap fun p => [.real p.1, .real p.2.1, .real p.2.2])
    ++ .num F.faces.length :: F.faces.flatMap listTokens
    ++ .num F.cells.length :: F.cells.flatMap listTokens

/-- The cells are well-formed: each one lists some faces, all existing, none twice; no face is listed by more
than two cells; the numbers fit in the index type. -/
structure File.WellFormed {R : Type} (F : File R) : Prop where
  cells_ne : ∀ l ∈ F.cells, l ≠ []
  cells_nodup : ∀ l ∈ F.cells, NoRepetition l
  cells_range : ∀ l ∈ F.cells, ∀ f ∈ l, f < F.faces.length
  two : ∀ f, (F.cells.filter fun l => decide (f ∈ l)).length ≤ 2
  cells_fit : F.cells.length ≤ INVALID
  faces_fit : F.faces.length ≤ INVALID

end GTMesh.Fpma
