import Verif.Model.Vtk
import Verif.Spec.Polygon

/-! # What a VTK file says -/

namespace GTMesh.Vtk
open Spec
variable {R : Type}

/-- Content of a VTK file: two lines of text, positions, vertex numbers of each cell, codes of the cell types;
`precision` and `total` are the entries of the section headers which the reader ignores. -/
structure File (R : Type) where
  line1 : List String
  line2 : List String
  precision : String
  verts : List (R × R × R)
  total : Nat
  cells : List (List Idx)
  codes : List Nat

/-- A line of numbers with its length in front. -/
def lineTokens (l : List Idx) : List (VTok R) := .num l.length :: l.map .num ++ [.nl]

/-- The text of the file. -/
def File.tokens (F : File R) : List (VTok R) :=
  F.line1.map .word ++ .nl :: (F.line2.map .word ++ .nl ::
  .word "ASCII" :: .nl :: .word "DATASET" :: .word "UNSTRUCTURED_GRID" :: .nl ::
  .word "POINTS" :: .num F.verts.length :: .word F.precision :: .nl ::
  ((F.verts.flatMap fun p => [.real p.1, .real p.2.1, .real p.2.2, .nl]) ++ .nl ::
  .word "CELLS" :: .num F.cells.length :: .num F.total :: .nl ::
  (F.cells.flatMap lineTokens ++ .nl ::
  .word "CELL_TYPES" :: .num F.codes.length :: .nl :: ((F.codes.flatMap fun c => [.num c, .nl]) ++ [.nl]))))

/-- The cells of a 2D file are simple polygons and the numbers fit in the index type. -/
structure File.Polygons (F : File R) : Prop where
  nodup : ∀ vs ∈ F.cells, NoRepetition vs
  three : ∀ vs ∈ F.cells, 3 ≤ vs.length
  fit : F.cells.length ≤ INVALID
  edges_fit : (F.cells.map List.length).sum ≤ INVALID

/-- Polygon `vs` has the side `u`-`v`. -/
def HasSide (vs : List Idx) (u v : Idx) : Prop :=
  ∃ (j : Nat) (a b : Idx), j < vs.length ∧ cyc vs j = some a ∧ cyc vs (j + 1) = some b ∧ SamePair (a, b) (u, v)

/-- Cell number `c` of the file has the side `u`-`v`. -/
def Uses (F : File R) (c : Nat) (u v : Idx) : Prop := ∃ vs, F.cells[c]? = some vs ∧ HasSide vs u v

/-- At most two cells of the file have the side `u`-`v`. -/
def AtMostTwo (F : File R) (u v : Idx) : Prop :=
  ∀ a b c, Uses F a u v → Uses F b u v → Uses F c u v → a = b ∨ b = c ∨ a = c

/-- `left` and `right` are the first and the last of the cells with the property `p`; `right` is invalid when
there is only one. -/
def FirstAndLast (p : Nat → Prop) (left right : Idx) : Prop :=
  p left ∧ (∀ c, p c → left ≤ c) ∧
  ((right = INVALID ∧ ∀ c, p c → c = left) ∨ (left < right ∧ p right ∧ ∀ c, p c → c ≤ right))

end GTMesh.Vtk
