import Mathlib.Data.List.Basic

/-! # The name of a data set in the header of a VTK file -/

namespace GTMesh.Vtk

/-- The first word of a text is `w`: there are blanks and ends of lines only in front of it, none in it, and one or nothing behind it. -/
def FirstWord (s w : List Char) : Prop :=
  ∃ front behind, s = front ++ (w ++ behind) ∧ w ≠ [] ∧ (∀ c ∈ front, c ∈ [' ', '\n', '\t', '\r']) ∧ (∀ c ∈ w, c ∉ [' ', '\n', '\t', '\r']) ∧
    ∀ c, behind.head? = some c → c ∈ [' ', '\n', '\t', '\r']

/-- A name that fits in the second line of the header: one line of at most 1024 characters. -/
def GoodName (name : List Char) : Prop := '\n' ∉ name ∧ name.length ≤ 1024

end GTMesh.Vtk
