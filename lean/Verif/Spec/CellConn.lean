import Verif.Spec.Lists
import Verif.Model.Index

/-! # What a user expects of a face's cells, in terms of the history of calls -/

namespace GTMesh.Spec

/-- The valid (not `INVALID`) indices of a history of `setCellIndex` calls. -/
def validOnly (h : List Idx) : List Idx := h.filter (fun c => decide (c ≠ INVALID))

/-- The cells registered after a history of `setNextBElem(next, cell)` calls on a fresh face: the first
two distinct valid cells mentioned, in the order of their first mention. -/
def registered (h : List (Idx × Idx)) : List Idx := (firstOcc (validOnly (h.map (·.2)))).take 2

/-- The successor given in the last call of the history that mentions `cell`. -/
def lastFor (h : List (Idx × Idx)) (cell : Idx) : Option Idx :=
  ((h.filter (fun p => decide (p.2 = cell))).getLast?).map (·.1)

end GTMesh.Spec
