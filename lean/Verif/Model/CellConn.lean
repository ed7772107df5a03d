import Verif.Base
import Verif.Model.Index

/-!
# Connection of a face to its two cells

`CellConnection` and `CellBoundaryConnection`.  Object mutation is modelled by returning the new
object.
-/

namespace GTMesh

/-- Data members of `CellConnection` (CellConnection.h, `cellRightIndex`, `cellLeftIndex`) and of the
derived `CellBoundaryConnection` (CellBoundaryConnection.h:14-21, `nextBElemWRTCL`,
`nextBElemWRTCR`).  The default values are those of the constructors: CellBoundaryConnection.h:23-26
and 53-58. -/
structure Conn where
  left : Idx := INVALID
  right : Idx := INVALID
  nextL : Idx := INVALID
  nextR : Idx := INVALID
  deriving DecidableEq, Repr

namespace Conn

/-- CellConnection.h:93-96 -/
def setCellRightIndex (c : Conn) (i : Idx) : Conn := { c with right := i }

/-- CellConnection.h:98-101 -/
def setCellLeftIndex (c : Conn) (i : Idx) : Conn := { c with left := i }

/-- CellConnection.h:103-135: returns the new object and the returned flag. -/
def setCellIndex (c : Conn) (i : Idx) : Conn × Bool :=
  if i = INVALID then (c, false)
  else if c.left = INVALID then (c.setCellLeftIndex i, true)
  else if c.right = INVALID then (c.setCellRightIndex i, true)
  else (c, false)

/-- CellConnection.h:147-170 -/
def getOtherCellIndex (c : Conn) (i : Idx) : Res Idx :=
  if i = INVALID then .throw .runtimeError
  else if i = c.right then .ok c.left
  else if i = c.left then .ok c.right
  else .throw .runtimeError

/-- CellConnection.h:172-175 -/
def cellsOK (c : Conn) : Bool := decide (c.right ≠ INVALID) && decide (c.left ≠ INVALID)

/-- CellConnection.h:177-185: exchanges the two cell indices only. -/
def swapCellsLR (c : Conn) : Conn :=
  let cellLeftIndex := c.right
  (c.setCellRightIndex c.left).setCellLeftIndex cellLeftIndex

/-- CellBoundaryConnection.h:60-63 -/
def setNextBElemWRTCR (c : Conn) (n : Idx) : Conn := { c with nextR := n }

/-- CellBoundaryConnection.h:65-68 -/
def setNextBElemWRTCL (c : Conn) (n : Idx) : Conn := { c with nextL := n }

/-- CellBoundaryConnection.h:70-136 -/
def setNextBElem (c : Conn) (next cell : Idx) : Conn × Bool :=
  if cell = INVALID then (c, false)
  else if c.left = cell then (c.setNextBElemWRTCL next, true)
  else if c.right = cell then (c.setNextBElemWRTCR next, true)
  else
    let c1 := if c.left = INVALID then c.setCellLeftIndex cell else c
    if cell = c1.left then (c1.setNextBElemWRTCL next, true)
    else
      let c2 := if c1.right = INVALID then c1.setCellRightIndex cell else c1
      if cell = c2.right then (c2.setNextBElemWRTCR next, true)
      else (c2, false)

/-- CellBoundaryConnection.h:149-173: the right cell is tested first. -/
def getNextBElem (c : Conn) (cell : Idx) : Res Idx :=
  if cell = INVALID then .throw .runtimeError
  else if cell = c.right then .ok c.nextR
  else if cell = c.left then .ok c.nextL
  else .throw .runtimeError

end Conn

/-! Client histories -/

/-- The face after a history of `setCellIndex` calls. -/
def Conn.runCells (c : Conn) (h : List Idx) : Conn := h.foldl (fun c i => (c.setCellIndex i).1) c

/-- The face after a history of `setNextBElem` calls. -/
def Conn.runNext (c : Conn) (h : List (Idx × Idx)) : Conn :=
  h.foldl (fun c p => (c.setNextBElem p.1 p.2).1) c

end GTMesh
