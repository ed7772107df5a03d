import Verif.Model.EdgeTable
import Verif.Model.DataContainer
import Verif.Model.Std

/-!
# The VTK legacy format: tokens, header, cell types, and the 2D reader and writer
(VTKMeshReader.h, VTKMeshWriter.h)

A file is modelled by its tokens, with the ends of lines (they matter for `ist.ignore`).  Formatting and
parsing of single numbers is not modelled.
-/

namespace GTMesh.Vtk

/-- A token of a VTK file. -/
inductive VTok (R : Type) where
  | word (s : String)
  | num (n : Nat)
  | real (x : R)
  /-- end of a line -/
  | nl
  deriving DecidableEq, Repr

variable {R : Type}

/-- Skipping white space, as `operator>>` does. -/
def skipNl : List (VTok R) → List (VTok R)
  | .nl :: ts => skipNl ts
  | ts => ts

/-- `ist >> index` for a variable with the value `prev` (`none`: not initialised, using it is undefined behaviour).
At the end of the stream, and after a failure, the variable keeps its value; a text that is not a number makes it 0
and the stream fails. A stream that failed behaves like an empty one. Simplifications: a word does not begin with a
number; a real number read as an index (a part of its text would be read) counts as undefined behaviour. -/
def readNumInto (prev : Option Nat) (ts : List (VTok R)) : Res (Nat × List (VTok R)) :=
  match skipNl ts with
  | .num n :: r => .ok (n, r)
  | .word _ :: _ => .ok (0, [])
  | [] => match prev with
    | some p => .ok (p, [])
    | none => .ub
  | _ => .ub

/-- `ist >> index` for a variable that is not initialised: `numPoints`, `numCells`, `numVert`.
VTKMeshReader.h:61-62, 78-79, 85-86, 134-135 -/
def readNum (ts : List (VTok R)) : Res (Nat × List (VTok R)) := readNumInto none ts

/-- `ist >> coordinate` for a coordinate of a new vertex, which is 0. Simplification: an index read as a coordinate
counts as undefined behaviour (the tokens of coordinates are `real`). VTKMeshReader.h:64, 68-70, 310-312 -/
def readReal [Zero R] (ts : List (VTok R)) : Res (R × List (VTok R)) :=
  match skipNl ts with
  | .real x :: r => .ok (x, r)
  | .word _ :: _ => .ok (0, [])
  | [] => .ok (0, [])
  | _ => .ub

/-- `ist >> buf` for a string: at the end of the stream the string keeps its value `prev`; the text of a
number is represented by the empty string (it equals no keyword). -/
def readWord (prev : String) (ts : List (VTok R)) : String × List (VTok R) :=
  match skipNl ts with
  | .word s :: r => (s, r)
  | _ :: r => ("", r)
  | [] => (prev, [])

/-- `ist.ignore(k, '\n')`. Simplification: the rest of the line is never longer than `k` characters. -/
def ignoreLine : List (VTok R) → List (VTok R)
  | .nl :: ts => ts
  | _ :: ts => ignoreLine ts
  | [] => []

/-- Reading `n` indices into variables that are 0: `vertices(numVert)`, `vtkType`.
VTKMeshReader.h:88-91, 138-139, 332-335, 417-418 -/
def readNums : Nat → List (VTok R) → Res (List Nat × List (VTok R))
  | 0, ts => .ok ([], ts)
  | n + 1, ts => (readNumInto (some 0) ts).bind fun p => (readNums n p.2).bind fun q => .ok (p.1 :: q.1, q.2)

/-- Reading `n` positions of three coordinates. VTKMeshReader.h:66-71, 308-313 -/
def readPoints [Zero R] : Nat → List (VTok R) → Res (List (R × R × R) × List (VTok R))
  | 0, ts => .ok ([], ts)
  | n + 1, ts =>
    (readReal ts).bind fun x => (readReal x.2).bind fun y => (readReal y.2).bind fun z =>
    (readPoints n z.2).bind fun q => .ok ((x.1, y.1, z.1) :: q.1, q.2)

/-- `loadVertices`, VTKMeshReader.h:60-72, 303-314: the number of points, the rest of the line, the points. In
2D the third coordinate is dropped (by `proj`). -/
def loadVertices [Zero R] {V : Type} (proj : R × R × R → V) (ts : List (VTok R)) (m : Mesh V) :
    Res (Mesh V × List (VTok R)) :=
  (readNum ts).bind fun p =>
  (readPoints p.1 (ignoreLine p.2)).bind fun q => .ok ({ m with vertices := q.1.map proj }, q.2)

/-! ## Cell types -/

/-- VTK code to `MeshNativeType<2>::ElementType`, VTKMeshReader.h:34-40, MeshNativeType.h:13-19 -/
def fromVtk2 : Nat → Option Nat
  | 3 => some 100 | 5 => some 200 | 8 => some 201 | 9 => some 201 | 7 => some 202 | _ => none

/-- `MeshNativeType<2>::ElementType` to VTK code, VTKMeshWriter.h:23-28 -/
def toVtk2 : Nat → Option Nat
  | 100 => some 3 | 200 => some 5 | 201 => some 9 | 202 => some 7 | _ => none

/-- VTK code to `MeshNativeType<3>::ElementType`, VTKMeshReader.h:207-213, MeshNativeType.h:22-31 -/
def fromVtk3 : Nat → Option Nat
  | 10 => some 300 | 11 => some 301 | 12 => some 301 | 13 => some 302 | 14 => some 303 | _ => none

/-- `MeshNativeType<3>::ElementType` to VTK code, VTKMeshWriter.h:186-191 -/
def toVtk3 : Nat → Option Nat
  | 300 => some 10 | 301 => some 12 | 302 => some 13 | 303 => some 14 | _ => none

/-- The loop of `loadCellTypes` over the codes, from cell `i` on, VTKMeshReader.h:137-146, 416-425: for an
unknown code an exception object is constructed but not thrown. -/
def storeTypes (conv : Nat → Option Nat) : Nat → List Nat → List Nat → Res (List Nat)
  | _, [], types => .ok types
  | i, code :: codes, types =>
    match conv code with
    | some t => (Res.at' types i).bind fun _ => storeTypes conv (i + 1) codes (types.set i t)
    | none => storeTypes conv (i + 1) codes types

/-- `loadCellTypes`, VTKMeshReader.h:132-147, 411-426. `types` is the previous content of the reader's
`cellTypes`; new entries are value-initialised. Simplification: all codes are read before they are stored. -/
def loadCellTypes (conv : Nat → Option Nat) (numCells : Nat) (types : List Nat) (ts : List (VTok R)) :
    Res (List Nat × List (VTok R)) :=
  (readNum ts).bind fun p => (readNums p.1 p.2).bind fun q =>
  (storeTypes conv 0 q.1 (resize types numCells 0)).bind fun t => .ok (t, q.2)

/-- `loadFromStream`, VTKMeshReader.h:149-191, 428-471 (without the signature), over the functions that load
the points and the cells; returns the mesh and the reader's cell types. -/
def loadFromStream {V : Type} (conv : Nat → Option Nat)
    (loadV loadC : List (VTok R) → Mesh V → Res (Mesh V × List (VTok R)))
    (ts : List (VTok R)) (types : List Nat) (m : Mesh V) : Res (Mesh V × List Nat) :=
  let ts := ignoreLine (ignoreLine ts)
  let w1 := readWord "" ts
  if w1.1 ≠ "ASCII" then .throw .runtimeError
  else
    let w2 := readWord w1.1 w1.2
    if w2.1 ≠ "DATASET" then .throw .runtimeError
    else
      let w3 := readWord w2.1 w2.2
      if w3.1 ≠ "UNSTRUCTURED_GRID" then .throw .runtimeError
      else
        let w4 := readWord w3.1 w3.2
        (if w4.1 = "POINTS" then loadV w4.2 m.clear else .ok (m.clear, w4.2)).bind fun p =>
        let w5 := readWord w4.1 p.2
        (if w5.1 = "CELLS" then loadC w5.2 p.1 else .ok (p.1, w5.2)).bind fun q =>
        let w6 := readWord w5.1 q.2
        (if w6.1 = "CELL_TYPES" then loadCellTypes conv q.1.cells.length types w6.2
         else .ok (types, w6.2)).bind fun t =>
        .ok (q.1, t.1)

/-! ## Cells in 2D -/

/-- `container.at(i)` modified by `f`. -/
def modifyAt {α : Type} (l : List α) (i : Nat) (f : α → α) : Res (List α) :=
  (Res.at' l i).bind fun x => .ok (l.set i (f x))

/-- What the 2D and 3D readers do with the facet (edge in 2D, face in 3D) number `e` of cell number `cell` once
it is found or created: register the cell, link the previous facet `prev` to it and, when it is the last one,
link it to the first facet. `wc f` applies `f` to the `CellBoundaryConnection` part of an element; `first` is the
boundary element of the cell. VTKMeshReader.h:109, 113, 116-118, 123-125 (2D), 389, 393, 396-398, 402-404 (3D) -/
def linkFacet {α : Type} (wc : (Conn → Conn) → α → α) (cell prev first e : Idx) (isNew isLast : Bool) (fs : List α) :
    Res (List α) :=
  (modifyAt fs e (wc fun c => if isNew then c.setCellLeftIndex cell else c.setCellRightIndex cell)).bind fun fs1 =>
  (if prev ≠ INVALID then modifyAt fs1 prev (wc fun c => (c.setNextBElem e cell).1) else .ok fs1).bind fun fs2 =>
  if isLast then modifyAt fs2 e (wc fun c => (c.setNextBElem first cell).1) else .ok fs2

/-- A member function of `CellBoundaryConnection` called on an edge. -/
def edgeConn (f : Conn → Conn) (e : Edge) : Edge := { e with conn := f e.conn }

/-- The loop over the vertices of a cell, VTKMeshReader.h:93-127: `prev` is `prevEdge`, `first` the boundary
element of the cell once it is set (`j > 0`). -/
def addCellEdges (cell : Idx) : Idx → Option Idx → Dict → List Edge → List (Idx × Idx) →
    Res (Option Idx × Dict × List Edge)
  | _, first, d, es, [] => .ok (first, d, es)
  | prev, first, d, es, (iA, iB) :: ps =>
    let r := findOrAddEdge d es iA iB
    let e := r.2.2.1
    (linkFacet edgeConn cell prev (first.getD e) e r.2.2.2 (decide (ps = [])) r.2.1).bind fun es1 =>
    addCellEdges cell e (some (first.getD e)) r.1 es1 ps

/-- The loop over the (resized) cells, from cell number `i` on, VTKMeshReader.h:83-129 -/
def loadCellList2 : List Cell → Nat → Dict → List Edge → List (VTok R) → Res (List Cell × List Edge × List (VTok R))
  | [], _, _, es, ts => .ok ([], es, ts)
  | c :: cs, i, d, es, ts =>
    (readNum ts).bind fun p => (readNums p.1 p.2).bind fun q =>
    (addCellEdges i INVALID none d es (consecutive q.1)).bind fun r =>
    (loadCellList2 cs (i + 1) r.2.1 r.2.2 q.2).bind fun s =>
    .ok ({ index := i, bElem := r.1.getD c.bElem } :: s.1, s.2)

/-- `VTKMeshReader<2>::loadCells`, VTKMeshReader.h:74-130 -/
def loadCells2 {V : Type} (ts : List (VTok R)) (m : Mesh V) : Res (Mesh V × List (VTok R)) :=
  (readNum ts).bind fun p =>
  (loadCellList2 (resize m.cells p.1 {}) 0 [] m.edges (ignoreLine p.2)).bind fun q =>
  .ok ({ m with cells := q.1, edges := q.2.1 }, q.2.2)

/-- A position in the plane. -/
abbrev Point2 (R : Type) := R × R

/-- `VTKMeshReader<2>::loadFromStream`, VTKMeshReader.h:149-191 -/
def load2 [Zero R] (ts : List (VTok R)) (types : List Nat) (m : Mesh (Point2 R)) : Res (Mesh (Point2 R) × List Nat) :=
  loadFromStream fromVtk2 (loadVertices fun p => (p.1, p.2.1)) loadCells2 ts types m

/-! ## Writer in 2D -/

/-- State of `indexCell`: `tmpEdgeIndex`, `lastWrittenEdge`, `nextVertex`, `verticesIndexed`. -/
structure WalkState where
  tmp : Idx
  last : Idx
  next : Idx
  out : List Idx
  deriving DecidableEq, Repr

/-- Body of the loop of `indexCell`, VTKMeshWriter.h:87-107 -/
def walkStep (edges : List Edge) (cell : Idx) (s : WalkState) : Res WalkState :=
  (Res.at' edges s.tmp).bind fun e =>
  let s1 := if s.last ≠ s.tmp then
      if e.b = s.next then { s with next := e.a, out := s.out ++ [e.b], last := s.tmp }
      else if e.a = s.next then { s with next := e.b, out := s.out ++ [e.a], last := s.tmp }
      else s
    else s
  (e.conn.getNextBElem cell).bind fun t => .ok { s1 with tmp := t }

/-- The `do … while` loop of `indexCell`, VTKMeshWriter.h:86-109, with fuel; `start` is
`verticesIndexed.at(0)`. -/
def walkLoop (edges : List Edge) (cell start : Idx) : Nat → WalkState → Res (List Idx)
  | 0, _ => .diverge
  | n + 1, s =>
    (walkStep edges cell s).bind fun s' =>
    if s'.next ≠ start then walkLoop edges cell start n s' else .ok s'.out

/-- `indexCell`, VTKMeshWriter.h:67-111 (for the cell number `cell` with the boundary element `bElem`). The fuel
allows one iteration per state (current edge, last written edge and its end). -/
def indexCell (edges : List Edge) (cell bElem : Idx) : Res (List Idx) :=
  (Res.at' edges bElem).bind fun e =>
  let p := if e.conn.left = cell then (e.a, e.b) else (e.b, e.a)
  walkLoop edges cell p.1 (2 * edges.length * edges.length + 2)
    { tmp := bElem, last := bElem, next := p.2, out := [p.1] }

/-- `cellVert` after `indexMesh`, VTKMeshWriter.h:113-125 -/
def indexMesh2 {V : Type} (m : Mesh V) : Res (List (List Idx)) :=
  Std'.forEach (fun c : Cell => indexCell m.edges c.index c.bElem) m.cells

/-- `totalNumberOfWrittenElements`, VTKMeshWriter.h:127-130 -/
def totalNumbers (cellVert : List (List Idx)) : Nat := cellVert.foldl (fun t verts => t + (verts.length + 1)) 0

/-- One line of the CELLS section. VTKMeshWriter.h:160-167, 615-624 -/
def cellLine (l : List Idx) : List (VTok R) := .num l.length :: l.map .num ++ [.nl]

/-- `writeHeader(ost, dataName)`, VTKMeshWriter.h:30-33; `title` are the words of the name. -/
def header (title : List String) : List (VTok R) :=
  [.word "#", .word "vtk", .word "DataFile", .word "Version", .word "2.0", .nl] ++ title.map .word ++
  [.nl, .word "ASCII", .nl, .word "DATASET", .word "UNSTRUCTURED_GRID", .nl]

/-- The codes of the cell types, `TypeConversionTable.at(type)`: an unknown type throws. VTKMeshWriter.h:172-174 -/
def codes (conv : Nat → Option Nat) (types : List Nat) : Res (List Nat) :=
  Std'.forEach (fun t => match conv t with | some c => .ok c | none => .throw .outOfRange) types

/-- The points section: all positions with three coordinates. VTKMeshWriter.h:148-154, 597-609 -/
def pointsSection (pts : List (R × R × R)) : List (VTok R) :=
  .word "POINTS" :: .num pts.length :: .word "double" :: .nl ::
    (pts.flatMap fun p => [.real p.1, .real p.2.1, .real p.2.2, .nl]) ++ [.nl]

/-- The cells section. VTKMeshWriter.h:157-169, 612-626 -/
def cellsSection (numCells : Nat) (cellVert : List (List Idx)) : List (VTok R) :=
  .word "CELLS" :: .num numCells :: .num (totalNumbers cellVert) :: .nl :: cellVert.flatMap cellLine ++ [.nl]

/-- The cell types section. VTKMeshWriter.h:171-175 -/
def typesSection (numCells : Nat) (cs : List Nat) : List (VTok R) :=
  .word "CELL_TYPES" :: .num numCells :: .nl :: (cs.flatMap fun c => [.num c, .nl]) ++ [.nl]

/-- `VTKMeshWriter<2>::writeToStream` with the index freshly built, VTKMeshWriter.h:135-176; `zero` is the text
`0.0`. Simplification: what was written before an exception is dropped. -/
def writeToStream2 (zero : R) (m : Mesh (Point2 R)) (types : List Nat) : Res (List (VTok R)) :=
  (indexMesh2 m).bind fun cellVert =>
  (codes toVtk2 types).bind fun cs =>
  .ok (pointsSection (m.vertices.map fun p => (p.1, p.2, zero)) ++ cellsSection m.cells.length cellVert
    ++ typesSection m.cells.length cs)

end GTMesh.Vtk
