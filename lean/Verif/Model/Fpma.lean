import Verif.Model.EdgeTable
import Verif.Model.DataContainer
import Verif.Model.Connections

/-!
# The FPMA format (FPMAMeshReader.h, FPMAMeshWriter.h)

A file is modelled by its sequence of whitespace separated tokens.  Formatting and parsing of single numbers
is not modelled (a token carries its value).  A missing token leaves the variable as it is: indeterminate for the
local variables that are not initialised (undefined behaviour), 0 for the vertices of a face.  A token of the other
kind (a real number where an index is read, or the reverse) is not modelled and counts as undefined behaviour.
-/

namespace GTMesh

/-- A token of a mesh file. -/
inductive Tok (R : Type) where
  | num (n : Nat)
  | real (x : R)
  deriving DecidableEq, Repr

/-- A position in space. -/
abbrev Point (R : Type) := R × R × R

namespace Fpma
variable {R : Type}

/-- `ist >> index` for a variable that is not initialised: the numbers of vertices, faces and cells, the size of a
face or cell, a face of a cell. FPMAMeshReader.h:39-40, 60-61, 68-69, 115-116, 124-125, 130-131 -/
def readNum : List (Tok R) → Res (Nat × List (Tok R))
  | .num n :: ts => .ok (n, ts)
  | _ => .ub

/-- `ist >> coordinate`. A missing coordinate is not an error here, but the number of faces, which is read next, is
then indeterminate: undefined behaviour. -/
def readReal : List (Tok R) → Res (R × List (Tok R))
  | .real x :: ts => .ok (x, ts)
  | _ => .ub

/-- `ist >> vertices.at(j)` for an entry of a new vector, which is 0. FPMAMeshReader.h:71-74 -/
def readNumZ : List (Tok R) → Res (Nat × List (Tok R))
  | .num n :: ts => .ok (n, ts)
  | [] => .ok (0, [])
  | _ => .ub

/-- Reading the `n` vertices of a face. FPMAMeshReader.h:71-74 -/
def readNumsZ : Nat → List (Tok R) → Res (List Nat × List (Tok R))
  | 0, ts => .ok ([], ts)
  | n + 1, ts => (readNumZ ts).bind fun p => (readNumsZ n p.2).bind fun q => .ok (p.1 :: q.1, q.2)

/-- Reading the `n` faces of a cell. -/
def readNums : Nat → List (Tok R) → Res (List Nat × List (Tok R))
  | 0, ts => .ok ([], ts)
  | n + 1, ts => (readNum ts).bind fun p => (readNums n p.2).bind fun q => .ok (p.1 :: q.1, q.2)

/-- Reading `n` positions, FPMAMeshReader.h:44-51 -/
def readPoints : Nat → List (Tok R) → Res (List (Point R) × List (Tok R))
  | 0, ts => .ok ([], ts)
  | n + 1, ts =>
    (readReal ts).bind fun x => (readReal x.2).bind fun y => (readReal y.2).bind fun z =>
    (readPoints n z.2).bind fun q => .ok ((x.1, y.1, z.1) :: q.1, q.2)

/-- `loadVertices`, FPMAMeshReader.h:37-52: after the resize every position is overwritten. -/
def loadVertices (ts : List (Tok R)) (m : Mesh (Point R)) : Res (Mesh (Point R) × List (Tok R)) :=
  (readNum ts).bind fun p => (readPoints p.1 p.2).bind fun q => .ok ({ m with vertices := q.1 }, q.2)

/-- The inner loop of `loadFaces` for one face, FPMAMeshReader.h:76-107. `res` is the reserve of the
sub-element container (0: `std::vector`); the container itself is modelled in `Model/Mesh.lean`. -/
def addFaceEdges (res : Nat) : Face → Dict → List Edge → List (Idx × Idx) → Res (Face × Dict × List Edge)
  | f, d, es, [] => .ok (f, d, es)
  | f, d, es, (iA, iB) :: ps =>
    let r := findOrAddEdge d es iA iB
    if 0 < res ∧ res ≤ f.sub.length then .throw .runtimeError
    else addFaceEdges res { f with sub := f.sub ++ [r.2.2.1] } r.1 r.2.1 ps

/-- The loop of `loadFaces` over the (resized) faces, from face number `i` on, FPMAMeshReader.h:66-109 -/
def loadFaceList (res : Nat) :
    List Face → Nat → Dict → List Edge → List (Tok R) → Res (List Face × List Edge × List (Tok R))
  | [], _, _, es, ts => .ok ([], es, ts)
  | f :: fs, i, d, es, ts =>
    (readNum ts).bind fun p => (readNumsZ p.1 p.2).bind fun q =>
    (addFaceEdges res { f with index := i } d es (consecutive q.1)).bind fun r =>
    (loadFaceList res fs (i + 1) r.2.1 r.2.2 q.2).bind fun s => .ok (r.1 :: s.1, s.2)

/-- `loadFaces`, FPMAMeshReader.h:55-110: the dictionary is new, the edges and faces of the mesh are kept. -/
def loadFaces (res : Nat) (ts : List (Tok R)) (m : Mesh (Point R)) : Res (Mesh (Point R) × List (Tok R)) :=
  (readNum ts).bind fun p =>
  (loadFaceList res (resize (m.midElems 2) p.1 {}) 0 [] m.edges p.2).bind fun q =>
  .ok ({ m with mids := [q.1], edges := q.2.1 }, q.2.2)

/-- `mesh.getFaces().at(i).setNextBElem(next, cell)` -/
def setNextAt (fs : List Face) (i next cell : Idx) : Res (List Face) :=
  (Res.at' fs i).bind fun f => .ok (fs.set i { f with conn := (f.conn.setNextBElem next cell).1 })

/-- The loop over the faces of a cell, FPMAMeshReader.h:129-147; `prev` is `prevFace`, `first` the boundary
element of the cell. Simplification: the tokens of the cell are read before the loop. -/
def linkFaces (cell first : Idx) : Idx → List Idx → List Face → Res (List Face)
  | _, [], fs => .ok fs
  | prev, f :: rest, fs =>
    (if prev ≠ INVALID then setNextAt fs prev f cell else .ok fs).bind fun fs1 =>
    (if rest = [] then setNextAt fs1 f first cell else .ok fs1).bind fun fs2 =>
    linkFaces cell first f rest fs2

/-- The loop over the (resized) cells, from cell number `i` on, FPMAMeshReader.h:120-149 -/
def loadCellList : List Cell → Nat → List Face → List (Tok R) → Res (List Cell × List Face × List (Tok R))
  | [], _, fs, ts => .ok ([], fs, ts)
  | c :: cs, i, fs, ts =>
    (readNum ts).bind fun p => (readNums p.1 p.2).bind fun q =>
    let first := q.1.head?.getD c.bElem
    (linkFaces i first INVALID q.1 fs).bind fun fs1 =>
    (loadCellList cs (i + 1) fs1 q.2).bind fun r => .ok ({ index := i, bElem := first } :: r.1, r.2)

/-- `loadCells`, FPMAMeshReader.h:113-151 -/
def loadCells (ts : List (Tok R)) (m : Mesh (Point R)) : Res (Mesh (Point R) × List (Tok R)) :=
  (readNum ts).bind fun p =>
  (loadCellList (resize m.cells p.1 {}) 0 (m.midElems 2) p.2).bind fun q =>
  .ok ({ m with cells := q.1, mids := [q.2.1] }, q.2.2)

/-- `loadFromStream(ist, mesh)`, FPMAMeshReader.h:155-169 (the cell types are in
`setupCellTypes`, the signature is left out). The mesh is not cleared. -/
def load (res : Nat) (ts : List (Tok R)) (m : Mesh (Point R)) : Res (Mesh (Point R)) :=
  (loadVertices ts m).bind fun p => (loadFaces res p.2 p.1).bind fun q =>
  (loadCells q.2 q.1).bind fun r => .ok r.1

/-- `setupCellTypes` (called at the end of `loadFromStream`), FPMAMeshReader.h:32-35, 165: the types `old` of an
earlier load are resized, new entries are POLYHEDRON (305, MeshNativeType.h:23-30). -/
def setupCellTypes (old : List Nat) (m : Mesh (Point R)) : List Nat := resize old m.cells.length 305

/-! ## Writer -/

/-- State of `indexFace`: `lastWrittenEdge`, `nextVertex`, `verticesIndexed`. -/
structure TraceState where
  last : Idx
  next : Idx
  out : List Idx
  deriving DecidableEq, Repr

/-- Body of the inner loop of `indexFace`, FPMAMeshWriter.h:62-75 -/
def traceStep (edges : List Edge) (s : TraceState) (sube : Idx) : Res TraceState :=
  (Res.at' edges sube).bind fun e =>
  .ok (if sube ≠ s.last then
    if e.a = s.next then { last := sube, next := e.b, out := s.out ++ [e.a] }
    else if e.b = s.next then { last := sube, next := e.a, out := s.out ++ [e.b] }
    else s
  else s)

/-- The inner loop, over all sub-elements. -/
def tracePass (edges : List Edge) : List Idx → TraceState → Res TraceState
  | [], s => .ok s
  | e :: es, s => (traceStep edges s e).bind (tracePass edges es)

/-- The `while` loop of `indexFace`, FPMAMeshWriter.h:60-76, with fuel. -/
def traceLoop (edges : List Edge) (subs : List Idx) (start : Idx) : Nat → TraceState → Res (List Idx)
  | 0, _ => .diverge
  | n + 1, s =>
    if start ≠ s.next then (tracePass edges subs s).bind (traceLoop edges subs start n) else .ok s.out

/-- `indexFace`, FPMAMeshWriter.h:47-79. The fuel allows one pass per state (last edge and its end). -/
def indexFace (edges : List Edge) (subs : List Idx) : Res (List Idx) :=
  (Res.idx subs 0).bind fun e0 => (Res.at' edges e0).bind fun e =>
  traceLoop edges subs e.b (2 * subs.length + 2) { last := e0, next := e.a, out := [e.b] }

/-- The numbers of one line: the size and the entries. -/
def line (l : List Idx) : List (Tok R) := .num l.length :: l.map .num

/-- `writeToStream` (with the index freshly built, `indexMesh` FPMAMeshWriter.h:93-110),
FPMAMeshWriter.h:120-162. Simplification: `faceVert.at(face)` and `cellFace.at(cell)` use the index stored in
the element, which is taken to be its position. -/
def write (m : Mesh (Point R)) : Res (List (Tok R)) :=
  (Std'.forEach (fun f : Face => indexFace m.edges f.sub) (m.midElems 2)).bind fun faceVert =>
  (m.connectionsOrig 3 2).bind fun cellFace =>
  .ok (.num m.vertices.length :: (m.vertices.flatMap fun p => [.real p.1, .real p.2.1, .real p.2.2])
    ++ .num faceVert.length :: faceVert.flatMap line
    ++ .num cellFace.length :: cellFace.flatMap line ++ [.num 0])

end Fpma
end GTMesh
