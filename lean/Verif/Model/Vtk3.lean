import Verif.Model.Vtk
import Mathlib.Data.List.Sort

/-!
# The 3D VTK reader (VTKMeshReader.h, `VTKMeshReader<3>`)
-/

namespace GTMesh.Vtk
variable {R : Type}

/-- How the edges and the faces of a cell are made: pairs of positions of vertices, lists of positions of
edges. VTKMeshReader.h:214-220 -/
structure Template where
  edges : List (Nat × Nat)
  faces : List (List Nat)
  deriving DecidableEq, Repr

/-- `TypeEdgesFaces.find(number of vertices)`, VTKMeshReader.h:214-282 -/
def template : Nat → Option Template
  | 4 => some
    { edges := [(0, 1), (1, 2), (2, 0), (0, 3), (1, 3), (2, 3)]
      faces := [[0, 1, 2], [0, 4, 3], [1, 5, 4], [3, 5, 2]] }
  | 8 => some
    { edges := [(0, 1), (1, 2), (2, 3), (3, 0), (0, 4), (1, 5), (2, 6), (3, 7), (4, 5), (5, 6), (6, 7), (7, 4)]
      faces := [[0, 1, 2, 3], [4, 0, 5, 8], [5, 1, 6, 9], [6, 2, 7, 10], [7, 3, 4, 11], [8, 9, 10, 11]] }
  | 6 => some
    { edges := [(0, 1), (1, 2), (2, 0), (0, 3), (1, 4), (2, 5), (3, 5), (5, 4), (4, 3)]
      faces := [[0, 2, 1], [0, 4, 8, 3], [1, 4, 7, 5], [3, 5, 6, 2], [6, 7, 8]] }
  | 5 => some
    { edges := [(0, 1), (1, 2), (2, 3), (3, 0), (0, 4), (1, 4), (2, 4), (3, 4)]
      faces := [[0, 1, 2, 3], [0, 5, 4], [1, 6, 5], [2, 7, 6], [3, 4, 7]] }
  | _ => none

/-- The loop that makes the edges of a cell with the vertices `vs`; returns `edgeIndexes`.
VTKMeshReader.h:342-362 -/
def templateEdges (vs : List Idx) : Dict → List Edge → List (Nat × Nat) → Res (List Idx × Dict × List Edge)
  | d, es, [] => .ok ([], d, es)
  | d, es, (a, b) :: ps =>
    (Res.at' vs a).bind fun iA => (Res.at' vs b).bind fun iB =>
    let r := findOrAddEdge d es iA iB
    (templateEdges vs r.1 r.2.1 ps).bind fun q => .ok (r.2.2.1 :: q.1, q.2)

/-- `faceKey`: the sorted indices of the edges, each one followed by a semicolon (`std::sort` on
numbers is modelled by insertion sort). VTKMeshReader.h:369-378 -/
def faceKey (sub : List Idx) : List Char := (sub.insertionSort (· ≤ ·)).flatMap fun e => decimal e ++ [';']

/-- A member function of `CellBoundaryConnection` called on a face. -/
def faceConnW (f : Conn → Conn) (x : Face) : Face := { x with conn := f x.conn }

/-- Finding or creating the face with the edges `sub`. A static reserve `res > 0` that is too small makes
`addSubelement` throw. VTKMeshReader.h:380-394 -/
def findOrAddFace (res : Nat) (d : Dict) (fs : List Face) (sub : List Idx) : Res (List Face × Idx × Bool) :=
  match d.find (faceKey sub) with
  | none =>
    if res ≠ 0 ∧ res < sub.length then .throw .runtimeError
    else .ok (fs ++ [{ index := fs.length, sub := sub }], fs.length, true)
  | some i => .ok (fs, i, false)

/-- The loop over the faces of a cell, VTKMeshReader.h:364-407: `prev` is `prevFaceIndex`, `first` the boundary
element of the cell once it is set. -/
def addCellFaces (res : Nat) (cell : Idx) (eidx : List Idx) : Idx → Option Idx → Dict → List Face → List (List Nat) →
    Res (Option Idx × Dict × List Face)
  | _, first, d, fs, [] => .ok (first, d, fs)
  | prev, first, d, fs, f :: rest =>
    (Std'.forEach (Res.at' eidx) f).bind fun sub =>
    (findOrAddFace res d fs sub).bind fun r =>
    let e := r.2.1
    (linkFacet faceConnW cell prev (first.getD e) e r.2.2 (decide (rest = [])) r.1).bind fun fs1 =>
    addCellFaces res cell eidx e (some (first.getD e)) (d.put (faceKey sub) e) fs1 rest

/-- The loop over the (resized) cells, from cell number `i` on, VTKMeshReader.h:327-408; `de`, `df` are the
dictionaries of edges and faces. -/
def loadCellList3 (res : Nat) : List Cell → Nat → Dict → Dict → List Edge → List Face → List (VTok R) →
    Res (List Cell × List Edge × List Face × List (VTok R))
  | [], _, _, _, es, fs, ts => .ok ([], es, fs, ts)
  | c :: cs, i, de, df, es, fs, ts =>
    (readNum ts).bind fun p => (readNums p.1 p.2).bind fun q =>
    match template p.1 with
    | none => .throw .outOfRange
    | some T =>
      (templateEdges q.1 de es T.edges).bind fun r =>
      (addCellFaces res i r.1 INVALID none df fs T.faces).bind fun s =>
      (loadCellList3 res cs (i + 1) r.2.1 s.2.1 r.2.2 s.2.2 q.2).bind fun u =>
      .ok ({ index := i, bElem := s.1.getD c.bElem } :: u.1, u.2)

/-- `VTKMeshReader<3>::loadCells`, VTKMeshReader.h:316-409 -/
def loadCells3 {V : Type} (res : Nat) (ts : List (VTok R)) (m : Mesh V) : Res (Mesh V × List (VTok R)) :=
  (readNum ts).bind fun p =>
  (loadCellList3 res (resize m.cells p.1 {}) 0 [] [] m.edges (m.midElems 2) (ignoreLine p.2)).bind fun q =>
  .ok ({ m with cells := q.1, edges := q.2.1, mids := [q.2.2.1] }, q.2.2.2)

/-- A position in space. -/
abbrev Point3 (R : Type) := R × R × R

/-- `VTKMeshReader<3>::loadFromStream` into a mesh with the reserve `res` for the edges of a face,
VTKMeshReader.h:428-471 (without the signature) -/
def load3 [Zero R] (res : Nat) (ts : List (VTok R)) (types : List Nat) (m : Mesh (Point3 R)) : Res (Mesh (Point3 R) × List Nat) :=
  loadFromStream fromVtk3 (loadVertices id) (loadCells3 res) ts types m

end GTMesh.Vtk
