import Verif.Model.Vtk3
import Verif.Model.Fpma

/-!
# The 3D VTK writer (VTKMeshWriter.h, `VTKMeshWriter<3>`)

The geometric inputs of the writer are parameters: `ori f` is `faceEdgeOri[face][0]` for the face with index `f`
(the orientation of its first edge), `cc` and `fc` are the centers of cells and faces, and `key p` is the text
`to_string(p[0]) + ";" + to_string(p[1]) + ";" + to_string(p[2])` of a position.
-/

namespace GTMesh.Vtk
open Std'
variable {V P : Type}

/-- `indexFace`, VTKMeshWriter.h:236-274. The loop is the same as in the FPMA writer; the fuel allows one pass
per state (last edge and its end). Simplification: the index stored in an edge is its position. -/
def indexFace3 (ori : Idx → Bool) (edges : List Edge) (f : Face) (cell : Idx) : Res (List Idx) :=
  (Res.idx f.sub 0).bind fun e0 => (Res.at' edges e0).bind fun e =>
  let p := if ori f.index = true ∧ cell = f.conn.left then (e.b, e.a) else (e.a, e.b)
  Fpma.traceLoop edges f.sub p.1 (2 * f.sub.length + 2) { last := e0, next := p.2, out := [p.1] }

/-- "push back if not yet present", VTKMeshWriter.h:300-309, 348-356 -/
def appendNew (acc : List Idx) (x : Idx) : List Idx := if x ∈ acc then acc else acc ++ [x]

/-- `indexPyramid`, VTKMeshWriter.h:288-314 -/
def indexPyramid (ori : Idx → Bool) (m : Mesh V) (cell : Idx) (f : Face) : Res (List Idx) :=
  (indexFace3 ori m.edges f cell).bind fun q => (m.applyOne 3 0 cell).bind fun vs => .ok (vs.foldl appendNew q)

/-- `lambdaProc` of `indexLinearObject` for the edge number `e` and the vertex `index`, VTKMeshWriter.h:344-370 -/
def linearStep (edges : List Edge) (index : Idx) (acc : List Idx) (e : Idx) : Res (List Idx) :=
  (Res.at' edges e).bind fun ed =>
  let acc1 := if ed.a = index then appendNew acc ed.b else acc
  .ok (if ed.b = index then appendNew acc1 ed.a else acc1)

/-- A sequence of calls of a functor that updates a state. -/
def foldRes {α β : Type} (f : β → α → Res β) : β → List α → Res β
  | b, [] => .ok b
  | b, a :: as => (f b a).bind fun b' => foldRes f b' as

/-- `indexLinearObject`, VTKMeshWriter.h:329-381. The loop runs over the vertices of the base face, which stay
the first entries of `vertWrit`. -/
def indexLinear (ori : Idx → Bool) (m : Mesh V) (cell : Idx) (f : Face) : Res (List Idx) :=
  (indexFace3 ori m.edges f cell).bind fun q =>
  foldRes (fun acc v => (m.applyOne 3 1 cell).bind fun es => foldRes (linearStep m.edges v) acc es) q q

/-- The members of `VTKMeshWriter<3>`, VTKMeshWriter.h:200-221. The map `backwardCellIndexMapping` is a list
sorted by the key. -/
structure Writer3 (P : Type) where
  lastHash : Nat := 0
  cellVert : List (List Idx) := []
  cellTypes : List Nat := []
  total : Nat := 0
  appended : List P := []
  backward : List (Idx × Idx) := []
  deriving DecidableEq, Repr

/-- State of the loop of `indexMesh` over the cells: the members of the writer and `appendedVertPos`. -/
structure IndexState (P : Type) where
  w : Writer3 P
  dict : List (List Char × Idx) := []
  deriving DecidableEq, Repr

/-- One more exported cell. VTKMeshWriter.h:444-445, 470-471, 493-494, 505-506, 551-553 -/
def IndexState.push (s : IndexState P) (vs : List Idx) (type : Nat) : IndexState P :=
  { s with w := { s.w with cellVert := s.w.cellVert ++ [vs], cellTypes := s.w.cellTypes ++ [type] } }

/-- The index of a position among the points, appended when its key is new (`n` vertices in the mesh).
VTKMeshWriter.h:519-526, 540-548 -/
def IndexState.point (key : P → List Char) (n : Nat) (s : IndexState P) (p : P) : Idx × IndexState P :=
  match s.dict.find? (fun e => e.1 == key p) with
  | some e => (e.2, s)
  | none =>
    let i := s.w.appended.length + n
    (i, { s with w := { s.w with appended := s.w.appended ++ [p] }, dict := s.dict ++ [(key p, i)] })

/-- The tetrahedron of one edge of one face, VTKMeshWriter.h:531-554. The keys of `backwardCellIndexMapping` are
increasing numbers of exported cells, so that the new entry is the last one. -/
def tessEdge (key : P → List Char) (n : Nat) (edges : List Edge) (cell cc : Idx) (fcp : P) (s : IndexState P) (sube : Idx) :
    Res (IndexState P) :=
  (Res.at' edges sube).bind fun e =>
  let r := s.point key n fcp
  let s1 := { r.2 with w := { r.2.w with backward := r.2.w.backward ++ [(r.2.w.cellVert.length, cell)] } }
  .ok (s1.push [e.a, e.b, r.1, cc] 300)

/-- Faces visited by the `do … while` loop over the boundary of a cell, VTKMeshWriter.h:528-557 -/
def boundaryFaces (m : Mesh V) (c : Cell) : Res (List Face) :=
  m.cellLoop (fun f => (Res.at' (m.midElems 2) f).bind fun x => .ok [x]) c.index c.bElem (m.numFaces + 1) c.bElem

/-- The `default` branch, VTKMeshWriter.h:511-559. Simplification: the boundary is walked before the
tetrahedra are made. -/
def tessCell (key : P → List Char) (fc : Idx → P) (m : Mesh V) (c : Cell) (ccp : P) (s : IndexState P) : Res (IndexState P) :=
  let r := s.point key m.vertices.length ccp
  (boundaryFaces m c).bind fun fs =>
  foldRes (fun s f => foldRes (tessEdge key m.vertices.length m.edges c.index r.1 (fc f.index)) s f.sub) r.2 fs

/-- `*face` of a pointer that may be null. -/
def deref {α : Type} : Option α → Res α
  | some a => .ok a
  | none => .ub

/-- Faces of a cell as visited by `MeshApply<3, 2>::apply(cell, mesh, …)`. -/
def visitedFaces (m : Mesh V) (cell : Idx) : Res (List Face) :=
  (m.applyOne 3 2 cell).bind fun fs => forEach (Res.at' (m.midElems 2)) fs

/-- Base face of a pyramid: the last visited one with more than three edges. VTKMeshWriter.h:454-464 -/
def pyramidBase (fs : List Face) : Option Face :=
  fs.foldl (fun face f => if 3 < f.sub.length then some f else face) none

/-- Base face of a wedge: the first visited one with three edges. VTKMeshWriter.h:479-489 -/
def wedgeBase (fs : List Face) : Option Face :=
  fs.foldl (fun face f => if f.sub.length = 3 ∧ face = none then some f else face) none

/-- Body of the loop of `indexMesh` over the cells, VTKMeshWriter.h:429-561 (300 TETRA, 301 HEXAHEDRON,
302 WEDGE, 303 PYRAMID, MeshNativeType.h:22-31). -/
def indexCell3 (ori : Idx → Bool) (key : P → List Char) (cc fc : Idx → P) (m : Mesh V) (types : List Nat)
    (s : IndexState P) (c : Cell) : Res (IndexState P) :=
  (Res.at' types c.index).bind fun t =>
  if t = 300 then
    (Res.at' (m.midElems 2) c.bElem).bind fun f =>
    (indexPyramid ori m c.index f).bind fun vs => .ok (s.push vs t)
  else if t = 303 then
    (visitedFaces m c.index).bind fun fs => (deref (pyramidBase fs)).bind fun f =>
    (indexPyramid ori m c.index f).bind fun vs => .ok (s.push vs t)
  else if t = 302 then
    (visitedFaces m c.index).bind fun fs => (deref (wedgeBase fs)).bind fun f =>
    (indexLinear ori m c.index f).bind fun vs => .ok (s.push vs t)
  else if t = 301 then
    (Res.at' (m.midElems 2) c.bElem).bind fun f =>
    (indexLinear ori m c.index f).bind fun vs => .ok (s.push vs t)
  else tessCell key fc m c (cc c.index) s

/-- A number narrowed to a 32-bit `int` and converted back to a 64-bit `size_t`. -/
def asInt (n : Nat) : Nat := if n % 2 ^ 32 < 2 ^ 31 then n % 2 ^ 32 else 2 ^ 64 - 2 ^ 32 + n % 2 ^ 32

/-- `int cnt = 0; for (verts) cnt += verts.size() + 1; totalNumberOfWrittenElements = cnt;`
VTKMeshWriter.h:563-568, with a 64-bit `IndexType` and a 32-bit `int` -/
def totalInt (cellVert : List (List Idx)) : Nat :=
  cellVert.foldl (fun cnt verts => asInt ((cnt + (verts.length + 1)) % 2 ^ 64)) 0

/-- `indexMesh`, VTKMeshWriter.h:407-570: all members but `lastHash` are rebuilt (it is not used in between). The connections from cells to
vertices are computed (for a `reserve`), and so is the orientation of the edges (here `ori`). -/
def indexMesh3 (ori : Idx → Bool) (key : P → List Char) (cc fc : Idx → P) (m : Mesh V) (types : List Nat)
    (w : Writer3 P) : Res (Writer3 P) :=
  (m.connectionsAsc 3 0).bind fun _ =>
  (foldRes (indexCell3 ori key cc fc m types) { w := {} } m.cells).bind fun s =>
  .ok { s.w with lastHash := w.lastHash, total := totalInt s.w.cellVert }

/-- `writeToStream`, VTKMeshWriter.h:582-632, for a mesh with the signature `hash`; returns the new state of the
writer and the text. Simplification: what was written before an exception is dropped. -/
def writeToStream3 {R : Type} (ori : Idx → Bool) (key : Point3 R → List Char) (cc fc : Idx → Point3 R) (hash : Nat)
    (m : Mesh (Point3 R)) (types : List Nat) (w : Writer3 (Point3 R)) : Res (Writer3 (Point3 R) × List (VTok R)) :=
  (if w.lastHash ≠ hash then indexMesh3 ori key cc fc m types w else .ok w).bind fun w1 =>
  (codes toVtk3 w1.cellTypes).bind fun cs =>
  .ok ({ w1 with lastHash := hash },
    pointsSection (m.vertices ++ w1.appended) ++
    (.word "CELLS" :: .num w1.cellVert.length :: .num w1.total :: .nl :: w1.cellVert.flatMap cellLine ++ [.nl]) ++
    typesSection w1.cellTypes.length cs)

/-! ## Data columns (VTKMeshDataWriter.h) -/

/-- `keyIt == cend() || realIndex != keyIt->second`, VTKMeshDataWriter.h:79, 124 -/
def lastOfCell (cell : Idx) : List (Idx × Idx) → Bool
  | [] => true
  | next :: _ => decide (cell ≠ next.2)

/-- The loop of `writeColumn` over `backwardCellIndexMapping` and the loop over the remaining cells; `rIdx` and `lIdx`
are `realIndex` and `localIndex`. VTKMeshDataWriter.h:111-131 (and 62-90 with several numbers per cell); the
result is the sequence of written values. -/
def column {T : Type} (data : List T) : List (Idx × Idx) → Nat → Nat → Res (List T)
  | [], rIdx, _ => forEach (fun j => Res.at' data (rIdx + j)) (List.range (data.length - rIdx))
  | key :: keys, rIdx, lIdx =>
    (forEach (fun j => Res.at' data (rIdx + j)) (List.range (key.1 - lIdx))).bind fun run =>
    (Res.at' data key.2).bind fun x =>
    let rIdx' := if lastOfCell key.2 keys then key.2 + 1 else key.2
    (column data keys rIdx' (max lIdx key.1 + 1)).bind fun rest => .ok (run ++ x :: rest)

end GTMesh.Vtk
