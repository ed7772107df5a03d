import Verif.Model.CellConn

/-!
# Mesh elements and the mesh container (MeshElement.h, MeshElements.h)
-/

namespace GTMesh

/-! ## Sub-element container with a static reserve -/

/-- `SubelementContainer<IndexType, Reserve>` with `Reserve > 0`, MeshElement.h:60-123: a
`std::array<IndexType, Reserve>` (here a list of length `Reserve` whose initial content is arbitrary,
since the array is not initialised) and `numberOfElements`. -/
structure SubCont (Reserve : Nat) where
  store : List Idx
  n : Nat

namespace SubCont
variable {R : Nat}

/-- A fresh container; `garbage` is the uninitialised content of the array. MeshElement.h:61-62 -/
def fresh (garbage : List Idx) : SubCont R := { store := garbage, n := 0 }

/-- MeshElement.h:69-71 -/
def size (s : SubCont R) : Nat := s.n

/-- MeshElement.h:77-90. Throws `std::runtime_error` when full; a throwing call leaves the object
unchanged.  `this->at(n) = index` throws `std::out_of_range` beyond the array. -/
def addSubelement (s : SubCont R) (i : Idx) : SubCont R × Option Exc :=
  if s.n < R then
    if s.n < s.store.length then ({ store := s.store.set s.n i, n := s.n + 1 }, none)
    else (s, some .outOfRange)
  else (s, some .runtimeError)

/-- The range `[begin(), end())` with `end() = begin() + numberOfElements`, MeshElement.h:112-122. -/
def iterate (s : SubCont R) : List Idx := s.store.take s.n

/-- `at(i)` inherited from `std::array`: checked against the reserve, not against `size()`. -/
def at' (s : SubCont R) (i : Nat) : Res Idx := Res.at' s.store i

end SubCont

/-- The container after a history of additions, and the exceptions thrown by each call. -/
def SubCont.run {R : Nat} (s : SubCont R) : List Idx → SubCont R × List (Option Exc)
  | [] => (s, [])
  | x :: xs =>
    let (s1, e) := s.addSubelement x
    let (s2, es) := s1.run xs
    (s2, e :: es)

/-- `_Reserve<dim>::value`, MeshElements.h:11-22: the reserve of the elements of dimension `dim` in a mesh
of dimension `D` declared with the pack `reserves` (`Dimension - dim > sizeof...(Reserve)` is computed
on unsigned integers; `dim ≤ D`). -/
def reserveOf (D : Nat) (reserves : List Nat) (dim : Nat) : Nat :=
  if dim = D ∨ dim = 1 ∨ dim = 0 ∨ reserves.length < D - dim then 0
  else reserves[D - dim - 1]?.getD 0

/-! ## Elements -/

/-- `MeshElement<MeshDim, 1, ...>`, MeshElement.h:199-236.  `conn` is meaningful only when `MeshDim = 2`
(edges are then the faces). The geometric members are not part of this topological model. -/
structure Edge where
  index : Idx := INVALID
  a : Idx := INVALID
  b : Idx := INVALID
  conn : Conn := {}
  deriving DecidableEq, Repr

/-- `MeshElement<MeshDim, ElementDim, ...>` for `1 < ElementDim < MeshDim`, MeshElement.h:151-172.
`conn` is meaningful only when `ElementDim = MeshDim - 1`. -/
structure Face where
  index : Idx := INVALID
  sub : List Idx := []
  conn : Conn := {}
  deriving DecidableEq, Repr

/-- `MeshElement<MeshDim, MeshDim, ...>`, MeshElement.h:244-265 (`boundaryElementIndex` is not
initialised by the constructor; the default here stands for the indeterminate value). -/
structure Cell where
  index : Idx := INVALID
  bElem : Idx := INVALID
  deriving DecidableEq, Repr

/-- `MeshElements<Dimension, ...>`, MeshElements.h:45-66, `Dimension ≥ 2`. `vertices` holds the positions,
`mids[k]` the elements of dimension `k + 2 < Dimension`. -/
structure Mesh (V : Type) where
  dim : Nat
  vertices : List V := []
  edges : List Edge := []
  mids : List (List Face) := []
  cells : List Cell := []
  bCells : List Cell := []
  deriving DecidableEq, Repr

namespace Mesh
variable {V : Type}

/-- `getElements<d>()` for `1 < d < Dimension`, MeshElements.h:70-81 -/
def midElems (m : Mesh V) (d : Nat) : List Face := m.mids[d - 2]?.getD []

/-- `getElements<d>().size()` -/
def numElems (m : Mesh V) (d : Nat) : Nat :=
  if d = m.dim then m.cells.length
  else if d = 0 then m.vertices.length
  else if d = 1 then m.edges.length
  else (m.midElems d).length

/-- `getFaces().at(i)` seen as a `CellBoundaryConnection`, MeshElements.h:101-103 -/
def faceConn (m : Mesh V) (i : Idx) : Res Conn :=
  if m.dim = 2 then (Res.at' m.edges i) >>= fun e => .ok e.conn
  else (Res.at' (m.midElems (m.dim - 1)) i) >>= fun f => .ok f.conn

/-- `clear()`, MeshElements.h:137-160: clears the elements of dimensions `Dimension .. 0`;
`BoundaryCells` is not touched. -/
def clear (m : Mesh V) : Mesh V :=
  { m with cells := [], mids := m.mids.map (fun _ => []), edges := [], vertices := [] }

end Mesh

/-! ## Boundary cells -/

/-- Body of the loop of `setupBoundaryCells`, MeshElements.h:170-181, together with
`appendBoundaryCell`, MeshElements.h:162-167. `idx` is `face.getIndex()`. -/
def setupFace (bc : List Cell) (idx : Idx) (c : Conn) : List Cell × Conn :=
  let (bc1, c1) :=
    if isInvalidIndex c.left then
      let cellIndex := makeBoundaryIndex bc.length
      (bc ++ [{ index := cellIndex, bElem := idx }], c.setCellLeftIndex cellIndex)
    else (bc, c)
  if isInvalidIndex c1.right then
    let cellIndex := makeBoundaryIndex bc1.length
    (bc1 ++ [{ index := cellIndex, bElem := idx }], c1.setCellRightIndex cellIndex)
  else (bc1, c1)

/-- The loop of `setupBoundaryCells` over the faces, each seen as (index, connection).
MeshElements.h:169-182 -/
def setupFaces (bc : List Cell) : List (Idx × Conn) → List Cell × List (Idx × Conn)
  | [] => (bc, [])
  | (i, c) :: fs =>
    let (bc1, c1) := setupFace bc i c
    let (bc2, fs2) := setupFaces bc1 fs
    (bc2, (i, c1) :: fs2)

namespace Mesh
variable {V : Type}

/-- `setupBoundaryCells()`, MeshElements.h:169-183; the faces are the edges in 2D. -/
def setupBoundaryCells (m : Mesh V) : Mesh V :=
  if m.dim = 2 then
    let r := setupFaces m.bCells (m.edges.map (fun e => (e.index, e.conn)))
    { m with bCells := r.1,
             edges := List.zipWith (fun e p => { e with conn := p.2 }) m.edges r.2 }
  else
    let fs := m.midElems (m.dim - 1)
    let r := setupFaces m.bCells (fs.map (fun f => (f.index, f.conn)))
    { m with bCells := r.1,
             mids := m.mids.set (m.dim - 3)
               (List.zipWith (fun f p => { f with conn := p.2 }) fs r.2) }

end Mesh
end GTMesh
