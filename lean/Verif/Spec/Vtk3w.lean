import Verif.Model.Vtk3w
import Verif.Spec.Incidence
import Verif.Spec.Vtk3

/-! # What the 3D VTK writer exports -/

namespace GTMesh.Vtk
open Spec
variable {V : Type}

/-- Is the cell of this type split for the export? Tetrahedra, hexahedra, wedges and pyramids are not. -/
def isSplit (types : List Nat) (i : Idx) : Bool :=
  !decide (types[i]? = some 300 ∨ types[i]? = some 301 ∨ types[i]? = some 302 ∨ types[i]? = some 303)

/-- The first end of edge number `e`. -/
def endA (edges : List Edge) (e : Idx) : Idx := ((edges[e]?).map (·.a)).getD 0

/-- The second end of edge number `e`. -/
def endB (edges : List Edge) (e : Idx) : Idx := ((edges[e]?).map (·.b)).getD 0

/-- The edges of face number `f`. -/
def edgesOfFace (m : Mesh V) (f : Idx) : List Idx := (((m.midElems 2)[f]?).map (·.sub)).getD []

/-- The number of pairs of a face and one of its edges in a cell with the boundary `l`. -/
def faceEdgePairs (m : Mesh V) (l : List Idx) : Nat := (l.map fun f => (edgesOfFace m f).length).sum

/-- Into how many exported cells does cell `i` go? -/
def pieces (m : Mesh V) (bd : Idx → List Idx) (types : List Nat) (i : Idx) : Nat :=
  if isSplit types i then faceEdgePairs m (bd i) else 1

/-- The elements carry their positions as indices. -/
structure Numbered (m : Mesh V) : Prop where
  cells : ∀ (i : Nat) c, m.cells[i]? = some c → c.index = i
  faces : ∀ (i : Nat) f, (m.midElems 2)[i]? = some f → f.index = i

/-- The original cell of each exported cell, when cell `i` goes into `p i` cells. -/
def origins (p : Idx → Nat) (n : Nat) : List Idx := (List.range n).flatMap fun i => List.replicate (p i) i

/-- The number of vertices of a tetrahedron, hexahedron, wedge, pyramid. -/
def vertexCount : Nat → Option Nat
  | 300 => some 4
  | 301 => some 8
  | 302 => some 6
  | 303 => some 5
  | _ => none

/-- The faces `l`, in any order, are the faces of a solid of type `t` with the different vertices `vs`. -/
structure IsSolid (m : Mesh V) (l vs : List Idx) (t : Nat) : Prop where
  count : vertexCount t = some vs.length
  nodup : NoRepetition vs
  faces : ∃ l', l'.Perm l ∧ FacesOf m.edges (m.midElems 2) l' vs

/-- The vertex lists describe the same solid: the faces are the same polygons, up to start and direction. -/
def SameSolid (vs vs' : List Idx) : Prop :=
  vs.length = vs'.length ∧ (∀ p ∈ facePolygons vs, ∃ q ∈ facePolygons vs', SameCycle p q) ∧
  (∀ q ∈ facePolygons vs', ∃ p ∈ facePolygons vs, SameCycle p q)

/-- An exported cell: a whole cell `i`, or the tetrahedron of the edge `e` of the face `f` of the cell `i`. -/
inductive Piece where
  | whole (i : Idx)
  | part (i f e : Idx)
  deriving DecidableEq, Repr

/-- The cell an exported cell comes from. -/
def Piece.origin : Piece → Idx
  | .whole i => i
  | .part i _ _ => i

/-- The exported cells in order: the cells in their order, a split cell gives a piece for each of its faces and each edge of the face. -/
def exported (m : Mesh V) (bd : Idx → List Idx) (types : List Nat) : List Piece :=
  (List.range m.cells.length).flatMap fun i =>
    if isSplit types i then (bd i).flatMap fun f => (edgesOfFace m f).map fun e => .part i f e else [.whole i]

/-- No two edges join the same vertices, no two faces are the same polygon. -/
structure NoDoubles (m : Mesh V) : Prop where
  edges : ∀ (i j : Nat) e e', m.edges[i]? = some e → m.edges[j]? = some e' → SamePair (e.a, e.b) (e'.a, e'.b) → i = j
  faces : ∀ (i j : Nat) f f' p p', (m.midElems 2)[i]? = some f → (m.midElems 2)[j]? = some f' →
    IsPolygon m.edges f.sub p → IsPolygon m.edges f'.sub p' → SameSides p p' → i = j

/-- The split cells are closed polyhedra: their faces are simple polygons with at least three vertices, and no edge lies in more than two faces of a
cell. -/
structure SplitPolyhedra (m : Mesh V) (bd : Idx → List Idx) (types : List Nat) (poly : Idx → List Idx) : Prop where
  polygon : ∀ i f, i < m.cells.length → isSplit types i = true → f ∈ bd i →
    IsPolygon m.edges (edgesOfFace m f) (poly f) ∧ 3 ≤ (poly f).length
  closed : ∀ i e f f' f'', i < m.cells.length → isSplit types i = true → f ∈ bd i → f' ∈ bd i → f'' ∈ bd i →
    e ∈ edgesOfFace m f → e ∈ edgesOfFace m f' → e ∈ edgesOfFace m f'' → f = f' ∨ f' = f'' ∨ f = f''

/-- The texts of the centers of the split cells and of their faces are all different. -/
structure DistinctCenters {P : Type} (key : P → List Char) (cc fc : Idx → P) (m : Mesh V) (bd : Idx → List Idx) (types : List Nat) : Prop where
  cells : ∀ i i', i < m.cells.length → i' < m.cells.length → isSplit types i = true → isSplit types i' = true →
    key (cc i) = key (cc i') → i = i'
  faces : ∀ i i' f f', i < m.cells.length → i' < m.cells.length → isSplit types i = true → isSplit types i' = true →
    f ∈ bd i → f' ∈ bd i' → key (fc f) = key (fc f') → f = f'
  both : ∀ i i' f, i < m.cells.length → i' < m.cells.length → isSplit types i = true → isSplit types i' = true →
    f ∈ bd i → key (fc f) ≠ key (cc i')

end GTMesh.Vtk
