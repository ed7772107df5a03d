import Verif.Model.Vtk3w
import Verif.Model.Fpma

/-!
# Signature of a mesh and the index kept by the writers (MeshElements.h, MeshWriter.h, VTKMeshWriter.h, FPMAMeshWriter.h)
-/

namespace GTMesh
open Std'
variable {V R : Type}

/-- The hash functions used by the signature: `std::hash<IndexType>` and `std::hash<std::string>` of the bytes of a
vector of elements. The bytes are seen as a function of the records (the model has no centers and flags; the
unused part of a static sub-element array, which is hashed too, is left out). -/
structure Hasher (V : Type) where
  idx : Idx → Nat
  cells : List Cell → Nat
  faces : Nat → List Face → Nat
  edges : List Edge → Nat
  vertices : List V → Nat

/-- `HashOfMeshElements<Dim>` for `1 < Dim < Dimension`: with a reserve the bytes of the elements (lines 225-244), without
a reserve the number of the elements and the indices of all their sub-elements (lines 203-223). MeshElements.h -/
def sigFaces (H : Hasher V) (reserve d : Nat) (fs : List Face) : Nat :=
  if 0 < reserve then H.faces d fs else (fs.flatMap (·.sub)).foldl (fun h i => h ^^^ H.idx i) fs.length

/-- `HashOfMeshElements<Dim>::hash` for `Dim < Dimension`, MeshElements.h:203-307 -/
def sigDown (H : Hasher V) (reserves : List Nat) (m : Mesh V) : Nat → Nat
  | 0 => H.vertices m.vertices
  | 1 => H.edges m.edges ^^^ sigDown H reserves m 0
  | d + 2 => sigFaces H (reserveOf m.dim reserves (d + 2)) (d + 2) (m.midElems (d + 2)) ^^^ sigDown H reserves m (d + 1)

/-- `updateSignature()`, MeshElements.h:251-271, 311-317; `computeHash`, MeshWriter.h:52-74 -/
def signature (H : Hasher V) (reserves : List Nat) (m : Mesh V) : Nat :=
  H.cells m.cells ^^^ sigDown H reserves m (m.dim - 1)

namespace Vtk

/-- The members of `VTKMeshWriter<2>`, VTKMeshWriter.h:35-52; `lastHash` is not initialised by the constructor. -/
structure Writer2 where
  lastHash : Nat
  cellVert : List (List Idx) := []
  total : Nat := 0
  deriving DecidableEq, Repr

/-- `writeToStream` with the test of the signature, VTKMeshWriter.h:135-176 (`writeToStream2` is this function when the
mesh is indexed). Simplification: what was written before an exception is dropped. -/
def writeCached2 (zero : R) (hash : Nat) (m : Mesh (Point2 R)) (types : List Nat) (w : Writer2) :
    Res (Writer2 × List (VTok R)) :=
  (if w.lastHash ≠ hash then (indexMesh2 m).bind fun cv => .ok { w with cellVert := cv, total := totalNumbers cv }
    else .ok w).bind fun w1 =>
  (codes toVtk2 types).bind fun cs =>
  .ok ({ w1 with lastHash := hash },
    pointsSection (m.vertices.map fun p => (p.1, p.2, zero)) ++
    (.word "CELLS" :: .num m.cells.length :: .num w1.total :: .nl :: w1.cellVert.flatMap cellLine ++ [.nl]) ++
    typesSection m.cells.length cs)

end Vtk

namespace Fpma

/-- The members of `FPMAMeshWriter<3>`, FPMAMeshWriter.h:24-36; `lastHash` is not initialised by the constructor. -/
structure FWriter where
  lastHash : Nat
  faceVert : List (List Idx) := []
  cellFace : List (List Idx) := []
  deriving DecidableEq, Repr

/-- `indexMesh`, FPMAMeshWriter.h:94-109. Simplification: the faces are numbered by their positions. -/
def indexMeshF (m : Mesh V) (w : FWriter) : Res FWriter :=
  (forEach (fun f : Face => indexFace m.edges f.sub) (m.midElems 2)).bind fun faceVert =>
  (m.connectionsOrig 3 2).bind fun cellFace => .ok { w with faceVert := faceVert, cellFace := cellFace }

/-- `writeToStream`, FPMAMeshWriter.h:121-163; `faceVert.at(face)` and `cellFace.at(cell)` are checked accesses (the
elements are numbered by their positions). Simplification: what was written before an exception is dropped. -/
def writeCached (hash : Nat) (m : Mesh (Point R)) (w : FWriter) : Res (FWriter × List (Tok R)) :=
  (if w.lastHash ≠ hash then indexMeshF m w else .ok w).bind fun w1 =>
  (forEach (fun i => Res.at' w1.faceVert i) (List.range (m.midElems 2).length)).bind fun fv =>
  (forEach (fun i => Res.at' w1.cellFace i) (List.range m.cells.length)).bind fun cf =>
  .ok ({ w1 with lastHash := hash },
    .num m.vertices.length :: (m.vertices.flatMap fun p => [.real p.1, .real p.2.1, .real p.2.2])
    ++ .num (m.midElems 2).length :: fv.flatMap line
    ++ .num m.cells.length :: cf.flatMap line ++ [.num 0])

end Fpma
end GTMesh
