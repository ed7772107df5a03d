import Verif.Model.Signed

/-!
# The bytes that the signature hashes (MeshElements.h:225-307)

`HashOfMeshElements` hashes the memory of the vectors of elements. Besides the members it contains the places of a static list of sub-elements that were never
written (MeshElement.h:60-61) and, where the layout needs them, bytes between the members, as those behind the `int flag` of a cell
(ComputationalySignificantElement.h:7-14, MeshElement.h:242-246). Here these bytes are arguments. Simplification: centers and flags are left out.
-/

namespace GTMesh
variable {V : Type}

/-- `std::hash<IndexType>` and `std::hash<std::string>` of the bytes of elements: the members, and the rest of the memory of each element as a number; for elements
with a static list of sub-elements the places behind the last sub-element too. -/
structure RawHasher (V : Type) where
  idx : Idx → Nat
  cells : List (Cell × Nat) → Nat
  faces : Nat → List (Face × List Idx × Nat) → Nat
  edges : List (Edge × Nat) → Nat
  vertices : List (V × Nat) → Nat

/-- The content of the memory of the elements that is not part of a member that was written: bytes between the members of the element number `i` of dimension `d`
(`pad d i`) and the places of its static list before they are written (`rest d i`). -/
structure Memory where
  pad : Nat → Nat → Nat
  rest : Nat → Nat → List Idx

/-- The hash functions of the members alone, when the other bytes are those of `mem`. -/
def RawHasher.within (H : RawHasher V) (dim : Nat) (mem : Memory) : Hasher V where
  idx := H.idx
  cells cs := H.cells (cs.zipIdx.map fun p => (p.1, mem.pad dim p.2))
  faces d fs := H.faces d (fs.zipIdx.map fun p => (p.1, (mem.rest d p.2).drop p.1.sub.length, mem.pad d p.2))
  edges es := H.edges (es.zipIdx.map fun p => (p.1, mem.pad 1 p.2))
  vertices vs := H.vertices (vs.zipIdx.map fun p => (p.1, mem.pad 0 p.2))

/-- `updateSignature()` of a mesh whose memory contains `mem`, MeshElements.h:203-322 -/
def signatureRaw (H : RawHasher V) (mem : Memory) (reserves : List Nat) (m : Mesh V) : Nat := signature (H.within m.dim mem) reserves m

end GTMesh
