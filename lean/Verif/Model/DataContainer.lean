import Verif.Model.Mesh
import Verif.Model.Meta

/-!
# Mesh data container (MeshDataContainer.h)

A container `MeshDataContainer<DataType, d0, d1, ...>` is the list of its arrays, each with the dimension
it is mapped to.  For the tuple version (a type per array) `α` stands for the disjoint union of the types.
-/

namespace GTMesh

/-- `std::vector::resize(n, v)` -/
def resize {α : Type} (l : List α) (n : Nat) (v : α) : List α := l.take n ++ List.replicate (n - l.length) v

/-- A container: the mapped dimension and the content of each array. MeshDataContainer.h:50-67, 145 -/
abbrev DataCont (α : Type) := List (Nat × List α)

namespace DataCont
variable {α : Type}

/-- The dimensions of the type of the container. -/
def dims (c : DataCont α) : List Nat := c.map (·.1)

/-- `allocateMemory<0>(mesh, initialValue)`, MeshDataContainer.h:94-122, seen through the sizes of the
element containers of the mesh.  `allocateData(mesh)` is the case where `init` is `DataType()`. -/
def allocateMemory (sizes : Nat → Nat) (init : α) : DataCont α → DataCont α
  | [] => []
  | (d, a) :: r => (d, resize a (sizes d) init) :: allocateMemory sizes init r

/-- Tuple version with one initial value per array, MeshDataContainer.h:507-531 -/
def allocateMemoryT (sizes : Nat → Nat) : List α → DataCont α → DataCont α
  | v :: vs, (d, a) :: r => (d, resize a (sizes d) v) :: allocateMemoryT sizes vs r
  | _, c => c

/-- `getDataByPos<pos>()`, MeshDataContainer.h:305-317 -/
def byPos (c : DataCont α) (pos : Nat) : Option (List α) := c[pos]?.map (·.2)

/-- `getDataByDim<dim>()`, MeshDataContainer.h:285-297; `none`: does not compile. -/
def byDim (c : DataCont α) (dim : Nat) : Option (List α) := (dimensionPos dim 0 c.dims).bind c.byPos

/-- `at(element)`, MeshDataContainer.h:327-340: checked access by dimension and index of the element. -/
def atElem (c : DataCont α) (dim i : Nat) : Option (Res α) := (c.byDim dim).map fun a => Res.at' a i

/-- `operator[](element)`, MeshDataContainer.h:373-412: unchecked access. -/
def idxElem (c : DataCont α) (dim i : Nat) : Option (Res α) := (c.byDim dim).map fun a => Res.idx a i

/-- Assignment through the reference `getDataByPos<pos>()[i] = v` (in range). -/
def writePos (c : DataCont α) (pos i : Nat) (v : α) : DataCont α :=
  c.modify pos fun p => (p.1, p.2.set i v)

/-- Assignment through the reference `(*this)[element] = v`. -/
def writeElem (c : DataCont α) (dim i : Nat) (v : α) : DataCont α :=
  match dimensionPos dim 0 c.dims with
  | some pos => c.writePos pos i v
  | none => c

/-- `allocateData(mesh, initialValue)`, MeshDataContainer.h:232-247 -/
def allocateData {V : Type} (c : DataCont α) (m : Mesh V) (init : α) : DataCont α :=
  allocateMemory m.numElems init c

/-- `allocateData(otherContainer, initialValue)`, MeshDataContainer.h:256-270, 116-138: the sizes are those of
the first array of the other container with the same dimension; `none`: does not compile. -/
def allocateLike {β : Type} (init : α) (o : DataCont β) : DataCont α → Option (DataCont α)
  | [] => some []
  | (d, a) :: r =>
    (o.byDim d).bind fun b => (allocateLike init o r).map fun r' => (d, resize a b.length init) :: r'

end DataCont
end GTMesh
