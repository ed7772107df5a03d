import Verif.Model.DataContainer
import Verif.Model.Serializer

/-!
# A mesh data container in the binary serializer (SerializeTraitedClass.h, MeshDataContainerTraits.h)

The default arithmetic traits of `MeshDataContainer<T, dims...>` (MeshDataContainerArithmeticTraits.h) make a container a class with one member for each
array; the arrays are vectors. A container with one type is a `DataCont`; one with a type for each array (`MeshDataContainer<std::tuple<...>, dims...>`) is a `TupleCont`.
-/

namespace GTMesh.Ser

/-- `write(container)`: the arrays by position, SerializeTraitedClass.h:53-60 with MeshDataContainerTraits.h:48-51; an array is written as a vector. -/
def writeCont (t : Ty) : DataCont t.den → Bytes
  | [] => []
  | (_, a) :: r => serialize (.vec t) a ++ writeCont t r

/-- `read(container)`: the arrays by position, SerializeTraitedClass.h:84-91 with MeshDataContainerTraits.h:43-46; an array is read as a vector, which takes the size
from the data (SerializeCompactContainer.h:112-126). -/
def readCont (lt : Order) (t : Ty) : DataCont t.den → Bytes → Res (DataCont t.den × Bytes)
  | [], bs => .ok ([], bs)
  | (d, a) :: r, bs =>
    (deserialize lt (.vec t) a bs).bind fun p => (readCont lt t r p.2).bind fun q => .ok ((d, p.1) :: q.1, q.2)

/-- `MeshDataContainer<std::tuple<Types...>, dims...>`: a dimension, a type and an array for each position. MeshDataContainer.h:461-500 -/
abbrev TupleCont := List (Nat × (t : Ty) × List t.den)

namespace TupleCont

/-- The dimensions and types, which are parts of the type of the container. -/
def shape (c : TupleCont) : List (Nat × Ty) := c.map fun x => (x.1, x.2.1)

end TupleCont

/-- `write(container)` for arrays of different types, SerializeTraitedClass.h:53-60 with MeshDataContainerTraits.h:48-51 -/
def writeTuple : TupleCont → Bytes
  | [] => []
  | (_, ⟨t, a⟩) :: r => serialize (.vec t) a ++ writeTuple r

/-- `read(container)` for arrays of different types, SerializeTraitedClass.h:84-91 with MeshDataContainerTraits.h:43-46 -/
def readTuple (lt : Order) : TupleCont → Bytes → Res (TupleCont × Bytes)
  | [], bs => .ok ([], bs)
  | (d, ⟨t, a⟩) :: r, bs =>
    (deserialize lt (.vec t) a bs).bind fun p => (readTuple lt r p.2).bind fun q => .ok ((d, ⟨t, p.1⟩) :: q.1, q.2)

end GTMesh.Ser
