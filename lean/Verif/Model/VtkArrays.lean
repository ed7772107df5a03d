import Verif.Model.VtkData

/-!
# Data of several arrays in a VTK file (VTKMeshDataWriter.h)

A `MeshDataContainer` with several arrays is the list of the arrays, each with the class it holds (`none`: a type without traits).

Simplifications: all arrays with traits belong to the cells (others do not compile, `WriteData::exec` takes `DataContainer<T, MeshDimension>`),
and at least one array has traits (`static_assert`, VTKMeshDataWriter.h:296-299).
-/

namespace GTMesh.Vtk
variable {R : Type}

/-- The arrays of a container. -/
abbrev Arrays (R : Type) := List (Option Class × List (Row R))

/-- `MeshDataIterator`, VTKMeshDataWriter.h:235-327: the recursion writes the arrays in front of an array first; an array without traits is left out. -/
def writeArrays (fmt : R → R) (zero : R) (dim : Nat) (backward : List (Idx × Idx)) : Arrays R → Res (List (VTok R))
  | [] => .ok []
  | (none, _) :: r => writeArrays fmt zero dim backward r
  | (some cls, data) :: r =>
    (writeColumns fmt zero dim backward data 0 cls).bind fun t => (writeArrays fmt zero dim backward r).bind fun ts => .ok (t ++ ts)

/-- `VTKMeshDataWriter::writeToStream` for a container with several arrays, VTKMeshDataWriter.h:335-342, 349-356. -/
def writeDataAll (fmt : R → R) (zero : R) (dim : Nat) (backward : List (Idx × Idx)) (n : Nat) (arrays : Arrays R) : Res (List (VTok R)) :=
  (writeArrays fmt zero dim backward arrays).bind fun ts => .ok (.word "CELL_DATA" :: .num n :: .nl :: ts)

/-- `VTKMeshDataReader::readFromStream` for a container with several arrays, VTKMeshDataReader.h:157-232, 235-251: the array number
`Index` with traits calls `MeshDataIterator<Index - 1>::writeToStream`, which does not exist, so that only the array 0 may have
traits. `none`: does not compile. -/
def readDataAll [Zero R] (dim : Nat) (file : List (VTok R)) : Arrays R → Option (Res (Arrays R))
  | (some cls, rows) :: r => if r.all (fun a => a.1.isNone) then some ((readData dim cls file rows).bind fun rows' => .ok ((some cls, rows') :: r)) else none
  | _ => none

end GTMesh.Vtk
