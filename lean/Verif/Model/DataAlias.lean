import Verif.Model.DataContainer

/-!
# Allocation with an initial value that lives in the container (MeshDataContainer.h)

`allocateData(mesh, initialValue)` takes the initial value by reference, `const DataType&`, and hands the reference from array to
array. Here the reference may refer to an entry of the container itself: to the entry `i` of the array `p`.
-/

namespace GTMesh.DataCont
variable {α : Type}

/-- `allocateMemory<pos>(mesh, initialValue)` with `initialValue` a reference to the entry `i` of the array `p`,
MeshDataContainer.h:102-118.
`val` is what the reference refers to, `none` after the entry was destroyed or moved to other memory. `cap` is the capacity of the array `p`.
`std::vector::resize(n, value)` reads the value only to add entries (it may then be an entry of the same vector: the
standard requires the old value); it moves the entries when `n` exceeds the capacity, and destroys the entries from `n` on. -/
def allocateOwn (sizes : Nat → Nat) (p i cap : Nat) : Nat → Option α → DataCont α → Res (DataCont α)
  | _, _, [] => .ok []
  | pos, val, (d, a) :: r =>
    (if a.length < sizes d then (match val with | some v => Res.ok (resize a (sizes d) v) | none => .ub) else .ok (a.take (sizes d))).bind fun a' =>
      let val' := if pos = p ∧ (cap < sizes d ∨ sizes d ≤ i) then none else val
      (allocateOwn sizes p i cap (pos + 1) val' r).bind fun r' => .ok ((d, a') :: r')

/-- `allocateData(mesh, getDataByPos<p>()[i])`, MeshDataContainer.h:243-246; reading outside of the array is undefined. -/
def allocateDataOwn {V : Type} (c : DataCont α) (m : Mesh V) (p i cap : Nat) : Res (DataCont α) :=
  match (c.byPos p).bind (·[i]?) with
  | some v => allocateOwn m.numElems p i cap 0 (some v) c
  | none => .ub

end GTMesh.DataCont
