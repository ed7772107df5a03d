import Verif.Model.Mesh
import Verif.Model.Std

/-!
# Iteration over connected elements (MeshApply.h)

The functor is modelled by the sequence of its argument pairs.  Simplification: when the iteration
fails (exception, divergence) the calls made before the failure are dropped.
-/

namespace GTMesh
open Std'

namespace Mesh
variable {V : Type}

/-- Number of faces of the mesh. -/
def numFaces (m : Mesh V) : Nat := m.numElems (m.dim - 1)

/-- One step along the boundary of `cell`: `mesh.getFaces().at(tmpFace).getNextBElem(cell)`.
MeshApply.h:49 -/
def nextFace (m : Mesh V) (cell face : Idx) : Res Idx :=
  (m.faceConn face).bind fun c => c.getNextBElem cell

/-- The `do … while` loop over the boundary of a cell, MeshApply.h:46-50, with `body` the nested run.
The first argument is fuel; running out of it is reported as divergence (`Props/Apply.lean` proves
that with `numFaces + 1` steps of fuel this is real non-termination). -/
def cellLoop {β : Type} (m : Mesh V) (body : Idx → Res (List β)) (cell start : Idx) :
    Nat → Idx → Res (List β)
  | 0, _ => .diverge
  | n + 1, tmp =>
    (body tmp).bind fun r =>
    (m.nextFace cell tmp).bind fun nxt =>
    if nxt = start then .ok r
    else (cellLoop m body cell start n nxt).bind fun rest => .ok (r ++ rest)

/-- `MeshRun<CurrentDimension, …, TargetDimension, …>::run` with `CurrentDimension = target + k`: the
sequence of visited elements of dimension `target`.  MeshApply.h:10-29 (general), 36-53 (cell),
60-74 (edge), 84-113 (end of the recursion). -/
def meshRun (m : Mesh V) (target : Nat) : Nat → Idx → Res (List Idx)
  | 0, i => .ok [i]
  | k + 1, i =>
    if target + k + 1 = m.dim then
      (Res.at' m.cells i).bind fun c =>
      cellLoop m (meshRun m target k) i c.bElem (m.numFaces + 1) c.bElem
    else if target + k + 1 = 1 then
      (Res.at' m.edges i).bind fun e =>
      (meshRun m target k e.a).bind fun ra =>
      (meshRun m target k e.b).bind fun rb => .ok (ra ++ rb)
    else
      (Res.at' (m.midElems (target + k + 1)) i).bind fun f => forAll (meshRun m target k) f.sub

/-- `MeshApply<S, T>::apply(mesh, f)`, MeshApply.h:118-134: the sequence of the argument pairs of `f`. -/
def apply (m : Mesh V) (S T : Nat) : Res (List (Idx × Idx)) :=
  forAll (fun i => (m.meshRun (min S T) (max S T - min S T) i).bind fun ts =>
      .ok (ts.map fun t => if T < S then (i, t) else (t, i)))
    (List.range (m.numElems (max S T)))

/-- `MeshApply<S, T>::apply(elementIndex, mesh, f)` for `S ≥ T`, MeshApply.h:136-152: the second
arguments of the calls (the first one is always `elementIndex` when `S > T`; when `S = T` both are). -/
def applyOne (m : Mesh V) (S T : Nat) (i : Idx) : Res (List Idx) := m.meshRun T (S - T) i

end Mesh
end GTMesh
