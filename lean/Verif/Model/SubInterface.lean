import Verif.Model.Mesh
import Verif.Model.Std

/-!
# The interface of the list of sub-elements, with and without a static reserve (MeshElement.h:60-135)

`SubelementContainer<IndexType, 0>` is a `std::vector`, `SubelementContainer<IndexType, Reserve>` a `std::array` with some functions of its own; the others are
those of the array and see all `Reserve` places. `removeSubelement` does not compile for either of them and is left out, as are functions which only one of
them has.
-/

namespace GTMesh

/-- A call of a function both have. -/
inductive SubOp where
  /-- `addSubelement(x)`, `push_back(x)` -/
  | add (x : Idx)
  /-- `size()`, `getNumberOfSubElements()` -/
  | size
  /-- `at(i)` -/
  | get (i : Nat)
  /-- `at(i) = x` -/
  | set (i : Nat) (x : Idx)
  /-- `[i]` -/
  | idx (i : Nat)
  | front
  | back
  /-- a loop from `begin()` to `end()` -/
  | iterate
  /-- a loop from `rbegin()` to `rend()` -/
  | reverse
  | empty
  deriving DecidableEq, Repr

/-- What a call returns. -/
inductive SubOut where
  | nothing
  | num (n : Nat)
  | list (l : List Idx)
  | bool (b : Bool)
  deriving DecidableEq, Repr

/-- Returning a number. -/
def SubOut.ofNum (r : Res Nat) : Res SubOut := r.bind fun n => .ok (.num n)

/-- `SubelementContainer<IndexType, 0>`, MeshElement.h:122-135: what its calls do is what `std::vector` does. -/
def vectorCall (l : List Idx) : SubOp → List Idx × Res SubOut
  | .add x => (l ++ [x], .ok .nothing)
  | .size => (l, .ok (.num l.length))
  | .get i => (l, SubOut.ofNum (Res.at' l i))
  | .set i x => (l.set i x, (Res.at' l i).bind fun _ => .ok .nothing)
  | .idx i => (l, SubOut.ofNum (Res.idx l i))
  | .front => (l, SubOut.ofNum (Res.idx l 0))
  | .back => (l, if l = [] then .ub else SubOut.ofNum (Res.idx l (l.length - 1)))
  | .iterate => (l, .ok (.list l))
  | .reverse => (l, .ok (.list l.reverse))
  | .empty => (l, .ok (.bool l.isEmpty))

/-- `SubelementContainer<IndexType, Reserve>`, MeshElement.h:60-119: `addSubelement`, `push_back`, `size`, `getNumberOfSubElements` and `end` are its own; `at`,
`[]`, `front`, `back`, `rbegin`, `rend` and `empty` are those of `std::array<IndexType, Reserve>`. Simplification: a place that was never written has an arbitrary
value, reading it is not undefined behaviour. -/
def arrayCall {R : Nat} (s : SubCont R) : SubOp → SubCont R × Res SubOut
  | .add x => ((s.addSubelement x).1, match (s.addSubelement x).2 with | none => .ok .nothing | some e => .throw e)
  | .size => (s, .ok (.num s.size))
  | .get i => (s, SubOut.ofNum (s.at' i))
  | .set i x => ({ s with store := s.store.set i x }, (s.at' i).bind fun _ => .ok .nothing)
  | .idx i => (s, SubOut.ofNum (Res.idx s.store i))
  | .front => (s, SubOut.ofNum (Res.idx s.store 0))
  | .back => (s, if R = 0 then .ub else SubOut.ofNum (Res.idx s.store (R - 1)))
  | .iterate => (s, .ok (.list s.iterate))
  | .reverse => (s, .ok (.list s.store.reverse))
  | .empty => (s, .ok (.bool (decide (R = 0))))

/-- The results of a history of calls; after an exception the caller goes on. -/
def vectorCalls (l : List Idx) : List SubOp → List Idx × List (Res SubOut)
  | [] => (l, [])
  | op :: ops => let r := vectorCall l op; let q := vectorCalls r.1 ops; (q.1, r.2 :: q.2)

/-- The same for a container with a reserve. -/
def arrayCalls {R : Nat} (s : SubCont R) : List SubOp → SubCont R × List (Res SubOut)
  | [] => (s, [])
  | op :: ops => let r := arrayCall s op; let q := arrayCalls r.1 ops; (q.1, r.2 :: q.2)

end GTMesh
