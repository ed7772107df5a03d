import Verif.Base

/-!
# Standard library containers used by GTMesh

`std::set<IndexType>` is modelled by its iteration sequence (a strictly increasing list), `std::map`
by its iteration sequence of (key, value) pairs with strictly increasing keys.  These are models of
the C++ standard library, not of code in /repo.
-/

namespace GTMesh.Std'

/-- `std::set::insert` on the iteration sequence. -/
def setInsert (x : Nat) : List Nat → List Nat
  | [] => [x]
  | y :: ys => if x < y then x :: y :: ys else if x = y then y :: ys else y :: setInsert x ys

/-- `std::map::insert({k, v})`: no effect when the key is present. -/
def mapInsert {β : Type u} (k : Nat) (v : β) : List (Nat × β) → List (Nat × β)
  | [] => [(k, v)]
  | (k', v') :: r =>
    if k < k' then (k, v) :: (k', v') :: r
    else if k = k' then (k', v') :: r
    else (k', v') :: mapInsert k v r

/-- A loop that calls `body` on each element and concatenates what it emits; the first failure ends
the loop. -/
def forAll {α : Type u} {β : Type v} (body : α → Res (List β)) : List α → Res (List β)
  | [] => .ok []
  | x :: xs => (body x).bind fun r => (forAll body xs).bind fun rs => .ok (r ++ rs)

/-- A loop that computes one result per element; the first failure ends the loop. -/
def forEach {α : Type u} {β : Type v} (body : α → Res β) : List α → Res (List β)
  | [] => .ok []
  | x :: xs => (body x).bind fun r => (forEach body xs).bind fun rs => .ok (r :: rs)

end GTMesh.Std'
