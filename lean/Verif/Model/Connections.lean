import Verif.Model.Apply

/-!
# Connections and neighborhoods (MeshConnections.h, MeshNeighborhood.h)

The result container `MeshDataContainer<std::vector<ElementIndex<..>>, StartDim>` is a list with one
entry per element of the start dimension (its allocation is modelled in `Model/DataContainer.lean`).
-/

namespace GTMesh
open Std'

/-- A sequence of calls of `[&data](orig, connected){ update(data.at(orig), connected); }`:
`MeshDataContainer` stores vectors, `.at` is bounds-checked. MeshConnections.h:39-41, 144-147 -/
def scatter {β : Type} (upd : Idx → β → β) : List (Idx × Idx) → List β → Res (List β)
  | [], d => .ok d
  | (o, c) :: r, d => (Res.at' d o).bind fun b => scatter upd r (d.set o (upd c b))

/-- `std::set<IndexType>::insert` for each element of a sequence. -/
def insertAll (xs : List Idx) : List Idx := xs.foldl (fun s x => setInsert x s) []

/-- `size = map.size(); map.insert({connected, size});` MeshConnections.h:145-146,
MeshNeighborhood.h:69-70 -/
def insertNumbered (c : Idx) (mp : List (Idx × Nat)) : List (Idx × Nat) := mapInsert c mp.length mp

/-- `result.at(mapElem.second) = mapElem.first;` MeshConnections.h:158, MeshNeighborhood.h:80 -/
def placeStep (r : Res (List Idx)) (e : Idx × Nat) : Res (List Idx) :=
  r.bind fun l => if e.2 < l.length then .ok (l.set e.2 e.1) else .throw .outOfRange

/-- `result.resize(map.size()); for (mapElem : map) result.at(mapElem.second) = mapElem.first;`
MeshConnections.h:153-159, MeshNeighborhood.h:75-81 -/
def layout (mp : List (Idx × Nat)) : Res (List Idx) :=
  mp.foldl placeStep (.ok (List.replicate mp.length 0))

namespace Mesh
variable {V : Type}

/-- `MeshConnections<S, T, ORDER_ASCEND>::connections(mesh)`: MeshConnections.h:26-51 for `S < T`,
61-89 for `S ≥ T`. -/
def connectionsAsc (m : Mesh V) (S T : Nat) : Res (List (List Idx)) :=
  if S < T then
    (m.apply S T).bind fun calls => scatter setInsert calls (List.replicate (m.numElems S) [])
  else
    forEach (fun i => (m.applyOne S T i).bind fun ts => .ok (insertAll ts)) (List.range (m.numElems S))

/-- `MeshConnections<S, T, ORDER_ORIGINAL>::connections(mesh)`, MeshConnections.h:136-162. -/
def connectionsOrig (m : Mesh V) (S T : Nat) : Res (List (List Idx)) :=
  (m.apply S T).bind fun calls =>
  (scatter insertNumbered calls (List.replicate (m.numElems S) [])).bind fun maps =>
  forEach layout maps

/-- The elements offered by the two nested loops of `neighbors` for element `i`, without `i` itself when
the start and connected dimension agree. MeshNeighborhood.h:22-32, 62-73 -/
def neighborVisits (S T : Nat) (first second : List (List Idx)) (i : Idx) : Res (List Idx) :=
  (Res.at' first i).bind fun cs =>
  (forAll (fun c => Res.at' second c) cs).bind fun ns =>
  .ok (ns.filter fun n => !(decide (S = T) && decide (i = n)))

/-- `MeshNeighborhood<S, C, T, ORDER_ASCEND>::neighbors(mesh)`, MeshNeighborhood.h:10-41 -/
def neighborsAsc (m : Mesh V) (S C T : Nat) : Res (List (List Idx)) :=
  (m.connectionsAsc S C).bind fun first =>
  (m.connectionsAsc C T).bind fun second =>
  forEach (fun i => (neighborVisits S T first second i).bind fun ns => .ok (insertAll ns))
    (List.range (m.numElems S))

/-- `MeshNeighborhood<S, C, T, ORDER_ORIGINAL>::neighbors(mesh)`, MeshNeighborhood.h:50-85 -/
def neighborsOrig (m : Mesh V) (S C T : Nat) : Res (List (List Idx)) :=
  (m.connectionsOrig S C).bind fun first =>
  (m.connectionsOrig C T).bind fun second =>
  forEach (fun i => (neighborVisits S T first second i).bind fun ns =>
      layout (ns.foldl (fun mp n => insertNumbered n mp) []))
    (List.range (m.numElems S))

end Mesh
end GTMesh
