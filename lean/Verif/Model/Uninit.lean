import Verif.Model.Fpma
import Verif.Model.Vtk3

/-!
# The readers with cells whose boundary element is not initialised

The constructor of a cell leaves `boundaryElementIndex` as it is, MeshElement.h:247-255; the default of `Cell.bElem` in Model/Mesh.lean stands for this value. Here
the readers again, with any values for the new cells: `junk i` is what the member of the cell `i` happens to contain.
-/

namespace GTMesh

/-- `mesh.getCells().resize(n)`: the new cells have whatever is in their memory. VTKMeshReader.h:78, 320, FPMAMeshReader.h:118 -/
def freshCells (junk : Nat → Idx) (cs : List Cell) (n : Nat) : List Cell :=
  cs.take n ++ (List.range (n - cs.length)).map fun k => { bElem := junk (cs.length + k) }

namespace Fpma
variable {R : Type}

/-- `loadCells`, FPMAMeshReader.h:113-151 -/
def loadCellsJunk (junk : Nat → Idx) (ts : List (Tok R)) (m : Mesh (Point R)) : Res (Mesh (Point R) × List (Tok R)) :=
  (readNum ts).bind fun p =>
  (loadCellList (freshCells junk m.cells p.1) 0 (m.midElems 2) p.2).bind fun q =>
  .ok ({ m with cells := q.1, mids := [q.2.1] }, q.2.2)

/-- `loadFromStream(ist, mesh)`, FPMAMeshReader.h:155-169 -/
def loadJunk (junk : Nat → Idx) (res : Nat) (ts : List (Tok R)) (m : Mesh (Point R)) : Res (Mesh (Point R)) :=
  (loadVertices ts m).bind fun p => (loadFaces res p.2 p.1).bind fun q =>
  (loadCellsJunk junk q.2 q.1).bind fun r => .ok r.1

end Fpma

namespace Vtk
variable {R : Type}

/-- `VTKMeshReader<2>::loadCells`, VTKMeshReader.h:74-130 -/
def loadCells2Junk {V : Type} (junk : Nat → Idx) (ts : List (VTok R)) (m : Mesh V) : Res (Mesh V × List (VTok R)) :=
  (readNum ts).bind fun p =>
  (loadCellList2 (freshCells junk m.cells p.1) 0 [] m.edges (ignoreLine p.2)).bind fun q =>
  .ok ({ m with cells := q.1, edges := q.2.1 }, q.2.2)

/-- `VTKMeshReader<2>::loadFromStream`, VTKMeshReader.h:149-191 -/
def load2Junk [Zero R] (junk : Nat → Idx) (ts : List (VTok R)) (types : List Nat) (m : Mesh (Point2 R)) : Res (Mesh (Point2 R) × List Nat) :=
  loadFromStream fromVtk2 (loadVertices fun p => (p.1, p.2.1)) (loadCells2Junk junk) ts types m

/-- `VTKMeshReader<3>::loadCells`, VTKMeshReader.h:316-409 -/
def loadCells3Junk {V : Type} (junk : Nat → Idx) (res : Nat) (ts : List (VTok R)) (m : Mesh V) : Res (Mesh V × List (VTok R)) :=
  (readNum ts).bind fun p =>
  (loadCellList3 res (freshCells junk m.cells p.1) 0 [] [] m.edges (m.midElems 2) (ignoreLine p.2)).bind fun q =>
  .ok ({ m with cells := q.1, edges := q.2.1, mids := [q.2.2.1] }, q.2.2.2)

/-- `VTKMeshReader<3>::loadFromStream`, VTKMeshReader.h:428-471 -/
def load3Junk [Zero R] (junk : Nat → Idx) (res : Nat) (ts : List (VTok R)) (types : List Nat) (m : Mesh (Point3 R)) : Res (Mesh (Point3 R) × List Nat) :=
  loadFromStream fromVtk3 (loadVertices id) (loadCells3Junk junk res) ts types m

end Vtk
end GTMesh
