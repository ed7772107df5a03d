import Verif.Model.Mesh

/-!
# The dictionary of edges of the mesh readers

`FPMAMeshReader<3>::loadFaces`, `VTKMeshReader<2>::loadCells` and `VTKMeshReader<3>::loadCells` contain the
same code that finds or creates an edge.  `std::unordered_map<std::string, IndexType>` is modelled by an
association list (only `find` and `operator[]=` are used, no iteration), strings by lists of characters.
-/

namespace GTMesh

/-- `std::to_string(n)` for an unsigned integer. -/
def decimal (n : Nat) : List Char := Nat.toDigits 10 n

/-- The key of an edge, `"smaller;larger"`. FPMAMeshReader.h:78-79, VTKMeshReader.h:95-96, 346-347 -/
def edgeKey (iA iB : Idx) : List Char :=
  if iA < iB then decimal iA ++ ';' :: decimal iB else decimal iB ++ ';' :: decimal iA

/-- `std::unordered_map<std::string, IndexType>` -/
abbrev Dict := List (List Char × Idx)

/-- `find` -/
def Dict.find (d : Dict) (k : List Char) : Option Idx := List.lookup k d

/-- `dict[key] = i` -/
def Dict.put (d : Dict) (k : List Char) (i : Idx) : Dict := (k, i) :: d

/-- Finding or creating the edge between `iA` and `iB`: dictionary, edges, index of the edge and whether it
was created. FPMAMeshReader.h:80-96, VTKMeshReader.h:97-113 (without the cell), 348-361 -/
def findOrAddEdge (d : Dict) (es : List Edge) (iA iB : Idx) : Dict × List Edge × Idx × Bool :=
  match d.find (edgeKey iA iB) with
  | none => (d.put (edgeKey iA iB) es.length, es ++ [{ index := es.length, a := iA, b := iB }], es.length, true)
  | some i => (d, es, i, false)

/-- The pairs of consecutive vertices, `(vertices.at(j), vertices.at((j+1)%numVert))` for
`j = 0 .. numVert-1`. FPMAMeshReader.h:76-78, VTKMeshReader.h:94-95 -/
def consecutive (vs : List Idx) : List (Idx × Idx) :=
  (List.range vs.length).map fun j => (vs[j]?.getD 0, vs[(j + 1) % vs.length]?.getD 0)

end GTMesh
