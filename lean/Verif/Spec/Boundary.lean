import Verif.Model.Mesh

/-! # Specification of the boundary cells -/

namespace GTMesh.Spec

/-- Is the side of the face without a cell? -/
def leftMissing (c : Conn) : Nat := if c.left = INVALID then 1 else 0
/-- Is the side of the face without a cell? -/
def rightMissing (c : Conn) : Nat := if c.right = INVALID then 1 else 0

/-- Number of sides without a cell in a list of faces. -/
def missingSides (fs : List (Idx × Conn)) : Nat :=
  (fs.map (fun p => leftMissing p.2 + rightMissing p.2)).sum

end GTMesh.Spec
