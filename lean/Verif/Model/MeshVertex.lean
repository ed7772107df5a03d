import Verif.Model.Vector
import Verif.Model.Mesh

/-!
# Changing a vertex of a mesh (MeshElement.h:176-193)

A vertex of a mesh, `MeshElement<MeshDim, 0, IndexType, Real>`, is an element with an index and a `Vertex<MeshDim, Real>`.
-/

namespace GTMesh
variable {n : Nat} {F : Type}

/-- `MeshElement<MeshDim, 0, IndexType, Real, Reserve>`: the members of its two bases. MeshElement.h:176-178 -/
structure MVertex (n : Nat) (F : Type) where
  index : Idx
  pos : Vec n F

/-- A statement that changes the vertex `v`. -/
inductive VertexStmt (n : Nat) (F : Type) where
  /-- `v[i] = x` -/
  | coord (i : Fin n) (x : F)
  /-- `v += y` -/
  | add (y : Vec.Operand (Vec n F))
  /-- `v -= y` -/
  | sub (y : Vec.Operand (Vec n F))
  /-- `v *= x` -/
  | mul (x : Vec.Factor n F)
  /-- `v /= x` -/
  | div (x : Vec.Factor n F)
  /-- `v.setIndex(k)` -/
  | setIndex (k : Idx)
  /-- `v = w` for another vertex of a mesh -/
  | copy (w : MVertex n F)
  /-- `v = {…}`, a list of coordinates -/
  | braces (l : List F)
  /-- `v = k`, a number that is an index -/
  | number (k : Idx)

/-- What a statement does. The functions of the base `Vertex` work on the base. `v = {…}` selects `MeshElement::operator=(std::initializer_list<Real>)`,
MeshElement.h:189-192, which assigns the list to the base and ends without a return statement: undefined behaviour. `v = k` converts `k` with the constructor
`MeshElement(IndexType index, Vertex v = {})`, MeshElement.h:180-183, which is not explicit, and copies the result. -/
def VertexStmt.exec [Mul F] [Add F] [Sub F] [Div F] [Zero F] [One F] (v : MVertex n F) : VertexStmt n F → Res (MVertex n F)
  | .coord i x => .ok { v with pos := Vec.store v.pos i x }
  | .add y => .ok { v with pos := Vec.addAssign v.pos y }
  | .sub y => .ok { v with pos := Vec.subAssign v.pos y }
  | .mul x => .ok { v with pos := Vec.smulAssign v.pos x }
  | .div x => .ok { v with pos := Vec.divAssign v.pos x }
  | .setIndex k => .ok { v with index := k }
  | .copy w => .ok w
  | .braces l => let _assigned := Vec.assignList v.pos l; .ub
  | .number k => .ok { index := k, pos := Vec.assignList Vec.raw [] }

/-- Statements one after another. -/
def execStmts [Mul F] [Add F] [Sub F] [Div F] [Zero F] [One F] (v : MVertex n F) : List (VertexStmt n F) → Res (MVertex n F)
  | [] => .ok v
  | s :: ss => (s.exec v).bind fun w => execStmts w ss

end GTMesh
