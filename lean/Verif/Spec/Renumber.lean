import Verif.Model.Geometry
import Verif.Spec.Incidence
import Mathlib.Logic.Equiv.Defs

/-!
# Specification of renumbering

`ρ d` gives the elements of dimension `d` new numbers. A number that is no element of dimension `d` (the invalid index, the number of a
boundary cell) stays as it is.
-/

namespace GTMesh.Spec
variable {V : Type} {n : Nat} {F : Type}

/-- The connection of a face with other numbers of the cells and faces. -/
def renameConn (cell face : Idx → Idx) (c : Conn) : Conn := ⟨cell c.left, cell c.right, face c.nextL, face c.nextR⟩

/-- An edge with other numbers. -/
def renameEdge (own vertex cell face : Idx → Idx) (e : Edge) : Edge :=
  ⟨own e.index, vertex e.a, vertex e.b, renameConn cell face e.conn⟩

/-- An element between the edges and the cells with other numbers; the order of its sub-elements stays. -/
def renameFace (own subs cell face : Idx → Idx) (f : Face) : Face := ⟨own f.index, f.sub.map subs, renameConn cell face f.conn⟩

/-- A cell with other numbers. -/
def renameCell (own face : Idx → Idx) (c : Cell) : Cell := ⟨own c.index, face c.bElem⟩

/-- The mesh `m'` is the mesh `m` with other numbers: element `i` of dimension `d` is element `ρ d i` in `m'`. -/
structure Renumbered (ρ : Nat → Equiv.Perm Nat) (m m' : Mesh V) : Prop where
  dim : m'.dim = m.dim
  dim_ge : 2 ≤ m.dim
  fits : ∀ d, d ≤ m.dim → m.numElems d ≤ BOUNDARY
  fixed : ∀ d i, d ≤ m.dim → m.numElems d ≤ i → ρ d i = i
  vertices : ∀ v, m'.vertices[ρ 0 v]? = m.vertices[v]?
  edges : ∀ e, m'.edges[ρ 1 e]? = (m.edges[e]?).map (renameEdge (ρ 1) (ρ 0) (ρ m.dim) (ρ (m.dim - 1)))
  mids : ∀ d i, 2 ≤ d → d < m.dim →
    (m'.midElems d)[ρ d i]? = ((m.midElems d)[i]?).map (renameFace (ρ d) (ρ (d - 1)) (ρ m.dim) (ρ (m.dim - 1)))
  cells : ∀ c, m'.cells[ρ m.dim c]? = (m.cells[c]?).map (renameCell (ρ m.dim) (ρ (m.dim - 1)))
  bCells : m'.bCells = m.bCells.map (renameCell id (ρ (m.dim - 1)))

/-- The same for a mesh with the centers it holds. -/
structure RenumberedG (ρ : Nat → Equiv.Perm Nat) (g g' : GMesh n F) : Prop where
  mesh : Renumbered ρ g.mesh g'.mesh
  faceCenter : ∀ f, g'.faceCenter (ρ (g.mesh.dim - 1) f) = g.faceCenter f
  cellCenter : ∀ c, g'.cellCenter (ρ g.mesh.dim c) = g.cellCenter c
  bCellCenter : ∀ b, g'.bCellCenter b = g.bCellCenter b

/-- The list `l'` holds the values of `l` under the new numbers. -/
def Carried {α : Type} (ρ : Equiv.Perm Nat) (l l' : List α) : Prop := ∀ i : Nat, l'[ρ i]? = l[i]?

/-- The same for the lists of all dimensions `1, 2, …`. -/
def CarriedAll {α : Type} (ρ : Nat → Equiv.Perm Nat) (ls ls' : List (List α)) : Prop :=
  ls'.length = ls.length ∧ ∀ (k : Nat) l l', ls[k]? = some l → ls'[k]? = some l' → Carried (ρ (k + 1)) l l'

/-- A list of the elements of `l` in new order: entry `i` goes to position `ρ i`. -/
def reorder {α : Type} (ρ : Equiv.Perm Nat) (l : List α) : List α := (List.range l.length).filterMap fun j => l[ρ.symm j]?

/-- A mesh with new numbers. -/
def renumber (ρ : Nat → Equiv.Perm Nat) (m : Mesh V) : Mesh V where
  dim := m.dim
  vertices := reorder (ρ 0) m.vertices
  edges := (reorder (ρ 1) m.edges).map (renameEdge (ρ 1) (ρ 0) (ρ m.dim) (ρ (m.dim - 1)))
  mids := m.mids.zipIdx.map fun x => (reorder (ρ (x.2 + 2)) x.1).map
    (renameFace (ρ (x.2 + 2)) (ρ (x.2 + 1)) (ρ m.dim) (ρ (m.dim - 1)))
  cells := (reorder (ρ m.dim) m.cells).map (renameCell (ρ m.dim) (ρ (m.dim - 1)))
  bCells := m.bCells.map (renameCell id (ρ (m.dim - 1)))

/-- The same for a mesh with the centers it holds. -/
def renumberG (ρ : Nat → Equiv.Perm Nat) (g : GMesh n F) : GMesh n F where
  mesh := renumber ρ g.mesh
  faceCenter := fun f => g.faceCenter ((ρ (g.mesh.dim - 1)).symm f)
  cellCenter := fun c => g.cellCenter ((ρ g.mesh.dim).symm c)
  bCellCenter := g.bCellCenter

end GTMesh.Spec
