import Verif.Spec.Geometry

/-! # Specification of fluxes through the boundary of a cell -/

namespace GTMesh.Spec
open Vec

/-- The cells on the sides of face `f` (an edge in 2D). -/
def cellsOfFace {V : Type} (m : Mesh V) (f : Idx) : Conn :=
  if m.dim = 2 then ((m.edges[f]?).map (·.conn)).getD {} else (((m.midElems (m.dim - 1))[f]?).map (·.conn)).getD {}

/-- `1` for the left cell of a face, `-1` for the right one: the factor that makes a normal directed from left to right an outer normal
of the cell. -/
noncomputable def outwards (c : Conn) (cell : Idx) : ℝ := if c.left = cell then 1 else if c.right = cell then -1 else 0

/-- The sum of `± measure · normal` over the faces of a cell. -/
noncomputable def surface {n : Nat} {V : Type} (m : Mesh V) (faces : List Idx) (measures : List ℝ) (normals : List (Vec n ℝ)) (cell : Idx) : Vec n ℝ :=
  (faces.map fun f => (outwards (cellsOfFace m f) cell * (measures[f]?).getD 0) • (normals[f]?).getD 0).sum

/-- In a 2D mesh, the edges of `cell` with the polygon `vs` lead along the polygon when the cell is on their left side, and against it
when it is on their right side. -/
def LeadAlong {V : Type} (m : Mesh V) (edges : List Idx) (cell : Idx) (vs : List Idx) : Prop :=
  ∀ e ∈ edges, ∀ ed, m.edges[e]? = some ed →
    (ed.conn.left = cell ∧ (ed.a, ed.b) ∈ sidesOf vs) ∨ (ed.conn.left ≠ cell ∧ ed.conn.right = cell ∧ (ed.b, ed.a) ∈ sidesOf vs)

end GTMesh.Spec
