import Verif.Model.Geometry
import Verif.Spec.Incidence
import Verif.Spec.Polygon
import Mathlib.Analysis.Convex.Basic

/-! # Specification of the geometric quantities -/

namespace GTMesh

/-- The same mesh with other positions of the vertices. -/
def Mesh.mapV {V W : Type} (f : V → W) (m : Mesh V) : Mesh W :=
  { dim := m.dim, vertices := m.vertices.map f, edges := m.edges, mids := m.mids, cells := m.cells, bCells := m.bCells }

namespace Spec
open Vec

variable {n : Nat} {F : Type}

/-- The mesh and all the centers it holds, moved by `t`. -/
def translate [Add F] (t : Vec n F) (g : GMesh n F) : GMesh n F :=
  { mesh := g.mesh.mapV (· + t), faceCenter := fun i => g.faceCenter i + t, cellCenter := fun i => g.cellCenter i + t,
    bCellCenter := fun i => g.bCellCenter i + t }

/-- The arithmetic mean of points. -/
def mean [Field F] (ps : List (Vec n F)) : Vec n F := (ps.length : F)⁻¹ • ps.sum

/-- Entry `i` of the list for dimension `d = 1, 2, …`. -/
def entry (cs : List (List (Vec n F))) (d : Nat) (i : Idx) : Option (Vec n F) := (cs[d - 1]?).bind fun l => l[i]?

/-- `cs` holds exactly one center for every element of every dimension `1, …, dim`; that of an edge is the midpoint, those of the
higher elements are the means of the centers of their direct sub-elements. -/
structure AreCenters [Field F] (m : Mesh (Vec n F)) (bd : Idx → List Idx) (cs : List (List (Vec n F))) : Prop where
  dims : cs.length = m.dim
  sizes : ∀ (d : Nat) l, 1 ≤ d → cs[d - 1]? = some l → l.length = m.numElems d
  edges : ∀ (e : Nat) ed A B, m.edges[e]? = some ed → m.vertices[ed.a]? = some A → m.vertices[ed.b]? = some B →
    entry cs 1 e = some (mean [A, B])
  higher : ∀ d i, 2 ≤ d → d ≤ m.dim → i < m.numElems d → ∃ ps : List (Vec n F),
    List.Forall₂ (fun s p => entry cs (d - 1) s = some p) (directSubs m bd d i) ps ∧ ps ≠ [] ∧ entry cs d i = some (mean ps)

/-- Every element of a dimension between 1 and that of the mesh has a sub-element. -/
def NoEmptyElement {V : Type} (m : Mesh V) : Prop := ∀ (d i : Nat) (f : Face), 2 ≤ d → d < m.dim → (m.midElems d)[i]? = some f → f.sub ≠ []

/-- The vertices of element `i` of dimension `d`. -/
def verticesOf (m : Mesh (Vec n F)) (bd : Idx → List Idx) (d : Nat) (i : Idx) : Set (Vec n F) :=
  {p | ∃ v ∈ descend m bd 0 d i, m.vertices[v]? = some p}

/-- The positions of the ends of edge `e`. -/
def ends [Zero F] (m : Mesh (Vec n F)) (e : Idx) : Vec n F × Vec n F :=
  ((m.edges[e]?).map fun ed => ((m.vertices[ed.a]?).getD 0, (m.vertices[ed.b]?).getD 0)).getD (0, 0)

/-- The positions of the ends of the edges of face `i` of a 3D mesh. -/
def faceEdges [Zero F] (m : Mesh (Vec n F)) (i : Idx) : List (Vec n F × Vec n F) :=
  (((m.midElems 2)[i]?.map (·.sub)).getD []).map (ends m)

/-- The mean of the midpoints of the edges of face `i`. -/
def edgeMean [Field F] (m : Mesh (Vec n F)) (i : Idx) : Vec n F := mean ((faceEdges m i).map fun p => mean [p.1, p.2])

/-- The area of the triangle `ABC` in space. -/
noncomputable def triangleArea (A B C : Vec 3 ℝ) : ℝ := 1 / 2 * Vec.norm (cross (A - C) (B - C))

/-- The center of gravity of the triangles with the common vertex `c` and the given opposite sides. -/
noncomputable def gravityCenter (c : Vec 3 ℝ) (sides : List (Vec 3 ℝ × Vec 3 ℝ)) : Vec 3 ℝ :=
  ((sides.map fun p => triangleArea p.1 p.2 c).sum)⁻¹ • (sides.map fun p => triangleArea p.1 p.2 c • mean [p.1, p.2, c]).sum

/-- The area of the triangle `ABC` in the plane. -/
noncomputable def triangleArea2 (A B C : Vec 2 ℝ) : ℝ := 1 / 2 * |(A 0 - C 0) * (B 1 - C 1) - (A 1 - C 1) * (B 0 - C 0)|

/-- The consecutive pairs of a closed polygon. -/
def sidesOf {α : Type} (ps : List α) : List (α × α) := ps.zip (ps.rotate 1)

/-- The signed area of a polygon (the shoelace formula). -/
noncomputable def shoelace (ps : List (Vec 2 ℝ)) : ℝ :=
  1 / 2 * ((sidesOf ps).map fun p => p.1 0 * p.2 1 - p.2 0 * p.1 1).sum

/-- Twice the signed area of the triangle `CAB`: positive when `A`, `B` turn counterclockwise around `C`. -/
def turn (C A B : Vec 2 ℝ) : ℝ := (A 0 - C 0) * (B 1 - C 1) - (B 0 - C 0) * (A 1 - C 1)

/-- The vector area of a polygon in space: half of the sum of `pⱼ × pⱼ₊₁`. -/
noncomputable def vectorArea (ps : List (Vec 3 ℝ)) : Vec 3 ℝ :=
  (1 / 2 : ℝ) • ((sidesOf ps).map fun p => cross p.1 p.2).sum

/-- The point `c` sees all sides of the polygon counterclockwise in a plane with the unit normal `ν` (so the polygon is planar, and
star-shaped with respect to `c`; a convex polygon is, with respect to each of its points). -/
def SeesAround (c ν : Vec 3 ℝ) (ps : List (Vec 3 ℝ)) : Prop :=
  Vec.norm ν = 1 ∧ ∀ p ∈ sidesOf ps, ∃ r : ℝ, 0 ≤ r ∧ cross (p.1 - c) (p.2 - c) = r • ν

/-- The positions `ps` of the vertices `vs`. -/
def PositionsOf (m : Mesh (Vec n F)) (vs : List Idx) (ps : List (Vec n F)) : Prop :=
  List.Forall₂ (fun (v : Nat) p => m.vertices[v]? = some p) vs ps

/-- A linear map that preserves the scalar product: a rotation or a reflection. -/
def IsIsometry (L : Vec n ℝ →ₗ[ℝ] Vec n ℝ) : Prop := ∀ x y, dot (L x) (L y) = dot x y

/-- The mesh and its centers moved by `x ↦ L x + t`. -/
def move (L : Vec n ℝ →ₗ[ℝ] Vec n ℝ) (t : Vec n ℝ) (g : GMesh n ℝ) : GMesh n ℝ :=
  { mesh := g.mesh.mapV (fun p => L p + t), faceCenter := fun i => L (g.faceCenter i) + t, cellCenter := fun i => L (g.cellCenter i) + t,
    bCellCenter := fun i => L (g.bCellCenter i) + t }

end Spec
end GTMesh
