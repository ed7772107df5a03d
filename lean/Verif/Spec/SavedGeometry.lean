import Verif.Spec.LoadedGeometry

/-! # Geometry of polyhedra with flat faces (that need not be convex) -/

namespace GTMesh.Spec
open Vec

/-- A planar polygon with the unit normal `ν`; the mean of its vertices is on no line of a side. It need not be convex. -/
def Flat (ps : List (Vec 3 ℝ)) (ν : Vec 3 ℝ) : Prop :=
  Vec.norm ν = 1 ∧ ∀ p ∈ sidesOf ps, ∃ r : ℝ, r ≠ 0 ∧ cross (p.1 - mean ps) (p.2 - mean ps) = r • ν

/-- The sum of the areas of the triangles that join the sides to the mean of the vertices. -/
noncomputable def fanArea (ps : List (Vec 3 ℝ)) : ℝ := ((sidesOf ps).map fun p => triangleArea p.1 p.2 (mean ps)).sum

/-- The same in the plane. -/
noncomputable def fanArea2 (ps : List (Vec 2 ℝ)) : ℝ := ((sidesOf ps).map fun p => triangleArea2 p.1 p.2 (mean ps)).sum

/-- The volume of the cone with the apex `P` over a polygon with its normal. -/
noncomputable def coneVolume (P : Vec 3 ℝ) (x : List (Vec 3 ℝ) × Vec 3 ℝ) : ℝ := 1 / 3 * fanArea x.1 * |dot (P - mean x.1) x.2|

end GTMesh.Spec
