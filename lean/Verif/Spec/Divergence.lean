import Verif.Spec.Flux

/-! # Specification of fluxes of linear fields (C73) -/

namespace GTMesh.Spec
open Vec
variable {n : Nat}

/-- The linear field `x ↦ A x + b`; row `k` of the matrix is `A k`. -/
def linearField (A : Fin n → Vec n ℝ) (b : Vec n ℝ) (x : Vec n ℝ) : Vec n ℝ := fun k => dot (A k) x + b k

/-- Its divergence: the trace of the matrix. -/
def divergence (A : Fin n → Vec n ℝ) : ℝ := ∑ k, A k k

/-- The flux of the field `F` out of a cell with the given faces, computed from one point on each face: the sum of
`± measure · F(point) · normal`. -/
noncomputable def flux {V : Type} (m : Mesh V) (faces : List Idx) (measures : List ℝ) (normals : List (Vec n ℝ)) (point : Idx → Vec n ℝ)
    (F : Vec n ℝ → Vec n ℝ) (cell : Idx) : ℝ :=
  (faces.map fun f => outwards (cellsOfFace m f) cell * (measures[f]?).getD 0 * dot (F (point f)) ((normals[f]?).getD 0)).sum

/-- The Green-Gauss sum of the function `φ`: the sum of `± measure · φ(point) · normal`. -/
noncomputable def greenGauss {V : Type} (m : Mesh V) (faces : List Idx) (measures : List ℝ) (normals : List (Vec n ℝ)) (point : Idx → Vec n ℝ)
    (φ : Vec n ℝ → ℝ) (cell : Idx) : Vec n ℝ :=
  (faces.map fun f => (outwards (cellsOfFace m f) cell * (measures[f]?).getD 0 * φ (point f)) • (normals[f]?).getD 0).sum

/-- The point `c` of the plane of a polygon with the normal `ν` is its center of gravity: the centers of gravity of the triangles from `c` to
the sides, weighted with their signed areas, have their mean in `c`. -/
def IsCentroid (c ν : Vec 3 ℝ) (ps : List (Vec 3 ℝ)) : Prop :=
  ((sidesOf ps).map fun p => dot (cross (p.1 - c) (p.2 - c)) ν • (mean [p.1, p.2, c] - c)).sum = 0

end GTMesh.Spec
