import Verif.Spec.Geometry

/-! # The geometry that a file describes -/

namespace GTMesh.Spec
open Vec

/-- A convex polyhedron, given by its faces: the polygon of a face, counterclockwise when seen from the outside, and the outer unit normal. -/
structure ConvexSolid (faces : List (List (Vec 3 ℝ) × Vec 3 ℝ)) : Prop where
  unit : ∀ x ∈ faces, Vec.norm x.2 = 1
  /-- each face is planar and no vertex of it is on the right of a side -/
  convex : ∀ x ∈ faces, ∀ p ∈ sidesOf x.1, ∀ q ∈ x.1, dot (q - p.1) x.2 = 0 ∧ 0 ≤ dot (cross (p.1 - q) (p.2 - q)) x.2
  /-- not all vertices of the face are on the line of a side -/
  proper : ∀ x ∈ faces, ∀ p ∈ sidesOf x.1, ∃ q ∈ x.1, 0 < dot (cross (p.1 - q) (p.2 - q)) x.2
  /-- all vertices are behind the plane of a face -/
  inner : ∀ x ∈ faces, ∀ y ∈ faces, ∀ q ∈ x.1, ∀ q' ∈ y.1, dot (q' - q) x.2 ≤ 0
  /-- and not all of them are on it -/
  solid : ∀ x ∈ faces, ∀ q ∈ x.1, ∃ y ∈ faces, ∃ q' ∈ y.1, dot (q' - q) x.2 < 0
  /-- every side of a face is, in the other direction, a side of another face -/
  closed : (faces.flatMap fun x => sidesOf x.1).Perm ((faces.flatMap fun x => sidesOf x.1).map Prod.swap)

/-- Its volume by the divergence theorem: `1/3 Σ (a vertex of the face) · (vector area of the face)`. -/
noncomputable def solidVolume (faces : List (List (Vec 3 ℝ) × Vec 3 ℝ)) : ℝ :=
  1 / 3 * (faces.map fun x => dot (x.1.headD 0) (vectorArea x.1)).sum

/-- The points `ps` are the positions of the vertices of the polygon `p`, in order from any of its vertices and in either direction. -/
def Drawn {n : Nat} (pos : Nat → Option (Vec n ℝ)) (p : List Idx) (ps : List (Vec n ℝ)) : Prop :=
  ∃ q, SameCycle q p ∧ List.Forall₂ (fun v x => pos v = some x) q ps

/-- The solids are on different sides of the faces they share: `keys` names the faces of each solid in the order of the solid, and faces of
two solids with the same name have opposite outer normals. -/
def Apart {K : Type} (same : K → K → Prop) (keys : List (List K)) (solids : List (List (List (Vec 3 ℝ) × Vec 3 ℝ))) : Prop :=
  ∀ (c c' : Nat) ks ks' faces faces', c ≠ c' → keys[c]? = some ks → keys[c']? = some ks' → solids[c]? = some faces → solids[c']? = some faces' →
    ∀ z ∈ ks.zip faces, ∀ z' ∈ ks'.zip faces', same z.1 z'.1 → z'.2.2 = -z.2.2

end GTMesh.Spec
