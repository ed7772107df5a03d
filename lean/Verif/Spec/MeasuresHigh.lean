import Verif.Spec.Geometry
import Mathlib.LinearAlgebra.AffineSpace.Independent

/-! # Specification of the measures in any dimension -/

namespace GTMesh.Spec
open Vec

variable {n : Nat}

/-- The points that span element `i` of dimension `d`: its center, the center of its first sub-element, and so on down to
dimension 2, then the two ends of the edge reached. -/
inductive Spine (m : Mesh (Vec n ℝ)) (cs : List (List (Vec n ℝ))) : Nat → Idx → List (Vec n ℝ) → Prop
  | edge {i : Nat} {e : Edge} {A B : Vec n ℝ} : m.edges[i]? = some e → m.vertices[e.a]? = some A → m.vertices[e.b]? = some B →
      Spine m cs 1 i [A, B]
  | step {d i : Nat} {c : Vec n ℝ} {f : Face} {s : Idx} {ps : List (Vec n ℝ)} : entry cs (d + 2) i = some c →
      (m.midElems (d + 2))[i]? = some f → f.sub[0]? = some s → Spine m cs (d + 1) s ps → Spine m cs (d + 2) i (c :: ps)

/-- `h` is the distance of the point `p` from the plane through the points `ps` (a line, a plane, a space, …). -/
def IsDistance (p : Vec n ℝ) (ps : List (Vec n ℝ)) (h : ℝ) : Prop :=
  IsLeast {x | ∃ q ∈ affineSpan ℝ {x | x ∈ ps}, x = Vec.norm (p - q)} h

/-- Entry `i` of the list for dimension `d = 1, 2, …`. -/
def measureOf (ms : List (List ℝ)) (d : Nat) (i : Idx) : Option ℝ := (ms[d - 1]?).bind fun l => l[i]?

/-- `ms` holds exactly one number for every element of every dimension `1, …, dim`: for an edge its length, for a higher
element of dimension `d` the sum over its direct sub-elements of the volumes of the cones with the apex in the center of the element:
(1/d) · height · measure of the base. -/
structure AreMeasures (m : Mesh (Vec n ℝ)) (bd : Idx → List Idx) (cs : List (List (Vec n ℝ))) (ms : List (List ℝ)) : Prop where
  dims : ms.length = m.dim
  sizes : ∀ (d : Nat) l, 1 ≤ d → ms[d - 1]? = some l → l.length = m.numElems d
  edges : ∀ (e : Nat) ed A B, m.edges[e]? = some ed → m.vertices[ed.a]? = some A → m.vertices[ed.b]? = some B →
    measureOf ms 1 e = some (Vec.norm (A - B))
  higher : ∀ d i c, 2 ≤ d → d ≤ m.dim → i < m.numElems d → entry cs d i = some c → ∃ ts : List ℝ,
    List.Forall₂ (fun s t => ∃ ps h μ, Spine m cs (d - 1) s ps ∧ IsDistance c ps h ∧ measureOf ms (d - 1) s = some μ ∧ t = h * μ)
      (directSubs m bd d i) ts ∧ measureOf ms d i = some (1 / (d : ℝ) * ts.sum)

/-- No center of an element lies in the plane of one of its direct sub-elements, and the points that span these are independent. -/
def NonDegenerateHigh (m : Mesh (Vec n ℝ)) (bd : Idx → List Idx) (cs : List (List (Vec n ℝ))) : Prop :=
  ∀ d i s c ps, 2 ≤ d → d ≤ m.dim → i < m.numElems d → s ∈ directSubs m bd d i → entry cs d i = some c →
    Spine m cs (d - 1) s ps → AffineIndependent ℝ (ps ++ [c]).get

end GTMesh.Spec
