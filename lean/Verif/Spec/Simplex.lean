import Verif.Spec.MeasuresHigh
import Mathlib.LinearAlgebra.Matrix.Determinant.Basic
import Mathlib.Data.Nat.Factorial.Basic

/-! # Specification: simplices and their volume -/

namespace GTMesh.Spec
open Vec

variable {n : Nat}

/-- The `d`-dimensional volume of the simplex with the `d + 1` vertices `ps`, in a space of any dimension: the square root of the Gram
determinant of the sides that come out of the first vertex, divided by `d!`. -/
noncomputable def simplexVolume : List (Vec n ℝ) → ℝ
  | [] => 0
  | p :: ps => Real.sqrt (Matrix.det (Matrix.of fun i j : Fin ps.length => dot (ps[i] - p) (ps[j] - p))) / (ps.length.factorial : ℝ)

/-- Every element of the mesh is a simplex: element `i` of dimension `d` has the `d + 1` vertices `vs d i`, and its sub-elements are the
simplices in which one of these vertices is missing, each of them once (in any order). -/
structure Simplicial {V : Type} (m : Mesh V) (bd : Idx → List Idx) (vs : Nat → Idx → List Idx) : Prop where
  vertex : ∀ i, i < m.numElems 0 → vs 0 i = [i]
  count : ∀ d i, d ≤ m.dim → i < m.numElems d → (vs d i).length = d + 1
  facets : ∀ d i, 1 ≤ d → d ≤ m.dim → i < m.numElems d → ∃ ks : List Nat, ks.Perm (List.range (d + 1)) ∧
    List.Forall₂ (fun s k => (vs (d - 1) s).Perm ((vs d i).eraseIdx k)) (directSubs m bd d i) ks

end GTMesh.Spec
