import Verif.Model.Geometry

/-!
# Floating point numbers

The template parameter `Real` of the mesh (`Vertex<Dim, Real>`, Vertex.h:9; `UnstructuredMesh<Dim, IndexType, Real, …>`,
UnstructuredMesh.h:21-22) is a floating point type. Here it is a type whose operations round the exact result: the functions of
`Model/Vector.lean` and `Model/Geometry.lean` with this type of the coordinates are what runs. Standard model of floating point
arithmetic: no overflow, no underflow (the relative error of each operation is at most the unit roundoff), each operation is rounded to the
same type (no extended precision, no contraction to fused operations).
-/

namespace GTMesh

/-- A rounding of real numbers. -/
structure Rounding where
  /-- the number nearest to a real number, or chosen in another way -/
  rnd : ℝ → ℝ
  /-- the unit roundoff -/
  u : ℝ
  u_nonneg : 0 ≤ u
  /-- the relative error is at most the unit roundoff -/
  close : ∀ x, |rnd x - x| ≤ u * |x|
  /-- the natural numbers up to this one are represented exactly -/
  exactTo : Nat
  exact : ∀ n : Nat, n ≤ exactTo → rnd n = n
  /-- the constants 2 and 3 are -/
  small : 3 ≤ exactTo

/-- A floating point number. -/
structure Fl (r : Rounding) where
  val : ℝ

namespace Fl
variable {r : Rounding}

/-- `0` -/
instance : Zero (Fl r) := ⟨⟨0⟩⟩
/-- `1` -/
instance : One (Fl r) := ⟨⟨1⟩⟩
/-- `a + b` -/
noncomputable instance : Add (Fl r) := ⟨fun a b => ⟨r.rnd (a.val + b.val)⟩⟩
/-- `a - b` -/
noncomputable instance : Sub (Fl r) := ⟨fun a b => ⟨r.rnd (a.val - b.val)⟩⟩
/-- `-a`, which is exact -/
noncomputable instance : Neg (Fl r) := ⟨fun a => ⟨-a.val⟩⟩
/-- `a * b` -/
noncomputable instance : Mul (Fl r) := ⟨fun a b => ⟨r.rnd (a.val * b.val)⟩⟩
/-- `a / b` -/
noncomputable instance : Div (Fl r) := ⟨fun a b => ⟨r.rnd (a.val / b.val)⟩⟩
/-- The conversion of an integer, and the constants. -/
noncomputable instance : NatCast (Fl r) := ⟨fun n => ⟨r.rnd n⟩⟩
/-- `sqrt(a)` -/
noncomputable instance : HasSqrt (Fl r) := ⟨fun a => ⟨r.rnd (Real.sqrt a.val)⟩⟩
/-- `fabs(a)`, which is exact -/
noncomputable instance : HasAbs (Fl r) := ⟨fun a => ⟨|a.val|⟩⟩

end Fl

end GTMesh
