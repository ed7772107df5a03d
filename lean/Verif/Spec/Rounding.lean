import Verif.Model.Rounding
import Verif.Spec.Geometry

/-! # What accuracy means -/

namespace GTMesh.Spec
open Vec

/-- Higham's `γₖ = k u / (1 - k u)`: the usual bound for the effect of `k` roundings with the unit roundoff `u` (about `k u`). -/
noncomputable def gamma (u : ℝ) (k : Nat) : ℝ := k * u / (1 - k * u)

/-- The point in space with the coordinates that are stored. -/
def value {r : Rounding} {n : Nat} (p : Vec n (Fl r)) : Vec n ℝ := fun i => (p i).val

/-- The mesh with its centers, with the stored coordinates taken as real numbers: with it the same functions compute without rounding. -/
def exactly {r : Rounding} {n : Nat} (g : GMesh n (Fl r)) : GMesh n ℝ :=
  { mesh := g.mesh.mapV value, faceCenter := fun i => value (g.faceCenter i), cellCenter := fun i => value (g.cellCenter i),
    bCellCenter := fun i => value (g.bCellCenter i) }

/-- The numbers of the form `m 2^e` with `|m| ≤ 2^p`: the floating point numbers with `p` binary digits (double: `p = 53`), without a bound
for the exponent. -/
def binaryFloats (p : Nat) : Set ℝ := {x | ∃ m e : ℤ, |m| ≤ 2 ^ p ∧ x = m * (2 : ℝ) ^ e}

/-- Rounding to a nearest floating point number, however ties are broken. -/
def ToNearest (p : Nat) (rnd : ℝ → ℝ) : Prop := ∀ x, rnd x ∈ binaryFloats p ∧ ∀ y ∈ binaryFloats p, |rnd x - x| ≤ |y - x|

/-- Same kind of result, and related values. -/
def _root_.GTMesh.Res.Rel {α β : Type} (R : α → β → Prop) : Res α → Res β → Prop
  | .ok a, .ok b => R a b
  | .throw e, .throw e' => e = e'
  | .ub, .ub => True
  | .diverge, .diverge => True
  | _, _ => False

end GTMesh.Spec
