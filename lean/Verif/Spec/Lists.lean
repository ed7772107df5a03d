/-!
# Specification vocabulary on lists

Independent of the model; used by the statements of the properties.
-/

namespace GTMesh.Spec

/-- The distinct elements of a list in the order of their first occurrence. -/
def firstOcc {α : Type u} [DecidableEq α] : List α → List α
  | [] => []
  | x :: xs => x :: (firstOcc xs).filter (fun y => decide (y ≠ x))

/-- Strictly increasing list of numbers. -/
def StrictlyIncreasing (l : List Nat) : Prop := l.Pairwise (· < ·)

/-- No element occurs twice. -/
def NoRepetition {α : Type u} (l : List α) : Prop := l.Pairwise (· ≠ ·)

/-- The two lists have the same elements (as sets). -/
def SameMembers {α : Type u} (l₁ l₂ : List α) : Prop := ∀ x, x ∈ l₁ ↔ x ∈ l₂

end GTMesh.Spec
