import Verif.Model.Serializer

/-! # Vocabulary for the serializer properties -/

namespace GTMesh.Ser

/-- A strict total order. -/
structure StrictTotal {α : Type} (lt : α → α → Bool) : Prop where
  irrefl : ∀ a, lt a a = false
  trans : ∀ a b c, lt a b = true → lt b c = true → lt a c = true
  tri : ∀ a b, lt a b = true ∨ a = b ∨ lt b a = true

/-- A value that can exist in memory: sizes fit in `size_t`; the elements of sets and the keys of maps
stand in strictly increasing order. -/
def Ok (lt : Order) : (t : Ty) → t.den → Prop
  | .simple _, _ => True
  | .bool, _ => True
  | .vec t, (l : List t.den) => l.length < 2 ^ 64 ∧ ∀ x ∈ l, Ok lt t x
  | .arr t _, l => l.val.length < 2 ^ 64 ∧ ∀ x ∈ l.val, Ok lt t x
  | .unit, _ => True
  | .pair t u, (a, b) => Ok lt t a ∧ Ok lt u b
  | .set t, (l : List t.den) => l.length < 2 ^ 64 ∧ (∀ x ∈ l, Ok lt t x) ∧
      l.Pairwise fun a b => lt t a b = true ∧ lt t b a = false
  | .map k v, (l : List (k.den × v.den)) => l.length < 2 ^ 64 ∧ (∀ x ∈ l, Ok lt k x.1 ∧ Ok lt v x.2) ∧
      l.Pairwise fun a b => lt k a.1 b.1 = true ∧ lt k b.1 a.1 = false

/-- All sets and maps inside the variable are empty. -/
def NoStale : (t : Ty) → t.den → Prop
  | .simple _, _ => True
  | .bool, _ => True
  | .vec t, (l : List t.den) => ∀ x ∈ l, NoStale t x
  | .arr t _, l => ∀ x ∈ l.val, NoStale t x
  | .unit, _ => True
  | .pair t u, (a, b) => NoStale t a ∧ NoStale u b
  | .set t, l => l = ([] : List t.den)
  | .map k v, l => l = ([] : List (k.den × v.den))

/-- The type contains no set and no map. -/
def NoAssoc : Ty → Prop
  | .simple _ => True
  | .bool => True
  | .vec t => NoAssoc t
  | .arr t _ => NoAssoc t
  | .unit => True
  | .pair t u => NoAssoc t ∧ NoAssoc u
  | .set _ => False
  | .map _ _ => False

end GTMesh.Ser
