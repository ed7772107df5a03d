import Verif.Model.BoundSerializer

/-!
# What serialization of classes with traits should do
-/

namespace GTMesh.BSer

mutual
/-- Types of values. -/
inductive Ty where
  | simple (size : Nat)
  | vec (t : Ty)
  | arr (n : Nat) (t : Ty)
  | set (t : Ty)
  | map (k v : Ty)
  | pair (t u : Ty)
  | tuple (ts : Tys)
  | cls (c : Nat)
  | bound (t : Ty) (ts : List TraitsOf)
/-- Types. -/
inductive Tys where
  | nil
  | cons (t : Ty) (ts : Tys)
end

/-- The types of the attributes of the classes, a default constructed value of each type, and the order of keys. -/
structure Types where
  attrs : Nat → Tys
  dflt : Ty → BVal
  less : BVal → BVal → Bool

/-- The order of the elements of a set (`m` is false) or a map: pairs are ordered by their first parts. -/
def before (lt : BVal → BVal → Bool) : Bool → BVal → BVal → Bool
  | true, .pair a _, .pair b _ => lt a b
  | true, .pair a _, y => lt a y
  | true, x, .pair b _ => lt x b
  | _, x, y => lt x y

/-- The elements are in order, no two with the same key. -/
def Sorted (lt : BVal → BVal → Bool) (m : Bool) (l : List BVal) : Prop := l.Pairwise fun a b => before lt m a b = true ∧ before lt m b a = false

mutual
/-- The value has the type. Containers have less than 2^64 elements. -/
def BVal.has (A : Types) : BVal → Ty → Prop
  | .simple b, .simple n => b.length = n
  | .vec d vs, .vec t => d = A.dflt t ∧ d.has A t ∧ vs.all A t ∧ vs.toList.length < 2 ^ 64
  | .arr d vs, .arr n t => d = A.dflt t ∧ d.has A t ∧ vs.all A t ∧ vs.toList.length = n ∧ n < 2 ^ 64
  | .assoc false d vs, .set t => d = A.dflt t ∧ d.has A t ∧ vs.all A t ∧ vs.toList.length < 2 ^ 64 ∧ Sorted A.less false vs.toList
  | .assoc true d vs, .map t u => d = .pair (A.dflt t) (A.dflt u) ∧ d.has A (.pair t u) ∧ vs.all A (.pair t u) ∧
      vs.toList.length < 2 ^ 64 ∧ Sorted A.less true vs.toList
  | .pair a b, .pair t u => a.has A t ∧ b.has A u
  | .tuple vs, .tuple ts => vs.has A ts
  | .obj c attrs, .cls c' => c = c' ∧ attrs.has A (A.attrs c)
  | .bound v us, .bound t us' => us = us' ∧ v.has A t
  | _, _ => False
/-- The values have the types. -/
def BVals.has (A : Types) : BVals → Tys → Prop
  | .nil, .nil => True
  | .cons v vs, .cons t ts => v.has A t ∧ vs.has A ts
  | _, _ => False
/-- All values have the type. -/
def BVals.all (A : Types) : BVals → Ty → Prop
  | .nil, _ => True
  | .cons v vs, t => v.has A t ∧ vs.all A t
end

/-- The traits that are used for a class: the first bound ones, else the default ones. -/
def used (Γ : Classes) (ts : List TraitsOf) (c : Nat) : Option (List Nat) :=
  match ts.find? (fun t => t.cls = c) with
  | some t => some t.attrs
  | none => Γ c

/-- The described attributes are taken from the first list, the others from the second one. -/
def overwrite (es : List Nat) (new old : List BVal) : List BVal :=
  old.zipIdx.map fun p => if p.2 ∈ es then new[p.2]?.getD p.1 else p.1

mutual
/-- What a variable `old` should hold after a value was read into it: the simple values, the sizes of containers and the described
attributes are those of the value, other attributes are those of the variable (of new elements of a container, and of the elements of sets
and maps: of a default constructed element). The elements of a set or map are added to those that are there, if their key is not there. -/
def restored (Γ : Classes) (lt : BVal → BVal → Bool) : (new old : BVal) → BVal
  | .simple b, _ => .simple b
  | .vec _ vs, .vec d os => .vec d (.ofList (restoreds Γ lt vs (os.toList ++ List.replicate (vs.toList.length - os.toList.length) d)))
  | .arr _ vs, .arr d os => .arr d (.ofList (restoreds Γ lt vs os.toList))
  | .assoc m _ vs, .assoc _ d os => .assoc m d (.ofList
      ((restoreds Γ lt vs (List.replicate vs.toList.length d)).foldl (fun l x => Ser.insertBy (before lt m) x l) os.toList))
  | .pair a b, .pair c d => .pair (restored Γ lt a c) (restored Γ lt b d)
  | .tuple vs, .tuple os => .tuple (.ofList (restoreds Γ lt vs os.toList))
  | .obj c as, .obj _ os => .obj c (.ofList (overwrite ((Γ c).getD []) (restoreds Γ lt as os.toList) os.toList))
  | .bound v ts, .bound o _ => .bound (restoredBound Γ lt ts v o) ts
  | _, old => old
/-- One by one. -/
def restoreds (Γ : Classes) (lt : BVal → BVal → Bool) : BVals → List BVal → List BVal
  | .cons v vs, o :: os => restored Γ lt v o :: restoreds Γ lt vs os
  | _, _ => []
/-- With bound traits: they count for the object, or for the elements of a container. -/
def restoredBound (Γ : Classes) (lt : BVal → BVal → Bool) (ts : List TraitsOf) : (new old : BVal) → BVal
  | .simple b, _ => .simple b
  | .vec _ vs, .vec d os => .vec d (.ofList (restoredBounds Γ lt ts vs (os.toList ++ List.replicate (vs.toList.length - os.toList.length) d)))
  | .arr _ vs, .arr d os => .arr d (.ofList (restoredBounds Γ lt ts vs os.toList))
  | .pair a b, .pair c d => .pair (restored Γ lt a c) (restored Γ lt b d)
  | .tuple vs, .tuple os => .tuple (.ofList (restoreds Γ lt vs os.toList))
  | .obj c as, .obj _ os => .obj c (.ofList (overwrite ((used Γ ts c).getD []) (restoreds Γ lt as os.toList) os.toList))
  | _, old => old
/-- One by one. -/
def restoredBounds (Γ : Classes) (lt : BVal → BVal → Bool) (ts : List TraitsOf) : BVals → List BVal → List BVal
  | .cons v vs, o :: os => restoredBound Γ lt ts v o :: restoredBounds Γ lt ts vs os
  | _, _ => []
end

mutual
/-- The default traits describe all attributes of the classes of the value. -/
def BVal.full (Γ : Classes) : BVal → Prop
  | .simple _ => True
  | .vec d vs => d.full Γ ∧ vs.full Γ
  | .arr d vs => d.full Γ ∧ vs.full Γ
  | .assoc _ d vs => d.full Γ ∧ vs.full Γ
  | .pair a b => a.full Γ ∧ b.full Γ
  | .tuple vs => vs.full Γ
  | .obj c as => as.full Γ ∧ ∀ i, i < as.toList.length → i ∈ (Γ c).getD []
  | .bound _ _ => False
/-- For all of the values. -/
def BVals.full (Γ : Classes) : BVals → Prop
  | .nil => True
  | .cons v vs => v.full Γ ∧ vs.full Γ
end

mutual
/-- The sets and maps of a variable are empty. -/
def BVal.noSets : BVal → Prop
  | .simple _ => True
  | .vec d vs => d.noSets ∧ vs.noSets
  | .arr _ vs => vs.noSets
  | .assoc _ d vs => vs.toList = [] ∧ d.noSets
  | .pair a b => a.noSets ∧ b.noSets
  | .tuple vs => vs.noSets
  | .obj _ as => as.noSets
  | .bound v _ => v.noSets
/-- For all of the variables. -/
def BVals.noSets : BVals → Prop
  | .nil => True
  | .cons v vs => v.noSets ∧ vs.noSets
end

end GTMesh.BSer
