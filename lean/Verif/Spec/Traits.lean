import Verif.Model.Traits

/-!
# What traits and the macros defining them are expected to be
-/

namespace GTMesh.Traits

variable {V : Type}

/-- A name that can be given to a member: it is not empty and does not begin with a digit. -/
def Identifier (s : String) : Prop := ∃ c cs, s.toList = c :: cs ∧ c.isDigit = false

/-- The traits describe a list of named accesses: the size and, for every index, the name and the access of that place. -/
def Describes (t : Traits V) (l : List (String × Access V)) : Prop :=
  t.size = l.length ∧ ∀ i : Nat, t.getName i = l[i]?.map (·.1) ∧ t.getReference i = l[i]?.map (·.2)

/-- One call of the functor for each entry, in order, with the index of the entry. -/
def visit {S W : Type} (f : Functor V S W) : Nat → List (String × Access V) → S × W → S × W
  | _, [], sw => sw
  | i, e :: l, sw => visit f (i + 1) l (f i e.2 e.1 sw.1 sw.2)

/-- The object at a path of members. -/
def Obj.read {W : Type} : Obj W → List String → Option (Obj W)
  | o, [] => some o
  | .node f, m :: p => (f m).read p
  | .leaf _, _ :: _ => none

/-- Assignment to the object at a path. -/
def Obj.write {W : Type} : Obj W → List String → Obj W → Obj W
  | _, [], v => v
  | .node f, m :: p, v => .node fun x => if x = m then (f m).write p v else f x
  | .leaf w, _ :: _, _ => .leaf w

/-- A description of the classes by the names of the attributes and the classes of those which have traits. -/
abbrev Attributes := String → Option (List (String × Option String))

/-- The classes have the traits of these attributes. -/
def HasAttributes {W : Type} (classes : String → Option (ClassInfo W)) (as : Attributes) : Prop :=
  ∀ c l, as c = some l → ∃ k, classes c = some k ∧ Describes k.traits (l.map fun a => (a.1, .member a.1)) ∧
    ∀ i : Nat, k.attrClass i = l[i]?.bind (·.2)

/-- The members that the indices name, starting in the class `c`: the attribute of the first index, in its class the
attribute of the second index and so on. -/
def memberPath (as : Attributes) : String → List Nat → Option (List String)
  | _, [] => some []
  | c, i :: is => (as c).bind fun l => l[i]?.bind fun a =>
      if is = [] then some [a.1] else a.2.bind fun c' => (memberPath as c' is).map (a.1 :: ·)

/-- An object of the class `c`: the attributes which are of a class with traits are objects of that class. -/
def Obj.OfClass {W : Type} (as : Attributes) : String → Obj W → Prop
  | _, .leaf _ => False
  | c, .node f => ∀ l, as c = some l → ∀ a ∈ l, ∀ c', a.2 = some c' → (f a.1).OfClass as c'

end GTMesh.Traits
