import Verif.Model.MacroForEach

/-!
# Traits: description of the members of a class (Traits/Traits.h, Traits/MemberAccess)

An object of a class gives a value to each of its data members; `V` are the values.  `none` is a program that does not
compile.  The types of the values are not modelled: a type is the expression it is the `decltype` of.
-/

namespace GTMesh.Traits
open Macro (Arg TraitDecl)

/-- An object: the values of its data members. -/
abbrev Object (V : Type) := String → V

/-- Assignment to a data member. -/
def assign {V : Type} (o : Object V) (m : String) (v : V) : Object V := fun x => if x = m then v else o x

/-- `MemberAccess`: the ways to access a member of a class. -/
inductive Access (V : Type) where
  /-- a pointer to a data member, MemberAccess.h:17-48 -/
  | member (m : String)
  /-- a getter, which takes a constant object or not, and a setter taking the object and the value (or the member function
  setter taking the value), GetSetAccess.h:37-106, 136-156, 184-205 -/
  | getSet (constGet : Bool) (get : Object V → V) (set : Object V → V → Object V)
  /-- a getter and a function (of the object) which returns a reference to a member, GetSetAccess.h:158-182, 207-232 -/
  | getRef (constGet : Bool) (get : Object V → V) (ref : Object V → String)

variable {V : Type}

namespace Access

/-- `getValue`, MemberAccess.h:35, 42; GetSetAccess.h:70-72, 100-105 -/
def getValue (a : Access V) (o : Object V) : V :=
  match a with
  | .member m => o m
  | .getSet _ get _ => get o
  | .getRef _ get _ => get o

/-- `setValue`, MemberAccess.h:37, 44; GetSetAccess.h:153-155, 175-177, 202-204, 225-227 -/
def setValue (a : Access V) (o : Object V) (v : V) : Object V :=
  match a with
  | .member m => assign o m v
  | .getSet _ _ set => set o v
  | .getRef _ _ ref => assign o (ref o) v

/-- `getAttr`: the member that the returned reference refers to; only a direct access has it, MemberAccess.h:39, 46;
GetSetAccess.h:179-181, 229-231 -/
def getAttr (a : Access V) (o : Object V) : Option String :=
  match a with
  | .member m => some m
  | .getSet _ _ _ => none
  | .getRef _ _ ref => some (ref o)

/-- `HasConstGetAccess`, AccessType.h:30-35 -/
def hasConstGet : Access V → Bool
  | .member _ => true
  | .getSet c _ _ => c
  | .getRef c _ _ => c

end Access

/-- `MemRefs<0>`: each level keeps a reference and a name and derives from the next level, Traits.h:27-44 -/
inductive MemRefs (A : Type) where
  | last (ref : A) (name : String)
  | cons (ref : A) (name : String) (base : MemRefs A)

/-- The class and what is visible where its traits are defined. -/
structure Context (V : Type) where
  /-- the name of the class -/
  cls : String
  /-- its data members -/
  members : List String
  /-- the accesses that expressions stand for, for instance `std::make_pair(&Class::getX, &Class::setX)` -/
  access : String → Option (Access V)

/-- The access an argument of the constructor stands for; `&Class::member` needs a member of that class. -/
def accessOf (x : Context V) : Arg → Option (Access V)
  | .ref c m => if c = x.cls ∧ m ∈ x.members then some (.member m) else none
  | .src e => x.access e
  | _ => none

/-- The constructors of `MemRefs`, Traits.h:33-34, 43: a name and a reference of the type of the level, then the rest. -/
def construct (x : Context V) : List Arg → List Arg → Option (MemRefs (Access V))
  | [t], [.lit n, r] => if t = .decltype r then (accessOf x r).map fun a => .last a n else none
  | t :: ts, .lit n :: r :: rest =>
    if t = .decltype r then
      (accessOf x r).bind fun a => (construct x ts rest).map fun b => .cons a n b
    else none
  | _, _ => none

/-- `Traits<Class, RefTypes...>` Traits.h:11-67 -/
structure Traits (V : Type) where
  /-- `sizeof...(RefTypes)` -/
  size : Nat
  references : MemRefs (Access V)

/-- `getTraits` of the specialization that a macro defines, Traits.h:424-426 -/
def getTraits (x : Context V) (d : TraitDecl) : Option (Traits V) :=
  if d.cls = x.cls then (construct x d.types d.args).map fun r => ⟨d.types.length, r⟩ else none

/-- `SelectEvenTypes`, Traits.h:309-317 -/
def selectEvenTypes : List Arg → Option (List Arg)
  | [_, e] => some [.decltype e]
  | _ :: e :: rest => (selectEvenTypes rest).map fun ts => .decltype e :: ts
  | _ => none

/-- `makeTraits<Class>(args...)`, Traits.h:321-325 -/
def makeTraits (x : Context V) (args : List Arg) : Option (Traits V) :=
  (selectEvenTypes args).bind fun ts => (construct x ts args).map fun r => ⟨ts.length, r⟩

/-- `mReferences.MemRefs<Index, void>`: the base of that level, Traits.h:72, 123 -/
def MemRefs.level {A : Type} : MemRefs A → Nat → Option (A × String)
  | .last r n, 0 => some (r, n)
  | .cons r n _, 0 => some (r, n)
  | .cons _ _ b, i + 1 => b.level i
  | .last _ _, _ + 1 => none

/-- `getReference<Index>`, Traits.h:70-73 -/
def Traits.getReference (t : Traits V) (i : Nat) : Option (Access V) := (t.references.level i).map (·.1)
/-- `getName<Index>`, Traits.h:121-124 -/
def Traits.getName (t : Traits V) (i : Nat) : Option String := (t.references.level i).map (·.2)
/-- `getValue<Index>(Class&)`, Traits.h:75-83 -/
def Traits.getValue (t : Traits V) (i : Nat) (o : Object V) : Option V := (t.getReference i).map fun a => a.getValue o
/-- `getValue<Index>(const Class&)`, Traits.h:85-95 -/
def Traits.getValueConst (t : Traits V) (i : Nat) (o : Object V) : Option V :=
  (t.getReference i).bind fun a => if a.hasConstGet then some (a.getValue o) else none
/-- `setValue<Index>`, Traits.h:97-105 -/
def Traits.setValue (t : Traits V) (i : Nat) (o : Object V) (v : V) : Option (Object V) := (t.getReference i).map fun a => a.setValue o v
/-- `getAttr<Index>`, Traits.h:108-118 -/
def Traits.getAttr (t : Traits V) (i : Nat) (o : Object V) : Option String := (t.getReference i).bind fun a => a.getAttr o

/-- A functor given to `apply`: `S` its own state, `W` the rest of the program. -/
abbrev Functor (V S W : Type) := Nat → Access V → String → S → W → S × W

/-- `Apply<Index>::apply(trait, f)`: every level gets a copy of the functor of the level before, Traits.h:133-154 and, for the
last index, 205-226; `k` is the number of the levels that follow. A functor without the index is one that ignores it
(lines 158-179, 230-251). -/
def applyFrom {S W : Type} (t : Traits V) (f : Functor V S W) : Nat → Nat → S → W → Option W
  | 0, _, s, w =>
    (t.getReference (t.size - 1)).bind fun a => (t.getName (t.size - 1)).map fun n => (f (t.size - 1) a n s w).2
  | k + 1, i, s, w =>
    (t.getReference i).bind fun a => (t.getName i).bind fun n =>
    applyFrom t f k (i + 1) (f i a n s w).1 (f i a n s w).2

/-- `apply(f)`: the functor is taken by value, so that of the caller does not change, Traits.h:280-283 -/
def Traits.apply {S W : Type} (t : Traits V) (f : Functor V S W) (s : S) (w : W) : Option W := applyFrom t f (t.size - 1) 0 s w

/-- `Apply<Index>::template apply<Functor>(trait)`: a new functor for every index, Traits.h:181-197, 253-268 -/
def applyNewFrom {W : Type} (t : Traits V) (f : Nat → Access V → String → W → W) : Nat → Nat → W → Option W
  | 0, _, w =>
    (t.getReference (t.size - 1)).bind fun a => (t.getName (t.size - 1)).map fun n => f (t.size - 1) a n w
  | k + 1, i, w =>
    (t.getReference i).bind fun a => (t.getName i).bind fun n => applyNewFrom t f k (i + 1) (f i a n w)

/-- `apply<Functor>()`, Traits.h:285-288 -/
def Traits.applyNew {W : Type} (t : Traits V) (f : Nat → Access V → String → W → W) (w : W) : Option W :=
  applyNewFrom t f (t.size - 1) 0 w

/-! ## Members of members -/

/-- An object with nested objects. -/
inductive Obj (W : Type) where
  | leaf (w : W)
  | node (members : String → Obj W)

/-- A class: its arithmetic traits, and the class of each attribute if it has arithmetic traits. -/
structure ClassInfo (W : Type) where
  traits : Traits (Obj W)
  attrClass : Nat → Option String

/-- `get<Indices...>(arg)`: the path of the member which the returned reference refers to, Traits.h:367-406 -/
def get {W : Type} (classes : String → Option (ClassInfo W)) : String → List Nat → Obj W → Option (List String)
  | c, [i], .node o => (classes c).bind fun k => (k.traits.getAttr i o).map fun m => [m]
  | c, i :: is, .node o =>
    (classes c).bind fun k => (k.traits.getAttr i o).bind fun m => (k.attrClass i).bind fun c' =>
    (get classes c' is (o m)).map fun p => m :: p
  | _, _, _ => none

end GTMesh.Traits
