import Verif.Model.Serializer
import Verif.Model.Meta

/-!
# Serialization of classes with (bound) traits (SerializeTraitedClass.h, BinarySerializer.h, TraitsBind.h)

The values are objects of classes with traits, vectors, arrays, sets, maps, pairs and tuples of simple values, and `TraitsBinder`s.  Unlike
in Model/Serializer the attributes that the traits describe may be only some of those of the class.  A value stands for its type as well: a
container carries a default constructed element (so a class cannot contain containers of itself).  `none`: the call does not compile.

Simplifications: the invalid bytes of `bool` and functions of the user are not modelled here; the vectors are resizable containers with
`[]`; the order of keys (`lt`) is one function for all sets and maps; traits describe an attribute by its number; an attribute that is
described twice is read into its previous value twice.
-/

namespace GTMesh.BSer

open Ser (Bytes sizeBytes readBytes readSize)

/-- Traits, as far as they are used here: the class and the numbers of the attributes. -/
structure TraitsOf where
  cls : Nat
  attrs : List Nat
  deriving DecidableEq, Repr

/-- The default arithmetic traits of the classes. -/
abbrev Classes := Nat → Option (List Nat)

mutual
/-- A value. -/
inductive BVal where
  /-- an arithmetic or enum value: its bytes -/
  | simple (bytes : Bytes)
  /-- a resizable container with `[]`: a default constructed element and the elements -/
  | vec (d : BVal) (vs : BVals)
  /-- `std::array`: a default constructed element and the elements -/
  | arr (d : BVal) (vs : BVals)
  /-- `std::set`, `std::map` (`isMap`; the elements are pairs): a default constructed element and the elements in the order of iteration -/
  | assoc (isMap : Bool) (d : BVal) (vs : BVals)
  | pair (a b : BVal)
  | tuple (vs : BVals)
  | obj (cls : Nat) (attrs : BVals)
  /-- `TraitsBinder`; the object is referred to -/
  | bound (v : BVal) (ts : List TraitsOf)
/-- Values. -/
inductive BVals where
  | nil
  | cons (v : BVal) (vs : BVals)
end

/-- The values as a list. -/
def BVals.toList : BVals → List BVal
  | .nil => []
  | .cons v vs => v :: vs.toList

/-- Values from a list. -/
def BVals.ofList : List BVal → BVals
  | [] => .nil
  | v :: vs => .cons v (.ofList vs)

/-- The serializers, BinarySerializer.h:214-221, 264-273 -/
inductive Serializer where
  | simple | compact | traited | assocMap | assocSet | iterable | indexable | tuple
  deriving DecidableEq, Repr

/-- What the choice depends on: a container of simple values has `data()`. -/
inductive Shape where
  | simple | compactVec | vec | compactArr | arr | set | map | pair | tuple | cls (c : Nat) | binder
  deriving DecidableEq, Repr

/-- The type of a value. -/
def BVal.shape : BVal → Shape
  | .simple _ => .simple
  | .vec (.simple _) _ => .compactVec
  | .vec _ _ => .vec
  | .arr (.simple _) _ => .compactArr
  | .arr _ _ => .arr
  | .assoc false _ _ => .set
  | .assoc true _ _ => .map
  | .pair _ _ => .pair
  | .tuple _ => .tuple
  | .obj c _ => .cls c
  | .bound _ _ => .binder

/-- `IsSerializableBy`, BinarySerializer.h:149-159, 204-206; the overloads with two arguments: SerializeSimple.h:17-21,
SerializeCompactContainer.h:92-96, SerializeTraitedClass.h:53-60, 76-82, SerializeIterable.h:6-8, SerializeIndexable.h:8-9,
SerializeTuple.h:11-13, 34-35. A `const` map has no `[]`, CustomTypeTraits.h:44-49. -/
def writes (Γ : Classes) : Shape → Serializer → Bool
  | .simple, .simple => true
  | .compactVec, .compact => true
  | .compactVec, .iterable => true
  | .compactVec, .indexable => true
  | .vec, .iterable => true
  | .vec, .indexable => true
  | .compactArr, .compact => true
  | .compactArr, .iterable => true
  | .compactArr, .indexable => true
  | .arr, .iterable => true
  | .arr, .indexable => true
  | .set, .iterable => true
  | .map, .iterable => true
  | .pair, .tuple => true
  | .tuple, .tuple => true
  | .cls c, .traited => (Γ c).isSome
  | .binder, .traited => true
  | _, _ => false

/-- `IsDeserializableBy`, BinarySerializer.h:176-186: `SerializeIterable::deserialize` never fits (`decltype(T::resize)`),
SerializeIterable.h:17-19; `DeserializeAsociativeMap`, `DeserializeAsociativeSet`: SerializeIterable.h:34-37, 49-52. -/
def reads (Γ : Classes) : Shape → Serializer → Bool
  | _, .iterable => false
  | .map, .assocMap => true
  | .map, .assocSet => true
  | .set, .assocSet => true
  | s, r => writes Γ s r

/-- `SelectTraitsWithArithmeticDefault<T, TupleTraits...>`, TraitsBind.h:133-134 -/
def choice (Γ : Classes) (ts : List TraitsOf) (c : Nat) : TraitsChoice := selectTraits (Γ c).isSome 0 (ts.map fun t => decide (t.cls = c))

/-- `getTraitsInstance`, TraitsBind.h:94-103, 124-127 -/
def traitsFor (Γ : Classes) (ts : List TraitsOf) (c : Nat) : Option (List Nat) :=
  match choice Γ ts c with
  | .bound i => ts[i]?.map (·.attrs)
  | .default => Γ c
  | .none => none

/-- `IsSerializableByWithBindedTraits`, `IsDeserializableByWithBindedTraits`, BinarySerializer.h:161-174, 188-200: the overloads with a
tuple of traits are SerializeTraitedClass.h:62-74, 93-105, SerializeIndexable.h:20-30, 47-61, and those with `...` SerializeTuple.h:12-24,
34-48; SerializeSimple, SerializeCompactContainer, SerializeIterable, DeserializeAsociativeMap, DeserializeAsociativeSet have none. -/
def handlesBound (Γ : Classes) (ts : List TraitsOf) : Shape → Serializer → Bool
  | .compactVec, .indexable => true
  | .vec, .indexable => true
  | .compactArr, .indexable => true
  | .arr, .indexable => true
  | .pair, .tuple => true
  | .tuple, .tuple => true
  | .cls c, .traited => (traitsFor Γ ts c).isSome
  | _, _ => false

/-- `ClassSelector` takes the last one if no one fits; then the call does not compile. -/
def select (p : Serializer → Bool) : Option Serializer :=
  (classSelect p [.simple, .compact, .traited, .iterable, .indexable, .tuple]).bind fun s => if p s then some s else none

/-- The order for reading, BinarySerializer.h:264-273, 294-303. -/
def selectRead (p : Serializer → Bool) : Option Serializer :=
  (classSelect p [.simple, .compact, .traited, .assocMap, .assocSet, .iterable, .indexable, .tuple]).bind fun s => if p s then some s else none

/-- All, if all are there. -/
def allSome {α : Type} : List (Option α) → Option (List α)
  | [] => some []
  | none :: _ => none
  | some a :: r => (allSome r).map (a :: ·)

/-- The size and the elements, SerializeIndexable.h:9-18, 20-30, SerializeIterable.h:8-13, SerializeCompactContainer.h:96-106 -/
def vecBytes (d : Option Bytes) (vs : List (Option Bytes)) : Option Bytes :=
  d.bind fun _ => (allSome vs).map fun bs => sizeBytes bs.length ++ bs.flatten

/-- The described attributes in the order of the traits, SerializeTraitedClass.h:14-20, 22-29 (`constexprFor`); an attribute that is not
there does not compile. -/
def attrBytes (es : List Nat) (attrs : List (Option Bytes)) : Option Bytes :=
  (allSome (es.map fun e => (attrs[e]?).join)).map List.flatten

mutual
/-- `addNext(container, data)`, BinarySerializer.h:211-222: the bytes -/
def ser (Γ : Classes) : BVal → Option Bytes
  | .simple b => (select (writes Γ .simple)).map fun _ => b
  | .vec d vs => (select (writes Γ (BVal.shape (.vec d vs)))).bind fun _ => vecBytes (ser Γ d) (sers Γ vs)
  | .arr d vs => (select (writes Γ (BVal.shape (.arr d vs)))).bind fun _ => vecBytes (ser Γ d) (sers Γ vs)
  | .assoc m d vs => (select (writes Γ (BVal.shape (.assoc m d vs)))).bind fun _ => vecBytes (ser Γ d) (sers Γ vs)
  | .pair a b => (select (writes Γ .pair)).bind fun _ => (ser Γ a).bind fun x => (ser Γ b).map fun y => x ++ y
  | .tuple vs => (select (writes Γ .tuple)).bind fun _ => (allSome (sers Γ vs)).map List.flatten
  | .obj c attrs => (select (writes Γ (.cls c))).bind fun _ => (Γ c).bind fun es => attrBytes es (sers Γ attrs)
  | .bound v ts => (select (writes Γ .binder)).bind fun _ => serBound Γ ts v
/-- Several values. -/
def sers (Γ : Classes) : BVals → List (Option Bytes)
  | .nil => []
  | .cons v vs => ser Γ v :: sers Γ vs
/-- `addNext(container, data, traits)`, BinarySerializer.h:238-251: pairs, tuples and attributes are written without the traits,
SerializeTuple.h:12-17, 34-38, SerializeTraitedClass.h:22-29. -/
def serBound (Γ : Classes) (ts : List TraitsOf) : BVal → Option Bytes
  | .simple b => (select (handlesBound Γ ts .simple)).map fun _ => b
  | .vec d vs => (select (handlesBound Γ ts (BVal.shape (.vec d vs)))).bind fun _ => vecBytes (serBound Γ ts d) (serBounds Γ ts vs)
  | .arr d vs => (select (handlesBound Γ ts (BVal.shape (.arr d vs)))).bind fun _ => vecBytes (serBound Γ ts d) (serBounds Γ ts vs)
  | .assoc m d vs => (select (handlesBound Γ ts (BVal.shape (.assoc m d vs)))).bind fun _ => vecBytes (serBound Γ ts d) (serBounds Γ ts vs)
  | .pair a b => (select (handlesBound Γ ts .pair)).bind fun _ => (ser Γ a).bind fun x => (ser Γ b).map fun y => x ++ y
  | .tuple vs => (select (handlesBound Γ ts .tuple)).bind fun _ => (allSome (sers Γ vs)).map List.flatten
  | .obj c attrs => (select (handlesBound Γ ts (.cls c))).bind fun _ => (traitsFor Γ ts c).bind fun es => attrBytes es (sers Γ attrs)
  | .bound _ _ => none
/-- Several values. -/
def serBounds (Γ : Classes) (ts : List TraitsOf) : BVals → List (Option Bytes)
  | .nil => []
  | .cons v vs => serBound Γ ts v :: serBounds Γ ts vs
end

/-! ## Reading -/

/-- Reading into a variable: the remaining bytes to the new value and the bytes that remain. -/
abbrev Reader := Bytes → Res (BVal × Bytes)

/-- One after the other. -/
def readList : List Reader → Bytes → Res (List BVal × Bytes)
  | [], bs => .ok ([], bs)
  | r :: rs, bs => (r bs).bind fun p => (readList rs p.2).bind fun q => .ok (p.1 :: q.1, q.2)

/-- `resize` and reading of the elements, SerializeIndexable.h:32-44, 47-61, SerializeCompactContainer.h:112-126 -/
def readVec (d : BVal) (rd : Reader) (rs : List Reader) : Reader := fun bs =>
  (readSize bs).bind fun p =>
    (readList (rs.take p.1 ++ List.replicate (p.1 - rs.length) rd) p.2).bind fun q => .ok (.vec d (.ofList q.1), q.2)

/-- Arrays are not resized, InterfaceIndexable.h:40-45, InterfaceCompactContainer.h:31-37: elements behind the array are written if the size
is larger, and the last elements stay if it is smaller. -/
def readArr (d : BVal) (old : List BVal) (rs : List Reader) : Reader := fun bs =>
  (readSize bs).bind fun p =>
    if p.1 ≤ rs.length then (readList (rs.take p.1) p.2).bind fun q => .ok (.arr d (.ofList (q.1 ++ old.drop p.1)), q.2) else .ub

/-- The key of an element of a set or map. -/
def key : Bool → BVal → BVal
  | true, .pair a _ => a
  | _, x => x

/-- The order of the elements of a set or map. -/
def keyLess (lt : BVal → BVal → Bool) (m : Bool) (x y : BVal) : Bool := lt (key m x) (key m y)

/-- `DeserializeAsociativeMap`, `DeserializeAsociativeSet`: each element is read into a new variable and inserted; what is there stays,
SerializeIterable.h:37-46, 52-61. -/
def readAssoc (lt : BVal → BVal → Bool) (m : Bool) (d : BVal) (old : List BVal) (rd : Reader) : Reader := fun bs =>
  (readSize bs).bind fun p => (Ser.readInsert (keyLess lt m) rd p.1 old p.2).bind fun q => .ok (.assoc m d (.ofList q.1), q.2)

/-- Reading of the described attributes, SerializeTraitedClass.h:34-49 -/
def readAttrs : List (Nat × Reader) → List BVal → Bytes → Res (List BVal × Bytes)
  | [], as, bs => .ok (as, bs)
  | (i, r) :: rs, as, bs => (r bs).bind fun p => readAttrs rs (as.set i p.1) p.2

/-- The readers of the described attributes. -/
def attrReaders (es : List Nat) (rs : List (Option Reader)) : Option (List (Nat × Reader)) :=
  allSome (es.map fun e => ((rs[e]?).join).map fun r => (e, r))

/-- The object, with its attributes read. -/
def readObj (c : Nat) (attrs : List BVal) (rs : List (Nat × Reader)) : Reader := fun bs =>
  (readAttrs rs attrs bs).bind fun q => .ok (.obj c (.ofList q.1), q.2)

mutual
/-- `readNext(iterator, data)`, BinarySerializer.h:261-274 -/
def deser (Γ : Classes) (lt : BVal → BVal → Bool) : BVal → Option Reader
  | .simple b => (selectRead (reads Γ .simple)).map fun _ => fun bs => (readBytes b.length bs).bind fun p => .ok (.simple p.1, p.2)
  | .vec d vs => (selectRead (reads Γ (BVal.shape (.vec d vs)))).bind fun _ =>
      (deser Γ lt d).bind fun rd => (allSome (desers Γ lt vs)).map fun rs => readVec d rd rs
  | .arr d vs => (selectRead (reads Γ (BVal.shape (.arr d vs)))).bind fun _ =>
      (deser Γ lt d).bind fun _ => (allSome (desers Γ lt vs)).map fun rs => readArr d vs.toList rs
  | .assoc m d vs => (selectRead (reads Γ (BVal.shape (.assoc m d vs)))).bind fun _ =>
      (deser Γ lt d).map fun rd => readAssoc lt m d vs.toList rd
  | .pair a b => (selectRead (reads Γ .pair)).bind fun _ => (deser Γ lt a).bind fun ra => (deser Γ lt b).map fun rb =>
      fun bs => (ra bs).bind fun p => (rb p.2).bind fun q => .ok (.pair p.1 q.1, q.2)
  | .tuple vs => (selectRead (reads Γ .tuple)).bind fun _ => (allSome (desers Γ lt vs)).map fun rs =>
      fun bs => (readList rs bs).bind fun q => .ok (.tuple (.ofList q.1), q.2)
  | .obj c attrs => (selectRead (reads Γ (.cls c))).bind fun _ => (Γ c).bind fun es =>
      (attrReaders es (desers Γ lt attrs)).map fun rs => readObj c attrs.toList rs
  | .bound v ts => (selectRead (reads Γ .binder)).bind fun _ => (deserBound Γ lt ts v).map fun r =>
      fun bs => (r bs).bind fun p => .ok (.bound p.1 ts, p.2)
/-- Several variables. -/
def desers (Γ : Classes) (lt : BVal → BVal → Bool) : BVals → List (Option Reader)
  | .nil => []
  | .cons v vs => deser Γ lt v :: desers Γ lt vs
/-- `readNext(iterator, data, traits)`, BinarySerializer.h:290-307 -/
def deserBound (Γ : Classes) (lt : BVal → BVal → Bool) (ts : List TraitsOf) : BVal → Option Reader
  | .simple b => (selectRead (handlesBound Γ ts .simple)).map fun _ => fun bs => (readBytes b.length bs).bind fun p => .ok (.simple p.1, p.2)
  | .vec d vs => (selectRead (handlesBound Γ ts (BVal.shape (.vec d vs)))).bind fun _ =>
      (deserBound Γ lt ts d).bind fun rd => (allSome (deserBounds Γ lt ts vs)).map fun rs => readVec d rd rs
  | .arr d vs => (selectRead (handlesBound Γ ts (BVal.shape (.arr d vs)))).bind fun _ =>
      (deserBound Γ lt ts d).bind fun _ => (allSome (deserBounds Γ lt ts vs)).map fun rs => readArr d vs.toList rs
  | .assoc m d vs => (selectRead (handlesBound Γ ts (BVal.shape (.assoc m d vs)))).bind fun _ =>
      (deserBound Γ lt ts d).map fun rd => readAssoc lt m d vs.toList rd
  | .pair a b => (selectRead (handlesBound Γ ts .pair)).bind fun _ => (deser Γ lt a).bind fun ra => (deser Γ lt b).map fun rb =>
      fun bs => (ra bs).bind fun p => (rb p.2).bind fun q => .ok (.pair p.1 q.1, q.2)
  | .tuple vs => (selectRead (handlesBound Γ ts .tuple)).bind fun _ => (allSome (desers Γ lt vs)).map fun rs =>
      fun bs => (readList rs bs).bind fun q => .ok (.tuple (.ofList q.1), q.2)
  | .obj c attrs => (selectRead (handlesBound Γ ts (.cls c))).bind fun _ => (traitsFor Γ ts c).bind fun es =>
      (attrReaders es (desers Γ lt attrs)).map fun rs => readObj c attrs.toList rs
  | .bound _ _ => none
/-- Several variables. -/
def deserBounds (Γ : Classes) (lt : BVal → BVal → Bool) (ts : List TraitsOf) : BVals → List (Option Reader)
  | .nil => []
  | .cons v vs => deserBound Γ lt ts v :: deserBounds Γ lt ts vs
end

end GTMesh.BSer
