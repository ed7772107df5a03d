import Verif.Base

/-!
# Binary serializer (BinarySerializer.h, Serializers/*.h)

Bytes are `UInt8`.  Types are described by `Ty`, values by `Ty.den`.

Simplifications: tuples and classes with arithmetic traits are right-nested pairs ending with `unit` (the
serializers only concatenate the members in order, SerializeTuple.h:12-51, SerializeTraitedClass.h:52-91);
`size_t` has 8 bytes, little endian; `&v[0]` of an empty vector is a mere pointer computation; allocation
never fails; `std::vector<bool>` (cannot be read, `getElementRef` does not compile), `std::list` (cannot be
read, `decltype(T::resize)` fails) and `SerializeCustom` (user code) are not modelled.
-/

namespace GTMesh.Ser

abbrev Bytes := List UInt8

/-- The serializable types. `vec`: resizable containers with `operator[]` (vector, string, deque);
`arr t n`: `std::array<t, n>`. -/
inductive Ty where
  | simple (n : Nat)
  | bool
  | vec (t : Ty)
  | arr (t : Ty) (n : Nat)
  | unit
  | pair (t u : Ty)
  | set (t : Ty)
  | map (k v : Ty)
  deriving DecidableEq, Repr

/-- Values of a type. A simple value is its object representation; a set or map is its iteration sequence. -/
def Ty.den : Ty → Type
  | .simple n => { l : Bytes // l.length = n }
  | .bool => Bool
  | .vec t => List t.den
  | .arr t n => { l : List t.den // l.length = n }
  | .unit => Unit
  | .pair t u => t.den × u.den
  | .set t => List t.den
  | .map k v => List (k.den × v.den)

/-- A default constructed value (simple types: zero). -/
def Ty.dflt : (t : Ty) → t.den
  | .simple n => ⟨List.replicate n 0, by simp⟩
  | .bool => false
  | .vec _ => ([] : List _)
  | .arr t n => ⟨List.replicate n t.dflt, by simp⟩
  | .unit => ()
  | .pair t u => (t.dflt, u.dflt)
  | .set _ => ([] : List _)
  | .map _ _ => ([] : List _)

/-- The order of the keys of sets and maps (`std::less`), for each key type. -/
abbrev Order := (t : Ty) → t.den → t.den → Bool

/-! ## Writing -/

/-- Little endian representation with `k` bytes. -/
def leBytes : Nat → Nat → Bytes
  | 0, _ => []
  | k + 1, n => UInt8.ofNat (n % 256) :: leBytes k (n / 256)

/-- Value of a little endian representation. -/
def leNat : Bytes → Nat
  | [] => 0
  | b :: bs => b.toNat + 256 * leNat bs

/-- `addNext(container, size)` with a `size_t`. SerializeSimple.h:17-21 -/
def sizeBytes (n : Nat) : Bytes := leBytes 8 n

/-- `BinarySerializer::addNext`: the bytes appended. Dispatch BinarySerializer.h:211-222; simple
SerializeSimple.h:17-34; compact SerializeCompactContainer.h:96-106 and indexable SerializeIndexable.h:9-18
(same bytes: the size and the elements); sets and maps SerializeIterable.h:7-13; tuples
SerializeTuple.h:12-38; classes SerializeTraitedClass.h:53-60. -/
def serialize : (t : Ty) → t.den → Bytes
  | .simple _, v => v.val
  | .bool, (b : Bool) => [if b then 1 else 0]
  | .vec t, (l : List t.den) => sizeBytes l.length ++ l.flatMap (serialize t)
  | .arr t _, l => sizeBytes l.val.length ++ l.val.flatMap (serialize t)
  | .unit, _ => []
  | .pair t u, (a, b) => serialize t a ++ serialize u b
  | .set t, (l : List t.den) => sizeBytes l.length ++ l.flatMap (serialize t)
  | .map k v, (l : List (k.den × v.den)) =>
      sizeBytes l.length ++ l.flatMap fun p => serialize k p.1 ++ serialize v p.2

/-! ## Reading

The iterator is modelled by the bytes from it to the end of the buffer. There is no check against the end:
reading beyond it is undefined behaviour. -/

/-- Reading `n` raw bytes. SerializeSimple.h:23-30 -/
def readBytes (n : Nat) (bs : Bytes) : Res (Bytes × Bytes) :=
  if n ≤ bs.length then .ok (bs.take n, bs.drop n) else .ub

/-- Reading a `size_t`. -/
def readSize (bs : Bytes) : Res (Nat × Bytes) := (readBytes 8 bs).bind fun p => .ok (leNat p.1, p.2)

/-- Reading into each element of a container in order. -/
def readInto {α : Type} (f : α → Bytes → Res (α × Bytes)) : List α → Bytes → Res (List α × Bytes)
  | [], bs => .ok ([], bs)
  | a :: as, bs =>
    (f a bs).bind fun p => (readInto f as p.2).bind fun q => .ok (p.1 :: q.1, q.2)

/-- `std::set::insert` / `std::map::insert` on the iteration sequence; an equivalent key is kept. -/
def insertBy {α : Type} (lt : α → α → Bool) (x : α) : List α → List α
  | [] => [x]
  | y :: ys => if lt x y then x :: y :: ys else if lt y x then y :: insertBy lt x ys else y :: ys

/-- The loops of `DeserializeAsociativeMap/Set`: read a value and insert it; the container is not cleared.
SerializeIterable.h:41-45, 56-60 -/
def readInsert {α : Type} (lt : α → α → Bool) (f : Bytes → Res (α × Bytes)) :
    Nat → List α → Bytes → Res (List α × Bytes)
  | 0, acc, bs => .ok (acc, bs)
  | n + 1, acc, bs => (f bs).bind fun p => readInsert lt f n (insertBy lt p.1 acc) p.2

/-- `if (size(data) != size) resize(data, size)` for vectors. SerializeCompactContainer.h:118-120,
SerializeIndexable.h:37-39 -/
def resizeTo {α : Type} (d : α) (l : List α) (n : Nat) : List α := l.take n ++ List.replicate (n - l.length) d

/-- Length is preserved by `readInto`. -/
theorem readInto_length {α : Type} {f : α → Bytes → Res (α × Bytes)} :
    ∀ (l : List α) (bs : Bytes) r bs', readInto f l bs = .ok (r, bs') → r.length = l.length := by
  intro l
  induction l with
  | nil => intro bs r bs' h; simp [readInto] at h; simp [h.1]
  | cons a as ih =>
    intro bs r bs' h
    simp only [readInto] at h
    cases h1 : f a bs with
    | ok p =>
      simp only [h1, Res.bind] at h
      cases h2 : readInto f as p.2 with
      | ok q =>
        simp only [h2, Res.ok.injEq, Prod.mk.injEq] at h
        rw [← h.1]; simp [ih _ _ _ h2]
      | throw e => simp [h2] at h
      | ub => simp [h2] at h
      | diverge => simp [h2] at h
    | throw e => simp [h1] at h
    | ub => simp [h1] at h
    | diverge => simp [h1] at h

/-- `BinarySerializer::readNext(iterator, data)`: from the previous value of `data` and the remaining bytes
to the new value and the remaining bytes. Dispatch BinarySerializer.h:261-274; simple
SerializeSimple.h:23-30 (the `bool` overload in line 37 is never selected because `T` cannot be deduced; a
byte other than 0/1 gives a `bool` with an invalid representation: undefined behaviour); containers
SerializeCompactContainer.h:112-126, SerializeIndexable.h:32-44 (an array cannot be resized: with more stored
elements memory behind it is overwritten, with fewer the rest keeps its value); maps and sets
SerializeIterable.h:34-62; tuples SerializeTuple.h:19-51; classes SerializeTraitedClass.h:84-91. -/
def deserialize (lt : Order) : (t : Ty) → t.den → Bytes → Res (t.den × Bytes)
  | .simple n, _, bs =>
    if h : n ≤ bs.length then .ok (⟨bs.take n, by simp [h]⟩, bs.drop n) else .ub
  | .bool, _, bs =>
    (readBytes 1 bs).bind fun p =>
      if p.1 = [0] then .ok (false, p.2) else if p.1 = [1] then .ok (true, p.2) else .ub
  | .vec t, (old : List t.den), bs =>
    (readSize bs).bind fun p => readInto (deserialize lt t) (resizeTo t.dflt old p.1) p.2
  | .arr t n, old, bs =>
    (readSize bs).bind fun p =>
      if p.1 ≤ n then
        match h : readInto (deserialize lt t) (old.val.take p.1) p.2 with
        | .ok q => .ok (⟨q.1 ++ old.val.drop p.1, by
            have := readInto_length _ _ _ _ h
            have := old.property
            simp_all; omega⟩, q.2)
        | .throw e => .throw e
        | .ub => .ub
        | .diverge => .diverge
      else .ub
  | .unit, _, bs => .ok ((), bs)
  | .pair t u, (a, b), bs =>
    (deserialize lt t a bs).bind fun p => (deserialize lt u b p.2).bind fun q => .ok ((p.1, q.1), q.2)
  | .set t, (old : List t.den), bs =>
    (readSize bs).bind fun p =>
      readInsert (lt t) (deserialize lt t t.dflt) p.1 old p.2
  | .map k v, (old : List (k.den × v.den)), bs =>
    (readSize bs).bind fun p =>
      readInsert (fun x y => lt k x.1 y.1) (fun bs =>
        (deserialize lt k k.dflt bs).bind fun p => (deserialize lt v v.dflt p.2).bind fun q =>
          .ok ((p.1, q.1), q.2)) p.1 old p.2

/-! ## The serializer object -/

/-- `mDataIterator`: value-initialised (`{}`), pointing into the buffer, or invalidated by a reallocation
of the buffer. -/
inductive Cursor where
  | null
  | at (pos : Nat)
  | dangling
  deriving DecidableEq, Repr

/-- `BinarySerializer`: the bytes, the capacity of the vector and the iterator. BinarySerializer.h:134-136 -/
structure Serializer where
  data : Bytes := []
  cap : Nat := 0
  cur : Cursor := .null

namespace Serializer

/-- `write(data)`, BinarySerializer.h:48-51. `grow cap size` is the capacity the vector takes when `size`
exceeds the capacity; a reallocation invalidates the iterator.  Simplification: the insertions of one
`write` are treated as one. -/
def write (grow : Nat → Nat → Nat) (s : Serializer) (t : Ty) (v : t.den) : Serializer :=
  let d := s.data ++ serialize t v
  if d.length ≤ s.cap then { s with data := d }
  else { data := d, cap := grow s.cap d.length,
         cur := match s.cur with | .null => .null | _ => .dangling }

/-- `resetIterator()`, BinarySerializer.h:83-85 -/
def resetIterator (s : Serializer) : Serializer := { s with cur := .at 0 }

/-- `isIteratorValid()`, BinarySerializer.h:87-89. Comparing an invalidated iterator is undefined behaviour;
a null iterator is outside of any non-empty buffer (and equal to `end()` of a buffer never allocated). -/
def isIteratorValid (s : Serializer) : Res Bool :=
  match s.cur with
  | .null => .ok false
  | .at p => .ok (decide (p < s.data.length))
  | .dangling => .ub

/-- `resetIteratorIfNotValid()`, BinarySerializer.h:91-95 -/
def resetIfNotValid (s : Serializer) : Res Serializer :=
  s.isIteratorValid.bind fun b => .ok (if b then s else s.resetIterator)

/-- `read(data)`, BinarySerializer.h:65-69: the value read and the new state. -/
def read (lt : Order) (s : Serializer) (t : Ty) (old : t.den) : Res (t.den × Serializer) :=
  s.resetIfNotValid.bind fun s' =>
  match s'.cur with
  | .at p =>
    (deserialize lt t old (s'.data.drop p)).bind fun q =>
    .ok (q.1, { s' with cur := .at (s'.data.length - q.2.length) })
  | _ => .ub

/-- `clear()`, BinarySerializer.h:102-105: the memory is kept. -/
def clear (s : Serializer) : Serializer := { s with data := [], cur := .null }

/-- The content of a file, if it can be opened. -/
abbrev File := Option Bytes

/-- `saveToFile`, BinarySerializer.h:111-120; `writable`: the file could be opened. -/
def saveToFile (s : Serializer) (writable : Bool) : Res File :=
  if writable then .ok (some s.data) else .throw .runtimeError

/-- `loadFromFile`, BinarySerializer.h:122-132: a file that cannot be opened is silently ignored; the
iterator is not touched (`resize` beyond the capacity invalidates it). -/
def loadFromFile (grow : Nat → Nat → Nat) (s : Serializer) (f : File) : Serializer :=
  match f with
  | none => s
  | some d =>
    if d.length ≤ s.cap then { s with data := d }
    else { data := d, cap := grow s.cap d.length,
           cur := match s.cur with | .null => .null | _ => .dangling }

/-- Writing a sequence of values. -/
def writeAll (grow : Nat → Nat → Nat) (s : Serializer) : List ((t : Ty) × t.den) → Serializer
  | [] => s
  | v :: vs => (s.write grow v.1 v.2).writeAll grow vs

/-- Reading a sequence of values of the given types into default constructed variables. -/
def readAll (lt : Order) (s : Serializer) : List Ty → Res (List ((t : Ty) × t.den) × Serializer)
  | [] => .ok ([], s)
  | t :: ts =>
    (s.read lt t t.dflt).bind fun p => (readAll lt p.2 ts).bind fun q => .ok (⟨t, p.1⟩ :: q.1, q.2)

end Serializer
end GTMesh.Ser
