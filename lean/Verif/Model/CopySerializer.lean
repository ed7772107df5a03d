import Verif.Model.Serializer

/-!
# Copying and moving a serializer (BinarySerializer.h:134-136)

`BinarySerializer` declares no constructors, assignments or destructor, so that the implicit ones copy or move the two members. An iterator of another
vector is modelled as `Cursor.dangling`: comparing it with an iterator of the own buffer, as `isIteratorValid` does (lines 87-89), is undefined behaviour.
-/

namespace GTMesh.Ser.Serializer

/-- The iterator of `s`, seen from an object with another buffer. -/
def foreign (c : Cursor) : Cursor :=
  match c with
  | .null => .null
  | .at _ => .dangling
  | .dangling => .dangling

/-- `BinarySerializer b = a;`: the bytes are copied into a new buffer, the iterator still belongs to the buffer of `a`. BinarySerializer.h:134-136 -/
def copy (a : Serializer) : Serializer := { data := a.data, cap := a.data.length, cur := foreign a.cur }

/-- `b = a;` for two objects: the buffer of `b` is used again when it is large enough. BinarySerializer.h:134-136 -/
def assign (b a : Serializer) : Serializer := { data := a.data, cap := max b.cap a.data.length, cur := foreign a.cur }

/-- `BinarySerializer b = std::move(a);`: `b` has the buffer of `a` and an iterator into it; `a` has no bytes (as in the implementations of the library; the standard
leaves them unspecified) and the same iterator. BinarySerializer.h:134-136 -/
def move (a : Serializer) : Serializer × Serializer := (a, { data := [], cap := 0, cur := foreign a.cur })

end GTMesh.Ser.Serializer
