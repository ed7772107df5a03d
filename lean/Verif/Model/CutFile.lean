import Verif.Model.Serializer

/-!
# Saving a serializer when the program stops or the device is full (BinarySerializer.h:111-120)

Simplification: the bytes reach the file in order.
-/

namespace GTMesh.Ser

/-- How far a call of `saveToFile` gets: the program stops in front of the constructor of `std::ofstream` (line 113), which empties the file; it stops when `k` bytes
are in the file; or the device takes only `k` bytes and the program goes on. -/
inductive Progress where
  | before
  | stopped (k : Nat)
  | full (k : Nat)

namespace Serializer

/-- The file behind a call of `saveToFile` that got that far. BinarySerializer.h:113-116 -/
def fileAfter (s : Serializer) (old : File) : Progress → File
  | .before => old
  | .stopped k => some (s.data.take k)
  | .full k => some (s.data.take k)

/-- What the call gives, if the program is still there: the state of the stream is not looked at behind `write` and `close`. BinarySerializer.h:114-119 -/
def saveResult : Progress → Option (Res Unit)
  | .before => none
  | .stopped _ => none
  | .full _ => some (.ok ())

end Serializer
end GTMesh.Ser
