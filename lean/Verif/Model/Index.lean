/-!
# Index encoding (UnstructuredMeshDefine.h)

`w` is the width in bits of `IndexType`, `d = std::numeric_limits<IndexType>::digits` the number of
its value bits: `d = w` for unsigned types and `d = w - 1` for signed ones.
-/

namespace GTMesh

namespace Bits

/-- `INVALID_INDEX(IndexType) = std::numeric_limits<IndexType>::max() = 2^d - 1`.
UnstructuredMeshDefine.h:5 -/
def INVALID (w d : Nat) : BitVec w := BitVec.ofNat w (2 ^ d - 1)

/-- `BOUNDARY_INDEX(IndexType) = static_cast<IndexType>(1) << (digits - 1)`.
UnstructuredMeshDefine.h:6 -/
def BOUNDARY (w d : Nat) : BitVec w := (1#w) <<< (d - 1)

/-- `EXTRACTING_INDEX(IndexType) = ~BOUNDARY_INDEX(IndexType)`. UnstructuredMeshDefine.h:7 -/
def EXTRACTING (w d : Nat) : BitVec w := ~~~ (BOUNDARY w d)

/-- UnstructuredMeshDefine.h:10-13 -/
def isInvalidIndex {w : Nat} (d : Nat) (i : BitVec w) : Bool := i == INVALID w d

/-- UnstructuredMeshDefine.h:16-19 -/
def isBoundaryIndex {w : Nat} (d : Nat) (i : BitVec w) : Bool :=
  (BOUNDARY w d &&& i) == BOUNDARY w d

/-- UnstructuredMeshDefine.h:22-25 -/
def makeBoundaryIndex {w : Nat} (d : Nat) (i : BitVec w) : BitVec w := BOUNDARY w d ||| i

/-- UnstructuredMeshDefine.h:28-31 -/
def extractBoundaryIndex {w : Nat} (d : Nat) (i : BitVec w) : BitVec w := EXTRACTING w d &&& i

end Bits

/-! ## The 64-bit unsigned instance as natural numbers

The rest of the model uses natural numbers for `IndexType = size_t`.  `Props/Index.lean` proves that
these functions are the bit-level ones on values below `2^64`. -/

/-- Indices of elements; values `< 2^64` are meant. -/
notation "Idx" => Nat

/-- `INVALID_INDEX(size_t)`, UnstructuredMeshDefine.h:5 -/
def INVALID : Idx := 18446744073709551615

/-- `BOUNDARY_INDEX(size_t)`, UnstructuredMeshDefine.h:6 -/
def BOUNDARY : Idx := 9223372036854775808

/-- UnstructuredMeshDefine.h:10-13 -/
def isInvalidIndex (i : Idx) : Bool := i == INVALID

/-- UnstructuredMeshDefine.h:16-19, for `i < 2^64`: the top bit is set. -/
def isBoundaryIndex (i : Idx) : Bool := decide (BOUNDARY ≤ i)

/-- UnstructuredMeshDefine.h:22-25, for `i < 2^64`. -/
def makeBoundaryIndex (i : Idx) : Idx := if BOUNDARY ≤ i then i else BOUNDARY + i

/-- UnstructuredMeshDefine.h:28-31, for `i < 2^64`. -/
def extractBoundaryIndex (i : Idx) : Idx := if BOUNDARY ≤ i then i - BOUNDARY else i

end GTMesh
