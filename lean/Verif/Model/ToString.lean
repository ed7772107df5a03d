import Mathlib.Data.Rat.Floor
import Verif.Model.Vtk3w

/-!
# The keys of appended centers (VTKMeshWriter.h)

`std::to_string(double)` is `printf("%f")`: six digits behind the point, the exact value of the number is rounded, halves to even.
A `double` is a rational number here (nan, infinities and the sign of -0 are left out).
-/

namespace GTMesh.Vtk

/-- A non-negative rational number rounded to a whole number, halves to even. -/
def roundEven (q : ℚ) : Nat :=
  let n := ⌊q⌋.toNat
  if 1 / 2 < q - n ∨ (q - n = 1 / 2 ∧ n % 2 = 1) then n + 1 else n

/-- A number below 10^6 with six digits. -/
def sixDigits (k : Nat) : List Char :=
  [k / 100000 % 10, k / 10000 % 10, k / 1000 % 10, k / 100 % 10, k / 10 % 10, k % 10].map Nat.digitChar

/-- `std::to_string(x)` for a `double`, used in VTKMeshWriter.h:516-518, 537-539 -/
def toString6 (x : ℚ) : List Char :=
  (if x < 0 then ['-'] else []) ++ decimal (roundEven (|x| * 10 ^ 6) / 10 ^ 6) ++ '.' :: sixDigits (roundEven (|x| * 10 ^ 6) % 10 ^ 6)

/-- `cellCenterKey`, `faceCenterKey`, VTKMeshWriter.h:516-518, 537-539 -/
def centerKey (p : Point3 ℚ) : List Char := toString6 p.1 ++ ';' :: toString6 p.2.1 ++ ';' :: toString6 p.2.2

end GTMesh.Vtk
