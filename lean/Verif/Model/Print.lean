import Mathlib.Data.Rat.Floor
import Mathlib.Data.Int.Log
import Verif.Model.ToString
import Verif.Model.Fpma

/-!
# The texts of numbers in mesh files

The writers print coordinates with `ost << x` and never change the precision of the stream: the text is that of `printf("%g", x)`, six significant digits
of the exact value, halves to even, without the zeros at the end; with an exponent when it is below -4 or above 5.
A `double` is a rational number here (nan, infinities and the sign of -0 are left out).
-/

namespace GTMesh

/-- The six significant digits (as a number) of a positive number and the power of ten of the first one. FPMAMeshWriter.h:135-137 prints
with the default precision of 6, as do VTKMeshWriter.h:148-154, 601-608. -/
def significant (a : ℚ) : Nat × Int :=
  let e := Int.log 10 a
  let d := Vtk.roundEven (a / (10 : ℚ) ^ (e - 5))
  if d = 10 ^ 6 then (10 ^ 5, e + 1) else (d, e)

/-- The last `w` digits of a number. -/
def lastDigits : Nat → Nat → List Nat
  | 0, _ => []
  | w + 1, n => lastDigits w (n / 10) ++ [n % 10]

/-- Removes the zeros at the end. -/
def stripZeros (l : List Nat) : List Nat := (l.reverse.dropWhile (· == 0)).reverse

/-- The number `d / 10^w` with a point, without zeros at the end, and without the point when nothing follows it. -/
def pointText (d w : Nat) : List Char :=
  decimal (d / 10 ^ w) ++ match stripZeros (lastDigits w (d % 10 ^ w)) with
    | [] => []
    | l => '.' :: l.map Nat.digitChar

/-- The exponent has a sign and at least two digits. -/
def exponentText (e : Int) : List Char :=
  'e' :: (if e < 0 then '-' else '+') :: ((if e.natAbs < 10 then ['0'] else []) ++ decimal e.natAbs)

/-- `ost << x` for a `double` and a stream in its default state. FPMAMeshWriter.h:135-137, VTKMeshWriter.h:148-154, 601-608 -/
def printText (x : ℚ) : List Char :=
  if x = 0 then ['0'] else
  (if x < 0 then ['-'] else []) ++
    let p := significant |x|
    if -4 ≤ p.2 ∧ p.2 < 6 then pointText p.1 (5 - p.2).toNat else pointText p.1 5 ++ exponentText p.2

/-- The token of a number as it is in the file: `fmt x` is the value of the text of `x`. -/
def Tok.printed {R S : Type} (fmt : R → S) : Tok R → Tok S
  | .num n => .num n
  | .real x => .real (fmt x)

/-- The same for the tokens of a VTK file. -/
def Vtk.VTok.printed {R S : Type} (fmt : R → S) : Vtk.VTok R → Vtk.VTok S
  | .word s => .word s
  | .num n => .num n
  | .real x => .real (fmt x)
  | .nl => .nl

end GTMesh
