import Mathlib.Data.Rat.Defs
import Mathlib.Algebra.Order.Field.Rat

/-!
# What the text of a number means

A sign, digits, a point with digits, an exponent: the value is exact. (`ist >> x` gives the nearest `double` of it.)
-/

namespace GTMesh.Numeral

/-- The longest beginning that consists of digits, and what follows. -/
def takeDigits : List Char → List Nat × List Char
  | [] => ([], [])
  | c :: r => if c.isDigit then ((c.toNat - '0'.toNat) :: (takeDigits r).1, (takeDigits r).2) else ([], c :: r)

/-- The number with the given digits. -/
def natOf (ds : List Nat) : Nat := ds.foldl (fun a d => 10 * a + d) 0

/-- The digits behind the point, and what follows. -/
def takeFraction : List Char → List Nat × List Char
  | '.' :: r => takeDigits r
  | s => ([], s)

/-- Digits only, at least one. -/
def wholeOf (s : List Char) : Option Nat :=
  if (takeDigits s).1 ≠ [] ∧ (takeDigits s).2 = [] then some (natOf (takeDigits s).1) else none

/-- The exponent; nothing more may follow. -/
def exponentOf : List Char → Option Int
  | [] => some 0
  | 'e' :: '+' :: r => (wholeOf r).map fun (n : Nat) => (n : Int)
  | 'e' :: '-' :: r => (wholeOf r).map fun (n : Nat) => -(n : Int)
  | _ => none

/-- The value of a text without sign. -/
def unsigned (s : List Char) : Option ℚ :=
  let i := takeDigits s
  let f := takeFraction i.2
  if i.1 = [] then none else
  (exponentOf f.2).map fun (e : Int) => (natOf (i.1 ++ f.1) : ℚ) * (10 : ℚ) ^ (e - (f.1.length : Int))

/-- The value of a text. -/
def value : List Char → Option ℚ
  | '-' :: r => (unsigned r).map fun x => -x
  | s => unsigned s

end GTMesh.Numeral
