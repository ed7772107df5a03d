import Verif.Base

/-!
# Which `abs` is called (Traits/TraitsAlgorithm/TraitsAlgorithm.h)

The header declares function templates with the name `abs` in the global namespace, beside the functions of the standard library that are
visible there.  These are, with the GNU library, `abs(int)` when only `<cmath>` was included (TraitsAlgorithm.h:7), and the ones for `int`,
`long`, `long long`, `float`, `double`, `long double` when `<math.h>` or `<stdlib.h>` was included before; the list is a parameter here.
The modelled calls: of the user, of `Abs::evaluate` for the attributes of a class, and for the entries of an array.

Simplifications: floating point numbers are rational numbers, without rounding, infinities and not-a-number; integers have the sizes of
64-bit Linux and conversions to a signed integer wrap around.
-/

namespace GTMesh.AbsOverload

/-- Types of numbers. -/
inductive Ty where
  | bool | char | short | ushort | int | uint | long | ulong | llong | ullong | float | double | ldouble
  deriving DecidableEq, Repr

/-- Not a type of integers. -/
def Ty.floating : Ty → Bool
  | .float | .double | .ldouble => true
  | _ => false

/-- The number of bits. -/
def Ty.bits : Ty → Nat
  | .bool => 1
  | .char => 8
  | .short | .ushort => 16
  | .int | .uint => 32
  | _ => 64

/-- With a sign. -/
def Ty.signed : Ty → Bool
  | .char | .short | .int | .long | .llong => true
  | _ => false

/-- The smallest integer of the type. -/
def Ty.lo (t : Ty) : Int := if t.signed then -2 ^ (t.bits - 1) else 0

/-- The first integer behind those of the type. -/
def Ty.hi (t : Ty) : Int := if t.signed then 2 ^ (t.bits - 1) else 2 ^ t.bits

/-- The integer of the type that is the same modulo two to the number of bits. -/
def Ty.wrap (t : Ty) (n : Int) : Int := (n - t.lo) % 2 ^ t.bits + t.lo

/-- Toward zero. -/
def trunc (x : Rat) : Int := if x < 0 then x.ceil else x.floor

/-- The conversion of a number from one type to another. -/
def convert (src dst : Ty) (x : Rat) : Res Rat :=
  if src = dst then .ok x
  else if dst.floating then .ok x
  else if dst = .bool then .ok (if x = 0 then 0 else 1)
  else if src.floating then (if dst.lo ≤ trunc x ∧ trunc x < dst.hi then .ok (trunc x) else .ub)
  else .ok (dst.wrap (trunc x))

/-- The ranks of conversions: the same type, a promotion, another conversion. -/
def rank (arg par : Ty) : Nat :=
  if arg = par then 0
  else match arg, par with
    | .bool, .int | .char, .int | .short, .int | .ushort, .int | .float, .double => 1
    | _, _ => 2

/-- What a call refers to. -/
inductive Choice where
  /-- a function of the library -/
  | fn (t : Ty)
  /-- the template for everything that is no class, TraitsAlgorithm.h:756-764 -/
  | template
  /-- no or more than one function fits best -/
  | none
  deriving DecidableEq, Repr

/-- The candidates with the best rank. -/
def best (vis : List Ty) (arg : Ty) : List Ty :=
  vis.filter fun t => vis.all fun u => decide (rank arg t ≤ rank arg u)

/-- The choice of the overload for a number: a function that fits as well as the template is preferred. `late` tells whether the template
is declared at the place of the call. -/
def resolve (vis : List Ty) (late : Bool) (arg : Ty) : Choice :=
  if arg ∈ vis then .fn arg
  else if late then .template
  else match best vis arg with
    | [t] => .fn t
    | _ => .none

/-- The functions of the library; the absolute value of the smallest integer is undefined. -/
def libAbs (t : Ty) (x : Rat) : Res Rat :=
  if t.floating then .ok (if x < 0 then -x else x)
  else if x = t.lo then .ub
  else .ok (if x < 0 then -x else x)

/-- `abs` of a number at a place where the templates are declared; the first argument bounds the depth of the calls (`diverge` when it
is reached). The template, TraitsAlgorithm.h:756-764, calls `abs` with the same argument. Nothing when it does not compile. -/
def absLate (vis : List Ty) : Nat → Ty → Rat → Option (Res Rat)
  | 0, _, _ => some .diverge
  | n + 1, t, x =>
    match resolve vis true t with
    | .fn u => some ((convert t u x).bind fun y => (libAbs u y).bind fun z => convert u t z)
    | .template => absLate vis n t x
    | .none => none

/-- `Abs::evaluate` for a number, TraitsAlgorithm.h:727-729: the templates are declared below it, and for numbers only what is declared
above counts. The result has the type of the argument. -/
def absEarly (vis : List Ty) (t : Ty) (x : Rat) : Option (Res Rat) :=
  match resolve vis false t with
  | .fn u => some ((convert t u x).bind fun y => (libAbs u y).bind fun z => convert u t z)
  | _ => none

mutual
/-- Numbers, arrays (`IsIndexable`) and objects of classes with arithmetic traits (their attributes). `global` tells whether the global
namespace belongs to the type, so that its functions are found for it everywhere. -/
inductive Obj where
  | num (t : Ty) (x : Rat)
  | arr (isGlobal : Bool) (elems : Objs)
  | cls (isGlobal : Bool) (attrs : Objs)
inductive Objs where
  | nil
  | cons (o : Obj) (os : Objs)
end

/-- One after the other: the results, if all compile; the first failure, if there is one. -/
def consRes (a : Option (Res Obj)) (b : Option (Res Objs)) : Option (Res Objs) :=
  a.bind fun x => b.map fun y => x.bind fun o => y.bind fun os => .ok (.cons o os)

mutual
/-- `abs(object)`, at a place where the templates are declared (`late`) or in `Abs::evaluate`: the template for classes,
TraitsAlgorithm.h:736-743 with 87-105, and for arrays, 766-780. -/
def absObj (vis : List Ty) (fuel : Nat) (late : Bool) : Obj → Option (Res Obj)
  | .num t x => (if late then absLate vis fuel t x else absEarly vis t x).map fun r => r.bind fun y => .ok (.num t y)
  | .arr g es => if late || g then (absObjs vis fuel true es).map fun r => r.bind fun os => .ok (.arr g os) else none
  | .cls g as => if late || g then (absObjs vis fuel false as).map fun r => r.bind fun os => .ok (.cls g os) else none
/-- The entries and the attributes. -/
def absObjs (vis : List Ty) (fuel : Nat) (late : Bool) : Objs → Option (Res Objs)
  | .nil => some (.ok .nil)
  | .cons o os => consRes (absObj vis fuel late o) (absObjs vis fuel late os)
end

/-- `abs(object)` in the program of a user. -/
def absUser (vis : List Ty) (fuel : Nat) (o : Obj) : Option (Res Obj) := absObj vis fuel true o

/-- Visible with `<math.h>` or `<stdlib.h>`. -/
def withMathH : List Ty := [.int, .long, .llong, .float, .double, .ldouble]

/-- Visible with `<cmath>`, TraitsAlgorithm.h:7. -/
def withCmath : List Ty := [.int]

end GTMesh.AbsOverload
