import Verif.Base

/-!
# Macros repeating another macro (Macros/MacroForEach.h) and the macros defining traits (Traits/Traits.h:412-478)

The branch for compilers other than MSVC.  The arguments of a macro are a list; the expansion of a macro is a list again,
its commas separate the arguments of the macro it is passed to.  `none` is a program that does not compile: the pasted
name is not that of a macro (it stays in the program as a call of an undeclared function) or the result is not C++.
Attributes which are themselves macros are not modelled.
-/

namespace GTMesh.Macro

/-- An argument of a macro. -/
inductive Arg where
  /-- text in the program, for instance a name or an expression; the empty text is an empty argument -/
  | src (s : String)
  /-- an entry of `FOR_EACH_RSEQ_N`: two digits -/
  | num (n : Nat)
  /-- a string literal -/
  | lit (s : String)
  /-- `(&Class::member)` -/
  | ref (cls member : String)
  /-- `decltype(arg)` -/
  | decltype (a : Arg)
  deriving DecidableEq

/-- A call without arguments has one empty argument. -/
def callArgs : List Arg → List Arg
  | [] => [.src ""]
  | l => l

/-- `FOR_EACH_RSEQ_N`, MacroForEach.h:154 -/
def rseq : List Arg := (List.range 41).reverse.map .num

/-- `FOR_EACH_ARG_N`: the argument after the first 40, MacroForEach.h:155 -/
def argN (args : List Arg) : Option Arg := args[40]?

/-- `FOR_EACH_NARG`, MacroForEach.h:156-157 -/
def narg (args : List Arg) : Option Arg := argN (args ++ rseq)

/-- The two digits of a number below 100. -/
def twoDigits (n : Nat) : String := if n < 10 then "0" ++ toString n else toString n

/-- `CONCATENATE(FOR_EACH_, N)`, MacroForEach.h:160: the number `nn` of the macro `FOR_EACH_nn`, which is there for 00, …, 40.
A text of two digits gives a name of a macro as well. -/
def paste : Arg → Option Nat
  | .num n => if n ≤ 40 then some n else none
  | .src s => (List.range 41).find? fun n => decide (twoDigits n = s)
  | _ => none

/-- A macro used on an argument and another expansion after a comma. -/
def comma (a b : Option (List Arg)) : Option (List Arg) := a.bind fun x => b.map fun y => x ++ y

/-- `FOR_EACH_00`, …, `FOR_EACH_40`, MacroForEach.h:162-202 -/
def forEachN (what : Arg → Option (List Arg)) : Nat → List Arg → Option (List Arg)
  | 0, _ => some []
  | 1, x :: _ => what x
  | n + 2, x :: rest => comma (what x) (forEachN what (n + 1) rest)
  | _, [] => none

/-- `FOR_EACH`, MacroForEach.h:204-205 -/
def forEach (what : Arg → Option (List Arg)) (args : List Arg) : Option (List Arg) :=
  ((narg (callArgs args)).bind paste).bind fun n => forEachN what n (callArgs args)

/-- `FOR_EACH_2ARGS_00`, `_02`, …, `_40`, MacroForEach.h:237-257; there are none for odd numbers -/
def forEach2N (what : Arg → Arg → Option (List Arg)) : Nat → List Arg → Option (List Arg)
  | 0, _ => some []
  | 2, x :: y :: _ => what x y
  | n + 4, x :: y :: rest => comma (what x y) (forEach2N what (n + 2) rest)
  | _, _ => none

/-- `FOR_EACH_2ARGS`, MacroForEach.h:260-261 -/
def forEach2 (what : Arg → Arg → Option (List Arg)) (args : List Arg) : Option (List Arg) :=
  ((narg (callArgs args)).bind paste).bind fun n => forEach2N what n (callArgs args)

/-- `FOR_EACH_3ARGS_1STAT_00`, `_02`, …, `_40`, MacroForEach.h:264-284 -/
def forEach3N (what : String → Arg → Arg → Option (List Arg)) (stat : String) : Nat → List Arg → Option (List Arg)
  | 0, _ => some []
  | 2, x :: y :: _ => what stat x y
  | n + 4, x :: y :: rest => comma (what stat x y) (forEach3N what stat (n + 2) rest)
  | _, _ => none

/-- `FOR_EACH_3ARGS_1STAT`, MacroForEach.h:287-288 -/
def forEach3 (what : String → Arg → Arg → Option (List Arg)) (stat : String) (args : List Arg) : Option (List Arg) :=
  ((narg (callArgs args)).bind paste).bind fun n => forEach3N what stat n (callArgs args)

/-- `FOR_EACH_EVEN_00`, `_02`, …, `_40`, MacroForEach.h:209-229 -/
def forEachEvenN (what : Arg → Option (List Arg)) : Nat → List Arg → Option (List Arg)
  | 0, _ => some []
  | 2, _ :: x :: _ => what x
  | n + 4, _ :: x :: rest => comma (what x) (forEachEvenN what (n + 2) rest)
  | _, _ => none

/-- `FOR_EACH_EVEN`, MacroForEach.h:231-232 -/
def forEachEven (what : Arg → Option (List Arg)) (args : List Arg) : Option (List Arg) :=
  ((narg (callArgs args)).bind paste).bind fun n => forEachEvenN what n (callArgs args)

/-- `FOR_EACH_ODD`: an empty argument in front, MacroForEach.h:234 -/
def forEachOdd (what : Arg → Option (List Arg)) (args : List Arg) : Option (List Arg) :=
  ((narg (.src "" :: callArgs args)).bind paste).bind fun n => forEachEvenN what n (.src "" :: callArgs args)

/-! ## Uses -/

/-- `IMPL_NAME_ATT(attribute)`: the text of the attribute and the attribute, Traits.h:416; `STRVAR(var)`, Debug.h:30.
The argument is text written by the user. -/
def nameAtt : Arg → Option (List Arg)
  | .src s => some [.lit s, .src s]
  | _ => none

/-- `IMPL_NAME_AND_REF(Class, name, member)`, Traits.h:415, and with `UNWRAP` for templates, line 418 -/
def nameAndRef (cls : String) (name : Arg) : Arg → Option (List Arg)
  | .src m => some [name, .ref cls m]
  | _ => none

/-- `IMPL_MEMREF_TYPE_CUSTOM(name, memberRef)`, Traits.h:414 -/
def memRefType (_ memberRef : Arg) : Option (List Arg) := some [.decltype memberRef]

/-- The specialization that `IMPL_MAKE_CUSTOM_TRAIT` defines: the types in `Traits<Class, ...>` and the arguments of its
constructor in `getTraits`. -/
structure TraitDecl where
  cls : String
  types : List Arg
  args : List Arg
  deriving DecidableEq

/-- `IMPL_MAKE_CUSTOM_TRAIT`, Traits.h:420-427; `MAKE_CUSTOM_TRAIT`, `MAKE_CUSTOM_TRAIT_IO`, `MAKE_CUSTOM_TRAIT_ARITHMETIC`
(lines 438, 452, 467) give it the name of the specialized template; the variants for templates (429-436, 445, 459, 474)
only unwrap the name of the class. -/
def makeCustomTrait (cls : String) (args : List Arg) : Option TraitDecl :=
  (forEach2 memRefType args).map fun types => ⟨cls, types, callArgs args⟩

/-- `MAKE_NAMED_ATTRIBUTE_TRAIT` and its variants, Traits.h:440, 447, 454, 461, 469, 476 -/
def makeNamedAttributeTrait (cls : String) (args : List Arg) : Option TraitDecl :=
  (forEach3 nameAndRef cls args).bind (makeCustomTrait cls)

/-- `MAKE_ATTRIBUTE_TRAIT` and its variants, Traits.h:442, 449, 456, 463, 471, 478 -/
def makeAttributeTrait (cls : String) (attributes : List String) : Option TraitDecl :=
  (forEach nameAtt (attributes.map .src)).bind (makeNamedAttributeTrait cls)

end GTMesh.Macro
