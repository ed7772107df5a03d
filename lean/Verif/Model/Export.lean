import Verif.Model.JsonLog
import Verif.Model.Meta
import Verif.Model.ConsoleLog

/-!
# Choosing how a variable is printed (Debug/VariableExport.h, Debug/Printers, Traits/TraitsBind)

`VariableExport::exportVariable` chooses the first printer that fits the type of the variable.  A variable is given with all that the
printers could use of it.  What a chosen printer puts is in Model/JsonLog (`LVal` has a constructor for each printer).

Simplifications: traits without attributes (they do not compile) print nothing between the braces; a class that has both `size` and `getSize` (two specialisations of `Interface::Indexable` fit) is not modelled; enums
are like numbers (unscoped) or like classes without anything (scoped); pointers other than texts are not modelled.
-/

namespace GTMesh.Export

open JsonLog (LVal LVals Members)
open ConsoleLog (signed)

/-- The printers, in the order of the list in `exportVariable`, VariableExport.h:116-117 -/
inductive Printer where
  | custom | text | iterable | indexable | traited | exportable | tuple | any
  deriving DecidableEq, Repr

/-- The number types. -/
inductive Num where
  | signedChar | unsignedChar | short | unsignedShort | int | unsigned | long | unsignedLong | longLong | unsignedLongLong
  | float | double | longDouble
  deriving DecidableEq, Repr

/-- Traits as far as printing uses them: the class, and the name and the attribute (its number among the attributes of the class) at each
place. -/
structure TraitsOf where
  cls : Nat
  entries : List (List Char × Nat)
  deriving DecidableEq, Repr

/-- What a class has, CustomTypeTraits.h:22-93, PrintCustom.h:12-18, Traits.h (`HasDefaultIOTraits`). -/
structure ClassInfo where
  /-- `PrintTo(const T&, std::ostream&)` -/
  printToStream : Bool := false
  /-- `PrintTo(const T&)` -/
  printToStdio : Bool := false
  /-- `begin` and `end` -/
  iterable : Bool := false
  /-- `operator[]` and `size` or `getSize` -/
  indexable : Bool := false
  /-- `DefaultIOTraits` -/
  ioTraits : Option (List (List Char × Nat)) := none
  /-- `operator<<` -/
  exportable : Bool := false
  /-- `typeid(T).name()` -/
  typeName : List Char := []

/-- The classes of the program. -/
abbrev Classes := Nat → ClassInfo

mutual
/-- A variable. -/
inductive Val where
  | bool (b : Bool)
  /-- an integer type and the number -/
  | int (k : Num) (n : Int)
  /-- a floating point type and the text that `<<` and `printf("%g")` give -/
  | float (k : Num) (text : List Char)
  | string (s : List Char)
  /-- `char*`, `const char*` -/
  | cstr (s : List Char)
  | char (c : Char)
  /-- `char[N]` -/
  | charArray (s : List Char)
  | pair (a b : Val)
  | tuple (vs : Vals)
  /-- an object: what iteration gives, what `[0]`, `[1]`, ... give, its attributes, what `PrintTo` puts on a stream and with `printf`,
  what `<<` puts, and its bytes -/
  | obj (cls : Nat) (iter index attrs : Vals) (custom customC put : List Char) (bytes : List UInt8)
  /-- `TraitsBinder` -/
  | bound (v : Val) (ts : List TraitsOf)
/-- Variables. -/
inductive Vals where
  | nil
  | cons (v : Val) (vs : Vals)
end

/-- What the choice depends on. -/
inductive Shape where
  | bool | number | string | cstr | char | charArray | pair | tuple | cls (c : Nat) | binder
  deriving DecidableEq, Repr

/-- The type of a variable. -/
def Val.shape : Val → Shape
  | .bool _ => .bool
  | .int _ _ => .number
  | .float _ _ => .number
  | .string _ => .string
  | .cstr _ => .cstr
  | .char _ => .char
  | .charArray _ => .charArray
  | .pair _ _ => .pair
  | .tuple _ => .tuple
  | .obj c _ _ _ _ _ _ _ => .cls c
  | .bound _ _ => .binder

/-- `IsPrintableBy<VarType, Printer>`, VariableExport.h:51-62, 82-84; `traited` says if `PrintTraitedClass::print` accepts the class.
PrintCustom.h:12-24, PrintText.h:8-13, PrintIterable.h:8-13 (also `std::string`), PrintIndexable.h:9 (also `std::string`),
PrintTraitedClass.h:63-64, 75-76 (a binder is always accepted), PrintExportable.h:13-20, PrintTuple.h:12-13, 88-89, PrintAny.h:7-8. -/
def printable (Γ : Classes) (traited : Nat → Bool) : Shape → Printer → Bool
  | .cls c, .custom => (Γ c).printToStream
  | _, .custom => false
  | .string, .text => true
  | .cstr, .text => true
  | .char, .text => true
  | _, .text => false
  | .cls c, .iterable => (Γ c).iterable
  | .string, .iterable => true
  | _, .iterable => false
  | .cls c, .indexable => (Γ c).indexable
  | .string, .indexable => true
  | _, .indexable => false
  | .cls c, .traited => traited c
  | .binder, .traited => true
  | _, .traited => false
  | .cls c, .exportable => (Γ c).exportable
  | .pair, .exportable => false
  | .tuple, .exportable => false
  | .binder, .exportable => false
  | _, .exportable => true
  | .pair, .tuple => true
  | .tuple, .tuple => true
  | _, .tuple => false
  | _, .any => true

/-- `SelectPrinter<T, PrintCustom, PrintText, ...>::SelectedClass`, VariableExport.h:88-89, 116-117 -/
def selectPrinter (Γ : Classes) (traited : Nat → Bool) (s : Shape) : Printer :=
  (classSelect (printable Γ traited s) [.custom, .text, .iterable, .indexable, .traited, .exportable, .tuple, .any]).getD .any

/-- Without bound traits: `HasDefaultIOTraits`, PrintTraitedClass.h:63 -/
def hasDefault (Γ : Classes) (c : Nat) : Bool := (Γ c).ioTraits.isSome

/-- `SelectTraitsWithIODefault<Class, TraitsTypes...>`, TraitsBind.h:130-131, PrintTraitedClass.h:71-72, 81-82 -/
def choice (Γ : Classes) (ts : List TraitsOf) (c : Nat) : TraitsChoice :=
  selectTraits (hasDefault Γ c) 0 (ts.map fun t => decide (t.cls = c))

/-- `SelectTraitsWithIODefault<...>::valid` -/
def valid (Γ : Classes) (ts : List TraitsOf) (c : Nat) : Bool := choice Γ ts c ≠ .none

/-- `getTraitsInstance`, TraitsBind.h:94-103, 124-127 -/
def traitsFor (Γ : Classes) (ts : List TraitsOf) (c : Nat) : List (List Char × Nat) :=
  match choice Γ ts c with
  | .bound i => (ts[i]?.map (·.entries)).getD []
  | .default => (Γ c).ioTraits.getD []
  | .none => []

/-- A hexadecimal digit. -/
def hexDigit (upper : Bool) (n : Nat) : Char := if n < 10 then Char.ofNat (48 + n) else if upper then Char.ofNat (55 + n) else Char.ofNat (87 + n)

/-- Two hexadecimal digits. -/
def hexByte (upper : Bool) (b : UInt8) : List Char := [hexDigit upper (b.toNat / 16), hexDigit upper (b.toNat % 16)]

/-- Bytes with blanks between them. -/
def hexBytes (upper : Bool) : List UInt8 → List Char
  | [] => []
  | [b] => hexByte upper b
  | b :: c :: r => hexByte upper b ++ ' ' :: hexBytes upper (c :: r)

/-- `PrintAny::print(ost, var)`, PrintAny.h:8-19 -/
def anyText (typeName : List Char) (bytes : List UInt8) : List Char := typeName ++ '(' :: hexBytes false bytes ++ [')']

/-- `ost << n`: the types of one byte are put as a character. -/
def putInt (k : Num) (n : Int) : List Char :=
  match k with
  | .signedChar | .unsignedChar => [Char.ofNat (n % 256).toNat]
  | _ => signed n

/-- The members that traits describe; an attribute that is not there does not compile (here: `default`). -/
def membersOf (attrs : List LVal) : List (List Char × Nat) → Members
  | [] => .nil
  | e :: es => .cons e.1 (attrs[e.2]?.getD (.plain [])) (membersOf attrs es)

/-- What the chosen printer puts for an object, from what is put for its parts. -/
def objectBy (info : ClassInfo) (entries : List (List Char × Nat)) (iter index : LVals) (attrs : List LVal) (custom put : List Char)
    (bytes : List UInt8) : Printer → LVal
  | .custom => .plain custom
  | .iterable => .list iter
  | .indexable => .list index
  | .traited => .obj (membersOf attrs entries)
  | .exportable => .plain put
  | _ => .plain (anyText info.typeName bytes)

/-- Elements as a list. -/
def listOf : LVals → List LVal
  | .nil => []
  | .cons v vs => v :: listOf vs

/-- What the chosen printer puts for a text; printers behind `PrintText` would put lists of characters or no quotes. -/
def textBy (s : List Char) : Printer → LVal
  | .text => .text s
  | .exportable => .plain s
  | _ => .list .nil

/-- What is put for a bool or a number; only `PrintExportable` and `PrintAny` accept them. -/
def plainBy (t : List Char) : Printer → LVal
  | .exportable => .plain t
  | _ => .plain []

mutual
/-- `exportVariable(ost, var, traitsTuple)`, VariableExport.h:121-127: the printer with its arguments -/
def resolveBound (Γ : Classes) (ts : List TraitsOf) : Val → LVal
  | .bool b => plainBy (if b then ['t', 'r', 'u', 'e'] else ['f', 'a', 'l', 's', 'e']) (selectPrinter Γ (valid Γ ts) .bool)
  | .int k n => plainBy (putInt k n) (selectPrinter Γ (valid Γ ts) .number)
  | .float _ t => plainBy t (selectPrinter Γ (valid Γ ts) .number)
  | .string s => textBy s (selectPrinter Γ (valid Γ ts) .string)
  | .cstr s => textBy s (selectPrinter Γ (valid Γ ts) .cstr)
  | .char c => textBy [c] (selectPrinter Γ (valid Γ ts) .char)
  | .charArray s => textBy s (selectPrinter Γ (valid Γ ts) .charArray)
  | .pair a b => .pair (resolveBound Γ ts a) (resolveBound Γ ts b)
  | .tuple vs => .tuple (resolveBounds Γ ts vs)
  | .obj c iter index attrs custom _ put bytes =>
    objectBy (Γ c) (traitsFor Γ ts c) (resolveBounds Γ ts iter) (resolveBounds Γ ts index) (listOf (resolveBounds Γ ts attrs)) custom put
      bytes (selectPrinter Γ (valid Γ ts) (.cls c))
  | .bound v ts' => resolveBound Γ ts' v
/-- The elements. -/
def resolveBounds (Γ : Classes) (ts : List TraitsOf) : Vals → LVals
  | .nil => .nil
  | .cons v vs => .cons (resolveBound Γ ts v) (resolveBounds Γ ts vs)
end

mutual
/-- `exportVariable(ost, var)`, VariableExport.h:113-118; a binder is printed with its traits, PrintTraitedClass.h:75-79 -/
def resolve (Γ : Classes) : Val → LVal
  | .bool b => plainBy (if b then ['t', 'r', 'u', 'e'] else ['f', 'a', 'l', 's', 'e']) (selectPrinter Γ (hasDefault Γ) .bool)
  | .int k n => plainBy (putInt k n) (selectPrinter Γ (hasDefault Γ) .number)
  | .float _ t => plainBy t (selectPrinter Γ (hasDefault Γ) .number)
  | .string s => textBy s (selectPrinter Γ (hasDefault Γ) .string)
  | .cstr s => textBy s (selectPrinter Γ (hasDefault Γ) .cstr)
  | .char c => textBy [c] (selectPrinter Γ (hasDefault Γ) .char)
  | .charArray s => textBy s (selectPrinter Γ (hasDefault Γ) .charArray)
  | .pair a b => .pair (resolve Γ a) (resolve Γ b)
  | .tuple vs => .tuple (resolves Γ vs)
  | .obj c iter index attrs custom _ put bytes =>
    objectBy (Γ c) ((Γ c).ioTraits.getD []) (resolves Γ iter) (resolves Γ index) (listOf (resolves Γ attrs)) custom put bytes
      (selectPrinter Γ (hasDefault Γ) (.cls c))
  | .bound v ts => resolveBound Γ ts v
/-- The elements. -/
def resolves (Γ : Classes) : Vals → LVals
  | .nil => .nil
  | .cons v vs => .cons (resolve Γ v) (resolves Γ vs)
end

/-- The text that `exportVariable(ost, var)` puts. -/
def exportVariable (Γ : Classes) (v : Val) : List Char := JsonLog.print (resolve Γ v)

/-! ## The variant with printf

The printer is chosen as for the stream, VariableExport.h:133-134; then its `print(const T&, ...)` is called.  `none`: the call does not
compile (in a container, because of one of the elements; the model does not know the type of the elements of an empty container). -/

/-- `PrintExportable::print(const T&, ...)` of a number, PrintExportable.h:22-62: the overload for the type, or that of its promotion;
`long` and `unsigned long` are ambiguous. -/
def numberStdio (k : Num) (n : Int) : Option (List Char) :=
  match k with
  | .long | .unsignedLong => none
  | .unsigned => some (signed n ++ ['d'])
  | _ => some (signed n)

/-- Texts separated by commas. -/
def commas : List (List Char) → List Char
  | [] => []
  | [t] => t
  | t :: u :: r => t ++ ',' :: ' ' :: commas (u :: r)

/-- All the texts, if all are there. -/
def allSome {α : Type} : List (Option α) → Option (List α)
  | [] => some []
  | none :: _ => none
  | some a :: r => (allSome r).map (a :: ·)

/-- `PrintClass::print(traitedClass, traits)`, PrintTraitedClass.h:23-27, 51-54 -/
def memberStdio (attrs : List (Option (List Char))) (e : List Char × Nat) : Option (List Char) :=
  ((attrs[e.2]?).getD (some [])).map fun t => '"' :: e.1 ++ ['"', ' ', ':', ' '] ++ t

/-- What the chosen printer prints of an object. -/
def objectStdio (info : ClassInfo) (entries : List (List Char × Nat)) (iter index attrs : List (Option (List Char))) (customC : List Char)
    (bytes : List UInt8) : Printer → Option (List Char)
  | .custom => if info.printToStdio then some customC else none
  | .iterable => (allSome iter).map fun ts => ['[', ' '] ++ commas ts ++ [' ', ']']
  | .indexable => (allSome index).map fun ts => ['[', ' '] ++ commas ts ++ [' ', ']']
  | .traited => (allSome (entries.map (memberStdio attrs))).map fun ts => ['{', ' '] ++ commas ts ++ [' ', '}']
  | .exportable => none
  | _ => some (hexBytes true bytes)

/-- What the chosen printer prints of a text: `PrintText` prints it with quotes, PrintText.h:20-35; the address of an array is converted to
`bool` by `PrintExportable`, PrintExportable.h:59-62. -/
def textStdio (s : List Char) : Printer → Option (List Char)
  | .text => some ('"' :: s ++ ['"'])
  | .exportable => some ['t', 'r', 'u', 'e']
  | _ => some []

mutual
/-- `exportVariable(var, traitsTuple)`, VariableExport.h:138-144 -/
def stdioBound (Γ : Classes) (ts : List TraitsOf) : Val → Option (List Char)
  | .bool b => some (if b then ['t', 'r', 'u', 'e'] else ['f', 'a', 'l', 's', 'e'])
  | .int k n => numberStdio k n
  | .float _ t => some t
  | .string s => textStdio s (selectPrinter Γ (valid Γ ts) .string)
  | .cstr s => textStdio s (selectPrinter Γ (valid Γ ts) .cstr)
  | .char c => textStdio [c] (selectPrinter Γ (valid Γ ts) .char)
  | .charArray s => textStdio s (selectPrinter Γ (valid Γ ts) .charArray)
  | .pair a b => (stdioBound Γ ts a).bind fun x => (stdioBound Γ ts b).map fun y => ['{', ' '] ++ x ++ [':', ' '] ++ y ++ ['}']
  | .tuple vs => (allSome (stdioBounds Γ ts vs)).map fun xs => ['[', ' '] ++ commas xs ++ [']']
  | .obj c iter index attrs _ customC _ bytes =>
    objectStdio (Γ c) (traitsFor Γ ts c) (stdioBounds Γ ts iter) (stdioBounds Γ ts index) (stdioBounds Γ ts attrs) customC bytes
      (selectPrinter Γ (valid Γ ts) (.cls c))
  | .bound v ts' => stdioBound Γ ts' v
/-- The elements. -/
def stdioBounds (Γ : Classes) (ts : List TraitsOf) : Vals → List (Option (List Char))
  | .nil => []
  | .cons v vs => stdioBound Γ ts v :: stdioBounds Γ ts vs
end

mutual
/-- `exportVariable(var)`, VariableExport.h:130-135 -/
def stdio (Γ : Classes) : Val → Option (List Char)
  | .bool b => some (if b then ['t', 'r', 'u', 'e'] else ['f', 'a', 'l', 's', 'e'])
  | .int k n => numberStdio k n
  | .float _ t => some t
  | .string s => textStdio s (selectPrinter Γ (hasDefault Γ) .string)
  | .cstr s => textStdio s (selectPrinter Γ (hasDefault Γ) .cstr)
  | .char c => textStdio [c] (selectPrinter Γ (hasDefault Γ) .char)
  | .charArray s => textStdio s (selectPrinter Γ (hasDefault Γ) .charArray)
  | .pair a b => (stdio Γ a).bind fun x => (stdio Γ b).map fun y => ['{', ' '] ++ x ++ [':', ' '] ++ y ++ ['}']
  | .tuple vs => (allSome (stdios Γ vs)).map fun xs => ['[', ' '] ++ commas xs ++ [']']
  | .obj c iter index attrs _ customC _ bytes =>
    objectStdio (Γ c) ((Γ c).ioTraits.getD []) (stdios Γ iter) (stdios Γ index) (stdios Γ attrs) customC bytes
      (selectPrinter Γ (hasDefault Γ) (.cls c))
  | .bound v ts => stdioBound Γ ts v
/-- The elements. -/
def stdios (Γ : Classes) : Vals → List (Option (List Char))
  | .nil => []
  | .cons v vs => stdio Γ v :: stdios Γ vs
end

end GTMesh.Export
