import Verif.Model.Export
import Verif.Spec.JsonLog

/-!
# How a variable should be printed
-/

namespace GTMesh.Export

open Json

/-- The variables as a list. -/
def Vals.toList : Vals → List Val
  | .nil => []
  | .cons v vs => v :: vs.toList

/-- Texts with a comma and a blank between them. -/
def commaSep (ts : List (List Char)) : List Char := List.intercalate ", ".toList ts

/-- `"name" : text` -/
def named (name text : List Char) : List Char := ['"'] ++ name ++ "\" : ".toList ++ text

/-- The attributes `(name, value)` that traits describe. -/
def Describes (entries : List (List Char × Nat)) (attrs : List Val) (members : List (List Char × Val)) : Prop :=
  entries.map (fun e => (e.1, attrs[e.2]?)) = members.map (fun m => (m.1, some m.2))

/-- The program in which the bound traits are the default ones of their class; of several for one class the first. -/
def Classes.withTraits (Γ : Classes) (ts : List TraitsOf) : Classes := fun c =>
  match ts.find? (fun t => t.cls = c) with
  | some t => { Γ c with ioTraits := some t.entries }
  | none => Γ c

mutual
/-- No traits are bound to parts of the variable. -/
def Val.unbound : Val → Bool
  | .pair a b => a.unbound && b.unbound
  | .tuple vs => vs.unbound
  | .obj _ iter index attrs _ _ _ _ => iter.unbound && index.unbound && attrs.unbound
  | .bound _ _ => false
  | _ => true
/-- No traits are bound to parts of the variables. -/
def Vals.unbound : Vals → Bool
  | .nil => true
  | .cons v vs => v.unbound && vs.unbound
end

/-- An integer type that is not a character. -/
def Num.isInteger : Num → Bool
  | .short | .unsignedShort | .int | .unsigned | .long | .unsignedLong | .longLong | .unsignedLongLong => true
  | _ => false

/-- A decimal number. -/
def decimalOf (n : Int) : List Char := if n < 0 then '-' :: Nat.toDigits 10 n.natAbs else Nat.toDigits 10 n.natAbs

mutual
/-- The JSON value that stands for a variable: numbers, bools, texts (without characters that need an escape), arrays for containers and
tuples, objects for classes with traits, and an object with one member for a pair whose first part is a text. -/
inductive Says (Γ : Classes) : Val → J → Prop
  | bool (b : Bool) : Says Γ (.bool b) (.bool b)
  | int {k : Num} (h : k.isInteger = true) (n : Int) : Says Γ (.int k n) (.num (decimalOf n))
  | float (k : Num) {t : List Char} (h : isNumber t = true) : Says Γ (.float k t) (.num t)
  | string {s : List Char} (h : JsonLog.Unescaped s) : Says Γ (.string s) (.text s)
  | cstr {s : List Char} (h : JsonLog.Unescaped s) : Says Γ (.cstr s) (.text s)
  | char {c : Char} (h : JsonLog.Unescaped [c]) : Says Γ (.char c) (.text [c])
  | pairString {s : List Char} (h : JsonLog.Unescaped s) {b : Val} {j : J} (hb : Says Γ b j) : Says Γ (.pair (.string s) b) (.obj [(s, j)])
  | pairCstr {s : List Char} (h : JsonLog.Unescaped s) {b : Val} {j : J} (hb : Says Γ b j) : Says Γ (.pair (.cstr s) b) (.obj [(s, j)])
  | pairChar {c : Char} (h : JsonLog.Unescaped [c]) {b : Val} {j : J} (hb : Says Γ b j) : Says Γ (.pair (.char c) b) (.obj [([c], j)])
  | tuple {vs : Vals} {js : List J} (h : SaysAll Γ vs js) : Says Γ (.tuple vs) (.arr js)
  | iter {c : Nat} (h1 : (Γ c).printToStream = false) (h2 : (Γ c).iterable = true) {it : Vals} {js : List J} (h : SaysAll Γ it js)
      (ix at_ : Vals) (cu cc pu : List Char) (by_ : List UInt8) : Says Γ (.obj c it ix at_ cu cc pu by_) (.arr js)
  | index {c : Nat} (h1 : (Γ c).printToStream = false) (h2 : (Γ c).iterable = false) (h3 : (Γ c).indexable = true) {ix : Vals}
      {js : List J} (h : SaysAll Γ ix js) (it at_ : Vals) (cu cc pu : List Char) (by_ : List UInt8) :
      Says Γ (.obj c it ix at_ cu cc pu by_) (.arr js)
  | members {c : Nat} (h1 : (Γ c).printToStream = false) (h2 : (Γ c).iterable = false) (h3 : (Γ c).indexable = false)
      {es : List (List Char × Nat)} (h4 : (Γ c).ioTraits = some es) {at_ : Vals} {mvs : List (List Char × Val)}
      (h5 : Describes es at_.toList mvs) {ms : List (List Char × J)} (h : SaysNamed Γ mvs ms)
      (it ix : Vals) (cu cc pu : List Char) (by_ : List UInt8) :
      Says Γ (.obj c it ix at_ cu cc pu by_) (.obj ms)
/-- The JSON values of several variables. -/
inductive SaysAll (Γ : Classes) : Vals → List J → Prop
  | nil : SaysAll Γ .nil []
  | cons {v : Val} {j : J} {vs : Vals} {js : List J} (h : Says Γ v j) (hs : SaysAll Γ vs js) : SaysAll Γ (.cons v vs) (j :: js)
/-- The JSON values of attributes. -/
inductive SaysNamed (Γ : Classes) : List (List Char × Val) → List (List Char × J) → Prop
  | nil : SaysNamed Γ [] []
  | cons {name : List Char} (hn : JsonLog.Unescaped name) {v : Val} {j : J} {mvs : List (List Char × Val)} {ms : List (List Char × J)}
      (h : Says Γ v j) (hs : SaysNamed Γ mvs ms) : SaysNamed Γ ((name, v) :: mvs) ((name, j) :: ms)
end

/-- The number types for which the overloads with `printf` and `<<` give the same text. -/
def Num.sameStdio : Num → Bool
  | .short | .unsignedShort | .int | .longLong | .unsignedLongLong | .float | .double | .longDouble => true
  | _ => false

mutual
/-- The variables for which `printf` and the stream are known to give the same text. -/
def Val.sameStdio (Γ : Classes) : Val → Prop
  | .bool _ => True
  | .int k _ => k.sameStdio = true
  | .float _ _ => True
  | .string _ => True
  | .cstr _ => True
  | .char _ => True
  | .charArray _ => False
  | .pair a b => a.sameStdio Γ ∧ b.sameStdio Γ
  | .tuple vs => vs.sameStdio Γ
  | .obj c iter index attrs custom customC _ _ =>
    ((Γ c).printToStream = true → (Γ c).printToStdio = true ∧ customC = custom) ∧
    ((Γ c).printToStream = true ∨ (Γ c).iterable = true ∨ (Γ c).indexable = true ∨ (Γ c).ioTraits.isSome = true) ∧
    iter.sameStdio Γ ∧ index.sameStdio Γ ∧ attrs.sameStdio Γ ∧ ∀ e ∈ (Γ c).ioTraits.getD [], e.2 < attrs.toList.length
  | .bound _ _ => False
/-- All of the variables. -/
def Vals.sameStdio (Γ : Classes) : Vals → Prop
  | .nil => True
  | .cons v vs => v.sameStdio Γ ∧ vs.sameStdio Γ
end

end GTMesh.Export
