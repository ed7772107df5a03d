import Verif.Proofs.Export

/-! # C63: how a variable is printed -/

namespace GTMesh.Export

open Json JsonLog

/-- A program for the examples: class 0 is like `std::vector`, 1 has traits for two attributes, 2 has `PrintTo`, `begin`, `end` and `<<`, 3
has `[]` and `size`, 4 has `<<`, 5 has nothing. -/
def demo : Classes
  | 0 => { iterable := true, indexable := true, typeName := ['v'] }
  | 1 => { ioTraits := some [(['r'], 1), (['n'], 0)], exportable := true }
  | 2 => { printToStream := true, printToStdio := true, iterable := true, exportable := true }
  | 3 => { indexable := true, ioTraits := some [(['x'], 0)] }
  | 4 => { exportable := true }
  | _ => { typeName := ['1', 'A'] }

/-- A vector of numbers. -/
def demoVec : Val := .obj 0 (.cons (.int .int 1) (.cons (.int .int (-2)) .nil)) (.cons (.int .int 1) (.cons (.int .int (-2)) .nil)) .nil [] [] [] []

/-- An object with attributes. -/
def demoObj : Val := .obj 1 .nil .nil (.cons (.string ['a']) (.cons demoVec .nil)) [] [] ['?'] []

theorem openLit : "[ ".toList = ['[', ' '] := by decide +kernel
theorem closeLit : " ]".toList = [' ', ']'] := by decide +kernel
theorem openBrace : "{ ".toList = ['{', ' '] := by decide +kernel
theorem closeBrace : " }".toList = [' ', '}'] := by decide +kernel
theorem colonLit : ": ".toList = [':', ' '] := by decide +kernel

/-- Bools, integers and floating point numbers are put as by `<<`. -/
theorem C63_plain (Γ : Classes) :
    exportVariable Γ (.bool true) = "true".toList ∧ exportVariable Γ (.bool false) = "false".toList ∧
    (∀ (k : Num) (n : Int), k.isInteger = true → exportVariable Γ (.int k n) = decimalOf n) ∧
    (∀ (k : Num) (t : List Char), exportVariable Γ (.float k t) = t) := by
  refine ⟨?_, ?_, ?_, ?_⟩
  · simp only [exportVariable, resolve, select_bool, plainBy, print]; decide +kernel
  · simp only [exportVariable, resolve, select_bool, plainBy, print]; decide +kernel
  · intro k n h
    simp only [exportVariable, resolve, select_number, plainBy, print, putInt_eq h]
  · intro k t
    simp only [exportVariable, resolve, select_number, plainBy, print]

example : exportVariable demo (.int .unsignedLong 120) = ['1', '2', '0'] := by decide +kernel

/-- Texts are put between quotes, whatever container-like interface they have. -/
theorem C63_text (Γ : Classes) (s : List Char) (c : Char) :
    exportVariable Γ (.string s) = ['"'] ++ s ++ ['"'] ∧ exportVariable Γ (.cstr s) = ['"'] ++ s ++ ['"'] ∧
    exportVariable Γ (.char c) = ['"', c, '"'] := by
  refine ⟨?_, ?_, ?_⟩ <;>
    simp [exportVariable, resolve, select_string, select_cstr, select_char, textBy, print, printText]

/-- A pair is put as `{ first: second}`. -/
theorem C63_pair (Γ : Classes) (a b : Val) :
    exportVariable Γ (.pair a b) = "{ ".toList ++ exportVariable Γ a ++ ": ".toList ++ exportVariable Γ b ++ "}".toList := by
  have : "}".toList = ['}'] := by decide +kernel
  simp only [exportVariable, resolve, print, openBrace, colonLit, this]

/-- A tuple is put as `[ first, second, ...]`. -/
theorem C63_tuple (Γ : Classes) (vs : Vals) :
    exportVariable Γ (.tuple vs) = "[ ".toList ++ commaSep (vs.toList.map (exportVariable Γ)) ++ "]".toList := by
  have : "]".toList = [']'] := by decide +kernel
  simp only [exportVariable, resolve, print, openLit, this, printElems_eq, resolves_list, List.map_map]
  rfl

example : exportVariable demo (.tuple (.cons (.bool true) (.cons (.pair (.char 'k') (.int .int 3)) .nil))) =
    "[ true, { \"k\": 3}]".toList := by decide +kernel

/-- A `PrintTo` for the class is used before everything else. -/
theorem C63_custom (Γ : Classes) (c : Nat) (h : (Γ c).printToStream = true) (it ix at_ : Vals) (cu cc pu : List Char) (by_ : List UInt8) :
    exportVariable Γ (.obj c it ix at_ cu cc pu by_) = cu := by
  simp [exportVariable, resolve, select_eq, h, objectBy, print]

example : (demo 2).printToStream = true ∧ (demo 2).iterable = true ∧ (demo 2).exportable = true := by decide

/-- An object with `begin` and `end` is put as the list of its elements in brackets. -/
theorem C63_iterable (Γ : Classes) (c : Nat) (h1 : (Γ c).printToStream = false) (h2 : (Γ c).iterable = true) (it ix at_ : Vals)
    (cu cc pu : List Char) (by_ : List UInt8) :
    exportVariable Γ (.obj c it ix at_ cu cc pu by_) = "[ ".toList ++ commaSep (it.toList.map (exportVariable Γ)) ++ " ]".toList := by
  simp only [exportVariable, resolve, select_eq, h1, h2, Bool.false_eq_true, if_false, if_true, objectBy, print, openLit, closeLit,
    printElems_eq, resolves_list, List.map_map]
  rfl

example : exportVariable demo demoVec = "[ 1, -2 ]".toList := by decide +kernel

/-- An object with `[]` and a size, without `begin` and `end`, is put as the list of its elements in brackets. -/
theorem C63_indexable (Γ : Classes) (c : Nat) (h1 : (Γ c).printToStream = false) (h2 : (Γ c).iterable = false) (h3 : (Γ c).indexable = true)
    (it ix at_ : Vals) (cu cc pu : List Char) (by_ : List UInt8) :
    exportVariable Γ (.obj c it ix at_ cu cc pu by_) = "[ ".toList ++ commaSep (ix.toList.map (exportVariable Γ)) ++ " ]".toList := by
  simp only [exportVariable, resolve, select_eq, h1, h2, h3, Bool.false_eq_true, if_false, if_true, objectBy, print, openLit, closeLit,
    printElems_eq, resolves_list, List.map_map]
  rfl

example : exportVariable demo (.obj 3 .nil (.cons demoObj (.cons demoObj .nil)) (.cons (.bool true) .nil) [] [] [] []) =
    "[ { \"r\" : [ 1, -2 ], \"n\" : \"a\" }, { \"r\" : [ 1, -2 ], \"n\" : \"a\" } ]".toList := by decide +kernel

/-- An object of a class with IO traits which is not like a container is put as the described attributes with their names, in the order of
the traits. -/
theorem C63_members (Γ : Classes) (c : Nat) (h1 : (Γ c).printToStream = false) (h2 : (Γ c).iterable = false) (h3 : (Γ c).indexable = false)
    (es : List (List Char × Nat)) (h4 : (Γ c).ioTraits = some es) (it ix at_ : Vals) (ms : List (List Char × Val))
    (hm : Describes es at_.toList ms) (cu cc pu : List Char) (by_ : List UInt8) :
    exportVariable Γ (.obj c it ix at_ cu cc pu by_) =
      "{ ".toList ++ commaSep (ms.map fun m => named m.1 (exportVariable Γ m.2)) ++ " }".toList := by
  have key := describes_get hm (resolve Γ) (fun n v => named n (print v))
  simp only [exportVariable, resolve, select_eq, h1, h2, h3, hasDefault, h4, Option.isSome_some, Bool.false_eq_true, if_false, if_true,
    objectBy, print, openBrace, closeBrace, printMembers_eq, resolves_list, Option.getD_some]
  rw [key]

example : Describes [(['r'], 1), (['n'], 0)] [.string ['a'], demoVec] [(['r'], demoVec), (['n'], .string ['a'])] := rfl
example : exportVariable demo demoObj = "{ \"r\" : [ 1, -2 ], \"n\" : \"a\" }".toList := by decide +kernel

/-- Another object is put with `<<`, if there is one. -/
theorem C63_put (Γ : Classes) (c : Nat) (h1 : (Γ c).printToStream = false) (h2 : (Γ c).iterable = false) (h3 : (Γ c).indexable = false)
    (h4 : (Γ c).ioTraits = none) (h5 : (Γ c).exportable = true) (it ix at_ : Vals) (cu cc pu : List Char) (by_ : List UInt8) :
    exportVariable Γ (.obj c it ix at_ cu cc pu by_) = pu := by
  simp [exportVariable, resolve, select_eq, h1, h2, h3, hasDefault, h4, h5, objectBy, print]

example : (demo 4).exportable = true ∧ (demo 4).ioTraits = none := by decide

/-- Of an object of a class that nothing is known about the type and the bytes are put: printing never fails. -/
theorem C63_any (Γ : Classes) (c : Nat) (h1 : (Γ c).printToStream = false) (h2 : (Γ c).iterable = false) (h3 : (Γ c).indexable = false)
    (h4 : (Γ c).ioTraits = none) (h5 : (Γ c).exportable = false) (it ix at_ : Vals) (cu cc pu : List Char) (by_ : List UInt8) :
    exportVariable Γ (.obj c it ix at_ cu cc pu by_) = (Γ c).typeName ++ ['('] ++
      List.intercalate [' '] (by_.map fun b => [(Nat.toDigits 16 (b.toNat / 16)), Nat.toDigits 16 (b.toNat % 16)].flatten) ++ [')'] := by
  have hex : ∀ n, n < 16 → [hexDigit false n] = Nat.toDigits 16 n := by decide +kernel
  have byte : ∀ b : UInt8, hexByte false b = [(Nat.toDigits 16 (b.toNat / 16)), Nat.toDigits 16 (b.toNat % 16)].flatten := by
    intro b
    have h : b.toNat < 256 := b.toNat_lt
    rw [← hex (b.toNat / 16) (by omega), ← hex (b.toNat % 16) (by omega)]
    rfl
  have all : ∀ l : List UInt8, hexBytes false l = List.intercalate [' '] (l.map fun b => hexByte false b) := by
    intro l
    match l with
    | [] => rfl
    | [b] => simp [hexBytes, List.intercalate]
    | b :: c :: r =>
      have ih : ∀ (b : UInt8) (l : List UInt8), hexBytes false (b :: l) = List.intercalate [' '] ((b :: l).map fun b => hexByte false b) := by
        intro b l
        induction l generalizing b with
        | nil => simp [hexBytes, List.intercalate]
        | cons c r ih =>
          rw [hexBytes, ih c]
          simp [List.intercalate]
      exact ih b (c :: r)
  have : exportVariable Γ (.obj c it ix at_ cu cc pu by_) = anyText (Γ c).typeName by_ := by
    simp [exportVariable, resolve, select_eq, h1, h2, h3, hasDefault, h4, h5, objectBy, print]
  rw [this, anyText, all]
  simp only [← byte]
  simp

example : exportVariable demo (.obj 5 .nil .nil .nil [] [] [] [1, 0xa2, 0]) = "1A(01 a2 00)".toList := by decide +kernel

/-- With `printf` the bytes of such an object are printed as well, in upper case and without the type: for a class that nothing is known
about the two outputs differ. -/
theorem C63_any_stdio (Γ : Classes) (c : Nat) (h1 : (Γ c).printToStream = false) (h2 : (Γ c).iterable = false) (h3 : (Γ c).indexable = false)
    (h4 : (Γ c).ioTraits = none) (h5 : (Γ c).exportable = false) (it ix at_ : Vals) (cu cc pu : List Char) (by_ : List UInt8) :
    stdio Γ (.obj c it ix at_ cu cc pu by_) = some (List.intercalate [' '] (by_.map fun b =>
      ((Nat.toDigits 16 (b.toNat / 16)) ++ Nat.toDigits 16 (b.toNat % 16)).map Char.toUpper)) ∧
    stdio Γ (.obj c it ix at_ cu cc pu by_) ≠ some (exportVariable Γ (.obj c it ix at_ cu cc pu by_)) := by
  have hex : ∀ n, n < 16 → [hexDigit true n] = (Nat.toDigits 16 n).map Char.toUpper := by decide +kernel
  have byte : ∀ b : UInt8, hexByte true b = ((Nat.toDigits 16 (b.toNat / 16)) ++ Nat.toDigits 16 (b.toNat % 16)).map Char.toUpper := by
    intro b
    have h : b.toNat < 256 := b.toNat_lt
    rw [List.map_append, ← hex (b.toNat / 16) (by omega), ← hex (b.toNat % 16) (by omega)]
    rfl
  have all : ∀ l : List UInt8, hexBytes true l = List.intercalate [' '] (l.map fun b => hexByte true b) := by
    intro l
    match l with
    | [] => rfl
    | b :: r =>
      induction r generalizing b with
      | nil => simp [hexBytes, List.intercalate]
      | cons c r ih =>
        rw [hexBytes, ih c]
        simp [List.intercalate]
  have h : stdio Γ (.obj c it ix at_ cu cc pu by_) = some (hexBytes true by_) := by
    simp [stdio, select_eq, h1, h2, h3, hasDefault, h4, h5, objectStdio]
  have no : ∀ l : List UInt8, '(' ∉ hexBytes true l := by
    have d : ∀ n : Nat, n < 16 → hexDigit true n ≠ '(' := by decide +kernel
    have b' : ∀ b : UInt8, '(' ∉ hexByte true b := by
      intro b hb
      have h : b.toNat < 256 := b.toNat_lt
      simp only [hexByte, List.mem_cons, List.not_mem_nil, or_false] at hb
      rcases hb with hb | hb
      · exact d _ (by omega) hb.symm
      · exact d _ (by omega) hb.symm
    intro l
    match l with
    | [] => simp [hexBytes]
    | b :: r =>
      induction r generalizing b with
      | nil => simpa [hexBytes] using b' b
      | cons c r ih =>
        rw [hexBytes]
        simp only [List.mem_append, List.mem_cons, not_or]
        exact ⟨b' b, by decide, ih c⟩
  refine ⟨by rw [h, all]; simp only [byte], ?_⟩
  rw [h, C63_any Γ c h1 h2 h3 h4 h5]
  intro e
  apply no by_
  rw [Option.some.inj e]
  simp

example : stdio demo (.obj 5 .nil .nil .nil [] [] [] [1, 0xa2, 0]) = some "01 A2 00".toList := by decide +kernel

/-- Traits that are bound to a variable take the place of the default traits of their classes, in all parts of the variable; of several
traits for one class the first ones. -/
theorem C63_bound (Γ : Classes) (ts : List TraitsOf) (v : Val) (h : v.unbound = true) :
    exportVariable Γ (.bound v ts) = exportVariable (Γ.withTraits ts) v := by
  simp only [exportVariable, resolve, resolve_bound Γ ts v h]

example : exportVariable demo (.bound (.pair demoObj (.obj 5 .nil .nil (.cons demoObj .nil) [] [] [] [])) [⟨5, [(['o'], 0)]⟩, ⟨1, [(['t'], 0)]⟩, ⟨1, []⟩]) =
    "{ { \"t\" : \"a\" }: { \"o\" : { \"t\" : \"a\" } }}".toList := by decide +kernel

/-- The same with `printf`. -/
theorem C63_bound_stdio (Γ : Classes) (ts : List TraitsOf) (v : Val) (h : v.unbound = true) :
    stdio Γ (.bound v ts) = stdio (Γ.withTraits ts) v := by
  simp only [stdio, stdio_bound Γ ts v h]

example : stdio demo (.bound demoObj [⟨1, [(['t'], 0)]⟩]) = some "{ \"t\" : \"a\" }".toList := by decide +kernel

/-- Traits bound to a part of a variable replace all the traits that are bound to the variable. -/
theorem C63_nested (Γ : Classes) (ts us : List TraitsOf) (v : Val) : exportVariable Γ (.bound (.bound v us) ts) = exportVariable Γ (.bound v us) ∧
    stdio Γ (.bound (.bound v us) ts) = stdio Γ (.bound v us) := by
  simp only [exportVariable, resolve, resolveBound, stdio, stdioBound, and_self]

/-- The text of a variable is the JSON value that stands for it. -/
theorem C63_json (Γ : Classes) (v : Val) (j : J) (h : Says Γ v j) : parse (exportVariable Γ v) = some j := by
  obtain ⟨h1, h2⟩ := says_resolve Γ h
  unfold exportVariable
  rw [← h2]
  exact parse_means (means_print _ h1)

example : Says demo demoObj (.obj [(['r'], .arr [.num ['1'], .num ['-', '2']]), (['n'], .text ['a'])]) := by
  have hu : ∀ c : Char, c ∈ ['r', 'n', 'a'] → Unescaped [c] := by
    intro c hc d hd
    simp only [List.mem_singleton] at hd
    subst hd
    simp only [List.mem_cons, List.not_mem_nil, or_false] at hc
    rcases hc with rfl | rfl | rfl <;> decide
  refine .members (es := [(['r'], 1), (['n'], 0)]) (at_ := .cons (.string ['a']) (.cons demoVec .nil))
    (mvs := [(['r'], demoVec), (['n'], .string ['a'])]) rfl rfl rfl rfl rfl ?_ .nil .nil [] [] ['?'] []
  refine .cons (hu 'r' (by decide)) ?_ (.cons (hu 'n' (by decide)) (.string (hu 'a' (by decide))) .nil)
  exact .iter rfl rfl (.cons (.int rfl 1) (.cons (.int rfl (-2)) .nil)) _ _ _ _ _ _

/-- With `printf` the same text is printed, for variables whose parts are bools, `short`, `int`, `long long`, floating point numbers, texts,
containers, pairs, tuples and classes with traits or with the same `PrintTo` twice. (Missing: the types of the violated claims.) -/
theorem C63_stdio_partial (Γ : Classes) (v : Val) (h : v.sameStdio Γ) : stdio Γ v = some (exportVariable Γ v) :=
  same_stdio Γ v h

example : demoObj.sameStdio demo := by
  simp [demoObj, demoVec, Val.sameStdio, Vals.sameStdio, demo, Num.sameStdio, Vals.toList]

/-- With bound traits. -/
theorem C63_stdio_bound_partial (Γ : Classes) (ts : List TraitsOf) (v : Val) (hv : v.unbound = true) (h : v.sameStdio (Γ.withTraits ts)) :
    stdio Γ (.bound v ts) = some (exportVariable Γ (.bound v ts)) := by
  rw [C63_bound Γ ts v hv, C63_bound_stdio Γ ts v hv]
  exact same_stdio _ v h

example : demoObj.sameStdio (demo.withTraits [⟨1, [(['t'], 0)]⟩]) := by
  simp [demoObj, demoVec, Val.sameStdio, Vals.sameStdio, demo, Num.sameStdio, Vals.toList, Classes.withTraits]

/-- Violated: an array of characters (not a pointer) is put without quotes, which is not JSON. -/
theorem C63_char_array_violated : exportVariable demo (.charArray ['a', 'b']) = ['a', 'b'] ∧ parse (exportVariable demo (.charArray ['a', 'b'])) = none := by
  decide +kernel

/-- Violated: with `printf`, `true` is printed for every array of characters. -/
theorem C63_char_array_stdio_violated (Γ : Classes) (s : List Char) : stdio Γ (.charArray s) = some "true".toList := by
  have : "true".toList = ['t', 'r', 'u', 'e'] := by decide +kernel
  rw [this]
  simp [stdio, select_charArray, textStdio]

/-- Violated: `signed char` and `unsigned char` (`int8_t`, `uint8_t`) are put as a character, which is not JSON; `printf` prints the number. -/
theorem C63_byte_violated : exportVariable demo (.int .unsignedChar 65) = ['A'] ∧ parse (exportVariable demo (.int .unsignedChar 65)) = none ∧
    stdio demo (.int .unsignedChar 65) = some ['6', '5'] := by
  decide +kernel

/-- Violated: with `printf`, `unsigned int` gets a `d`, and `long`, `unsigned long` (`size_t`) and containers of them do not compile. -/
theorem C63_unsigned_violated : stdio demo (.int .unsigned 7) = some ['7', 'd'] ∧ exportVariable demo (.int .unsigned 7) = ['7'] ∧
    stdio demo (.int .unsignedLong 7) = none ∧
    stdio demo (.obj 0 (.cons (.int .unsignedLong 7) .nil) .nil .nil [] [] [] []) = none := by
  decide +kernel

/-- Violated: a class with `<<` alone does not compile with `printf`, nor one that has only the `PrintTo` for streams. -/
theorem C63_class_stdio_violated (Γ : Classes) (c : Nat) (it ix at_ : Vals) (cu cc pu : List Char) (by_ : List UInt8)
    (h : ((Γ c).printToStream = true ∧ (Γ c).printToStdio = false) ∨
      ((Γ c).printToStream = false ∧ (Γ c).iterable = false ∧ (Γ c).indexable = false ∧ (Γ c).ioTraits = none ∧ (Γ c).exportable = true)) :
    stdio Γ (.obj c it ix at_ cu cc pu by_) = none := by
  rcases h with ⟨h1, h2⟩ | ⟨h1, h2, h3, h4, h5⟩
  · simp [stdio, select_eq, h1, objectStdio, h2]
  · simp [stdio, select_eq, h1, h2, h3, h4, h5, hasDefault, objectStdio]

example : (demo 4).printToStream = false ∧ (demo 4).iterable = false ∧ (demo 4).indexable = false ∧ (demo 4).ioTraits = none ∧
    (demo 4).exportable = true := by decide

/-- Violated: traits bound to a variable are forgotten in parts to which other traits are bound. -/
theorem C63_nested_violated : exportVariable demo (.bound (.bound (.tuple (.cons demoObj .nil)) [⟨5, [(['o'], 0)]⟩]) [⟨1, [(['t'], 0)]⟩]) ≠
    exportVariable demo (.bound (.tuple (.cons demoObj .nil)) [⟨5, [(['o'], 0)]⟩, ⟨1, [(['t'], 0)]⟩]) := by
  decide +kernel

end GTMesh.Export
