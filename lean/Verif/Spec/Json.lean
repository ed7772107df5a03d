/-!
# JSON texts (RFC 8259)

An executable grammar, independent of the code. `\u` escapes are left out: such a text is rejected here.
-/

namespace GTMesh.Json

/-- A JSON value; a number is kept as its characters. -/
inductive J where
  | num (s : List Char)
  | bool (b : Bool)
  | null
  | text (s : List Char)
  | arr (l : List J)
  | obj (l : List (List Char × J))

/-- White space. -/
def isWs (c : Char) : Bool := c = ' ' || c = '\n' || c = '\t' || c = '\r'

/-- Characters that numbers are made of. -/
def isNumChar (c : Char) : Bool := c.isDigit || c = '-' || c = '+' || c = '.' || c = 'e' || c = 'E'

/-- Skips white space. -/
def skip (s : List Char) : List Char := s.dropWhile isWs

/-- One digit or more, nothing else. -/
def digits (s : List Char) : Bool := !s.isEmpty && s.all Char.isDigit

/-- An optional sign. -/
def dropSign : List Char → List Char
  | '-' :: s => s
  | '+' :: s => s
  | s => s

/-- `int` of the grammar: `0`, or digits that do not begin with `0`. -/
def isInt (s : List Char) : Bool := digits s && (s.head? ≠ some '0' || s.length = 1)

/-- `int [frac] [exp]` -/
def isUnsigned (s : List Char) : Bool :=
  let mant := s.takeWhile fun c => !(c = 'e' || c = 'E')
  let exp := s.dropWhile fun c => !(c = 'e' || c = 'E')
  let int := mant.takeWhile (· ≠ '.')
  let frac := mant.dropWhile (· ≠ '.')
  isInt int && (frac.isEmpty || digits frac.tail) && (exp.isEmpty || digits (dropSign exp.tail))

/-- `number = [minus] int [frac] [exp]` -/
def isNumber : List Char → Bool
  | '-' :: s => isUnsigned s
  | s => isUnsigned s

/-- The character that an escape stands for. -/
def unescape (c : Char) : Option Char :=
  if c = '"' then some '"' else if c = '\\' then some '\\' else if c = '/' then some '/'
  else if c = 'n' then some '\n' else if c = 't' then some '\t' else if c = 'r' then some '\r'
  else if c = 'b' then some '\x08' else if c = 'f' then some '\x0c' else none

/-- The rest of a string behind its opening quote: the string and what follows. -/
def string : List Char → Option (List Char × List Char)
  | [] => none
  | c :: r =>
    if c = '"' then some ([], r)
    else if c = '\\' then
      match r with
      | [] => none
      | d :: r' => (unescape d).bind fun e => (string r').map fun p => (e :: p.1, p.2)
    else if c.toNat < 32 then none
    else (string r).map fun p => (c :: p.1, p.2)

/-- The text behind `c`, after white space. -/
def expect (c : Char) (s : List Char) : Option (List Char) :=
  match skip s with
  | d :: r => if d = c then some r else none
  | [] => none

mutual
/-- A value and the text behind it. The first argument bounds the depth of the recursion. -/
def value : Nat → List Char → Option (J × List Char)
  | 0, _ => none
  | n + 1, s =>
    match skip s with
    | [] => none
    | c :: r =>
      if c = '"' then (string r).map fun p => (.text p.1, p.2)
      else if c = '[' then
        match expect ']' r with
        | some r' => some (.arr [], r')
        | none => (elems n r).map fun p => (.arr p.1, p.2)
      else if c = '{' then
        match expect '}' r with
        | some r' => some (.obj [], r')
        | none => (members n r).map fun p => (.obj p.1, p.2)
      else if ['t', 'r', 'u', 'e'].isPrefixOf (c :: r) then some (.bool true, r.drop 3)
      else if ['f', 'a', 'l', 's', 'e'].isPrefixOf (c :: r) then some (.bool false, r.drop 4)
      else if ['n', 'u', 'l', 'l'].isPrefixOf (c :: r) then some (.null, r.drop 3)
      else if isNumber ((c :: r).takeWhile isNumChar) then
        some (.num ((c :: r).takeWhile isNumChar), (c :: r).dropWhile isNumChar)
      else none
/-- Elements up to `]`. -/
def elems : Nat → List Char → Option (List J × List Char)
  | 0, _ => none
  | n + 1, s =>
    (value n s).bind fun p =>
      match expect ',' p.2 with
      | some r => (elems n r).map fun q => (p.1 :: q.1, q.2)
      | none => (expect ']' p.2).map fun r => ([p.1], r)
/-- Members up to `}`. -/
def members : Nat → List Char → Option (List (List Char × J) × List Char)
  | 0, _ => none
  | n + 1, s =>
    (expect '"' s).bind fun s => (string s).bind fun k => (expect ':' k.2).bind fun s => (value n s).bind fun p =>
      match expect ',' p.2 with
      | some r => (members n r).map fun q => ((k.1, p.1) :: q.1, q.2)
      | none => (expect '}' p.2).map fun r => ([(k.1, p.1)], r)
end

/-- The whole text is one JSON value. -/
def parse (s : List Char) : Option J :=
  (value (s.length + 1) s).bind fun p => if (skip p.2).isEmpty then some p.1 else none

end GTMesh.Json
