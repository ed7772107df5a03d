import Verif.Spec.JsonLog
import Verif.Model.HtmlLog

/-!
# What an HTML log should say

The script of the document sets a variable to an array literal of JavaScript.  `jsArray` reads such a literal whose
elements are rows `[number, number, 'text', 'text', value]`; a last comma is allowed.  Values are those of JSON.
-/

namespace GTMesh.HtmlLog

open Json
open JsonLog (LVal Loggable json)

/-- A row of the array. -/
structure Row where
  group : List Char
  line : List Char
  file : List Char
  name : List Char
  value : J

/-- The character that an escape in a text of JavaScript stands for: those of JSON, `\'`, and other characters stand for themselves.
Escapes with digits, `u`, `x`, `v` and continued lines are left out. -/
def jsUnescape (c : Char) : Option Char :=
  if c = '\'' then some '\'' else if (unescape c).isSome then unescape c
  else if c.isDigit || c = 'u' || c = 'x' || c = 'v' || c.toNat < 32 then none else some c

/-- The rest of a text behind its opening `'`: the text and what follows. Ends of line are not allowed. -/
def jsString : List Char → Option (List Char × List Char)
  | [] => none
  | c :: r =>
    if c = '\'' then some ([], r)
    else if c = '\\' then
      match r with
      | [] => none
      | d :: r' => (jsUnescape d).bind fun e => (jsString r').map fun p => (e :: p.1, p.2)
    else if c = '\n' ∨ c = '\r' then none
    else (jsString r).map fun p => (c :: p.1, p.2)

/-- A number and what follows. -/
def jsNumber (s : List Char) : Option (List Char × List Char) :=
  if isNumber ((skip s).takeWhile isNumChar) then some ((skip s).takeWhile isNumChar, (skip s).dropWhile isNumChar) else none

/-- A row and what follows. -/
def jsRow (fuel : Nat) (s : List Char) : Option (Row × List Char) :=
  (expect '[' s).bind fun s => (jsNumber s).bind fun g => (expect ',' g.2).bind fun s => (jsNumber s).bind fun l =>
  (expect ',' l.2).bind fun s => (expect '\'' s).bind fun s => (jsString s).bind fun f =>
  (expect ',' f.2).bind fun s => (expect '\'' s).bind fun s => (jsString s).bind fun n =>
  (expect ',' n.2).bind fun s => (value fuel s).bind fun v => (expect ']' v.2).map fun r => (⟨g.1, l.1, f.1, n.1, v.1⟩, r)

/-- Rows up to `]`. The first argument bounds the number of rows and the depth of the values. -/
def jsRows : Nat → List Char → Option (List Row × List Char)
  | 0, _ => none
  | n + 1, s =>
    match expect ']' s with
    | some r => some ([], r)
    | none => (jsRow n s).bind fun p =>
      match expect ',' p.2 with
      | some r => (jsRows n r).map fun q => (p.1 :: q.1, q.2)
      | none => (expect ']' p.2).map fun r => ([p.1], r)

/-- The whole text is an array of rows. -/
def jsArray (s : List Char) : Option (List Row) :=
  (expect '[' s).bind fun r => (jsRows (s.length + 1) r).bind fun p => if (skip p.2).isEmpty then some p.1 else none

/-- The rows of a call. -/
def rowsOf (group line : Nat) (path : List Char) (xs : List (List Char × LVal)) : List Row :=
  xs.map fun x => ⟨Nat.toDigits 10 group, Nat.toDigits 10 line, path, x.1, json x.2⟩

/-- Characters that stand for themselves in a text of JavaScript. -/
def Plain (s : List Char) : Prop := ∀ c ∈ s, c ≠ '\'' ∧ c ≠ '\\' ∧ 32 ≤ c.toNat

/-- Calls for which the log is right: with their place, a path without `'`, names without `'` and backslash. -/
def GoodCall : Call → Prop
  | .vars _ _ => False
  | .at_ _ path n v rest => (∀ c ∈ path, c ≠ '\'' ∧ 32 ≤ c.toNat) ∧ ∀ x ∈ (n, v) :: rest, Plain x.1 ∧ Loggable x.2

/-- One row for each variable, in order; the variables of one call share a group. -/
def rows : Nat → List Call → List Row
  | _, [] => []
  | g, .vars _ _ :: cs => rows g cs
  | g, .at_ line path n v rest :: cs => rowsOf g line path ((n, v) :: rest) ++ rows (g + 1) cs

end GTMesh.HtmlLog
