import Verif.Spec.Numeral

/-!
# Reading a console log

Without its escape sequences a log is a list of lines:

    == file:line <function>
    ||     [[ name ]] ==> value

is how variables are shown below the place they come from,

    == file:line <function>  [[ name ]] ==> value

how they are shown one by one, and

    ++file:line <function> ==> message <==

how a message is shown, the first characters are `++`, `--` or `!!`.  The function may be left out.
-/

namespace GTMesh.ConsoleLog
open Numeral

/-- What a log says. -/
inductive Entry where
  | var (file : List Char) (line : Nat) (func : Option (List Char)) (name value : List Char)
  | msg (mark : List Char) (file : List Char) (line : Nat) (func : Option (List Char)) (text : List Char)
  deriving DecidableEq, Repr

/-- The text without the escape sequences of a terminal: ESC and everything up to the next `m` (the argument says whether we
are inside of a sequence). -/
def uncolored : Bool → List Char → List Char
  | _, [] => []
  | false, c :: r => if c = '\x1b' then uncolored true r else c :: uncolored false r
  | true, c :: r => if c = 'm' then uncolored false r else uncolored true r

/-- The lines of a text; what follows the last end of line does not count as a line (and has to be empty). -/
def linesOf (cur : List Char) : List Char → Option (List (List Char))
  | [] => if cur = [] then some [] else none
  | c :: r => if c = '\n' then (linesOf [] r).map (cur :: ·) else linesOf (cur ++ [c]) r

/-- The rest behind a given beginning. -/
def behind : List Char → List Char → Option (List Char)
  | [], s => some s
  | p :: ps, c :: s => if p = c then behind ps s else none
  | _ :: _, [] => none

/-- What is before and behind the first `sep`. -/
def cut (sep : List Char) : List Char → Option (List Char × List Char)
  | [] => if sep = [] then some ([], []) else none
  | c :: s =>
    match behind sep (c :: s) with
    | some r => some ([], r)
    | none => (cut sep s).map fun p => (c :: p.1, p.2)

/-- A number and the rest. -/
def number (s : List Char) : Option (Nat × List Char) :=
  if (takeDigits s).1 = [] then none else some (natOf (takeDigits s).1, (takeDigits s).2)

/-- A place: file, line, function (if it is shown) and the rest. -/
def place (withFunction : Bool) (s : List Char) : Option (List Char × Nat × Option (List Char) × List Char) :=
  (cut [':'] s).bind fun p => (number p.2).bind fun q =>
    if withFunction then (behind [' ', '<'] q.2).bind fun r => (cut ['>', ' '] r).map fun t => (p.1, q.1, some t.1, t.2)
    else some (p.1, q.1, none, q.2)

/-- `[[ name ]] ==> value` -/
def shownVar (s : List Char) : Option (List Char × List Char) :=
  (behind ['[', '[', ' '] s).bind fun r => (cut [' ', ']', ']'] r).bind fun p => (behind [' ', '=', '=', '>', ' '] p.2).map fun v => (p.1, v)

/-- `==> message <==` -/
def message (s : List Char) : Option (List Char) :=
  (behind ['=', '=', '>', ' '] s).bind fun r => (behind ['=', '=', '<', ' '] r.reverse).map List.reverse

/-- How a log is to be read. -/
structure Layout where
  /-- the functions are shown -/
  withFunction : Bool
  /-- variables are shown below their place -/
  below : Bool
  /-- what is in front of a variable that is shown below its place -/
  indent : List Char

/-- The place that holds for the following variables. -/
abbrev Here := Option (List Char × Nat × Option (List Char))

/-- A line: the place for the following lines and what it says. -/
def readLine (y : Layout) (here : Here) (s : List Char) : Option (Here × List Entry) :=
  match s with
  | '=' :: '=' :: ' ' :: r =>
    (place y.withFunction r).bind fun p =>
      if y.below then (if p.2.2.2 = [] then some (some (p.1, p.2.1, p.2.2.1), []) else none)
      else (behind [' '] p.2.2.2).bind fun t => (shownVar t).map fun v => (none, [.var p.1 p.2.1 p.2.2.1 v.1 v.2])
  | a :: b :: r =>
    if a = b ∧ (a = '+' ∨ a = '-' ∨ a = '!') then
      (place y.withFunction r).bind fun p => (message p.2.2.2).map fun m => (none, [.msg [a, b] p.1 p.2.1 p.2.2.1 m])
    else below s
  | _ => below s
where
  below (s : List Char) : Option (Here × List Entry) :=
    if y.below then here.bind fun h => (behind y.indent s).bind fun t => (shownVar t).map fun v => (here, [.var h.1 h.2.1 h.2.2 v.1 v.2])
    else none

/-- All lines. -/
def readLines (y : Layout) : Here → List (List Char) → Option (List Entry)
  | _, [] => some []
  | here, s :: r => (readLine y here s).bind fun p => (readLines y p.1 r).map (p.2 ++ ·)

/-- What a log says. -/
def readLog (y : Layout) (s : List Char) : Option (List Entry) := (linesOf [] (uncolored false s)).bind (readLines y none)

end GTMesh.ConsoleLog
