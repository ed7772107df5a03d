import Verif.Spec.ConsoleLog
import Verif.Model.ConsoleLog

/-!
# What a console log should say
-/

namespace GTMesh.ConsoleLog
open JsonLog (LVal print)

/-- The name of a file without its directories. -/
def baseName (path : List Char) : List Char := (path.reverse.takeWhile fun c => c ≠ '/').reverse

/-- How a file is named in the log. -/
def shownFile (s : Settings) (path : List Char) : List Char := if s.onlyFilename = true then baseName path else path

/-- How a function is named in the log. -/
def shownFunction (s : Settings) (func : List Char) : Option (List Char) := if s.printFunction = true then some func else none

/-- What a call has to add to the log: an entry for each variable or message, in the order of the arguments. -/
def entries (s : Settings) : Call → List Entry
  | .vars line func file name v rest => ((name, v) :: rest).map fun x => .var (shownFile s file) line (shownFunction s func) x.1 (print x.2)
  | .msgs mark line func file m rest => (m :: rest).map fun x => .msg mark (shownFile s file) line (shownFunction s func) (print x)
  | _ => []

/-- How the log of a logger with given settings is read. -/
def layout (s : Settings) : Layout where
  withFunction := s.printFunction
  below := s.printAggregated
  indent := s.identation

/-- A text without ends of line and ESC. -/
def Inline (t : List Char) : Prop := ∀ c ∈ t, c ≠ '\n' ∧ c ≠ '\x1b'

/-- An indentation that is not mistaken for something else. -/
def GoodIndent (t : List Char) : Prop := Inline t ∧ ∀ c, t.head? = some c → c ≠ '=' ∧ c ≠ '+' ∧ c ≠ '-' ∧ c ≠ '!'

/-- Places that can be read back. -/
def GoodPlace (func file : List Char) : Prop := Inline func ∧ ¬ ['>', ' '] <:+: func ∧ Inline file ∧ ':' ∉ file

/-- Calls that write, with texts that can be read back. -/
def GoodCall : Call → Prop
  | .vars _ func file name v rest => GoodPlace func file ∧ ∀ x ∈ (name, v) :: rest, Inline x.1 ∧ ¬ [' ', ']', ']'] <:+: x.1 ∧ Inline (print x.2)
  | .msgs mark _ func file m rest => (mark = ['+', '+'] ∨ mark = ['-', '-'] ∨ mark = ['!', '!']) ∧ GoodPlace func file ∧ ∀ x ∈ m :: rest, Inline (print x)
  | _ => False

end GTMesh.ConsoleLog
