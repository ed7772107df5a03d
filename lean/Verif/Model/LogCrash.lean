import Verif.Model.HtmlLog

/-!
# What is on the disk when a program ends in the middle of a log

The functions of JSONLogger.h and HTMLLogger.h again, now with the operations on the stream: what is put, and `flush`. Of what was put since the
last `flush`, the stream may have passed any part to the disk.

Simplifications: a file that has not been opened is taken for an empty one; several `<<` behind each other are one `put`; the end of the program
(a signal, `abort`) does not run destructors.
-/

namespace GTMesh.LogCrash

/-- An operation on `*logFile`. -/
inductive Op where
  /-- `(*logFile) << text` -/
  | put (text : List Char)
  /-- `logFile->flush()`, `logFile->close()` -/
  | flush
  deriving DecidableEq, Repr

/-- The file: all that was put, and what is on the disk in any case. -/
structure File where
  sent : List Char := []
  kept : List Char := []

/-- One operation. -/
def File.step (f : File) : Op → File
  | .put t => { f with sent := f.sent ++ t }
  | .flush => { f with kept := f.sent }

/-- All operations. -/
def after (ops : List Op) : File := ops.foldl File.step {}

/-- The program ends after at least `n` of the operations, between two of them or in the middle of one: `d` may be on the disk. -/
def CrashAfter (n : Nat) (ops : List Op) (d : List Char) : Prop :=
  ∃ k, n ≤ k ∧ (after (ops.take k)).kept <+: d ∧ d <+: (after (ops.take (k + 1))).sent

/-- A function of a logger with its operations. -/
abbrev Traced (Λ : Type) := Λ → Res (List Op × Λ)

/-- One after the other. -/
def Traced.seq {Λ : Type} (F G : Traced Λ) : Traced Λ := fun l => (F l).bind fun p => (G p.2).bind fun q => .ok (p.1 ++ q.1, q.2)

/-- Nothing is put. -/
def quiet {Λ : Type} (f : Λ → Λ) : Traced Λ := fun l => .ok ([], f l)

/-- `logFile->flush()` -/
def flush {Λ : Type} : Traced Λ := fun l => .ok ([.flush], l)

end GTMesh.LogCrash

namespace GTMesh.JsonLog
open LogCrash

/-- `if (!logFile) create(logFileName.c_str());`, the header: JSONLogger.h:43-51 -/
def ensureT : Traced Logger := fun l =>
  match l.logFile with
  | .null => (create l.logFileName l).bind fun l' => .ok ([.put headerText], l')
  | _ => .ok ([], l)

/-- `(*logFile) << text` -/
def putT (text : List Char) : Traced Logger := fun l => (put text l).bind fun l' => .ok ([.put text], l')

/-- `if (!firstWrite) (*logFile) << ",\n"; else firstWrite = false;` -/
def commaT : Traced Logger := fun l => if l.firstWrite = false then putT [',', '\n'] l else .ok ([], { l with firstWrite := false })

/-- `writeVar(name, value)`, JSONLogger.h:77-94: the last statement is a `flush`. -/
def writeOneT (name : List Char) (v : LVal) : Traced Logger :=
  ensureT.seq (commaT.seq ((putT ("\t{\n\t\t\"expr\" : ".toList ++ quoted name ++ ",\n\t\t\"data\" : ".toList ++ print v ++ ['\n', '}'])).seq flush))

/-- `writeVar(name, value, rest...)`, JSONLogger.h:65-73 -/
def writeVarsT (name : List Char) (v : LVal) : List (List Char × LVal) → Traced Logger
  | [] => writeOneT name v
  | (n', v') :: rest => ensureT.seq ((writeOneT name v).seq (writeVarsT n' v' rest))

/-- `writeVar(line, cppFile, name, value, rest...)`, JSONLogger.h:97-142: no `flush`. -/
def writeLocatedT (line : Nat) (cppFile name : List Char) (v : LVal) : List (List Char × LVal) → Traced Logger
  | [] => ensureT.seq (commaT.seq (Traced.seq (fun l => putT (located l.groupIndex line cppFile name v) l)
      (quiet fun l => { l with groupIndex := l.groupIndex + 1 })))
  | (n', v') :: rest => ensureT.seq (commaT.seq (Traced.seq (fun l => putT (located l.groupIndex line cppFile name v) l)
      (writeLocatedT line cppFile n' v' rest)))

/-- One call. -/
def callT : Call → Traced Logger
  | .vars n v rest => writeVarsT n v rest
  | .at_ line path n v rest => fun l => (doubleBackSlash path).bind fun p => writeLocatedT line p n v rest l

/-- A sequence of calls. -/
def callsT : List Call → Traced Logger
  | [] => quiet id
  | c :: cs => (callT c).seq (callsT cs)

/-- `destroy`, JSONLogger.h:53-61 -/
def destroyT : Traced Logger := fun l =>
  (destroy l).bind fun l' => .ok (match l.logFile with | .opened _ _ => [.put ['\n', ']', '\n', '}'], .flush] | _ => [], l')

/-- The life of a logger: constructor, calls, destructor. -/
def sessionT (fileName : List Char) (cs : List Call) : Res (List Op × Logger) := ((callsT cs).seq destroyT) (Logger.new fileName)

end GTMesh.JsonLog

namespace GTMesh.HtmlLog
open LogCrash
open JsonLog (LVal)

/-- `if (!logFile) create(logFileName.c_str());`, HTMLLogger.h:45-54 -/
def ensureT : Traced Logger := fun l =>
  match l.logFile with
  | .null => (create l.logFileName l).bind fun l' => .ok ([.put scriptText], l')
  | _ => .ok ([], l)

/-- `(*logFile) << text` -/
def putT (text : List Char) : Traced Logger := fun l => (put text l).bind fun l' => .ok ([.put text], l')

/-- `writeVar(name, value, ...)`, HTMLLogger.h:66-86: every variable is followed by a `flush`. -/
def writeVarsT : List (List Char × List Char) → Traced Logger
  | [] => quiet id
  | x :: xs => ensureT.seq ((putT (x.1 ++ [',', ' '] ++ x.2)).seq (flush.seq (writeVarsT xs)))

/-- `writeVar(line, cppFile, name, value, rest...)`, HTMLLogger.h:89-113: no `flush`. -/
def writeLocatedT (line : Nat) (cppFile name : List Char) (v : LVal) : List (List Char × LVal) → Traced Logger
  | [] => ensureT.seq (Traced.seq (fun l => putT (row l.groupIndex line cppFile name v) l) (quiet fun l => { l with groupIndex := l.groupIndex + 1 }))
  | (n', v') :: rest => ensureT.seq (Traced.seq (fun l => putT (row l.groupIndex line cppFile name v) l) (writeLocatedT line cppFile n' v' rest))

/-- One call. -/
def callT : Call → Traced Logger
  | .vars x rest => writeVarsT (x :: rest)
  | .at_ line path n v rest => writeLocatedT line (escapePath path) n v rest

/-- A sequence of calls. -/
def callsT : List Call → Traced Logger
  | [] => quiet id
  | c :: cs => (callT c).seq (callsT cs)

/-- `destroy`, HTMLLogger.h:56-62 -/
def destroyT : Traced Logger := fun l =>
  (destroy l).bind fun l' => .ok (match l.logFile with | .opened _ _ => [.put (endText ++ documentTail.toList), .flush] | _ => [], l')

/-- The life of a logger: constructor, calls, destructor. -/
def sessionT (fileName : List Char) (cs : List Call) : Res (List Op × Logger) := ((callsT cs).seq destroyT) (Logger.new fileName)

end GTMesh.HtmlLog
