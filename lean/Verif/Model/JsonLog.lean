import Verif.Base
import Verif.Model.EdgeTable

/-!
# JSON log (Debug/JSONLogger.h, Debug/VariableExport.h, Debug/Printers)

A text is a list of characters.  The file is the list of characters that were sent to it; opening it is assumed to
succeed.  `std::ostream` puts numbers, `true` and `false`: `LVal.plain` carries the characters that are put.
`PrintCustom` (functions of the user) and `PrintAny` (bytes of an unknown type) are not modelled.
`int groupIndex` and `int line` are natural numbers here, overflow is not modelled.
-/

namespace GTMesh.JsonLog

mutual
/-- A logged value, one constructor for each printer that `VariableExport::exportVariable` selects,
VariableExport.h:113-118. -/
inductive LVal where
  /-- `PrintExportable`: a number or a bool; the characters that `ost << var` puts -/
  | plain (put : List Char)
  /-- `PrintText`: `std::string`, `char*`, `char` -/
  | text (s : List Char)
  /-- `PrintIterable` and `PrintIndexable`: containers, vectors -/
  | list (elems : LVals)
  /-- `PrintTuple`, `std::tuple` -/
  | tuple (elems : LVals)
  /-- `PrintTuple`, `std::pair` -/
  | pair (first second : LVal)
  /-- `PrintTraitedClass`: the members in the order of the traits -/
  | obj (members : Members)
/-- Elements. -/
inductive LVals where
  | nil
  | cons (v : LVal) (vs : LVals)
/-- Named members. -/
inductive Members where
  | nil
  | cons (name : List Char) (v : LVal) (ms : Members)
end

/-- `PrintText::print`, PrintText.h:16-18: no character is escaped. -/
def printText (s : List Char) : List Char := '"' :: s ++ ['"']

mutual
/-- `VariableExport::exportVariable(ost, var)`. -/
def print : LVal → List Char
  | .plain put => put
  | .text s => printText s
  | .list es => ['[', ' '] ++ printElems es ++ [' ', ']']
  | .tuple es => ['[', ' '] ++ printElems es ++ [']']
  | .pair a b => ['{', ' '] ++ print a ++ [':', ' '] ++ print b ++ ['}']
  | .obj ms => ['{', ' '] ++ printMembers ms ++ [' ', '}']
/-- The loops of PrintIterable.h:13-23 (`if (++it != list.end()) ost << ", "`), PrintIndexable.h:10-21 and
PrintTuple.h (`PrintTupleExec::exec`): the separator goes behind every element but the last one. -/
def printElems : LVals → List Char
  | .nil => []
  | .cons v vs => print v ++ separated vs
/-- The rest of the loop behind an element. -/
def separated : LVals → List Char
  | .nil => []
  | .cons v vs => [',', ' '] ++ print v ++ separated vs
/-- `PrintTraitedClass::PrintClass::print`, PrintTraitedClass.h:9-14, 40-43: the member, then `", "` and the next
one unless the index is the last one. -/
def printMembers : Members → List Char
  | .nil => []
  | .cons name v ms => '"' :: name ++ ['"', ' ', ':', ' '] ++ print v ++ separatedMembers ms
/-- The rest of the members. -/
def separatedMembers : Members → List Char
  | .nil => []
  | .cons name v ms => [',', ' '] ++ ('"' :: name ++ ['"', ' ', ':', ' '] ++ print v) ++ separatedMembers ms
end

/-- `std::quoted(name)` on an output stream: quotes and backslashes get a backslash. -/
def escape : List Char → List Char
  | [] => []
  | c :: cs => if c = '"' ∨ c = '\\' then '\\' :: c :: escape cs else c :: escape cs

/-- `std::quoted(name)` -/
def quoted (s : List Char) : List Char := '"' :: escape s ++ ['"']

/-- `res.find("\\", pos)` -/
def findFrom (s : List Char) (pos : Nat) : Option Nat := ((s.drop pos).findIdx? (· = '\\')).map (· + pos)

/-- The loop of `doubleBackSlash`, JSONLogger.h:154-156. The first argument bounds the number of rounds. -/
def doubleLoop : Nat → List Char → Nat → Res (List Char)
  | 0, _, _ => .diverge
  | fuel + 1, res, pos =>
    match findFrom res (pos + 2) with
    | none => .ok res
    | some p => doubleLoop fuel (res.take p ++ ['\\', '\\'] ++ res.drop (p + 1)) p

/-- `doubleBackSlash`, JSONLogger.h:152-159 -/
def doubleBackSlash (s : List Char) : Res (List Char) := doubleLoop (s.length + 1) s 0

/-- The state of the `std::ofstream*` and what is in the files. -/
inductive Handle where
  /-- `logFile == nullptr` -/
  | null
  /-- the stream is open, with the name of the file and what was sent to it -/
  | opened (name out : List Char)
  /-- the pointer refers to a deleted stream -/
  | dangling
  deriving DecidableEq, Repr

/-- `JSONLogger`, JSONLogger.h:14-19, and the files that were closed. -/
structure Logger where
  logFileName : List Char := []
  logFile : Handle := .null
  groupIndex : Nat := 0
  firstWrite : Bool := true
  /-- the closed files, the latest first -/
  closed : List (List Char × List Char) := []
  deriving DecidableEq, Repr

/-- `JSONLogger(const char* fileName)`, JSONLogger.h:29-32 -/
def Logger.new (fileName : List Char) : Logger := { logFileName := fileName }

/-- `"{\n\"logs\":[\n"` -/
def headerText : List Char := ['{', '\n', '"', 'l', 'o', 'g', 's', '"', ':', '[', '\n']

/-- `create`, JSONLogger.h:43-51. The state in which the pointer is dangling is used: undefined behaviour. -/
def create (fileName : List Char) (l : Logger) : Res Logger :=
  match l.logFile with
  | .null => .ok { l with firstWrite := true, logFile := .opened fileName headerText }
  | .opened n out => .ok { l with firstWrite := true, logFile := .opened fileName headerText, closed := (n, out) :: l.closed }
  | .dangling => .ub

/-- `destroy`, JSONLogger.h:53-61; `logFile` is not reset after `delete`. -/
def destroy (l : Logger) : Res Logger :=
  match l.logFile with
  | .null => .ok l
  | .opened n out => .ok { l with logFile := .dangling, closed := (n, out ++ ['\n', ']', '\n', '}']) :: l.closed }
  | .dangling => .ub

/-- `if (!logFile) create(logFileName.c_str());` -/
def ensure (l : Logger) : Res Logger :=
  match l.logFile with
  | .null => create l.logFileName l
  | _ => .ok l

/-- `(*logFile) << text` -/
def put (text : List Char) (l : Logger) : Res Logger :=
  match l.logFile with
  | .opened n out => .ok { l with logFile := .opened n (out ++ text) }
  | _ => .ub

/-- `if (!firstWrite) (*logFile) << ",\n"; else firstWrite = false;` -/
def comma (l : Logger) : Res Logger :=
  if l.firstWrite = false then put [',', '\n'] l else .ok { l with firstWrite := false }

/-- `writeVar(name, value)`, JSONLogger.h:77-94 -/
def writeOne (name : List Char) (v : LVal) (l : Logger) : Res Logger :=
  (ensure l).bind fun l => (comma l).bind fun l =>
    put ("\t{\n\t\t\"expr\" : ".toList ++ quoted name ++ ",\n\t\t\"data\" : ".toList ++ print v ++ ['\n', '}']) l

/-- `writeVar(name, value, rest...)`, JSONLogger.h:65-73 -/
def writeVars (name : List Char) (v : LVal) : List (List Char × LVal) → Logger → Res Logger
  | [], l => writeOne name v l
  | (n', v') :: rest, l => (ensure l).bind fun l => (writeOne name v l).bind fun l => writeVars n' v' rest l

/-- The record of one variable, JSONLogger.h:106-113, 130-138 -/
def located (group line : Nat) (cppFile name : List Char) (v : LVal) : List Char :=
  "\t{\n\t\t\"gInd\" : ".toList ++ decimal group ++ ",\n\t\t\"file\" : \"".toList ++ cppFile ++
    "\",\n\t\t\"line\" : ".toList ++ decimal line ++ ",\n\t\t\"expr\" : ".toList ++ quoted name ++
    ",\n\t\t\"data\" : ".toList ++ print v ++ "\n\t}".toList

/-- `writeVar(line, cppFile, name, value, rest...)` with a `std::string`, JSONLogger.h:97-118; the last variable,
JSONLogger.h:121-142. -/
def writeLocated (line : Nat) (cppFile name : List Char) (v : LVal) : List (List Char × LVal) → Logger → Res Logger
  | [], l => (ensure l).bind fun l => (comma l).bind fun l => (put (located l.groupIndex line cppFile name v) l).bind fun l =>
      .ok { l with groupIndex := l.groupIndex + 1 }
  | (n', v') :: rest, l => (ensure l).bind fun l => (comma l).bind fun l =>
      (put (located l.groupIndex line cppFile name v) l).bind fun l => writeLocated line cppFile n' v' rest l

/-- A call of `writeVar`: the variables (name, value), with the line and the path or not. -/
inductive Call where
  /-- `writeVar(name, value, ...)` -/
  | vars (name : List Char) (v : LVal) (rest : List (List Char × LVal))
  /-- `writeVar(line, path, name, value, ...)` with a `const char*` (`DBGVAR_JSON`), JSONLogger.h:145-148 -/
  | at_ (line : Nat) (path name : List Char) (v : LVal) (rest : List (List Char × LVal))

/-- One call. -/
def call : Call → Logger → Res Logger
  | .vars n v rest, l => writeVars n v rest l
  | .at_ line path n v rest, l => (doubleBackSlash path).bind fun p => writeLocated line p n v rest l

/-- A sequence of calls. -/
def calls : List Call → Logger → Res Logger
  | [], l => .ok l
  | c :: cs, l => (call c l).bind (calls cs)

/-- The life of a logger: constructor, calls, destructor (JSONLogger.h:34-36). -/
def session (fileName : List Char) (cs : List Call) : Res Logger := (calls cs (Logger.new fileName)).bind destroy

end GTMesh.JsonLog
