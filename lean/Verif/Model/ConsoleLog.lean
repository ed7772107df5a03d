import Verif.Model.JsonLog

/-!
# Console log (Debug/ConsoleLogger.h, the macros of Debug/Debug.h)

The branch for systems other than Windows.  What is sent to `std::cerr` is a list of characters; `std::flush` and
`std::endl` (a new line) have no other effect.  `int line` is a natural number.  A character array, such as the literal
of `DBGCHECK`, is a `LVal.plain`: `PrintText` takes only `std::string`, `char*` and `char`, so it is put without quotes.
-/

namespace GTMesh.ConsoleLog
open JsonLog (LVal print)

/-- The settings, ConsoleLogger.h:17-21 -/
structure Settings where
  coloredOutput : Bool := true
  onlyFilename : Bool := false
  printFunction : Bool := true
  printAggregated : Bool := true
  identation : List Char := ['|', '|', ' ', ' ', ' ', ' ', ' ']
  deriving DecidableEq, Repr

/-- The logger and what was sent to `std::cerr`. -/
structure Logger where
  settings : Settings := {}
  err : List Char := []
  deriving DecidableEq, Repr

/-- `reset`, ConsoleLogger.h:50-56 -/
def reset (_ : Settings) : Settings where
  coloredOutput := true
  onlyFilename := false
  printFunction := true
  printAggregated := true
  identation := ['.', '.', '.', ' ', ' ', ' ', ' ', ' ']

/-- `res.find_last_of('/')` -/
def findLast (s : List Char) : Option Nat := (s.reverse.findIdx? (· = '/')).map fun (i : Nat) => s.length - 1 - i

/-- `getFileName`, ConsoleLogger.h:181-194 -/
def getFileName (s : Settings) (cppFile : List Char) : List Char :=
  if s.onlyFilename then
    match findLast cppFile with
    | some pos => cppFile.drop (pos + 1)
    | none => cppFile
  else cppFile

/-- `"\033[0;33m"`, ConsoleLogger.h:130-139 -/
def nameColor (s : Settings) : List Char := if s.coloredOutput then ['\x1b', '[', '0', ';', '3', '3', 'm'] else []
/-- `"\033[0m"`, ConsoleLogger.h:141-150 -/
def resetColor (s : Settings) : List Char := if s.coloredOutput then ['\x1b', '[', '0', 'm'] else []
/-- `"\033[0;32m"`, ConsoleLogger.h:152-161 -/
def valueColor (s : Settings) : List Char := if s.coloredOutput then ['\x1b', '[', '0', ';', '3', '2', 'm'] else []
/-- `"\033[0;31m"`, ConsoleLogger.h:163-172 -/
def messageColor (s : Settings) : List Char := if s.coloredOutput then ['\x1b', '[', '0', ';', '3', '1', 'm'] else []

/-- `printHeader`, ConsoleLogger.h:174-179 -/
def header (s : Settings) (line : Nat) (funcName cppFile pre : List Char) : List Char :=
  pre ++ cppFile ++ [':'] ++ decimal line ++ (if s.printFunction then [' ', '<'] ++ funcName ++ ['>', ' '] else [])

/-- The default prefix `"== "`, ConsoleLogger.h:174 -/
def varPrefix : List Char := ['=', '=', ' ']

/-- `writeVar` of one variable, ConsoleLogger.h:107-127 -/
def oneVar (s : Settings) (line : Nat) (funcName cppFile name : List Char) (v : LVal) : List Char :=
  (if s.printAggregated then s.identation else header s line funcName cppFile varPrefix ++ [' ']) ++
  ['[', '[', ' '] ++ nameColor s ++ name ++ resetColor s ++ [' ', ']', ']', ' ', '=', '=', '>', ' '] ++
  valueColor s ++ print v ++ resetColor s ++ ['\n']

/-- `writeVar`, ConsoleLogger.h:100-127 -/
def writeVars (s : Settings) (line : Nat) (funcName cppFile name : List Char) (v : LVal) : List (List Char × LVal) → List Char
  | [] => oneVar s line funcName cppFile name v
  | x :: rest => oneVar s line funcName cppFile name v ++ writeVars s line funcName cppFile x.1 x.2 rest

/-- `writeMsg` of one message, ConsoleLogger.h:87-97 -/
def oneMessage (s : Settings) (pre : List Char) (line : Nat) (funcName sourceFile : List Char) (m : LVal) : List Char :=
  header s line funcName sourceFile pre ++ ['=', '=', '>', ' '] ++ messageColor s ++ print m ++ resetColor s ++ [' ', '<', '=', '=', '\n']

/-- `writeMsg`, ConsoleLogger.h:78-97 -/
def writeMessages (s : Settings) (pre : List Char) (line : Nat) (funcName sourceFile : List Char) (m : LVal) : List LVal → List Char
  | [] => oneMessage s pre line funcName sourceFile m
  | x :: rest => oneMessage s pre line funcName sourceFile m ++ writeMessages s pre line funcName sourceFile x rest

/-- A use of the logger. -/
inductive Call where
  /-- `setColoredOutput`, ConsoleLogger.h:25 -/
  | setColoredOutput (b : Bool)
  /-- `setOnlyFliename`, ConsoleLogger.h:30 -/
  | setOnlyFilename (b : Bool)
  /-- `setPrintFunction`, ConsoleLogger.h:35 -/
  | setPrintFunction (b : Bool)
  /-- `setPrintAggregated`, ConsoleLogger.h:40 -/
  | setPrintAggregated (b : Bool)
  /-- `setIdentation`, ConsoleLogger.h:45 -/
  | setIdentation (t : List Char)
  /-- `reset` -/
  | reset
  /-- `writeVariable`, `DBGVAR`, Debug.h:33 -/
  | vars (line : Nat) (funcName file name : List Char) (v : LVal) (rest : List (List Char × LVal))
  /-- `writeMessage`: `DBGMSG` has the prefix `++`, `DBGCHECK` `--`, `DBGTRY` `!!`, Debug.h:39-45, 61 -/
  | msgs (pre : List Char) (line : Nat) (funcName file : List Char) (m : LVal) (rest : List LVal)

/-- One use; `writeVariable`, ConsoleLogger.h:59-70; `writeMessage`, ConsoleLogger.h:72-76 -/
def call (l : Logger) : Call → Logger
  | .setColoredOutput b => { l with settings := { l.settings with coloredOutput := b } }
  | .setOnlyFilename b => { l with settings := { l.settings with onlyFilename := b } }
  | .setPrintFunction b => { l with settings := { l.settings with printFunction := b } }
  | .setPrintAggregated b => { l with settings := { l.settings with printAggregated := b } }
  | .setIdentation t => { l with settings := { l.settings with identation := t } }
  | .reset => { l with settings := ConsoleLog.reset l.settings }
  | .vars line funcName file name v rest =>
      let fileName := getFileName l.settings file
      { l with err := l.err ++
          (if l.settings.printAggregated then header l.settings line funcName fileName varPrefix ++ ['\n'] else []) ++
          writeVars l.settings line funcName fileName name v rest }
  | .msgs pre line funcName file m rest =>
      { l with err := l.err ++ writeMessages l.settings pre line funcName (getFileName l.settings file) m rest }

/-- A sequence of uses. -/
def calls (l : Logger) (cs : List Call) : Logger := cs.foldl call l

/-! ## The variant with printf -/

/-- `writeVarC`, ConsoleLogger.h:216-229; `text` is what `exportVariable(value)` prints -/
def writeVarC (line : Nat) (funcName cppFile : List Char) : List (List Char × List Char) → List Char
  | [] => []
  | x :: rest => ['=', '=', ' '] ++ cppFile ++ [':', ' '] ++ decimal line ++ [' ', '<'] ++ funcName ++
      ['>', ' ', '[', '[', ' '] ++ x.1 ++ [' ', ']', ']', ' ', '=', '=', '>', ' '] ++ x.2 ++ ['\n'] ++ writeVarC line funcName cppFile rest

/-- `DBGVAR_STDIO`, Debug.h:36: `writeVarC(__LINE__, __FILE__, __func__, ...)` -/
def dbgvarStdio (line : Nat) (file func : List Char) (vars : List (List Char × List Char)) : List Char :=
  writeVarC line file func vars

/-- The integers that `PrintExportable::print(const T&, ...)` has an overload for, PrintExportable.h:22-62 -/
inductive StdInt where
  | int (n : Int)
  | short (n : Int)
  | unsigned (n : Nat)
  | longLong (n : Int)
  | unsignedLongLong (n : Nat)

/-- `printf` with `%d`, `%hd`, `%lld`: a sign and digits -/
def signed (n : Int) : List Char := if n < 0 then '-' :: decimal n.natAbs else decimal n.natAbs

/-- `PrintExportable::print(const T&, ...)`, PrintExportable.h:22-62; the format for `unsigned int` is `"%ud"`. -/
def printStdio : StdInt → List Char
  | .int n => signed n
  | .short n => signed n
  | .unsigned n => decimal n ++ ['d']
  | .longLong n => signed n
  | .unsignedLongLong n => decimal n

end GTMesh.ConsoleLog
