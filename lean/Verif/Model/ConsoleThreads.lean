import Verif.Model.ConsoleLog

/-!
# The console log used by several threads (Debug/ConsoleLogger.h)

What a call sends to `std::cerr`, operator by operator: only a single `<<` is safe from other threads.  What `exportVariable` puts is one
piece here (in the code there is a piece for each part of the value).
-/

namespace GTMesh.ConsoleLog
open JsonLog (LVal print)

/-- `printHeader`, ConsoleLogger.h:174-179 -/
def headerPieces (s : Settings) (line : Nat) (funcName cppFile pre : List Char) : List (List Char) :=
  [pre, cppFile, [':'], decimal line] ++ (if s.printFunction then [[' ', '<'], funcName, ['>', ' ']] else [])

/-- `writeVar` of one variable, ConsoleLogger.h:107-127 -/
def varPieces (s : Settings) (line : Nat) (funcName cppFile name : List Char) (v : LVal) : List (List Char) :=
  (if s.printAggregated then [s.identation] else headerPieces s line funcName cppFile varPrefix ++ [[' ']]) ++
  [['[', '[', ' '], nameColor s, name, resetColor s, [' ', ']', ']', ' ', '=', '=', '>', ' '], valueColor s, print v, resetColor s, ['\n']]

/-- `writeVariable`, ConsoleLogger.h:59-70, 100-105 -/
def callPieces (s : Settings) (line : Nat) (funcName file : List Char) (vars : List (List Char × LVal)) : List (List Char) :=
  (if s.printAggregated then headerPieces s line funcName (getFileName s file) varPrefix ++ [['\n']] else []) ++
  vars.flatMap fun x => varPieces s line funcName (getFileName s file) x.1 x.2

end GTMesh.ConsoleLog
