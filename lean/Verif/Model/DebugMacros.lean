import Verif.Model.MacroForEach
import Verif.Model.ConsoleLog
import Verif.Model.HtmlLog

/-!
# The macros that log variables (Debug/Debug.h)

`none` is a program that does not compile.  `DBGVAR_CSV` (line 52) never compiles: `DBGStatics` has no `CSVDBGLog`.
-/

namespace GTMesh.DebugMacros
open Macro
open JsonLog (LVal)

/-- The arguments of a function of the loggers: a name and an expression for each variable; `value` is what an expression
evaluates to. -/
def namesAndValues (value : String → Option LVal) : List Arg → Option (List (List Char × LVal))
  | [] => some []
  | .lit n :: .src e :: rest => (value e).bind fun v => (namesAndValues value rest).map fun l => (n.toList, v) :: l
  | _ => none

/-- `FOR_EACH(STRVAR, ...)`, Debug.h:30, and the arguments it gives; there has to be at least one. -/
def logged {α : Type} (value : String → Option LVal) (vars : List String) (k : List Char → LVal → List (List Char × LVal) → α) : Option α :=
  (forEach nameAtt (vars.map .src)).bind fun args => (namesAndValues value args).bind fun l =>
    match l with
    | [] => none
    | x :: rest => some (k x.1 x.2 rest)

/-- `DBGVAR(...)`, Debug.h:33 -/
def dbgvar (value : String → Option LVal) (line : Nat) (func file : List Char) (vars : List String) : Option ConsoleLog.Call :=
  logged value vars fun n v rest => .vars line func file n v rest

/-- `DBGVAR_HTML(...)`, Debug.h:48 -/
def dbgvarHtml (value : String → Option LVal) (line : Nat) (file : List Char) (vars : List String) : Option HtmlLog.Call :=
  logged value vars fun n v rest => .at_ line file n v rest

/-- `DBGVAR_JSON(...)`, Debug.h:56 -/
def dbgvarJson (value : String → Option LVal) (line : Nat) (file : List Char) (vars : List String) : Option JsonLog.Call :=
  logged value vars fun n v rest => .at_ line file n v rest

end GTMesh.DebugMacros
