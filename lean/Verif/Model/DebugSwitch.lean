import Verif.Base

/-!
# The debugging macros in a program (Debug/Debug.h)

A function of a user is a sequence of statements, some of them debugging macros followed by `;`.  The preprocessor turns it into tokens, one
way when `UNDEBUG` is defined and another way when it is not; the compiler parses the tokens, where an `else` belongs to the last `if` that
has none; and the result is executed.  Expressions, conditions and logged variables are numbers: what they do is given by an `Env`.
Simplifications: no declarations, `for`, `switch`, `do`, `goto`, `break`, `return`; the code in `DBGTRY` is a sequence of expressions (and
has no comma outside parentheses).
-/

namespace GTMesh.DebugSwitch

/-- The place a logging macro sends its variables to: `DBGVAR`, `DBGMSG`, `DBGCHECK` | `DBGVAR_STDIO`, `DBGCHECK_STDIO` | `DBGVAR_HTML` |
`DBGVAR_JSON` | `DBGVAR_CSV`. -/
inductive Dest where
  | console | stdio | html | json | csv
  deriving DecidableEq, Repr

mutual
/-- The statements a user writes. -/
inductive Stmt where
  /-- `a;` -/
  | act (a : Nat)
  /-- `;` -/
  | empty
  /-- `{ ... }` -/
  | block (ss : Stmts)
  /-- `if (c) t` -/
  | ite (c : Nat) (t : Stmt)
  /-- `if (c) t else e` -/
  | itee (c : Nat) (t e : Stmt)
  /-- `while (c) b` -/
  | loop (c : Nat) (b : Stmt)
  /-- `DBGVAR(v);` and the like -/
  | var (d : Dest) (v : Nat)
  /-- `DBGVARCOND(c, v);` and the like -/
  | varCond (d : Dest) (c v : Nat)
  /-- `DBGTRY(a; b; ...);` -/
  | tryy (a : Nat) (as : List Nat)
inductive Stmts where
  | nil
  | cons (s : Stmt) (ss : Stmts)
end

/-- What the compiler sees: expressions, calls of the loggers, `if (c)`, `while (c)`, the handler of `DBGTRY` with its `exit(1)`, and names
that are not declared. -/
inductive Tok where
  | act (a : Nat)
  | log (v : Nat)
  | iff (c : Nat)
  | els
  | whil (c : Nat)
  | semi
  | lb
  | rb
  | try_
  | handler
  | undeclared
  deriving DecidableEq, Repr

/-- The macros for variables, Debug.h:33, 36, 39, 48, 52, 56, 61, 62 and, with `UNDEBUG`, 70-90: `DBGVAR_STDIO` and `DBGCHECK_STDIO` have no
definition there, and `DBGVAR_CSV` uses a member that does not exist, 18-21. -/
def varTokens (undebug : Bool) (d : Dest) (v : Nat) : List Tok :=
  if undebug then (match d with | .stdio => [.undeclared] | _ => [])
  else (match d with | .csv => [.undeclared] | _ => [.log v])

/-- The macros with a condition, Debug.h:34, 37, 49, 53, 57, with `UNDEBUG` 68, 82, 86, 90. -/
def condTokens (undebug : Bool) (d : Dest) (c v : Nat) : List Tok :=
  if undebug then (match d with | .stdio => [.undeclared] | _ => [])
  else .iff c :: varTokens false d v

/-- Expressions with semicolons between them. -/
def codeTokens (a : Nat) : List Nat → List Tok
  | [] => [.act a]
  | b :: bs => .act a :: .semi :: codeTokens b bs

/-- `DBGTRY`, Debug.h:41-45, with `UNDEBUG` 78. -/
def tryTokens (undebug : Bool) (a : Nat) (as : List Nat) : List Tok :=
  if undebug then codeTokens a as
  else .try_ :: .lb :: codeTokens a as ++ [.semi, .rb, .handler]

mutual
/-- The tokens of a program. -/
def tokens (undebug : Bool) : Stmt → List Tok
  | .act a => [.act a, .semi]
  | .empty => [.semi]
  | .block ss => .lb :: tokensAll undebug ss ++ [.rb]
  | .ite c t => .iff c :: tokens undebug t
  | .itee c t e => .iff c :: tokens undebug t ++ .els :: tokens undebug e
  | .loop c b => .whil c :: tokens undebug b
  | .var d v => varTokens undebug d v ++ [.semi]
  | .varCond d c v => condTokens undebug d c v ++ [.semi]
  | .tryy a as => tryTokens undebug a as ++ [.semi]
def tokensAll (undebug : Bool) : Stmts → List Tok
  | .nil => []
  | .cons s ss => tokens undebug s ++ tokensAll undebug ss
end

mutual
/-- What the compiler makes of it. -/
inductive Code where
  | act (a : Nat)
  | log (v : Nat)
  | empty
  | block (cs : Codes)
  | ite (c : Nat) (t : Code)
  | itee (c : Nat) (t e : Code)
  | loop (c : Nat) (b : Code)
  /-- `try { ... } catch(const std::exception& e) { ...; exit(1); }` -/
  | tryExit (cs : Codes)
inductive Codes where
  | nil
  | cons (c : Code) (cs : Codes)
end

mutual
/-- A statement of C++ in front of the tokens; the first argument bounds the depth. -/
def parse : Nat → List Tok → Option (Code × List Tok)
  | 0, _ => none
  | n + 1, ts =>
    match ts with
    | .act a :: .semi :: r => some (.act a, r)
    | .log v :: .semi :: r => some (.log v, r)
    | .semi :: r => some (.empty, r)
    | .lb :: r => (parseAll n r).map fun p => (.block p.1, p.2)
    | .iff c :: r => (parse n r).bind fun p =>
        match p.2 with
        | .els :: r' => (parse n r').map fun q => (.itee c p.1 q.1, q.2)
        | _ => some (.ite c p.1, p.2)
    | .whil c :: r => (parse n r).map fun p => (.loop c p.1, p.2)
    | .try_ :: .lb :: r => (parseAll n r).bind fun p =>
        match p.2 with
        | .handler :: r' => some (.tryExit p.1, r')
        | _ => none
    | _ => none
/-- Statements up to a `}`. -/
def parseAll : Nat → List Tok → Option (Codes × List Tok)
  | 0, _ => none
  | n + 1, ts =>
    match ts with
    | .rb :: r => some (.nil, r)
    | _ => (parse n ts).bind fun p => (parseAll n p.2).map fun q => (.cons p.1 q.1, q.2)
end

/-- The compiled body of a function; nothing if it does not compile. -/
def compile (undebug : Bool) (ss : Stmts) : Option Codes :=
  let ts := tokensAll undebug ss ++ [.rb]
  match parseAll (2 * ts.length) ts with
  | some (cs, []) => some cs
  | _ => none

/-! ## Execution -/

/-- How a piece of code ends. -/
inductive Out (σ ε : Type) where
  | ok (s : σ)
  | throw (e : ε) (s : σ)
  | exit (code : Nat) (s : σ)
  | diverge
  deriving DecidableEq, Repr

/-- What the expressions of the program do: expressions, conditions, and the evaluation of the variables that are logged; which exceptions
derive from `std::exception`. The output of the loggers is not part of the state. -/
structure Env (σ ε : Type) where
  act : Nat → σ → Out σ ε
  cond : Nat → σ → σ × Bool
  log : Nat → σ → Out σ ε
  std : ε → Bool

variable {σ ε : Type}

/-- First one, then the other. -/
def Out.bind (o : Out σ ε) (f : σ → Out σ ε) : Out σ ε :=
  match o with
  | .ok s => f s
  | .throw e s => .throw e s
  | .exit n s => .exit n s
  | .diverge => .diverge

/-- A loop, for at most so many rounds. -/
def rounds (cond : σ → σ × Bool) (body : σ → Out σ ε) : Nat → σ → Out σ ε
  | 0, _ => .diverge
  | n + 1, s => if (cond s).2 then (body (cond s).1).bind (rounds cond body n) else .ok (cond s).1

mutual
/-- Execution of a statement; loops end with `diverge` after so many rounds. -/
def run (env : Env σ ε) (fuel : Nat) : Code → σ → Out σ ε
  | .act a, s => env.act a s
  | .log v, s => env.log v s
  | .empty, s => .ok s
  | .block cs, s => runAll env fuel cs s
  | .ite c t, s => if (env.cond c s).2 then run env fuel t (env.cond c s).1 else .ok (env.cond c s).1
  | .itee c t e, s => if (env.cond c s).2 then run env fuel t (env.cond c s).1 else run env fuel e (env.cond c s).1
  | .loop c b, s => rounds (env.cond c) (run env fuel b) fuel s
  | .tryExit cs, s =>
    match runAll env fuel cs s with
    | .throw e s' => if env.std e then .exit 1 s' else .throw e s'
    | o => o
def runAll (env : Env σ ε) (fuel : Nat) : Codes → σ → Out σ ε
  | .nil, s => .ok s
  | .cons c cs, s => (run env fuel c s).bind (runAll env fuel cs)
end

end GTMesh.DebugSwitch
