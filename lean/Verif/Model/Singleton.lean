import Verif.Base

/-!
# The object behind the HTML and JSON macros (Singleton/Singleton.h) used by several threads

Threads call `Singleton<Class>::getInstance()`; the object is that of the macros `DBGVAR_HTML` and `DBGVAR_JSON`, Debug.h:48, 56.  The four
accesses to `p` in a call are the steps of a thread; the threads take steps in any order.  Simplification: a step is
indivisible and seen by all threads at once (for C++ the unsynchronised accesses to `p` are a data race, so that nothing at all is promised
when they overlap).  The construction of an object may end with an exception: `fails k` for the `k`-th construction that is begun.
-/

namespace GTMesh.Singleton

/-- Where a thread is in `getInstance`. -/
inductive Pc where
  /-- not in a call -/
  | idle
  /-- in front of `new Class`, `p` was null -/
  | create
  /-- in front of `p = ...` with the object that it made -/
  | assign (n : Nat)
  /-- in front of `return *p` -/
  | ret
  deriving DecidableEq, Repr

/-- The state; objects are numbered in the order they were begun. -/
structure Sys where
  /-- the static `std::unique_ptr` -/
  p : Option Nat := none
  /-- the constructions begun so far -/
  begun : Nat := 0
  /-- the objects that were made -/
  made : List Nat := []
  /-- the objects that were destroyed -/
  destroyed : List Nat := []
  pc : Nat → Pc := fun _ => .idle
  /-- the ends of the calls: the thread and the object its reference refers to, or nothing for an exception -/
  ended : List (Nat × Option Nat) := []
  /-- a null pointer was used -/
  ub : Bool := false

/-- The thread `t` goes to `c`. -/
def Sys.goto (s : Sys) (t : Nat) (c : Pc) : Sys := { s with pc := fun u => if u = t then c else s.pc u }

/-- A step of the thread `t`, Singleton.h:14-19: the test, `new Class`, the assignment (which destroys the object `p` had), `return *p` -/
def step (fails : Nat → Bool) (s : Sys) (t : Nat) : Sys :=
  match s.pc t with
  | .idle => if s.p = none then s.goto t .create else s.goto t .ret
  | .create =>
    if fails s.begun then { s.goto t .idle with begun := s.begun + 1, ended := s.ended ++ [(t, none)] }
    else { s.goto t (.assign s.begun) with begun := s.begun + 1, made := s.made ++ [s.begun] }
  | .assign n => { s.goto t .ret with p := some n, destroyed := s.destroyed ++ s.p.toList }
  | .ret =>
    match s.p with
    | some n => { s.goto t .idle with ended := s.ended ++ [(t, some n)] }
    | none => { s.goto t .idle with ub := true }

/-- The threads take steps in the given order. -/
def run (fails : Nat → Bool) (s : Sys) (schedule : List Nat) : Sys := schedule.foldl (step fails) s

end GTMesh.Singleton
