/-!
# Outcomes of C++ code

`Res α` is the outcome of running a piece of C++ code: a value, a thrown exception,
undefined behaviour, or non-termination.  The model never assumes undefined behaviour away.
-/

namespace GTMesh

/-- The kinds of C++ exceptions that the modelled code throws. -/
inductive Exc where
  /-- `std::runtime_error` -/
  | runtimeError
  /-- `std::out_of_range` (from `.at()` or `substr`) -/
  | outOfRange
  /-- any other thrown value (for instance `throw "..."` of a character array) -/
  | other
  deriving DecidableEq, Repr

/-- Outcome of running a piece of C++ code. -/
inductive Res (α : Type u) where
  | ok (a : α)
  | throw (e : Exc)
  | ub
  | diverge
  deriving DecidableEq, Repr

namespace Res

/-- Sequential composition. -/
@[simp] def bind {α : Type u} {β : Type v} (x : Res α) (f : α → Res β) : Res β :=
  match x with
  | ok a => f a
  | throw e => throw e
  | ub => ub
  | diverge => diverge

instance : Monad Res where
  pure := Res.ok
  bind := Res.bind

@[simp] theorem pure_eq {α : Type u} (a : α) : (pure a : Res α) = ok a := rfl
@[simp] theorem bind_ok {α β : Type u} (a : α) (f : α → Res β) : ((ok a : Res α) >>= f) = f a := rfl
@[simp] theorem bind_throw {α β : Type u} (e : Exc) (f : α → Res β) :
    ((throw e : Res α) >>= f) = throw e := rfl
@[simp] theorem bind_ub {α β : Type u} (f : α → Res β) : ((ub : Res α) >>= f) = ub := rfl
@[simp] theorem bind_diverge {α β : Type u} (f : α → Res β) :
    ((diverge : Res α) >>= f) = diverge := rfl

/-- A bind returns a value exactly when both parts do. -/
theorem bind_eq_ok {α β : Type u} {x : Res α} {f : α → Res β} {b : β} :
    (x >>= f) = ok b ↔ ∃ a, x = ok a ∧ f a = ok b := by
  cases x <;> simp

/-- Did the code return normally? -/
def isOk {α : Type u} : Res α → Bool
  | ok _ => true
  | _ => false

/-- `std::vector::at`: bounds-checked access, throws `std::out_of_range`. -/
def at' {α : Type u} (l : List α) (i : Nat) : Res α :=
  match l[i]? with
  | some a => ok a
  | none => throw .outOfRange

@[simp] theorem at'_eq_ok {α : Type u} {l : List α} {i : Nat} {a : α} :
    at' l i = ok a ↔ l[i]? = some a := by
  unfold at'; cases l[i]? <;> simp

/-- `std::vector::operator[]`: unchecked access, undefined behaviour out of range. -/
def idx {α : Type u} (l : List α) (i : Nat) : Res α :=
  match l[i]? with
  | some a => ok a
  | none => ub

@[simp] theorem idx_eq_ok {α : Type u} {l : List α} {i : Nat} {a : α} :
    idx l i = ok a ↔ l[i]? = some a := by
  unfold idx; cases l[i]? <;> simp

end Res
end GTMesh
