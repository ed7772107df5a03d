import Verif.Model.DebugSwitch

/-! # What C67 means -/

namespace GTMesh.DebugSwitch

/-- An `else` behind the statement would go to an `if` at its end, or would not be allowed there. `DBGVARCOND` counts as an `if`. -/
def endsOpen : Stmt → Bool
  | .ite _ _ => true
  | .itee _ _ e => endsOpen e
  | .loop _ b => endsOpen b
  | .varCond _ _ _ => true
  | .tryy _ _ => true
  | _ => false

mutual
/-- The statements for which the macros can be switched off: nothing open in front of an `else`, no macros for `stdio` and `csv`, and `DBGTRY`
with more than one expression in blocks only. -/
def Fine : Stmt → Prop
  | .block ss => FineAll ss
  | .ite _ t => Fine t
  | .itee _ t e => endsOpen t = false ∧ Fine t ∧ Fine e
  | .loop _ b => Fine b
  | .var d _ => d ≠ .stdio ∧ d ≠ .csv
  | .varCond d _ _ => d ≠ .stdio ∧ d ≠ .csv
  | .tryy _ as => as = []
  | _ => True
def FineAll : Stmts → Prop
  | .nil => True
  | .cons s ss => (Fine s ∨ ∃ a as, s = .tryy a as) ∧ FineAll ss
end

mutual
/-- The logged variables. -/
def logged : Stmt → List Nat
  | .block ss => loggedAll ss
  | .ite _ t => logged t
  | .itee _ t e => logged t ++ logged e
  | .loop _ b => logged b
  | .var _ v => [v]
  | .varCond _ _ v => [v]
  | _ => []
def loggedAll : Stmts → List Nat
  | .nil => []
  | .cons s ss => logged s ++ loggedAll ss
end

mutual
/-- The conditions of the macros. -/
def conds : Stmt → List Nat
  | .block ss => condsAll ss
  | .ite _ t => conds t
  | .itee _ t e => conds t ++ conds e
  | .loop _ b => conds b
  | .varCond _ c _ => [c]
  | _ => []
def condsAll : Stmts → List Nat
  | .nil => []
  | .cons s ss => conds s ++ condsAll ss
end

mutual
/-- The expressions in `DBGTRY`. -/
def tried : Stmt → List Nat
  | .block ss => triedAll ss
  | .ite _ t => tried t
  | .itee _ t e => tried t ++ tried e
  | .loop _ b => tried b
  | .tryy a as => a :: as
  | _ => []
def triedAll : Stmts → List Nat
  | .nil => []
  | .cons s ss => tried s ++ triedAll ss
end

/-- Logging changes nothing and raises nothing, and what is in `DBGTRY` raises no standard exception. -/
structure Harmless {σ ε : Type} (env : Env σ ε) (ss : Stmts) : Prop where
  log : ∀ v ∈ loggedAll ss, ∀ s, env.log v s = .ok s
  cond : ∀ c ∈ condsAll ss, ∀ s, (env.cond c s).1 = s
  tried : ∀ a ∈ triedAll ss, ∀ s e s', env.act a s = .throw e s' → env.std e = false

/-! ## What the program means without the macros -/

section
variable {σ ε : Type} (env : Env σ ε) (fuel : Nat)

/-- Expressions one after the other; the first one that does not end normally is the last. -/
def inTurn : List Nat → σ → Out σ ε
  | [], s => .ok s
  | a :: as, s =>
    match env.act a s with
    | .ok s' => inTurn as s'
    | o => o

/-- The body again and again as long as the condition holds. -/
def whileHolds (c : Nat) (body : σ → Out σ ε) : Nat → σ → Out σ ε
  | 0, _ => .diverge
  | n + 1, s =>
    match env.cond c s with
    | (s', false) => .ok s'
    | (s', true) =>
      match body s' with
      | .ok s'' => whileHolds c body n s''
      | o => o

mutual
/-- The effect of a statement when the logging macros are nothing and `DBGTRY(code)` is the code. -/
def means : Stmt → σ → Out σ ε
  | .act a, s => env.act a s
  | .empty, s => .ok s
  | .block ss, s => meansAll ss s
  | .ite c t, s =>
    match env.cond c s with
    | (s', true) => means t s'
    | (s', false) => .ok s'
  | .itee c t e, s =>
    match env.cond c s with
    | (s', true) => means t s'
    | (s', false) => means e s'
  | .loop c b, s => whileHolds env c (means b) fuel s
  | .var _ _, s => .ok s
  | .varCond _ _ _, s => .ok s
  | .tryy a as, s => inTurn env (a :: as) s
def meansAll : Stmts → σ → Out σ ε
  | .nil, s => .ok s
  | .cons st ss, s =>
    match means st s with
    | .ok s' => meansAll ss s'
    | o => o
end
end

end GTMesh.DebugSwitch
