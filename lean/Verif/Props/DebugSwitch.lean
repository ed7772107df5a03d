import Verif.Proofs.DebugSwitch

/-!
# C67: the debugging macros can be switched off
-/

namespace GTMesh.DebugSwitch

variable {σ ε : Type}

/-- C67: a program whose debugging macros are used in the fine way compiles with and without `UNDEBUG`, and, when logging is harmless, does
the same: from every state, for every number of rounds its loops are given, it ends in the same way in the same state. Missing: the
programs that are not fine, for which it is false. -/
theorem C67_same_partial (ss : Stmts) (h : FineAll ss) :
    ∃ on off, compile false ss = some on ∧ compile true ss = some off ∧
      ∀ (σ ε : Type) (env : Env σ ε), Harmless env ss → ∀ fuel s, runAll env fuel on s = runAll env fuel off s :=
  ⟨_, _, compile_fine false ss h, compile_fine true ss h, fun _ _ env hh fuel s => runAll_same env fuel ss h hh.log hh.cond hh.tried s⟩

/-- C67: compiled with `UNDEBUG`, such a program does what its text means when the logging macros are nothing and `DBGTRY` is its code, for all
effects of its expressions. -/
theorem C67_meaning_partial (ss : Stmts) (h : FineAll ss) :
    ∃ off, compile true ss = some off ∧ ∀ (σ ε : Type) (env : Env σ ε) fuel s, runAll env fuel off s = meansAll env fuel ss s :=
  ⟨_, compile_fine true ss h, fun _ _ env fuel s => runAll_means env fuel ss h s⟩

/-- `while (0) { if (1) { DBGVARCOND(2, 0); } else DBGVAR(1); DBGTRY(5; 6); } if (3) DBGTRY(7);` -/
def sample : Stmts :=
  .cons (.loop 0 (.block (.cons (.itee 1 (.block (.cons (.varCond .console 2 0) .nil)) (.var .json 1)) (.cons (.tryy 5 [6]) .nil))))
    (.cons (.ite 3 (.tryy 7 [])) .nil)

/-- A counter: expressions add their number, conditions ask whether the counter is below ten, logging does nothing. -/
def counter : Env Nat Unit where
  act a s := .ok (s + a)
  cond _ s := (s, decide (s < 10))
  log _ s := .ok s
  std _ := true

example : FineAll sample ∧ Harmless counter sample ∧ (compile false sample).isSome := by
  refine ⟨?_, ⟨fun _ _ _ => rfl, fun _ _ _ => rfl, fun _ _ _ _ _ h => ?_⟩, by decide +kernel⟩
  · simp [sample, FineAll, Fine, endsOpen]
  · simp [counter] at h

example : (compile false sample).map (fun c => runAll counter 100 c 0) = some (.ok 11) := by decide +kernel

/-! ## What is wrong -/

/-- C67 is false for `if (c) DBGVARCOND(d, v); else a;`: with the macros the `else` goes to the condition of the macro, so that `a` is executed
when `c` holds and `d` does not, and not when `c` does not hold; without them it is the other way. -/
theorem C67_else_violated (c d v a : Nat) :
    ∃ on off, compile false (.cons (.itee c (.varCond .console d v) (.act a)) .nil) = some on ∧
      compile true (.cons (.itee c (.varCond .console d v) (.act a)) .nil) = some off ∧
      ∀ (σ ε : Type) (env : Env σ ε) (fuel : Nat) (s : σ),
        (env.cond c s = (s, false) → runAll env fuel on s = .ok s ∧ runAll env fuel off s = env.act a s) ∧
        (env.cond c s = (s, true) → env.cond d s = (s, false) → runAll env fuel on s = env.act a s ∧ runAll env fuel off s = .ok s) := by
  refine ⟨.cons (.ite c (.itee d (.log v) (.act a))) .nil, .cons (.itee c .empty (.act a)) .nil, rfl, rfl, fun σ ε env fuel s => ⟨?_, ?_⟩⟩
  · intro h
    simp only [runAll, run, h]
    exact ⟨rfl, bind_ok _⟩
  · intro h h'
    simp only [runAll, run, h, h']
    exact ⟨bind_ok _, rfl⟩

/-- C67 is false for `if (c) DBGTRY(a); else b;`: it compiles with `UNDEBUG` only. -/
theorem C67_try_else_violated (c a b : Nat) :
    compile false (.cons (.itee c (.tryy a []) (.act b)) .nil) = none ∧
    compile true (.cons (.itee c (.tryy a []) (.act b)) .nil) = some (.cons (.itee c (.act a) (.act b)) .nil) := ⟨rfl, rfl⟩

/-- C67 is false for `if (c) DBGTRY(a; b);`: without the macros `b` is executed also when `c` does not hold. -/
theorem C67_try_branch_violated (c a b : Nat) :
    ∃ on off, compile false (.cons (.ite c (.tryy a [b])) .nil) = some on ∧ compile true (.cons (.ite c (.tryy a [b])) .nil) = some off ∧
      ∀ (σ ε : Type) (env : Env σ ε) (fuel : Nat) (s : σ), env.cond c s = (s, false) →
        runAll env fuel on s = .ok s ∧ runAll env fuel off s = env.act b s := by
  refine ⟨.cons (.ite c (.tryExit (acts [a, b]))) (.cons .empty .nil), .cons (.ite c (.act a)) (.cons (.act b) .nil), rfl, rfl, ?_⟩
  intro σ ε env fuel s h
  simp only [runAll, run, h]
  exact ⟨rfl, bind_ok _⟩

/-- C67 is false for standard exceptions in `DBGTRY`: the macro ends the program, without it the exception goes to the caller. -/
theorem C67_exception_violated (a : Nat) :
    ∃ on off, compile false (.cons (.tryy a []) .nil) = some on ∧ compile true (.cons (.tryy a []) .nil) = some off ∧
      ∀ (σ ε : Type) (env : Env σ ε) (fuel : Nat) (s s' : σ) (e : ε), env.act a s = .throw e s' → env.std e = true →
        runAll env fuel on s = .exit 1 s' ∧ runAll env fuel off s = .throw e s' := by
  refine ⟨.cons (.tryExit (acts [a])) (.cons .empty .nil), .cons (.act a) .nil, rfl, rfl, ?_⟩
  intro σ ε env fuel s s' e h hs
  simp [runAll, run, acts, h, hs, Out.bind]

/-- C67 is false for logged expressions that change something: without the macros they are not evaluated. -/
theorem C67_effect_violated (v : Nat) :
    ∃ on off, compile false (.cons (.var .console v) .nil) = some on ∧ compile true (.cons (.var .console v) .nil) = some off ∧
      ∀ (σ ε : Type) (env : Env σ ε) (fuel : Nat) (s s' : σ), env.log v s = .ok s' →
        runAll env fuel on s = .ok s' ∧ runAll env fuel off s = .ok s := by
  refine ⟨.cons (.log v) .nil, .cons .empty .nil, rfl, rfl, ?_⟩
  intro σ ε env fuel s s' h
  simp [runAll, run, h, Out.bind]

/-- C67 is false for the macros that use `printf`: they have no definition with `UNDEBUG`; and `DBGVAR_CSV` compiles with it only. -/
theorem C67_undefined_violated (c v : Nat) :
    (compile false (.cons (.var .stdio v) .nil)).isSome ∧ compile true (.cons (.var .stdio v) .nil) = none ∧
    (compile false (.cons (.varCond .stdio c v) .nil)).isSome ∧ compile true (.cons (.varCond .stdio c v) .nil) = none ∧
    compile false (.cons (.var .csv v) .nil) = none ∧ (compile true (.cons (.var .csv v) .nil)).isSome := ⟨rfl, rfl, rfl, rfl, rfl, rfl⟩

end GTMesh.DebugSwitch
