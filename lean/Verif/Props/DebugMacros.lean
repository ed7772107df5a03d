import Verif.Model.DebugMacros
import Verif.Props.Traits
import Verif.Props.ConsoleLog
import Verif.Props.JsonLog
import Verif.Props.HtmlLog

/-!
# C61: the macros that log variables
-/

namespace GTMesh.DebugMacros
open Macro
open JsonLog (LVal)

theorem logged_eq {α : Type} (value : String → Option LVal) (val : String → LVal) (k : List Char → LVal → List (List Char × LVal) → α)
    (x : String) (vars : List String) (hl : vars.length < 40) (hv : ∀ v ∈ x :: vars, value v = some (val v)) :
    logged value (x :: vars) k = some (k x.toList (val x) (vars.map fun v => (v.toList, val v))) := by
  have e1 : ∀ vs : List String, vs ≠ [] → vs.length ≤ 40 → forEach nameAtt (vs.map .src) = some (vs.flatMap fun v => [.lit v, .src v]) := by
    intro vs hne hl
    have : forEach nameAtt (vs.map .src) = forEach (fun y => some ((fun | Arg.src s => [Arg.lit s, .src s] | _ => []) y)) (vs.map .src) := by
      have hN : ∀ (n : Nat) (l : List String), forEachN nameAtt n (l.map .src) =
          forEachN (fun y => some ((fun | Arg.src s => [Arg.lit s, .src s] | _ => []) y)) n (l.map .src) := by
        intro n
        induction n with
        | zero => intro l; rfl
        | succ n ih =>
          intro l
          match n, l with
          | n, [] => cases n <;> rfl
          | 0, a :: l => rfl
          | n + 1, a :: l => simp only [List.map_cons, forEachN, ih, nameAtt]
      unfold forEach
      rw [callArgs_of_ne (by simpa using hne)]
      simp only [hN]
    rw [this, Traits.C61_for_each _ _ (by simpa using hne) (by simpa using hl)]
    simp [List.flatMap_map]
  have e2 : ∀ vs : List String, (∀ v ∈ vs, value v = some (val v)) →
      namesAndValues value (vs.flatMap fun v => [.lit v, .src v]) = some (vs.map fun v => (v.toList, val v)) := by
    intro vs
    induction vs with
    | nil => intro _; rfl
    | cons v vs ih =>
      intro h
      have := ih fun y hy => h y (by simp [hy])
      simp only [List.flatMap_cons, List.cons_append, List.nil_append, namesAndValues, h v (by simp), this, Option.bind_some, Option.map_some,
        List.map_cons]
  unfold logged
  rw [e1 _ (by simp) (by simp; omega), Option.bind_some, e2 _ hv]
  simp

/-- C61: the macros `DBGVAR`, `DBGVAR_HTML` and `DBGVAR_JSON` log 1 to 40 variables, in order, each with its text as the name
and its value. -/
theorem C61_dbgvar (value : String → Option LVal) (val : String → LVal) (line : Nat) (func file : List Char) (x : String) (vars : List String)
    (hl : vars.length < 40) (hv : ∀ v ∈ x :: vars, value v = some (val v)) :
    dbgvar value line func file (x :: vars) = some (.vars line func file x.toList (val x) (vars.map fun v => (v.toList, val v))) ∧
    dbgvarHtml value line file (x :: vars) = some (.at_ line file x.toList (val x) (vars.map fun v => (v.toList, val v))) ∧
    dbgvarJson value line file (x :: vars) = some (.at_ line file x.toList (val x) (vars.map fun v => (v.toList, val v))) :=
  ⟨logged_eq value val _ x vars hl hv, logged_eq value val _ x vars hl hv, logged_eq value val _ x vars hl hv⟩

/-- A statement `DBGVAR(vars...)`: where it is, the variables and their values. -/
structure Statement where
  line : Nat
  func : List Char
  file : List Char
  vars : List String
  val : String → LVal

/-- What a run of such statements shows on the console. -/
def shown (s : ConsoleLog.Settings) (st : Statement) : List ConsoleLog.Entry :=
  st.vars.map fun v => .var (ConsoleLog.shownFile s st.file) st.line (ConsoleLog.shownFunction s st.func) v.toList (JsonLog.print (st.val v))

/-- C61: a program that runs statements `DBGVAR` shows exactly the variables of the statements, in order, each with its text,
its value and the place of the statement. -/
theorem C61_dbgvar_console (s : ConsoleLog.Settings) (hi : ConsoleLog.GoodIndent s.identation) (sts : List Statement)
    (hn : ∀ st ∈ sts, 1 ≤ st.vars.length ∧ st.vars.length ≤ 40)
    (hg : ∀ st ∈ sts, ConsoleLog.GoodPlace st.func st.file ∧
      ∀ v ∈ st.vars, ConsoleLog.Inline v.toList ∧ ¬ [' ', ']', ']'] <:+: v.toList ∧ ConsoleLog.Inline (JsonLog.print (st.val v))) :
    ∃ cs, sts.mapM (fun st => dbgvar (fun v => some (st.val v)) st.line st.func st.file st.vars) = some cs ∧
      ConsoleLog.readLog (ConsoleLog.layout s) (ConsoleLog.calls { settings := s } cs).err = some (sts.flatMap (shown s)) := by
  have key : ∀ sts : List Statement, (∀ st ∈ sts, 1 ≤ st.vars.length ∧ st.vars.length ≤ 40) →
      (∀ st ∈ sts, ConsoleLog.GoodPlace st.func st.file ∧
        ∀ v ∈ st.vars, ConsoleLog.Inline v.toList ∧ ¬ [' ', ']', ']'] <:+: v.toList ∧ ConsoleLog.Inline (JsonLog.print (st.val v))) →
      ∃ cs, sts.mapM (fun st => dbgvar (fun v => some (st.val v)) st.line st.func st.file st.vars) = some cs ∧
        (∀ c ∈ cs, ConsoleLog.GoodCall c) ∧ cs.flatMap (ConsoleLog.entries s) = sts.flatMap (shown s) := by
    intro sts
    induction sts with
    | nil => intro _ _; exact ⟨[], by simp, by simp, by simp⟩
    | cons st sts ih =>
      intro hn hg
      obtain ⟨cs, h1, h2, h3⟩ := ih (fun t ht => hn t (by simp [ht])) (fun t ht => hg t (by simp [ht]))
      obtain ⟨hp, hvs⟩ := hg st (by simp)
      obtain ⟨hn1, hn2⟩ := hn st (by simp)
      cases hv : st.vars with
      | nil => simp [hv] at hn1
      | cons x vars =>
        rw [hv] at hvs hn2
        have e := (C61_dbgvar (fun v => some (st.val v)) st.val st.line st.func st.file x vars (by simp at hn2; omega) (by simp)).1
        refine ⟨_, by rw [List.mapM_cons, hv, e, h1]; rfl, ?_, ?_⟩
        · intro c hc
          rcases List.mem_cons.1 hc with rfl | hc
          · refine ⟨hp, ?_⟩
            intro y hy
            rcases List.mem_cons.1 hy with rfl | hy
            · exact hvs x (by simp)
            · obtain ⟨v, hv', rfl⟩ := List.mem_map.1 hy
              exact hvs v (by simp [hv'])
          · exact h2 c hc
        · rw [List.flatMap_cons, List.flatMap_cons, h3]
          congr 1
          simp [ConsoleLog.entries, shown, hv]
  obtain ⟨cs, h1, h2, h3⟩ := key sts hn hg
  exact ⟨cs, h1, by rw [(ConsoleLog.C60_log s hi cs h2).1, h3]⟩

/-- Two statements, one of them with an expression. -/
def exampleStatements : List Statement :=
  [⟨12, "main".toList, "a.cpp".toList, ["x", "v.size()"], fun v => .plain (if v = "x" then ['1'] else ['7'])⟩,
   ⟨15, "main".toList, "a.cpp".toList, ["s"], fun _ => .text ['o', 'k']⟩]

example : ∃ cs, exampleStatements.mapM (fun st => dbgvar (fun v => some (st.val v)) st.line st.func st.file st.vars) = some cs ∧
    (ConsoleLog.calls { settings := { coloredOutput := false } } cs).err =
      "== a.cpp:12 <main> \n||     [[ x ]] ==> 1\n||     [[ v.size() ]] ==> 7\n== a.cpp:15 <main> \n||     [[ s ]] ==> \"ok\"\n".toList ∧
    (∀ st ∈ exampleStatements, (1 ≤ st.vars.length ∧ st.vars.length ≤ 40) ∧ ConsoleLog.GoodPlace st.func st.file ∧
      ∀ v ∈ st.vars, ConsoleLog.Inline v.toList ∧ ¬ [' ', ']', ']'] <:+: v.toList ∧ ConsoleLog.Inline (JsonLog.print (st.val v))) := by
  refine ⟨_, rfl, by decide +kernel, ?_⟩
  intro st hst
  simp only [exampleStatements, List.mem_cons, List.not_mem_nil, or_false] at hst
  rcases hst with rfl | rfl
  · refine ⟨by decide, ⟨ConsoleLog.inline_of_all (by decide), by decide, ConsoleLog.inline_of_all (by decide), by decide⟩, ?_⟩
    intro v hv
    simp only [List.mem_cons, List.not_mem_nil, or_false] at hv
    rcases hv with rfl | rfl <;> exact ⟨ConsoleLog.inline_of_all (by decide), by decide, ConsoleLog.inline_of_all (by decide)⟩
  · refine ⟨by decide, ⟨ConsoleLog.inline_of_all (by decide), by decide, ConsoleLog.inline_of_all (by decide), by decide⟩, ?_⟩
    intro v hv
    simp only [List.mem_cons, List.not_mem_nil, or_false] at hv
    rcases hv with rfl
    exact ⟨ConsoleLog.inline_of_all (by decide), by decide, ConsoleLog.inline_of_all (by decide)⟩

end GTMesh.DebugMacros
