import Verif.Proofs.ConsoleLog

/-!
# C60: the console log shows every variable with its place
-/

namespace GTMesh.ConsoleLog
open JsonLog (LVal LVals print)

/-- C60: whatever the settings, after any sequence of calls that log variables and messages the log says exactly what was
logged: one entry for each variable and message, in order, with the name, the value, the file (without the directories if
the settings say so), the line and the function (if the settings say so). The settings do not change. -/
theorem C60_log (s : Settings) (hi : GoodIndent s.identation) (cs : List Call) (h : ∀ c ∈ cs, GoodCall c) :
    readLog (layout s) (calls { settings := s } cs).err = some (cs.flatMap (entries s)) ∧ (calls { settings := s } cs).settings = s := by
  obtain ⟨h1, h2⟩ := calls_err cs { settings := s } h
  refine ⟨?_, h1⟩
  unfold readLog
  rw [h2, List.nil_append]
  exact read_all hi cs h none

/-- The variables of the following example. -/
def exampleCalls : List Call :=
  [.vars 12 "main".toList "src/a/main.cpp".toList "v[0]".toList (.plain ['3']) [("s".toList, .text "x y".toList)],
   .msgs ['+', '+'] 13 "operator>".toList "src/b.h".toList (.plain "done".toList) [.list (.cons (.plain ['1']) .nil)],
   .vars 7 "f".toList "c.cpp".toList "a ] ]".toList (.list .nil) []]

/-- The default settings and other ones: the calls of the example are shown. -/
example : (∀ c ∈ exampleCalls, GoodCall c) ∧ GoodIndent ({} : Settings).identation ∧
    readLog (layout {}) (calls {} exampleCalls).err = some
      [.var "src/a/main.cpp".toList 12 (some "main".toList) "v[0]".toList ['3'],
       .var "src/a/main.cpp".toList 12 (some "main".toList) ['s'] "\"x y\"".toList,
       .msg ['+', '+'] "src/b.h".toList 13 (some "operator>".toList) "done".toList,
       .msg ['+', '+'] "src/b.h".toList 13 (some "operator>".toList) "[ 1 ]".toList,
       .var "c.cpp".toList 7 (some ['f']) "a ] ]".toList "[  ]".toList] := by
  refine ⟨?_, ⟨inline_of_all (by decide), by decide⟩, by decide +kernel⟩
  intro c hc
  simp only [exampleCalls, List.mem_cons, List.not_mem_nil, or_false] at hc
  rcases hc with rfl | rfl | rfl
  · refine ⟨⟨inline_of_all (by decide), by decide, inline_of_all (by decide), by decide⟩, ?_⟩
    intro x hx
    simp only [List.mem_cons, List.not_mem_nil, or_false] at hx
    rcases hx with rfl | rfl <;> exact ⟨inline_of_all (by decide), by decide, inline_of_all (by decide)⟩
  · refine ⟨.inl rfl, ⟨inline_of_all (by decide), by decide, inline_of_all (by decide), by decide⟩, ?_⟩
    intro x hx
    simp only [List.mem_cons, List.not_mem_nil, or_false] at hx
    rcases hx with rfl | rfl <;> exact inline_of_all (by decide)
  · refine ⟨⟨inline_of_all (by decide), by decide, inline_of_all (by decide), by decide⟩, ?_⟩
    intro x hx
    simp only [List.mem_cons, List.not_mem_nil, or_false] at hx
    rcases hx with rfl
    exact ⟨inline_of_all (by decide), by decide, inline_of_all (by decide)⟩

example : let s : Settings := { coloredOutput := false, onlyFilename := true, printFunction := false, printAggregated := false }
    (calls { settings := s } exampleCalls).err =
      "== main.cpp:12 [[ v[0] ]] ==> 3\n== main.cpp:12 [[ s ]] ==> \"x y\"\n++b.h:13==> done <==\n++b.h:13==> [ 1 ] <==\n== c.cpp:7 [[ a ] ] ]] ==> [  ]\n".toList := by
  decide +kernel

/-- C60: the log only grows, and the following entries depend on the settings, not on what was logged before. -/
theorem C60_append (l : Logger) (cs ds : List Call) :
    (calls l (cs ++ ds)).err = (calls l cs).err ++ (calls { settings := (calls l cs).settings } ds).err ∧
      (calls l (cs ++ ds)).settings = (calls { settings := (calls l cs).settings } ds).settings := by
  have key : ∀ (ds : List Call) (l : Logger), (calls l ds).err = l.err ++ (calls { settings := l.settings } ds).err ∧
      (calls l ds).settings = (calls { settings := l.settings } ds).settings := by
    intro ds
    induction ds with
    | nil => intro l; simp [calls]
    | cons d ds ih =>
      intro l
      have hset : (call l d).settings = (call { settings := l.settings } d).settings := by cases d <;> rfl
      obtain ⟨h1, h2⟩ := ih (call l d)
      obtain ⟨h3, h4⟩ := ih (call { settings := l.settings } d)
      have e1 : calls l (d :: ds) = calls (call l d) ds := rfl
      have e2 : calls { settings := l.settings } (d :: ds) = calls (call { settings := l.settings } d) ds := rfl
      refine ⟨?_, ?_⟩
      · rw [e1, e2, h1, h3, call_err, call_err, hset]; simp
      · rw [e1, e2, h2, h4, hset]
  have e : calls l (cs ++ ds) = calls (calls l cs) ds := by simp [calls, List.foldl_append]
  rw [e]
  exact key ds (calls l cs)

/-- C60: colours are the only difference that `setColoredOutput` makes. -/
theorem C60_colors (s : Settings) (hi : GoodIndent s.identation) (b : Bool) (cs : List Call) (h : ∀ c ∈ cs, GoodCall c) :
    readLog (layout s) (calls { settings := { s with coloredOutput := b } } cs).err = readLog (layout s) (calls { settings := s } cs).err := by
  rw [(C60_log s hi cs h).1]
  have := (C60_log { s with coloredOutput := b } hi cs h).1
  have e : ∀ c, entries { s with coloredOutput := b } c = entries s c := by intro c; cases c <;> rfl
  have e' : entries { s with coloredOutput := b } = entries s := funext e
  rw [e'] at this
  exact this

/-- C60, the exact text of a colored variable and message: names are yellow (33), values green (32), messages red (31), and each
ends with the reset of the terminal. -/
theorem C60_palette (line : Nat) (func file name : List Char) (v m : LVal) :
    (calls { settings := { printAggregated := false } } [.vars line func file name v []]).err =
      "== ".toList ++ file ++ ":".toList ++ decimal line ++ " <".toList ++ func ++ ">  [[ \x1b[0;33m".toList ++ name ++ "\x1b[0m ]] ==> \x1b[0;32m".toList ++
        print v ++ "\x1b[0m\n".toList ∧
    (calls {} [.msgs ['+', '+'] line func file m []]).err =
      "++".toList ++ file ++ ":".toList ++ decimal line ++ " <".toList ++ func ++ "> ==> \x1b[0;31m".toList ++ print m ++ "\x1b[0m <==\n".toList := by
  constructor
  · simp [calls, call, writeVars, oneVar, header, varPrefix, nameColor, resetColor, valueColor, getFileName]
  · simp [calls, call, writeMessages, oneMessage, header, messageColor, resetColor, getFileName]

/-- C60, what `reset` gets right: everything but the indentation is as in a new logger. -/
theorem C60_reset_partial (l : Logger) : (call l .reset).err = l.err ∧
    { (call l .reset).settings with identation := ({} : Settings).identation } = ({} : Settings) := ⟨rfl, rfl⟩

/-- C60 is false for `reset`, "resets the configuration to default": the indentation becomes another one, so that the same call
gives another text than in a new logger. -/
theorem C60_reset_violated (l : Logger) (line : Nat) (func file name : List Char) (v : LVal) : ∃ t,
    (calls l [.reset, .vars line func file name v []]).err = l.err ++ t ∧ (calls {} [.vars line func file name v []]).err ≠ t := by
  refine ⟨added (reset l.settings) (.vars line func file name v []), ?_, ?_⟩
  · rw [show (calls l [.reset, .vars line func file name v []]) = call (call l .reset) (.vars line func file name v []) from rfl, call_err]
    rfl
  · rw [show (calls {} [.vars line func file name v []]) = call {} (.vars line func file name v []) from rfl, call_err]
    simp only [added, List.nil_append, writeVars, oneVar]
    intro he
    simp [getFileName, reset, header, varPrefix] at he

/-- C60 is false for `DBGVAR_STDIO`: the place of the file is taken by the function and the other way round. -/
theorem C60_stdio_violated (line : Nat) (file func name value : List Char) : ∃ rest,
    dbgvarStdio line file func [(name, value)] = "== ".toList ++ func ++ ": ".toList ++ decimal line ++ " <".toList ++ file ++ "> ".toList ++ rest := by
  refine ⟨"[[ ".toList ++ name ++ " ]] ==> ".toList ++ value ++ ['\n'], ?_⟩
  have h1 : "== ".toList = ['=', '=', ' '] := by decide
  have h2 : ": ".toList = [':', ' '] := by decide
  have h3 : " <".toList = [' ', '<'] := by decide
  have h4 : "> ".toList = ['>', ' '] := by decide
  have h5 : "[[ ".toList = ['[', '[', ' '] := by decide
  have h6 : " ]] ==> ".toList = [' ', ']', ']', ' ', '=', '=', '>', ' '] := by decide
  rw [h1, h2, h3, h4, h5, h6]
  simp [dbgvarStdio, writeVarC]

/-- C60: the text of an integer printed by the `printf` variant is the number, except for `unsigned int`. -/
theorem C60_stdio_integers_partial (n : Int) (m : Nat) : Numeral.value (printStdio (.int n)) = some (n : ℚ) ∧
    Numeral.value (printStdio (.short n)) = some (n : ℚ) ∧ Numeral.value (printStdio (.longLong n)) = some (n : ℚ) ∧
    Numeral.value (printStdio (.unsignedLongLong m)) = some (m : ℚ) := by
  have hu : ∀ k : Nat, Numeral.unsigned (decimal k) = some (k : ℚ) := by
    intro k
    obtain ⟨ds, h1, h2, h3, h4⟩ := decimal_spec k
    have ht := takeDigits_map h4 (rest := []) (by simp)
    rw [List.append_nil] at ht
    unfold Numeral.unsigned
    rw [h1, ht]
    simp [Numeral.takeFraction, Numeral.exponentOf, h3, h2]
  have hv : ∀ k : Nat, Numeral.value (decimal k) = some (k : ℚ) := by
    intro k
    unfold Numeral.value
    split
    · rename_i r hr
      have : '-' ∈ decimal k := by rw [hr]; simp
      have hd : ('-' : Char).isDigit = true := Nat.isDigit_of_mem_toDigits (by omega) (by omega) this
      exact absurd hd (by decide)
    · exact hu k
  have hs : Numeral.value (signed n) = some (n : ℚ) := by
    unfold signed
    split
    · rename_i hn
      rw [Numeral.value, hu]
      have : (n.natAbs : ℤ) = -n := by omega
      have hq : ((n.natAbs : ℕ) : ℚ) = -(n : ℚ) := by rw [← Int.cast_natCast, this, Int.cast_neg]
      simp [hq]
    · rename_i hn
      rw [hv]
      have : (n.natAbs : ℤ) = n := by omega
      have hq : ((n.natAbs : ℕ) : ℚ) = (n : ℚ) := by rw [← Int.cast_natCast, this]
      rw [hq]
  exact ⟨hs, hs, hs, hv m⟩

/-- C60 is false for `unsigned int` in the `printf` variant: the format is `%ud`, the text is the number with a `d` behind it,
which is no number. -/
theorem C60_stdio_unsigned_violated (n : Nat) : printStdio (.unsigned n) = decimal n ++ ['d'] ∧ Numeral.value (printStdio (.unsigned n)) = none := by
  refine ⟨rfl, ?_⟩
  obtain ⟨ds, h1, h2, h3, h4⟩ := decimal_spec n
  have ht := takeDigits_map h4 (rest := ['d']) (by rintro c ⟨rfl⟩; decide)
  have hu : Numeral.unsigned (decimal n ++ ['d']) = none := by
    unfold Numeral.unsigned
    rw [h1, ht]
    simp [Numeral.takeFraction, Numeral.exponentOf, h3]
  show Numeral.value (decimal n ++ ['d']) = none
  unfold Numeral.value
  split
  · rename_i r hr
    have : '-' ∈ decimal n ++ ['d'] := by rw [hr]; simp
    rcases List.mem_append.mp this with hm | hm
    · have hd : ('-' : Char).isDigit = true := Nat.isDigit_of_mem_toDigits (by omega) (by omega) hm
      exact absurd hd (by decide)
    · simp at hm
  · exact hu

example : printStdio (.unsigned 5) = ['5', 'd'] ∧ printStdio (.int (-12)) = ['-', '1', '2'] := by decide

end GTMesh.ConsoleLog
