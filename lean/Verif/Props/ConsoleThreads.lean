import Verif.Model.ConsoleThreads
import Verif.Props.ConsoleLog

/-! # C65: the console log used by several threads -/

namespace GTMesh.ConsoleLog
open JsonLog (LVal print)

/-- `l` is made of the elements of `a` and `b`, both in their order. -/
inductive Interleaved {α : Type} : List α → List α → List α → Prop where
  | nil : Interleaved [] [] []
  | left {a b l : List α} (x : α) : Interleaved a b l → Interleaved (x :: a) b (x :: l)
  | right {a b l : List α} (x : α) : Interleaved a b l → Interleaved a (x :: b) (x :: l)

theorem interleaved_left {α : Type} (a : List α) {b c l : List α} (h : Interleaved b c l) : Interleaved (a ++ b) c (a ++ l) := by
  induction a with
  | nil => exact h
  | cons x a ih => exact .left x ih

theorem interleaved_right {α : Type} (a : List α) {b c l : List α} (h : Interleaved b c l) : Interleaved b (a ++ c) (a ++ l) := by
  induction a with
  | nil => exact h
  | cons x a ih => exact .right x ih

/-- The pieces of a call are the text of C60. -/
theorem C65_pieces (s : Settings) (line : Nat) (func file name : List Char) (v : LVal) (rest : List (List Char × LVal)) :
    (callPieces s line func file ((name, v) :: rest)).flatten = (call { settings := s } (.vars line func file name v rest)).err := by
  have one : ∀ (n : List Char) (v : LVal), (varPieces s line func (getFileName s file) n v).flatten = oneVar s line func (getFileName s file) n v := by
    intro n v
    unfold varPieces oneVar headerPieces header
    cases s.printAggregated <;> cases s.printFunction <;> simp
  have many : ∀ (rest : List (List Char × LVal)) (n : List Char) (v : LVal),
      (((n, v) :: rest).flatMap fun x => varPieces s line func (getFileName s file) x.1 x.2).flatten =
        writeVars s line func (getFileName s file) n v rest := by
    intro rest
    induction rest with
    | nil => intro n v; simp [writeVars, one]
    | cons x rest ih =>
      intro n v
      rw [List.flatMap_cons, List.flatten_append, ih, writeVars, one]
  unfold callPieces
  rw [List.flatten_append, many]
  simp only [call, List.nil_append]
  congr 1
  unfold headerPieces header
  cases s.printAggregated <;> cases s.printFunction <;> simp

/-- C65 is false of the console log with its default settings: two threads log one variable each, and the log says that the variable of the
first thread is at the place of the second one (even if the threads alternate only at the ends of lines). -/
theorem C65_console_violated : ∃ l, Interleaved (callPieces {} 1 "f".toList "a.cpp".toList [("x".toList, .plain ['3'])])
      (callPieces {} 2 "g".toList "b.cpp".toList [("y".toList, .plain ['4'])]) l ∧
    readLog (layout {}) l.flatten = some [.var "b.cpp".toList 2 (some "g".toList) "x".toList ['3'], .var "b.cpp".toList 2 (some "g".toList) "y".toList ['4']] := by
  refine ⟨headerPieces {} 1 "f".toList "a.cpp".toList varPrefix ++ [['\n']] ++ (headerPieces {} 2 "g".toList "b.cpp".toList varPrefix ++ [['\n']] ++
    (varPieces {} 1 "f".toList "a.cpp".toList "x".toList (.plain ['3']) ++ varPieces {} 2 "g".toList "b.cpp".toList "y".toList (.plain ['4']))), ?_, by decide +kernel⟩
  have e1 : callPieces {} 1 "f".toList "a.cpp".toList [("x".toList, .plain ['3'])] =
      headerPieces {} 1 "f".toList "a.cpp".toList varPrefix ++ [['\n']] ++ varPieces {} 1 "f".toList "a.cpp".toList "x".toList (.plain ['3']) := by
    simp [callPieces, getFileName]
  have e2 : callPieces {} 2 "g".toList "b.cpp".toList [("y".toList, .plain ['4'])] =
      headerPieces {} 2 "g".toList "b.cpp".toList varPrefix ++ [['\n']] ++ varPieces {} 2 "g".toList "b.cpp".toList "y".toList (.plain ['4']) := by
    simp [callPieces, getFileName]
  rw [e1, e2]
  refine interleaved_left _ (interleaved_right _ ?_)
  have := interleaved_left (varPieces {} 1 "f".toList "a.cpp".toList "x".toList (.plain ['3']))
    (interleaved_right (varPieces {} 2 "g".toList "b.cpp".toList "y".toList (.plain ['4'])) Interleaved.nil)
  simpa using this

end GTMesh.ConsoleLog
