import Verif.Proofs.HtmlLog

/-!
# C58: the HTML log is a table of the variables
-/

namespace GTMesh.HtmlLog

open Json
open JsonLog (LVal LVals Members Handle print Loggable)

/-- The document whose script sets `data` to the array literal `a`. -/
def document (a : List Char) : List Char := documentHead.toList ++ "data = ".toList ++ a ++ [';'] ++ documentTail.toList

theorem document_texts (t : List Char) :
    scriptText ++ t ++ endText ++ documentTail.toList = document ('[' :: t ++ [']']) := by
  have h : "data = ".toList = ['d', 'a', 't', 'a', ' ', '=', ' '] := by decide
  simp [scriptText, document, dataText, endText, h]

/-- C58, the part that holds: after any sequence of calls with their place (and the destructor) one file is written, it
is the document whose script sets `data` to an array, and the array has one row for each variable, in the order in
which they were logged, with the number of the call, the line, the file, the name and the value. Missing: names with
`'` or a backslash, texts that need an escape, calls without a place (see below). -/
theorem C58_log_partial (file : List Char) (cs : List Call) (hne : cs ≠ []) (h : ∀ c ∈ cs, GoodCall c) :
    ∃ l a, session file cs = .ok l ∧ l.closed = [(file, document a)] ∧ jsArray a = some (rows 0 cs) := by
  obtain ⟨g, hc⟩ := calls_ready cs (Logger.new file) file scriptText hne h (.inr ⟨rfl, rfl, rfl⟩)
  refine ⟨{ logFileName := file, logFile := .dangling, groupIndex := g, closed := [(file, document ('[' :: texts 0 cs ++ [']']))] },
    '[' :: texts 0 cs ++ [']'], ?_, ?_, jsArray_texts 0 cs h⟩
  · unfold session
    rw [hc]
    simp only [Res.bind, destroy]
    have := document_texts (texts 0 cs)
    simp only [Logger.new, this]
  · rfl

/-- C58: the same when the file is opened with `create`, also when nothing is logged. -/
theorem C58_created_partial (other file : List Char) (cs : List Call) (h : ∀ c ∈ cs, GoodCall c) :
    ∃ l a, ((create file (Logger.new other)).bind fun l => (calls cs l).bind destroy) = .ok l ∧ l.closed = [(file, document a)] ∧
      jsArray a = some (rows 0 cs) := by
  have hcr : create file (Logger.new other) = .ok { Logger.new other with logFile := .opened file scriptText } := rfl
  have key : ∃ g, calls cs { Logger.new other with logFile := .opened file scriptText } =
      .ok { Logger.new other with logFile := .opened file (scriptText ++ texts 0 cs), groupIndex := g } := by
    by_cases hne : cs = []
    · subst hne; exact ⟨0, by simp [calls, texts, Logger.new]⟩
    · obtain ⟨g, hg⟩ := calls_ready cs { Logger.new other with logFile := .opened file scriptText } file scriptText hne h (.inl rfl)
      exact ⟨g, hg⟩
  obtain ⟨g, hc⟩ := key
  refine ⟨{ logFileName := other, logFile := .dangling, groupIndex := g, closed := [(file, document ('[' :: texts 0 cs ++ [']']))] },
    '[' :: texts 0 cs ++ [']'], ?_, ?_, jsArray_texts 0 cs h⟩
  · rw [hcr]
    simp only [Res.bind, hc, destroy]
    have := document_texts (texts 0 cs)
    simp only [Logger.new, this]
  · rfl

/-- C58: a logger that is not used does not touch the disk. -/
theorem C58_unused (file : List Char) : ∃ l, session file [] = .ok l ∧ l.closed = [] := ⟨_, rfl, rfl⟩

/-- What one call with its place writes, whatever it is. -/
theorem session_one (file : List Char) (line : Nat) (path n : List Char) (v : LVal) : ∃ l,
    session file [.at_ line path n v []] = .ok l ∧
      l.closed = [(file, document ('[' :: row 0 line (escapePath path) n v ++ [']']))] := by
  have h1 := writeLocated_ready line path [] n v (Logger.new file) file scriptText (.inr ⟨rfl, rfl, rfl⟩)
  refine ⟨{ logFileName := file, logFile := .dangling, groupIndex := 1, closed :=
      [(file, document ('[' :: row 0 line (escapePath path) n v ++ [']']))] }, ?_, rfl⟩
  unfold session
  simp only [calls, call, h1, Res.bind, destroy]
  have := document_texts (row 0 line (escapePath path) n v)
  simp only [rowTexts, List.flatMap_cons, List.flatMap_nil, List.append_nil, Logger.new, this]

/-- C58 is false for names with `'`, which an expression such as `count('a')` has: the name ends early, and the script
is not JavaScript (so the document shows nothing at all). -/
theorem C58_name_violated (file : List Char) : ∃ l a, session file [.at_ 7 "m.cpp".toList "count('a')".toList (.plain ['1']) []] = .ok l ∧
    l.closed = [(file, document a)] ∧ (jsArray a).isNone = true := by
  obtain ⟨l, h1, h2⟩ := session_one file 7 "m.cpp".toList "count('a')".toList (.plain ['1'])
  exact ⟨l, _, h1, h2, by decide +kernel⟩

/-- C58 is false for texts with `"`. -/
theorem C58_text_violated (file : List Char) : ∃ l a, session file [.at_ 7 "m.cpp".toList ['x'] (.text ['"']) []] = .ok l ∧
    l.closed = [(file, document a)] ∧ (jsArray a).isNone = true := by
  obtain ⟨l, h1, h2⟩ := session_one file 7 "m.cpp".toList ['x'] (.text ['"'])
  exact ⟨l, _, h1, h2, by decide +kernel⟩

/-- A name with a backslash is read as another name: `f("\t")` is shown with a tabulator. -/
theorem C58_backslash_violated (file : List Char) : ∃ l a rs, session file [.at_ 7 "m.cpp".toList ['\\', 't'] (.plain ['1']) []] = .ok l ∧
    l.closed = [(file, document a)] ∧ jsArray a = some rs ∧ rs.map (·.name) = [['\t']] := by
  obtain ⟨l, h1, h2⟩ := session_one file 7 "m.cpp".toList ['\\', 't'] (.plain ['1'])
  exact ⟨l, _, _, h1, h2, rfl, rfl⟩

/-- C58 is false for calls without a place: no row is written, and the array cannot be read. -/
theorem C58_no_place_violated (file : List Char) : ∃ l a, session file [.vars (['x'], ['1']) []] = .ok l ∧
    l.closed = [(file, document a)] ∧ (jsArray a).isNone = true := by
  refine ⟨{ logFileName := file, logFile := .dangling, groupIndex := 0, closed := [(file, document ('[' :: ['x', ',', ' ', '1'] ++ [']']))] },
    _, ?_, rfl, by decide +kernel⟩
  unfold session
  simp only [calls, call, writeVars, ensure, create, Logger.new, Res.bind, put, destroy]
  have := document_texts ['x', ',', ' ', '1']
  simp only [List.cons_append, List.nil_append] at this ⊢
  rw [this]

/-- The text of a script ends in front of the first `</script` (HTML), wherever it is. -/
def scriptBody : List Char → List Char
  | [] => []
  | c :: s => if "</script".toList.isPrefixOf (c :: s) then [] else c :: scriptBody s

/-- C58 is false for texts with `</script`: the script ends there, in the middle of the array. -/
theorem C58_script_violated (file : List Char) : ∃ l a, session file [.at_ 7 "m.cpp".toList ['x'] (.text "</script>".toList) []] = .ok l ∧
    l.closed = [(file, document a)] ∧ scriptBody (a ++ [';'] ++ documentTail.toList) = "[[0, 7, 'm.cpp', 'x', \"".toList := by
  obtain ⟨l, h1, h2⟩ := session_one file 7 "m.cpp".toList ['x'] (.text "</script>".toList)
  exact ⟨l, _, h1, h2, by decide +kernel⟩

/-- A second `create` leaves the first file without its end: the array is not closed. -/
theorem C58_create_again_violated (file other : List Char) : ∃ l text,
    ((calls [.at_ 7 "m.cpp".toList ['x'] (.plain ['1']) []] (Logger.new file)).bind fun l => (create other l).bind destroy) = .ok l ∧
    l.closed.getLast? = some (file, documentHead.toList ++ "data = ".toList ++ text) ∧ (jsArray text).isNone = true := by
  have h1 := writeLocated_ready 7 "m.cpp".toList [] ['x'] (.plain ['1']) (Logger.new file) file scriptText (.inr ⟨rfl, rfl, rfl⟩)
  refine ⟨{ logFileName := file, logFile := .dangling, groupIndex := 1, closed :=
      [(other, scriptText ++ endText ++ documentTail.toList), (file, scriptText ++ row 0 7 (escapePath "m.cpp".toList) ['x'] (.plain ['1']))] },
    '[' :: row 0 7 (escapePath "m.cpp".toList) ['x'] (.plain ['1']), ?_, ?_, by decide +kernel⟩
  · simp only [calls, call, h1, Res.bind, create, destroy]
    simp only [rowTexts, List.flatMap_cons, List.flatMap_nil, List.append_nil, Logger.new]
  · have h : "data = ".toList = ['d', 'a', 't', 'a', ' ', '=', ' '] := by decide
    simp [scriptText, dataText, h]

/-- `destroy` leaves the pointer: the destructor behind it, and any later call, is undefined behaviour. -/
theorem C58_destroy_violated (l : Logger) (n out : List Char) (h : l.logFile = .opened n out) :
    (destroy l).bind destroy = .ub ∧ ∀ c, (destroy l).bind (call c) = .ub := by
  have e : destroy l = .ok { l with logFile := .dangling, closed := (n, out ++ endText ++ documentTail.toList) :: l.closed } := by
    unfold destroy; simp only [h]
  rw [e]
  refine ⟨rfl, fun c => ?_⟩
  cases c with
  | vars x rest => rfl
  | at_ line path n v rest => cases rest <;> rfl

-- two variables with a Windows path, then one with a value that has members
example : ∀ c ∈ [Call.at_ 12 "C:\\src\\main.cpp".toList "a[\"x\"]".toList (.list (.cons (.plain "1.5e-07".toList) (.cons (.plain "-2".toList) .nil)))
      [("b < c".toList, .plain "true".toList)],
    Call.at_ 13 "/src/m.cpp".toList "m".toList (.obj (.cons "p".toList (.text "q".toList) .nil)) []], GoodCall c := by
  intro c hc
  simp only [List.mem_cons, List.not_mem_nil, or_false] at hc
  rcases hc with hc | hc <;> subst hc
  · refine ⟨by decide +kernel, ?_⟩
    intro x hx
    simp only [List.mem_cons, List.not_mem_nil, or_false] at hx
    rcases hx with hx | hx <;> subst hx
    · exact ⟨by unfold Plain; decide +kernel, ⟨Or.inl (by decide +kernel), Or.inl (by decide +kernel), trivial⟩⟩
    · exact ⟨by unfold Plain; decide +kernel, Or.inr (Or.inl (by decide +kernel))⟩
  · refine ⟨by decide +kernel, ?_⟩
    intro x hx
    simp only [List.mem_cons, List.not_mem_nil, or_false] at hx
    subst hx
    exact ⟨by unfold Plain; decide +kernel, ⟨by unfold JsonLog.Unescaped; decide +kernel, by unfold Loggable JsonLog.Unescaped; decide +kernel, trivial⟩⟩

-- a logger in use meets the hypothesis of `C58_destroy_violated`
example (file : List Char) : ∃ l out, create file (Logger.new file) = .ok l ∧ l.logFile = .opened file out := ⟨_, _, rfl, rfl⟩

end GTMesh.HtmlLog
