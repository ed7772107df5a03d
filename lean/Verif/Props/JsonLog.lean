import Verif.Proofs.JsonLog2

/-!
# C47: the JSON log is a list of records
-/

namespace GTMesh.JsonLog

open Json

/-- C47, the part that holds: after any sequence of log calls (and the destructor) the file is one JSON object
`{"logs": [...]}` with one record for each variable, in the order in which they were logged, with the name of the
variable, its value, and its place; and no other file is written. Missing: texts, paths and keys that need an escape
(see below). -/
theorem C47_log_partial (file : List Char) (cs : List Call) (hne : cs ≠ []) (h : ∀ c ∈ cs, GoodCall c) :
    ∃ l text, session file cs = .ok l ∧ l.closed = [(file, text)] ∧
      parse text = some (.obj [("logs".toList, .arr (records 0 cs))]) := by
  have h0 : Wrote file [] 0 (Logger.new file) := ⟨rfl, rfl, Or.inl ⟨rfl, rfl, rfl⟩⟩
  obtain ⟨l, g, hc, hw⟩ := wrote_calls cs [] 0 _ h0 h
  obtain ⟨h1, _, h3⟩ := hw
  have hrec : records 0 cs ≠ [] := by
    cases cs with
    | nil => exact absurd rfl hne
    | cons c cs => cases c <;> simp [records]
  rcases h3 with ⟨_, e, _⟩ | ⟨out, ho, hl⟩
  · exact absurd (by simpa using e) hrec
  · refine ⟨{ l with logFile := .dangling, closed := (file, out ++ ['\n', ']', '\n', '}']) :: l.closed }, out ++ ['\n', ']', '\n', '}'],
      ?_, ?_, ?_⟩
    · unfold session destroy
      simp only [hc, Res.bind, ho]
    · simp [h1]
    · simpa using parse_logged hl

/-- C47: the same when the file is opened with `create`, also when nothing is logged. -/
theorem C47_created_partial (other file : List Char) (cs : List Call) (h : ∀ c ∈ cs, GoodCall c) :
    ∃ l text, ((create file (Logger.new other)).bind fun l => (calls cs l).bind destroy) = .ok l ∧ l.closed = [(file, text)] ∧
      parse text = some (.obj [("logs".toList, .arr (records 0 cs))]) := by
  have h0 : Wrote file [] 0 { Logger.new other with logFile := .opened file headerText } :=
    ⟨rfl, rfl, Or.inr ⟨_, rfl, ⟨[], by simp, rfl, by simp [joined], by simp [Logger.new]⟩⟩⟩
  obtain ⟨l, g, hc, hw⟩ := wrote_calls cs [] 0 _ h0 h
  obtain ⟨h1, _, h3⟩ := hw
  have hcr : create file (Logger.new other) = .ok { Logger.new other with logFile := .opened file headerText } := rfl
  rw [hcr]
  simp only [Res.bind, hc]
  rcases h3 with ⟨hnull, e, _⟩ | ⟨out, ho, hl⟩
  · exfalso
    cases cs with
    | nil =>
      injection hc with hc
      rw [← hc] at hnull
      cases hnull
    | cons c cs => cases c <;> simp [records] at e
  · refine ⟨{ l with logFile := .dangling, closed := (file, out ++ ['\n', ']', '\n', '}']) :: l.closed }, _, ?_, ?_, by simpa using parse_logged hl⟩
    · unfold destroy; simp only [ho]
    · simp [h1]

/-- C47: a logger that is not used does not touch the disk. -/
theorem C47_unused (file : List Char) : ∃ l, session file [] = .ok l ∧ l.closed = [] := ⟨_, rfl, rfl⟩

/-- The first file that was written is `name` and is not JSON. -/
def notJson (r : Res Logger) (name : List Char) : Bool :=
  match r with
  | .ok l =>
    match l.closed.getLast? with
    | some f => f.1 == name && (parse f.2).isNone
    | none => false
  | _ => false

theorem notJson_iff {r : Res Logger} {name : List Char} (h : notJson r name = true) :
    ∃ l text, r = .ok l ∧ l.closed.getLast? = some (name, text) ∧ (parse text).isNone = true := by
  unfold notJson at h
  split at h
  · rename_i l
    split at h
    · rename_i f hf
      simp only [Bool.and_eq_true, beq_iff_eq] at h
      exact ⟨l, f.2, rfl, by rw [hf, ← h.1], h.2⟩
    · cases h
  · cases h

/-- C47 is false for the text values of the program: quotes are not escaped, the file is not JSON. -/
theorem C47_text_violated : ∃ l text, session ['a'] [.vars ['x'] (.text ['"']) []] = .ok l ∧
    l.closed.getLast? = some (['a'], text) ∧ (parse text).isNone = true := notJson_iff (by decide +kernel)

/-- A text with a backslash is read as another text: `\n` (two characters) becomes a line break. -/
theorem C47_backslash_violated : parse (print (.text ['\\', 'n'])) = some (.text ['\n']) := by rfl

/-- A path with a backslash among the first two characters is not escaped: `.\q` gives a file that is not JSON. -/
theorem C47_path_violated : ∃ l text, session ['a'] [.at_ 1 ['.', '\\', 'q'] ['x'] (.plain ['1']) []] = .ok l ∧
    l.closed.getLast? = some (['a'], text) ∧ (parse text).isNone = true := notJson_iff (by decide +kernel)

/-- A pair (so every element of a map) whose first part is a number is not JSON. -/
theorem C47_pair_violated : ∃ l text, session ['a'] [.vars ['x'] (.pair (.plain ['1']) (.plain ['2'])) []] = .ok l ∧
    l.closed.getLast? = some (['a'], text) ∧ (parse text).isNone = true := notJson_iff (by decide +kernel)

/-- A second `create` leaves the first file without its end: what was logged cannot be read. -/
theorem C47_create_again_violated : ∃ l text,
    ((calls [.vars ['x'] (.plain ['1']) []] (Logger.new ['a'])).bind fun l => (create ['b'] l).bind destroy) = .ok l ∧
    l.closed.getLast? = some (['a'], text) ∧ (parse text).isNone = true := notJson_iff (by decide +kernel)

/-- `destroy` leaves the pointer: the destructor behind it, and any later use, is undefined behaviour. -/
theorem C47_destroy_violated (l : Logger) (n out : List Char) (h : l.logFile = .opened n out) :
    (destroy l).bind destroy = .ub ∧ ∀ c, (destroy l).bind (call (.vars c (.plain ['1']) [])) = .ub := by
  have e : destroy l = .ok { l with logFile := .dangling, closed := (n, out ++ ['\n', ']', '\n', '}']) :: l.closed } := by
    unfold destroy; simp only [h]
  rw [e]
  constructor
  · rfl
  · intro c
    simp only [Res.bind, call, writeVars, writeOne, ensure, comma, put]
    by_cases hf : l.firstWrite = false
    · simp [hf]
    · simp [hf]

-- two variables with a Windows path and one without a place
example : ∀ c ∈ [Call.at_ 12 "C:\\src\\main.cpp".toList "a[\"x\"]".toList (.list (.cons (.plain "1.5e-07".toList) (.cons (.plain "-2".toList) .nil)))
      [("b".toList, .obj (.cons "p".toList (.text "q".toList) .nil))],
    Call.vars "m".toList (.list (.cons (.pair (.text "k".toList) (.plain "true".toList)) .nil)) []], GoodCall c := by
  intro c hc
  simp only [List.mem_cons, List.not_mem_nil, or_false] at hc
  rcases hc with hc | hc <;> subst hc
  · refine ⟨⟨by decide +kernel, by decide +kernel⟩, ?_⟩
    intro x hx
    simp only [List.mem_cons, List.not_mem_nil, or_false] at hx
    rcases hx with hx | hx <;> subst hx
    · exact ⟨by unfold NoControl; decide +kernel, ⟨Or.inl (by decide +kernel), Or.inl (by decide +kernel), trivial⟩⟩
    · exact ⟨by unfold NoControl; decide +kernel, ⟨by unfold Unescaped; decide +kernel, by unfold Loggable Unescaped; decide +kernel, trivial⟩⟩
  · intro x hx
    simp only [List.mem_cons, List.not_mem_nil, or_false] at hx
    subst hx
    exact ⟨by unfold NoControl; decide +kernel, ⟨by unfold Loggable; exact ⟨by unfold Unescaped; decide +kernel, Or.inr (Or.inl (by decide +kernel))⟩, trivial⟩⟩

end GTMesh.JsonLog
