import Verif.Proofs.LogCrash
import Verif.Props.JsonLog
import Verif.Props.HtmlLog

/-! # C79: logs and the end of the program -/

namespace GTMesh.JsonLog
open LogCrash Json

/-- A call with its place, as those of `DBGVAR_JSON` are. -/
def HasPlace : Call → Prop
  | .vars .. => False
  | .at_ .. => True

private theorem places {cs : List Call} (h : ∀ c ∈ cs, HasPlace c) : ∀ c ∈ cs, ∃ line path n v rest, c = .at_ line path n v rest := by
  intro c hc
  cases c with
  | vars => exact absurd (h _ hc) id
  | at_ line path n v rest => exact ⟨_, _, _, _, _, rfl⟩

/-- C79, JSON log: the trace of a session has the result of the session. Wherever the program ends, the file is a beginning of the text that the
destructor would have completed; behind the destructor it is the whole text. This holds for all calls, whether the text is JSON or not. -/
theorem C79_json_prefix (file : List Char) (cs : List Call) (l : Logger) (h : session file cs = .ok l) :
    ∃ ops text, sessionT file cs = .ok (ops, l) ∧ (l.closed = [(file, text)] ∨ (l.closed = [] ∧ text = [])) ∧
      ∀ n d, CrashAfter n ops d → d <+: text ∧ (ops.length ≤ n → d = text) := by
  have hf : Faithful ((callsT cs).seq destroyT) fun l => (calls cs l).bind destroy := (callsT_faithful cs).seq destroyT_faithful
  obtain ⟨ops, ho⟩ := hf.ok (l := Logger.new file) h
  obtain ⟨a, l1, b, h1, h2, h3⟩ := seq_ok ho
  simp only at h2 h3
  obtain ⟨g1, g2, g3⟩ := callsT_grows cs _ _ _ h1
  have mono : ∀ {n m : Nat} {ops d}, m ≤ n → CrashAfter n ops d → CrashAfter m ops d := by
    rintro n m ops d hm ⟨k, hk, h⟩; exact ⟨k, by omega, h⟩
  unfold destroyT destroy at h2
  cases hl : l1.logFile with
  | null =>
    simp only [hl] at h2
    injection h2 with h2
    obtain ⟨rfl, rfl⟩ := Prod.mk.inj h2
    have ha : textOf a = [] := by simpa [outOf, hl, Logger.new] using g1.symm
    refine ⟨ops, [], ho, Or.inr ⟨g3, rfl⟩, fun n d hc => ?_⟩
    have := crash_prefix hc
    rw [h3, List.append_nil, ha] at this
    exact ⟨this, fun _ => List.prefix_nil.mp this⟩
  | opened n out =>
    simp only [hl] at h2
    injection h2 with h2
    obtain ⟨rfl, rfl⟩ := Prod.mk.inj h2
    have hops : ops = (a ++ [.put ['\n', ']', '\n', '}']]) ++ [.flush] := by rw [h3]; simp
    have ht : textOf (a ++ [.put ['\n', ']', '\n', '}']]) = out ++ ['\n', ']', '\n', '}'] := by
      rw [textOf_append, show textOf a = out by simpa [outOf, hl, Logger.new] using g1.symm]; rfl
    refine ⟨ops, out ++ ['\n', ']', '\n', '}'], ho, Or.inl ?_, fun m d hc => ⟨?_, fun hm => ?_⟩⟩
    · simp only [nameOf, hl, Logger.new] at g2 g3
      simp [g2, g3]
    · have := crash_prefix hc
      rw [hops, textOf_append, ht] at this
      simpa [textOf] using this
    · have hc := mono hm hc
      rw [hops] at hc
      rw [crash_end hc, ht]
  | dangling => simp only [hl] at h2; cases h2

private theorem logged {file : List Char} {cs : List Call} (hne : cs ≠ []) (hg : ∀ c ∈ cs, GoodCall c) :
    ∃ ops l, callsT cs (Logger.new file) = .ok (ops, l) ∧
      parse (textOf ops ++ ['\n', ']', '\n', '}']) = some (.obj [("logs".toList, .arr (records 0 cs))]) := by
  have h0 : Wrote file [] 0 (Logger.new file) := ⟨rfl, rfl, Or.inl ⟨rfl, rfl, rfl⟩⟩
  obtain ⟨l, g, hc, hw⟩ := wrote_calls cs [] 0 _ h0 hg
  obtain ⟨ops, ho⟩ := (callsT_faithful cs).ok hc
  obtain ⟨g1, -, -⟩ := callsT_grows cs _ _ _ ho
  refine ⟨ops, l, ho, ?_⟩
  rcases hw.2.2 with ⟨_, e, _⟩ | ⟨out, ho', hl⟩
  · exfalso
    cases cs with
    | nil => exact hne rfl
    | cons c cs => cases c <;> simp [records] at e
  · rw [show textOf ops = out by simpa [outOf, ho', Logger.new] using g1.symm]
    simpa using parse_logged hl

/-- C79, JSON log, the part that holds: when the last finished call is one without a place, nothing is lost. The program may end at any point behind
it, in the middle of the following calls or of the destructor: the file begins with the text of all records up to this call, and with `]}` behind
this text it is JSON. -/
theorem C79_json_kept_partial (file : List Char) (before : List Call) (n : List Char) (v : LVal) (more : List (List Char × LVal)) (later : List Call)
    (hg : ∀ c ∈ before ++ [.vars n v more], GoodCall c) (ops : List Op) (l : Logger)
    (hs : sessionT file (before ++ [.vars n v more] ++ later) = .ok (ops, l)) :
    ∃ done l', callsT (before ++ [.vars n v more]) (Logger.new file) = .ok (done, l') ∧ done <+: ops ∧
      ∀ d, CrashAfter done.length ops d → ∃ text, text <+: d ∧
        parse (text ++ ['\n', ']', '\n', '}']) = some (.obj [("logs".toList, .arr (records 0 (before ++ [.vars n v more])))]) := by
  obtain ⟨done, l', hd, hp⟩ := logged (file := file) (cs := before ++ [.vars n v more]) (by simp) hg
  obtain ⟨a, l1, b, h1, h2, h3⟩ := seq_ok hs
  rw [callsT_append] at h1
  obtain ⟨c, l2, e, h4, h5, h6⟩ := seq_ok h1
  rw [hd] at h4
  cases h4
  simp only at h3 h6
  have hops : ops = done ++ (e ++ b) := by rw [h3, h6, List.append_assoc]
  refine ⟨done, l', hd, ⟨e ++ b, hops.symm⟩, fun d hc => ⟨textOf done, ?_, hp⟩⟩
  rw [callsT_append] at hd
  obtain ⟨p, l3, q, -, h7, h8⟩ := seq_ok hd
  obtain ⟨r, l4, s, h9, h10, h11⟩ := seq_ok h7
  cases h10
  obtain ⟨t, ht⟩ := varsT_flush more n v _ _ _ h9
  simp only at h8 h11
  have hdone : done = (p ++ t) ++ [.flush] := by rw [h8, h11, ht]; simp
  rw [hdone, textOf_append]
  rw [hops, hdone] at hc
  simpa [textOf] using crash_kept hc

/-- C79, JSON log, false for calls with a place, those of `DBGVAR_JSON`: they do not flush the stream. After any number of finished calls, the file may
be any beginning of the text of the log, and empty. -/
theorem C79_json_lost_violated (file : List Char) (cs : List Call) (hne : cs ≠ []) (hg : ∀ c ∈ cs, GoodCall c) (hp : ∀ c ∈ cs, HasPlace c) :
    ∃ ops l text, callsT cs (Logger.new file) = .ok (ops, l) ∧
      parse (text ++ ['\n', ']', '\n', '}']) = some (.obj [("logs".toList, .arr (records 0 cs))]) ∧
      ∀ d, d <+: text → CrashAfter ops.length ops d := by
  obtain ⟨ops, l, h1, h2⟩ := logged (file := file) hne hg
  exact ⟨ops, l, textOf ops, h1, h2, fun d hd => crash_any (callsT_noFlush cs (places hp) _ _ _ h1) hd⟩

/-- Three calls. -/
def crashExample : List Call :=
  [.at_ 7 "m.cpp".toList ['x'] (.plain ['1']) [], .vars ['y'] (.plain ['2']) [], .at_ 9 "m.cpp".toList ['z'] (.plain ['3']) []]

-- calls that meet the hypotheses: the first two records are on the disk, the third one may be lost
example : (∀ c ∈ crashExample, GoodCall c) ∧ ∃ ops l, sessionT ['f'] crashExample = .ok (ops, l) := by
  have hg : ∀ c ∈ crashExample, GoodCall c := by
    intro c hc
    simp only [crashExample, List.mem_cons, List.not_mem_nil, or_false] at hc
    rcases hc with hc | hc | hc <;> subst hc
    · refine ⟨⟨by decide +kernel, by decide +kernel⟩, ?_⟩
      intro x hx
      simp only [List.mem_cons, List.not_mem_nil, or_false] at hx
      subst hx
      exact ⟨by unfold NoControl; decide +kernel, Or.inl (by decide +kernel)⟩
    · intro x hx
      simp only [List.mem_cons, List.not_mem_nil, or_false] at hx
      subst hx
      exact ⟨by unfold NoControl; decide +kernel, Or.inl (by decide +kernel)⟩
    · refine ⟨⟨by decide +kernel, by decide +kernel⟩, ?_⟩
      intro x hx
      simp only [List.mem_cons, List.not_mem_nil, or_false] at hx
      subst hx
      exact ⟨by unfold NoControl; decide +kernel, Or.inl (by decide +kernel)⟩
  obtain ⟨l, text, h, _⟩ := C47_log_partial ['f'] crashExample (by simp [crashExample]) hg
  obtain ⟨ops, ho⟩ := ((callsT_faithful crashExample).seq destroyT_faithful).ok (l := Logger.new ['f']) h
  exact ⟨hg, ops, l, ho⟩

end GTMesh.JsonLog

namespace GTMesh.HtmlLog
open LogCrash
open JsonLog (LVal)

/-- C79, HTML log: wherever the program ends, the file is a beginning of the text that the destructor would have completed; behind the destructor it is
the whole text. -/
theorem C79_html_prefix (file : List Char) (cs : List Call) (l : Logger) (h : session file cs = .ok l) :
    ∃ ops text, sessionT file cs = .ok (ops, l) ∧ (l.closed = [(file, text)] ∨ (l.closed = [] ∧ text = [])) ∧
      ∀ n d, CrashAfter n ops d → d <+: text ∧ (ops.length ≤ n → d = text) := by
  have hf : Faithful ((callsT cs).seq destroyT) fun l => (calls cs l).bind destroy := (callsT_faithful cs).seq destroyT_faithful
  obtain ⟨ops, ho⟩ := hf.ok (l := Logger.new file) h
  obtain ⟨a, l1, b, h1, h2, h3⟩ := seq_ok ho
  simp only at h2 h3
  obtain ⟨g1, g2, g3⟩ := callsT_grows cs _ _ _ h1
  have mono : ∀ {n m : Nat} {ops d}, m ≤ n → CrashAfter n ops d → CrashAfter m ops d := by
    rintro n m ops d hm ⟨k, hk, h⟩; exact ⟨k, by omega, h⟩
  unfold destroyT destroy at h2
  generalize htl : endText ++ documentTail.toList = tl at h2
  cases hl : l1.logFile with
  | null =>
    simp only [hl] at h2
    injection h2 with h2
    obtain ⟨rfl, rfl⟩ := Prod.mk.inj h2
    have ha : textOf a = [] := by simpa [outOf, hl, Logger.new] using g1.symm
    refine ⟨ops, [], ho, Or.inr ⟨g3, rfl⟩, fun n d hc => ?_⟩
    have := crash_prefix hc
    rw [h3, List.append_nil, ha] at this
    exact ⟨this, fun _ => List.prefix_nil.mp this⟩
  | opened n out =>
    simp only [hl, List.append_assoc, htl] at h2
    injection h2 with h2
    obtain ⟨rfl, rfl⟩ := Prod.mk.inj h2
    have hops : ops = (a ++ [.put tl]) ++ [.flush] := by rw [h3]; simp
    have ht : textOf (a ++ [.put tl]) = out ++ tl := by
      rw [textOf_append, show textOf a = out by simpa [outOf, hl, Logger.new] using g1.symm]; simp [textOf]
    refine ⟨ops, out ++ tl, ho, Or.inl ?_, fun m d hc => ⟨?_, fun hm => ?_⟩⟩
    · simp only [nameOf, hl, Logger.new] at g2 g3
      simp [g2, g3]
    · have := crash_prefix hc
      rw [hops, textOf_append, ht] at this
      simpa [textOf] using this
    · have hc := mono hm hc
      rw [hops] at hc
      rw [crash_end hc, ht]
  | dangling => simp only [hl] at h2; cases h2

/-- C79, HTML log, the part that holds: when the last finished call is one without a place, all that has been logged up to it is in the file wherever
the program ends behind it. -/
theorem C79_html_kept_partial (file : List Char) (before : List Call) (x : List Char × List Char) (more : List (List Char × List Char))
    (later : List Call) (ops : List Op) (l : Logger)
    (hs : sessionT file (before ++ [.vars x more] ++ later) = .ok (ops, l)) :
    ∃ done l' text, callsT (before ++ [.vars x more]) (Logger.new file) = .ok (done, l') ∧ l'.logFile = .opened file text ∧ done <+: ops ∧
      ∀ d, CrashAfter done.length ops d → text <+: d := by
  obtain ⟨a, l1, b, h1, h2, h3⟩ := seq_ok hs
  rw [callsT_append] at h1
  obtain ⟨done, l2, e, h4, h5, h6⟩ := seq_ok h1
  simp only at h3 h6
  have hops : ops = done ++ (e ++ b) := by rw [h3, h6, List.append_assoc]
  obtain ⟨g1, g2, -⟩ := callsT_grows _ _ _ _ h4
  have h4' := h4
  rw [callsT_append] at h4'
  obtain ⟨p, l3, q, -, h7, h8⟩ := seq_ok h4'
  obtain ⟨r, l4, s, h9, h10, h11⟩ := seq_ok h7
  cases h10
  obtain ⟨⟨t, ht⟩, n, out, ho⟩ := varsT_flush more x _ _ _ h9
  simp only at h8 h11 ho
  have hdone : done = (p ++ t) ++ [.flush] := by rw [h8, h11, ht]; simp
  have hn : n = file := by simpa [nameOf, ho, Logger.new] using g2
  have hout : out = textOf done := by simpa [outOf, ho, Logger.new] using g1
  refine ⟨done, _, out, h4, by rw [ho, hn], ⟨e ++ b, hops.symm⟩, fun d hc => ?_⟩
  rw [hout, hdone, textOf_append]
  rw [hops, hdone] at hc
  simpa [textOf] using crash_kept hc

-- a call without a place in front of one with a place
example : ∃ ops l, sessionT ['f'] ([] ++ [.vars (['y'], ['2']) []] ++ [.at_ 9 "m.cpp".toList ['z'] (.plain ['3']) []]) = .ok (ops, l) := by
  obtain ⟨o, h⟩ := ((callsT_faithful ([] ++ [.vars (['y'], ['2']) []] ++ [.at_ 9 "m.cpp".toList ['z'] (.plain ['3']) []])).seq destroyT_faithful).ok
    (l := Logger.new ['f']) (l' := _) (by
      simp only [List.nil_append, List.cons_append, calls, call, writeVars, writeLocated, ensure, create, put, destroy, Logger.new, Res.bind]
      rfl)
  exact ⟨o, _, h⟩

private theorem head_eq (t : List Char) : scriptText ++ t = documentHead.toList ++ "data = ".toList ++ ('[' :: t) := by
  have h : "data = ".toList = ['d', 'a', 't', 'a', ' ', '=', ' '] := by decide
  rw [h]
  unfold scriptText dataText
  generalize documentHead.toList = d
  simp

private theorem lost (file : List Char) (cs : List Call) (hne : cs ≠ []) (hg : ∀ c ∈ cs, GoodCall c) (st : List Char) (hst : scriptText = st) :
    ∃ ops l, callsT cs (Logger.new file) = .ok (ops, l) ∧ l.logFile = .opened file (st ++ texts 0 cs) ∧
      ∀ d, d <+: st ++ texts 0 cs → CrashAfter ops.length ops d := by
  obtain ⟨g, hc⟩ := calls_ready cs (Logger.new file) file st hne hg (.inr ⟨rfl, rfl, hst.symm⟩)
  clear hst
  obtain ⟨ops, ho⟩ := (callsT_faithful cs).ok hc
  obtain ⟨g1, -, -⟩ := callsT_grows cs _ _ _ ho
  have hp : ∀ c ∈ cs, ∃ line path n v rest, c = .at_ line path n v rest := by
    intro c hm
    cases c with
    | vars x rest => exact absurd (hg _ hm) id
    | at_ line path n v rest => exact ⟨_, _, _, _, _, rfl⟩
  refine ⟨ops, _, ho, rfl, fun d hd => ?_⟩
  refine crash_any (callsT_noFlush cs hp _ _ _ ho) ?_
  rwa [show textOf ops = st ++ texts 0 cs from (by simpa only [outOf, Logger.new, List.nil_append] using g1.symm)]

/-- C79, HTML log, false for calls with a place, those of `DBGVAR_HTML`: they do not flush the stream. After any number of finished calls, the file may
be any beginning of what was logged, and empty. -/
theorem C79_html_lost_violated (file : List Char) (cs : List Call) (hne : cs ≠ []) (hg : ∀ c ∈ cs, GoodCall c) :
    ∃ ops l a, callsT cs (Logger.new file) = .ok (ops, l) ∧ l.logFile = .opened file (documentHead.toList ++ "data = ".toList ++ a) ∧
      jsArray (a ++ [']']) = some (rows 0 cs) ∧
      ∀ d, d <+: documentHead.toList ++ "data = ".toList ++ a → CrashAfter ops.length ops d := by
  have e := head_eq (texts 0 cs)
  have hj := jsArray_texts 0 cs hg
  obtain ⟨ops, l, h1, h2, h3⟩ := lost file cs hne hg _ rfl
  rw [e] at h2 h3
  exact ⟨ops, l, _, h1, h2, hj, h3⟩

end GTMesh.HtmlLog
