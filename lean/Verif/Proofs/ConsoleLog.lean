import Verif.Spec.ConsoleCalls
import Verif.Proofs.Print

/-! # Proofs about the console log -/

namespace GTMesh.ConsoleLog
open JsonLog (LVal print)
open Numeral

/-! ## Colours and lines -/

theorem uncolored_plain (t : List Char) (h : Inline t) (r : List Char) : uncolored false (t ++ r) = t ++ uncolored false r := by
  induction t with
  | nil => rfl
  | cons c t ih =>
    rw [List.cons_append, uncolored, if_neg (h c (by simp)).2, ih fun x hx => h x (by simp [hx])]
    rfl

theorem uncolored_nl (r : List Char) : uncolored false ('\n' :: r) = '\n' :: uncolored false r := by
  rw [uncolored, if_neg (by decide)]

theorem uncolored_name (s : Settings) (r : List Char) : uncolored false (nameColor s ++ r) = uncolored false r := by
  unfold nameColor
  cases s.coloredOutput <;> simp [uncolored]

theorem uncolored_reset (s : Settings) (r : List Char) : uncolored false (resetColor s ++ r) = uncolored false r := by
  unfold resetColor
  cases s.coloredOutput <;> simp [uncolored]

theorem uncolored_value (s : Settings) (r : List Char) : uncolored false (valueColor s ++ r) = uncolored false r := by
  unfold valueColor
  cases s.coloredOutput <;> simp [uncolored]

theorem uncolored_message (s : Settings) (r : List Char) : uncolored false (messageColor s ++ r) = uncolored false r := by
  unfold messageColor
  cases s.coloredOutput <;> simp [uncolored]

theorem linesOf_line (t : List Char) (h : Inline t) (cur r : List Char) :
    linesOf cur (t ++ '\n' :: r) = (linesOf [] r).map ((cur ++ t) :: ·) := by
  induction t generalizing cur with
  | nil => simp [linesOf]
  | cons c t ih =>
    rw [List.cons_append, linesOf, if_neg (h c (by simp)).1, ih fun x hx => h x (by simp [hx])]
    simp

theorem Inline.append {a b : List Char} (ha : Inline a) (hb : Inline b) : Inline (a ++ b) := by
  intro c hc
  rcases List.mem_append.mp hc with h | h
  · exact ha c h
  · exact hb c h

theorem inline_decimal (n : Nat) : Inline (decimal n) := by
  intro c hc
  have h : c.isDigit = true := Nat.isDigit_of_mem_toDigits (by omega) (by omega) hc
  constructor <;> rintro rfl <;> exact absurd h (by decide)

theorem inline_of_all {t : List Char} (h : (t.all fun c => c ≠ '\n' && c ≠ '\x1b') = true) : Inline t := by
  intro c hc
  simpa using List.all_eq_true.mp h c hc

/-! ## Parts of lines -/

theorem behind_self (p s : List Char) : behind p (p ++ s) = some s := by
  induction p with
  | nil => cases s <;> rfl
  | cons a p ih => rw [List.cons_append, behind, if_pos rfl, ih]

theorem cut_at {sep a b : List Char} (hs : sep ≠ []) (h : ∀ x y, a = x ++ y → y ≠ [] → behind sep (y ++ sep ++ b) = none) :
    cut sep (a ++ sep ++ b) = some (a, b) := by
  induction a with
  | nil =>
    cases sep with
    | nil => exact absurd rfl hs
    | cons c sep =>
      have := behind_self (c :: sep) b
      rw [List.cons_append] at this
      rw [List.nil_append, List.cons_append, cut, this]
  | cons c a ih =>
    have h1 := h [] (c :: a) rfl (by simp)
    rw [List.cons_append, List.cons_append] at h1 ⊢
    rw [cut, h1]
    simp only
    rw [ih fun x y hxy hy => h (c :: x) y (by simp [hxy]) hy]
    rfl

theorem cut_colon {a : List Char} (h : ':' ∉ a) (b : List Char) : cut [':'] (a ++ [':'] ++ b) = some (a, b) := by
  refine cut_at (by simp) fun x y hxy hy => ?_
  cases y with
  | nil => exact absurd rfl hy
  | cons c y =>
    have : (':' : Char) ≠ c := fun e => h (by rw [hxy, ← e]; simp)
    rw [List.cons_append, List.cons_append, behind, if_neg this]

theorem cut_angle {a : List Char} (h : ¬ ['>', ' '] <:+: a) (b : List Char) : cut ['>', ' '] (a ++ ['>', ' '] ++ b) = some (a, b) := by
  refine cut_at (by simp) fun x y hxy hy => ?_
  cases y with
  | nil => exact absurd rfl hy
  | cons c y =>
    cases y with
    | nil => by_cases hc : '>' = c <;> simp [behind, hc]
    | cons d y =>
      by_cases hc : '>' = c
      · by_cases hd : ' ' = d
        · exact absurd ⟨x, y, by rw [hxy, ← hc, ← hd]; simp⟩ h
        · simp [behind, hd]
      · simp [behind, hc]

theorem cut_brackets {a : List Char} (h : ¬ [' ', ']', ']'] <:+: a) (b : List Char) :
    cut [' ', ']', ']'] (a ++ [' ', ']', ']'] ++ b) = some (a, b) := by
  refine cut_at (by simp) fun x y hxy hy => ?_
  cases y with
  | nil => exact absurd rfl hy
  | cons c y =>
    cases y with
    | nil => by_cases hc : ' ' = c <;> simp [behind, hc]
    | cons d y =>
      cases y with
      | nil => by_cases hc : ' ' = c <;> by_cases hd : ']' = d <;> simp [behind, hc, hd]
      | cons e y =>
        by_cases hc : ' ' = c
        · by_cases hd : ']' = d
          · by_cases he : ']' = e
            · exact absurd ⟨x, y, by rw [hxy, ← hc, ← hd, ← he]; simp⟩ h
            · simp [behind, he]
          · simp [behind, hd]
        · simp [behind, hc]

theorem number_decimal (n : Nat) {r : List Char} (h : ∀ c, r.head? = some c → c.isDigit = false) : number (decimal n ++ r) = some (n, r) := by
  obtain ⟨ds, h1, h2, h3, h4⟩ := decimal_spec n
  unfold number
  rw [h1, takeDigits_map h4 h]
  simp [h2, h3]

theorem place_read {s : Settings} {line : Nat} {func file : List Char} (h : GoodPlace func file) {r : List Char}
    (hr : ∀ c, r.head? = some c → c.isDigit = false) :
    place s.printFunction (file ++ [':'] ++ decimal line ++ (if s.printFunction then [' ', '<'] ++ func ++ ['>', ' '] else []) ++ r) =
      some (file, line, shownFunction s func, r) := by
  obtain ⟨_, h2, _, h4⟩ := h
  unfold place shownFunction
  rw [List.append_assoc, List.append_assoc, cut_colon h4, Option.bind_some]
  simp only
  cases hp : s.printFunction with
  | true =>
    simp only [if_true]
    rw [number_decimal line (by rintro c ⟨rfl⟩; decide), Option.bind_some]
    simp only
    rw [show [' ', '<'] ++ func ++ ['>', ' '] ++ r = [' ', '<'] ++ (func ++ ['>', ' '] ++ r) by simp, behind_self, Option.bind_some,
      cut_angle h2]
    rfl
  | false =>
    simp only [Bool.false_eq_true, if_false, List.nil_append]
    rw [number_decimal line hr, Option.bind_some]

theorem shownVar_read {name : List Char} (h : ¬ [' ', ']', ']'] <:+: name) (v : List Char) :
    shownVar (['[', '[', ' '] ++ name ++ [' ', ']', ']', ' ', '=', '=', '>', ' '] ++ v) = some (name, v) := by
  unfold shownVar
  rw [show ['[', '[', ' '] ++ name ++ [' ', ']', ']', ' ', '=', '=', '>', ' '] ++ v =
    ['[', '[', ' '] ++ (name ++ [' ', ']', ']'] ++ ([' ', '=', '=', '>', ' '] ++ v)) by simp, behind_self, Option.bind_some,
    cut_brackets h, Option.bind_some]
  simp only
  rw [behind_self]
  rfl

theorem message_read (m : List Char) : message (['=', '=', '>', ' '] ++ m ++ [' ', '<', '=', '=']) = some m := by
  unfold message
  rw [List.append_assoc, behind_self, Option.bind_some,
    show (m ++ [' ', '<', '=', '=']).reverse = ['=', '=', '<', ' '] ++ m.reverse by simp, behind_self]
  simp


/-! ## Lines -/

/-- The text of a variable line, without colours and the end of line. -/
def varLine (s : Settings) (line : Nat) (func file name : List Char) (v : LVal) : List Char :=
  (if s.printAggregated then s.identation else header s line func file varPrefix ++ [' ']) ++
  (['[', '[', ' '] ++ name ++ [' ', ']', ']', ' ', '=', '=', '>', ' '] ++ print v)

/-- The text of a message line. -/
def msgLine (s : Settings) (mark : List Char) (line : Nat) (func file : List Char) (m : LVal) : List Char :=
  header s line func file mark ++ (['=', '=', '>', ' '] ++ print m ++ [' ', '<', '=', '='])

theorem inline_header {s : Settings} {line : Nat} {func file pre : List Char} (h : GoodPlace func file) (hp : Inline pre) :
    Inline (header s line func file pre) := by
  unfold header
  refine (((hp.append h.2.2.1).append (inline_of_all (by decide))).append (inline_decimal line)).append ?_
  cases s.printFunction
  · intro c hc; simp at hc
  · exact ((inline_of_all (by decide)).append h.1).append (inline_of_all (by decide))

theorem inline_varPrefix : Inline varPrefix := inline_of_all (by decide)

theorem inline_varLine {s : Settings} (hi : Inline s.identation) {line : Nat} {func file name : List Char} {v : LVal} (h : GoodPlace func file)
    (hn : Inline name) (hv : Inline (print v)) : Inline (varLine s line func file name v) := by
  unfold varLine
  refine Inline.append ?_ ((((inline_of_all (by decide)).append hn).append (inline_of_all (by decide))).append hv)
  cases s.printAggregated
  · exact (inline_header h inline_varPrefix).append (inline_of_all (by decide))
  · exact hi

theorem inline_msgLine {s : Settings} {mark : List Char} (hm : Inline mark) {line : Nat} {func file : List Char} {m : LVal}
    (h : GoodPlace func file) (hv : Inline (print m)) : Inline (msgLine s mark line func file m) :=
  (inline_header h hm).append (((inline_of_all (by decide)).append hv).append (inline_of_all (by decide)))

theorem uncolored_oneVar {s : Settings} (hi : Inline s.identation) {line : Nat} {func file name : List Char} {v : LVal} (h : GoodPlace func file)
    (hn : Inline name) (hv : Inline (print v)) (r : List Char) :
    uncolored false (oneVar s line func file name v ++ r) = varLine s line func file name v ++ '\n' :: uncolored false r := by
  have h0 : Inline (if s.printAggregated then s.identation else header s line func file varPrefix ++ [' ']) := by
    cases s.printAggregated
    · exact (inline_header h inline_varPrefix).append (inline_of_all (by decide))
    · exact hi
  unfold oneVar varLine
  generalize (if s.printAggregated then s.identation else header s line func file varPrefix ++ [' ']) = p at h0
  simp only [List.append_assoc]
  rw [uncolored_plain _ h0, uncolored_plain _ (inline_of_all (by decide)), uncolored_name, uncolored_plain _ hn, uncolored_reset,
    uncolored_plain _ (inline_of_all (by decide)), uncolored_value, uncolored_plain _ hv, uncolored_reset, List.singleton_append, uncolored_nl]

theorem uncolored_oneMessage {s : Settings} {mark : List Char} (hm : Inline mark) {line : Nat} {func file : List Char} {m : LVal}
    (h : GoodPlace func file) (hv : Inline (print m)) (r : List Char) :
    uncolored false (oneMessage s mark line func file m ++ r) = msgLine s mark line func file m ++ '\n' :: uncolored false r := by
  unfold oneMessage msgLine
  simp only [List.append_assoc]
  rw [uncolored_plain _ (inline_header h hm), uncolored_plain _ (inline_of_all (by decide)), uncolored_message, uncolored_plain _ hv,
    uncolored_reset, show [' ', '<', '=', '=', '\n'] ++ r = [' ', '<', '=', '='] ++ ('\n' :: r) by simp,
    uncolored_plain _ (inline_of_all (by decide)), uncolored_nl]

theorem readLine_header {s : Settings} (ha : s.printAggregated = true) (here : Here) {line : Nat} {func file : List Char} (h : GoodPlace func file) :
    readLine (layout s) here (header s line func file varPrefix) = some (some (file, line, shownFunction s func), []) := by
  have := place_read (s := s) (line := line) h (r := []) (by simp)
  unfold header varPrefix
  rw [List.append_nil] at this
  rw [List.append_assoc, List.append_assoc, List.append_assoc]
  simp only [List.cons_append, List.nil_append, readLine]
  simp only [List.append_assoc, List.cons_append, List.nil_append] at this
  simp only [layout, this, Option.bind_some, ha, if_true]

theorem readLine_below {s : Settings} (ha : s.printAggregated = true) (hi : GoodIndent s.identation) {line : Nat} {func file f name : List Char} {v : LVal}
    (hn : ¬ [' ', ']', ']'] <:+: name) :
    readLine (layout s) (some (file, line, shownFunction s func)) (varLine s line f file name v) =
      some (some (file, line, shownFunction s func), [.var file line (shownFunction s func) name (print v)]) := by
  have key : readLine.below (layout s) (some (file, line, shownFunction s func)) (varLine s line f file name v) =
      some (some (file, line, shownFunction s func), [.var file line (shownFunction s func) name (print v)]) := by
    unfold readLine.below varLine
    simp only [layout, ha, if_true, Option.bind_some]
    rw [behind_self, Option.bind_some, shownVar_read hn]
    rfl
  have hhead : ∀ c, (varLine s line f file name v).head? = some c → c ≠ '=' ∧ c ≠ '+' ∧ c ≠ '-' ∧ c ≠ '!' := by
    intro c hc
    unfold varLine at hc
    rw [if_pos ha] at hc
    cases hid : s.identation with
    | nil =>
      rw [hid] at hc
      have : c = '[' := by simpa [eq_comm] using hc
      subst this
      decide
    | cons d t =>
      rw [hid] at hc
      have : d = c := by simpa using hc
      subst this
      exact hi.2 d (by rw [hid]; rfl)
  generalize varLine s line f file name v = t at key hhead
  unfold readLine
  split
  · exact absurd rfl (hhead '=' (by simp)).1
  · rename_i a b r _
    obtain ⟨_, h2, h3, h4⟩ := hhead a (by simp)
    rw [if_neg (by simp [h2, h3, h4])]
    exact key
  · exact key

theorem readLine_single {s : Settings} (ha : s.printAggregated = false) (here : Here) {line : Nat} {func file name : List Char} {v : LVal}
    (h : GoodPlace func file) (hn : ¬ [' ', ']', ']'] <:+: name) :
    readLine (layout s) here (varLine s line func file name v) = some (none, [.var file line (shownFunction s func) name (print v)]) := by
  have := place_read (s := s) (line := line) h (r := [' '] ++ (['[', '[', ' '] ++ name ++ [' ', ']', ']', ' ', '=', '=', '>', ' '] ++ print v))
    (by rintro c ⟨rfl⟩; decide)
  have hv := shownVar_read hn (print v)
  unfold varLine header varPrefix
  rw [if_neg (by simp [ha])]
  simp only [List.append_assoc, List.cons_append, List.nil_append] at this hv ⊢
  simp only [readLine, layout, this, Option.bind_some, ha, Bool.false_eq_true, if_false, behind, reduceIte, hv, Option.map_some]

theorem readLine_message {s : Settings} (here : Here) {mark : List Char} (hm : mark = ['+', '+'] ∨ mark = ['-', '-'] ∨ mark = ['!', '!']) {line : Nat}
    {func file : List Char} {m : LVal} (h : GoodPlace func file) :
    readLine (layout s) here (msgLine s mark line func file m) = some (none, [.msg mark file line (shownFunction s func) (print m)]) := by
  have := place_read (s := s) (line := line) h (r := ['=', '=', '>', ' '] ++ print m ++ [' ', '<', '=', '=']) (by rintro c ⟨rfl⟩; decide)
  have hv := message_read (print m)
  unfold msgLine header
  rcases hm with rfl | rfl | rfl <;>
  · simp only [List.append_assoc, List.cons_append, List.nil_append] at this hv ⊢
    simp [readLine, layout, this, hv]

/-! ## Calls -/

/-- Reading lines in front of others. -/
theorem readLog_cons {y : Layout} {here : Here} {t : List Char} (ht : Inline t) {here' : Here} {es : List Entry} (h : readLine y here t = some (here', es))
    (r : List Char) : ((linesOf [] (t ++ '\n' :: r)).bind (readLines y here)) = ((linesOf [] r).bind (readLines y here')).map (es ++ ·) := by
  rw [linesOf_line t ht]
  cases linesOf [] r with
  | none => rfl
  | some ls => simp [readLines, h]

theorem read_below {s : Settings} (ha : s.printAggregated = true) (hi : GoodIndent s.identation) {line : Nat} {func file : List Char} (h : GoodPlace func file)
    (rest : List (List Char × LVal)) : ∀ (name : List Char) (v : LVal), (∀ x ∈ (name, v) :: rest, Inline x.1 ∧ ¬ [' ', ']', ']'] <:+: x.1 ∧ Inline (print x.2)) →
    ∀ r, ((linesOf [] (uncolored false (writeVars s line func file name v rest ++ r))).bind (readLines (layout s) (some (file, line, shownFunction s func)))) =
      ((linesOf [] (uncolored false r)).bind (readLines (layout s) (some (file, line, shownFunction s func)))).map
        ((((name, v) :: rest).map fun x => Entry.var file line (shownFunction s func) x.1 (print x.2)) ++ ·) := by
  induction rest with
  | nil =>
    intro name v hg r
    obtain ⟨h1, h2, h3⟩ := hg (name, v) (by simp)
    rw [writeVars, uncolored_oneVar hi.1 h h1 h3, readLog_cons (inline_varLine hi.1 h h1 h3) (readLine_below ha hi h2)]
    rfl
  | cons x rest ih =>
    intro name v hg r
    obtain ⟨h1, h2, h3⟩ := hg (name, v) (by simp)
    rw [writeVars, List.append_assoc, uncolored_oneVar hi.1 h h1 h3, readLog_cons (inline_varLine hi.1 h h1 h3) (readLine_below ha hi h2),
      ih x.1 x.2 (fun y hy => hg y (by simp at hy ⊢; tauto)), Option.map_map]
    congr 1

theorem read_single {s : Settings} (ha : s.printAggregated = false) (hi : GoodIndent s.identation) {line : Nat} {func file : List Char} (h : GoodPlace func file)
    (rest : List (List Char × LVal)) : ∀ (name : List Char) (v : LVal), (∀ x ∈ (name, v) :: rest, Inline x.1 ∧ ¬ [' ', ']', ']'] <:+: x.1 ∧ Inline (print x.2)) →
    ∀ here r, ((linesOf [] (uncolored false (writeVars s line func file name v rest ++ r))).bind (readLines (layout s) here)) =
      ((linesOf [] (uncolored false r)).bind (readLines (layout s) none)).map
        ((((name, v) :: rest).map fun x => Entry.var file line (shownFunction s func) x.1 (print x.2)) ++ ·) := by
  induction rest with
  | nil =>
    intro name v hg here r
    obtain ⟨h1, h2, h3⟩ := hg (name, v) (by simp)
    rw [writeVars, uncolored_oneVar hi.1 h h1 h3, readLog_cons (inline_varLine hi.1 h h1 h3) (readLine_single ha here h h2)]
    rfl
  | cons x rest ih =>
    intro name v hg here r
    obtain ⟨h1, h2, h3⟩ := hg (name, v) (by simp)
    rw [writeVars, List.append_assoc, uncolored_oneVar hi.1 h h1 h3, readLog_cons (inline_varLine hi.1 h h1 h3) (readLine_single ha here h h2),
      ih x.1 x.2 (fun y hy => hg y (by simp at hy ⊢; tauto)), Option.map_map]
    congr 1

theorem read_messages {s : Settings} {mark : List Char} (hm : mark = ['+', '+'] ∨ mark = ['-', '-'] ∨ mark = ['!', '!']) {line : Nat} {func file : List Char}
    (h : GoodPlace func file) (rest : List LVal) : ∀ (m : LVal), (∀ x ∈ m :: rest, Inline (print x)) →
    ∀ here r, ((linesOf [] (uncolored false (writeMessages s mark line func file m rest ++ r))).bind (readLines (layout s) here)) =
      ((linesOf [] (uncolored false r)).bind (readLines (layout s) none)).map
        (((m :: rest).map fun x => Entry.msg mark file line (shownFunction s func) (print x)) ++ ·) := by
  have hmi : Inline mark := by rcases hm with rfl | rfl | rfl <;> exact inline_of_all (by decide)
  induction rest with
  | nil =>
    intro m hg here r
    have h3 := hg m (by simp)
    rw [writeMessages, uncolored_oneMessage hmi h h3, readLog_cons (inline_msgLine hmi h h3) (readLine_message here hm h)]
    rfl
  | cons x rest ih =>
    intro m hg here r
    have h3 := hg m (by simp)
    rw [writeMessages, List.append_assoc, uncolored_oneMessage hmi h h3, readLog_cons (inline_msgLine hmi h h3) (readLine_message here hm h),
      ih x (fun y hy => hg y (by simp at hy ⊢; tauto)), Option.map_map]
    congr 1

/-! ## File names -/

theorem takeWhile_find (p : List Char) : match p.findIdx? (· = '/') with
    | some i => (p.takeWhile fun c => c ≠ '/') = p.take i ∧ i < p.length
    | none => (p.takeWhile fun c => c ≠ '/') = p := by
  induction p with
  | nil => rfl
  | cons c p ih =>
    by_cases hc : c = '/'
    · subst hc; rw [List.findIdx?_cons]; simp
    · rw [List.findIdx?_cons]
      simp only [hc, decide_false, Bool.false_eq_true, if_false, ne_eq, not_false_eq_true, decide_true, List.takeWhile_cons_of_pos]
      cases hf : p.findIdx? (· = '/') with
      | none => rw [hf] at ih; simpa using ih
      | some i => rw [hf] at ih; simpa using ih

theorem getFileName_eq (s : Settings) (path : List Char) : getFileName s path = shownFile s path := by
  unfold getFileName shownFile
  by_cases h : s.onlyFilename = true
  · rw [if_pos h, if_pos h]
    unfold findLast baseName
    have := takeWhile_find path.reverse
    cases hf : path.reverse.findIdx? (· = '/') with
    | none =>
      rw [hf] at this
      simp only [Option.map_none]
      rw [this, List.reverse_reverse]
    | some i =>
      rw [hf] at this
      obtain ⟨h1, h2⟩ := this
      simp only [Option.map_some]
      rw [h1]
      rw [List.length_reverse] at h2
      rw [List.take_reverse, List.reverse_reverse]
      congr 1
      omega
  · rw [if_neg h, if_neg h]

theorem mem_baseName {path : List Char} {c : Char} (h : c ∈ baseName path) : c ∈ path := by
  unfold baseName at h
  rw [List.mem_reverse] at h
  exact List.mem_reverse.mp ((List.takeWhile_sublist _).subset h)

theorem goodPlace_shown (s : Settings) {func file : List Char} (h : GoodPlace func file) : GoodPlace func (getFileName s file) := by
  rw [getFileName_eq]
  unfold shownFile
  split
  · exact ⟨h.1, h.2.1, fun c hc => h.2.2.1 c (mem_baseName hc), fun hc => h.2.2.2 (mem_baseName hc)⟩
  · exact h

/-! ## Whole logs -/

/-- What a call adds to the log. -/
def added (s : Settings) : Call → List Char
  | .vars line funcName file name v rest =>
      (if s.printAggregated then header s line funcName (getFileName s file) varPrefix ++ ['\n'] else []) ++
          writeVars s line funcName (getFileName s file) name v rest
  | .msgs pre line funcName file m rest => writeMessages s pre line funcName (getFileName s file) m rest
  | _ => []

theorem call_err (l : Logger) (c : Call) : (call l c).err = l.err ++ added l.settings c := by
  cases c <;> simp [call, added]

theorem call_settings (l : Logger) {c : Call} (h : GoodCall c) : (call l c).settings = l.settings := by
  cases c <;> first | rfl | exact absurd h id

theorem read_added {s : Settings} (hi : GoodIndent s.identation) {c : Call} (h : GoodCall c) (here : Here) (r : List Char) :
    ∃ here', ((linesOf [] (uncolored false (added s c ++ r))).bind (readLines (layout s) here)) =
      ((linesOf [] (uncolored false r)).bind (readLines (layout s) here')).map (entries s c ++ ·) := by
  cases c with
  | vars line func file name v rest =>
    obtain ⟨h1, h2⟩ := h
    have hp := goodPlace_shown s h1
    simp only [added, entries, ← getFileName_eq]
    cases ha : s.printAggregated with
    | true =>
      refine ⟨some (getFileName s file, line, shownFunction s func), ?_⟩
      rw [if_pos rfl, List.append_assoc, List.append_assoc, uncolored_plain _ (inline_header hp inline_varPrefix), List.singleton_append,
        uncolored_nl, readLog_cons (inline_header hp inline_varPrefix) (readLine_header ha here hp), read_below ha hi hp rest name v h2]
      simp
    | false =>
      refine ⟨none, ?_⟩
      rw [if_neg (by simp), List.nil_append, read_single ha hi hp rest name v h2]
  | msgs mark line func file m rest =>
    obtain ⟨h1, h2, h3⟩ := h
    refine ⟨none, ?_⟩
    simp only [added, entries, ← getFileName_eq]
    rw [read_messages h1 (goodPlace_shown s h2) rest m h3]
  | _ => exact absurd h id

theorem calls_err (cs : List Call) (l : Logger) (h : ∀ c ∈ cs, GoodCall c) :
    (calls l cs).settings = l.settings ∧ (calls l cs).err = l.err ++ cs.flatMap (added l.settings) := by
  induction cs generalizing l with
  | nil => simp [calls]
  | cons c cs ih =>
    obtain ⟨h1, h2⟩ := ih (call l c) fun x hx => h x (by simp [hx])
    rw [call_settings l (h c (by simp))] at h1 h2
    exact ⟨h1, by rw [show calls l (c :: cs) = calls (call l c) cs from rfl, h2, call_err]; simp⟩

theorem read_all {s : Settings} (hi : GoodIndent s.identation) (cs : List Call) (h : ∀ c ∈ cs, GoodCall c) (here : Here) :
    ((linesOf [] (uncolored false (cs.flatMap (added s)))).bind (readLines (layout s) here)) = some (cs.flatMap (entries s)) := by
  induction cs generalizing here with
  | nil => rfl
  | cons c cs ih =>
    rw [List.flatMap_cons]
    obtain ⟨here', hr⟩ := read_added hi (h c (by simp)) here (cs.flatMap (added s))
    rw [hr, ih (fun x hx => h x (by simp [hx])) here']
    simp

end GTMesh.ConsoleLog
