import Verif.Spec.HtmlLog
import Verif.Proofs.JsonLog2

/-! # Proofs about the HTML log -/

namespace GTMesh.HtmlLog
open Json JsonLog

/-! ## What the logger writes -/

/-- The rows of one call. -/
def rowTexts (group line : Nat) (path : List Char) (xs : List (List Char × LVal)) : List Char :=
  xs.flatMap fun x => row group line (escapePath path) x.1 x.2

/-- The rows of calls. -/
def texts : Nat → List Call → List Char
  | _, [] => []
  | g, .vars _ _ :: cs => texts g cs
  | g, .at_ line path n v rest :: cs => rowTexts g line path ((n, v) :: rest) ++ texts (g + 1) cs

/-- The stream is open, or will be opened by the next call: name of the file and what is in it then. -/
def Ready (l : Logger) (name out : List Char) : Prop :=
  l.logFile = .opened name out ∨ (l.logFile = .null ∧ l.logFileName = name ∧ out = scriptText)

theorem ensure_ready {l : Logger} {name out : List Char} (h : Ready l name out) :
    ensure l = .ok { l with logFile := .opened name out } := by
  rcases h with h | ⟨h1, h2, h3⟩
  · unfold ensure; rw [h]; simp only; rw [← h]
  · unfold ensure; rw [h1]; simp only [create, h1, h2, h3]

theorem writeLocated_ready (line : Nat) (path : List Char) : ∀ (rest : List (List Char × LVal)) (n : List Char) (v : LVal) (l : Logger)
    (name out : List Char), Ready l name out →
    writeLocated line (escapePath path) n v rest l =
      .ok { l with logFile := .opened name (out ++ rowTexts l.groupIndex line path ((n, v) :: rest)), groupIndex := l.groupIndex + 1 } := by
  intro rest
  induction rest with
  | nil =>
    intro n v l name out h
    simp only [writeLocated, ensure_ready h, Res.bind, put, rowTexts, List.flatMap_cons, List.flatMap_nil, List.append_nil]
  | cons x rest ih =>
    intro n v l name out h
    obtain ⟨n', v'⟩ := x
    simp only [writeLocated, ensure_ready h, Res.bind, put]
    rw [ih n' v' _ name (out ++ row l.groupIndex line (escapePath path) n v) (.inl rfl)]
    simp only [rowTexts, List.flatMap_cons, List.append_assoc]

theorem calls_ready : ∀ (cs : List Call) (l : Logger) (name out : List Char), cs ≠ [] → (∀ c ∈ cs, GoodCall c) → Ready l name out →
    ∃ g, calls cs l = .ok { l with logFile := .opened name (out ++ texts l.groupIndex cs), groupIndex := g } := by
  intro cs
  induction cs with
  | nil => intro l name out h; exact absurd rfl h
  | cons c cs ih =>
    intro l name out _ hg hr
    cases c with
    | vars x rest => exact absurd (hg (.vars x rest) (by simp)) id
    | at_ line path n v rest =>
      have h1 := writeLocated_ready line path rest n v l name out hr
      by_cases hcs : cs = []
      · subst hcs
        exact ⟨_, by simp only [calls, call, h1, Res.bind, texts, List.append_nil]; rfl⟩
      · obtain ⟨g, h2⟩ := ih { l with logFile := .opened name (out ++ rowTexts l.groupIndex line path ((n, v) :: rest)), groupIndex := l.groupIndex + 1 }
          name (out ++ rowTexts l.groupIndex line path ((n, v) :: rest)) hcs (fun c hc => hg c (by simp [hc])) (.inl rfl)
        exact ⟨g, by simp only [calls, call, h1, Res.bind, h2, texts, List.append_assoc]⟩

/-! ## What can be read -/

theorem jsString_quote (r : List Char) : jsString ('\'' :: r) = some ([], r) := by
  rw [jsString.eq_def]; simp

theorem jsString_back (d : Char) (r : List Char) :
    jsString ('\\' :: d :: r) = (jsUnescape d).bind fun e => (jsString r).map fun p => (e :: p.1, p.2) := by
  rw [jsString.eq_def]; simp

theorem jsString_other {c : Char} (h1 : c ≠ '\'') (h2 : c ≠ '\\') (h3 : ¬ (c = '\n' ∨ c = '\r')) (r : List Char) :
    jsString (c :: r) = (jsString r).map fun p => (c :: p.1, p.2) := by
  rw [jsString.eq_def]; simp only [h1, h2, h3, if_false]

theorem jsString_plain (s : List Char) (h : Plain s) (rest : List Char) : jsString (s ++ '\'' :: rest) = some (s, rest) := by
  induction s with
  | nil => exact jsString_quote rest
  | cons c s ih =>
    obtain ⟨h1, h2, h3⟩ := h c (by simp)
    have hn : ¬ (c = '\n' ∨ c = '\r') := by
      rintro (rfl | rfl) <;> exact absurd h3 (by decide)
    rw [List.cons_append, jsString_other h1 h2 hn, ih fun x hx => h x (by simp [hx])]
    rfl

theorem jsString_path (s : List Char) (h : ∀ c ∈ s, c ≠ '\'' ∧ 32 ≤ c.toNat) (rest : List Char) :
    jsString (escapePath s ++ '\'' :: rest) = some (s, rest) := by
  induction s with
  | nil => exact jsString_quote rest
  | cons c s ih =>
    obtain ⟨h1, h3⟩ := h c (by simp)
    have ih := ih fun x hx => h x (by simp [hx])
    rw [escapePath]
    by_cases hb : c = '\\'
    · subst hb
      rw [if_pos rfl, List.cons_append, List.cons_append, jsString_back]
      have : jsUnescape '\\' = some '\\' := by decide
      simp only [this, Option.bind_some, ih, Option.map_some]
    · have hn : ¬ (c = '\n' ∨ c = '\r') := by
        rintro (rfl | rfl) <;> exact absurd h3 (by decide)
      rw [if_neg hb, List.cons_append, jsString_other h1 hb hn, ih]
      rfl

theorem jsNumber_ws {c : Char} (h : isWs c = true) (s : List Char) : jsNumber (c :: s) = jsNumber s := by
  unfold jsNumber; rw [skip_ws h]

theorem jsNumber_decimal (n : Nat) {rest : List Char} (hs : Stop rest) : jsNumber (decimal n ++ rest) = some (Nat.toDigits 10 n, rest) := by
  have hnum := decimal_number n
  obtain ⟨h1, h2⟩ := isNumber_all hnum
  have hd : decimal n = Nat.toDigits 10 n := rfl
  have hskip : skip (decimal n ++ rest) = decimal n ++ rest := by
    rw [hd]
    cases hx : Nat.toDigits 10 n with
    | nil => exact absurd hx h2
    | cons c r =>
      rw [hx] at h1
      simp only [List.all_cons, Bool.and_eq_true] at h1
      exact skip_non (numChar_facts h1.1).1 _
  unfold jsNumber
  rw [hskip, hd, (takeWhile_stop h1 hs).1, (takeWhile_stop h1 hs).2, if_pos hnum]

theorem jsRow_row (g line : Nat) (path : List Char) (hp : ∀ c ∈ path, c ≠ '\'' ∧ 32 ≤ c.toNat) (x : List Char × LVal) (hn : Plain x.1)
    (hv : Loggable x.2) (n : Nat) (hl : (print x.2).length ≤ n) (rest : List Char) :
    jsRow n (row g line (escapePath path) x.1 x.2 ++ rest) =
      some (⟨Nat.toDigits 10 g, Nat.toDigits 10 line, path, x.1, json x.2⟩, ',' :: '\n' :: rest) := by
  have e : row g line (escapePath path) x.1 x.2 ++ rest = '[' :: (decimal g ++ ',' :: ' ' :: (decimal line ++ ',' :: ' ' :: '\'' ::
      (escapePath path ++ '\'' :: ',' :: ' ' :: '\'' :: (x.1 ++ '\'' :: ',' :: ' ' :: (print x.2 ++ ']' :: ',' :: '\n' :: rest))))) := by
    simp [row]
  rw [e]
  unfold jsRow
  rw [expect_self (by decide), Option.bind_some, jsNumber_decimal g (stop_cons (by decide) _), Option.bind_some]
  simp only
  rw [expect_self (by decide), Option.bind_some, jsNumber_ws (by decide), jsNumber_decimal line (stop_cons (by decide) _), Option.bind_some]
  simp only
  rw [expect_self (by decide), Option.bind_some, expect_ws (by decide), expect_self (by decide), Option.bind_some, jsString_path path hp,
    Option.bind_some]
  simp only
  rw [expect_self (by decide), Option.bind_some, expect_ws (by decide), expect_self (by decide), Option.bind_some, jsString_plain x.1 hn,
    Option.bind_some]
  simp only
  rw [expect_self (by decide), Option.bind_some, value_ws (by decide), means_print x.2 hv n _ hl (stop_cons (by decide) _), Option.bind_some]
  simp only
  rw [expect_self (by decide)]
  rfl

/-- Rows with their texts. -/
theorem jsRows_texts : ∀ (ts : List (List Char × Row)), (∀ t ∈ ts, (∃ r, t.1 = '[' :: r) ∧
      ∀ n rest, t.1.length ≤ n → jsRow n (t.1 ++ rest) = some (t.2, ',' :: '\n' :: rest)) →
    ∀ n rest, (ts.flatMap (·.1)).length < n → jsRows n (ts.flatMap (·.1) ++ ']' :: rest) = some (ts.map (·.2), rest) := by
  intro ts
  induction ts with
  | nil =>
    intro _ n rest hn
    cases n with
    | zero => omega
    | succ n => simp only [List.flatMap_nil, List.nil_append, jsRows, expect_self (c := ']') (by decide), List.map_nil]
  | cons t ts ih =>
    intro h n rest hn
    obtain ⟨⟨r, hr⟩, ht⟩ := h t (by simp)
    have ih := ih fun u hu => h u (by simp [hu])
    cases n with
    | zero => omega
    | succ n =>
      simp only [List.flatMap_cons, List.length_append] at hn
      have hlen : 0 < t.1.length := by rw [hr]; simp
      rw [List.flatMap_cons, List.append_assoc, jsRows]
      have hno : expect ']' (t.1 ++ (ts.flatMap (·.1) ++ ']' :: rest)) = none := by
        rw [hr, List.cons_append]; exact expect_other (by decide) (by decide) _
      have hws : jsRows n ('\n' :: (ts.flatMap (·.1) ++ ']' :: rest)) = jsRows n (ts.flatMap (·.1) ++ ']' :: rest) := by
        cases n with
        | zero => rfl
        | succ n =>
          have hrow : ∀ s, jsRow n ('\n' :: s) = jsRow n s := by
            intro s; unfold jsRow; rw [expect_ws (by decide)]
          simp only [jsRows, expect_ws (c := '\n') (by decide), hrow]
      simp only [hno, ht n _ (by omega), Option.bind_some, expect_self (c := ',') (by decide), hws]
      rw [ih n rest (by omega)]
      rfl

/-- The texts of the rows of calls, with the rows. -/
def pairs : Nat → List Call → List (List Char × Row)
  | _, [] => []
  | g, .vars _ _ :: cs => pairs g cs
  | g, .at_ line path n v rest :: cs =>
    (((n, v) :: rest).map fun x => (row g line (escapePath path) x.1 x.2, ⟨Nat.toDigits 10 g, Nat.toDigits 10 line, path, x.1, json x.2⟩)) ++ pairs (g + 1) cs

theorem pairs_texts : ∀ (cs : List Call) (g : Nat), (pairs g cs).flatMap (·.1) = texts g cs ∧ (pairs g cs).map (·.2) = rows g cs := by
  intro cs
  induction cs with
  | nil => intro g; exact ⟨rfl, rfl⟩
  | cons c cs ih =>
    intro g
    cases c with
    | vars x rest => exact ih g
    | at_ line path n v rest =>
      obtain ⟨h1, h2⟩ := ih (g + 1)
      constructor
      · rw [pairs, texts, List.flatMap_append, h1]
        congr 1
        rw [List.flatMap_map]
        rfl
      · rw [pairs, rows, List.map_append, h2, List.map_map]
        rfl

theorem pairs_good : ∀ (cs : List Call) (g : Nat), (∀ c ∈ cs, GoodCall c) → ∀ t ∈ pairs g cs, (∃ r, t.1 = '[' :: r) ∧
      ∀ n rest, t.1.length ≤ n → jsRow n (t.1 ++ rest) = some (t.2, ',' :: '\n' :: rest) := by
  intro cs
  induction cs with
  | nil => intro g _ t ht; simp [pairs] at ht
  | cons c cs ih =>
    intro g hg t ht
    cases c with
    | vars x rest => exact ih g (fun c hc => hg c (by simp [hc])) t ht
    | at_ line path n v rest =>
      rw [pairs, List.mem_append] at ht
      rcases ht with ht | ht
      · obtain ⟨x, hx, rfl⟩ := List.mem_map.mp ht
        obtain ⟨hp, hxs⟩ := hg (.at_ line path n v rest) (by simp)
        refine ⟨⟨_, by simp only [row, List.cons_append]; rfl⟩, fun k rest' hk => ?_⟩
        refine jsRow_row g line path hp x (hxs x hx).1 (hxs x hx).2 k ?_ rest'
        refine Nat.le_trans ?_ hk
        simp only [row, List.length_append, List.length_cons]
        omega
      · exact ih (g + 1) (fun c hc => hg c (by simp [hc])) t ht

/-- The array that calls write is read as their rows. -/
theorem jsArray_texts (g : Nat) (cs : List Call) (h : ∀ c ∈ cs, GoodCall c) : jsArray ('[' :: texts g cs ++ [']']) = some (rows g cs) := by
  obtain ⟨h1, h2⟩ := pairs_texts cs g
  have := jsRows_texts (pairs g cs) (pairs_good cs g h) (('[' :: texts g cs ++ [']']).length + 1) []
    (by rw [h1]; simp only [List.length_append, List.length_cons]; omega)
  rw [h1, h2] at this
  unfold jsArray
  rw [List.cons_append, expect_self (by decide), Option.bind_some]
  rw [List.cons_append] at this
  rw [this]
  rfl

end GTMesh.HtmlLog
