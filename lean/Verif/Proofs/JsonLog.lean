import Verif.Spec.JsonLog

namespace GTMesh.JsonLog

open Json

/-- The text behind a value does not continue a number. -/
def Stop (s : List Char) : Prop := ∀ c, s.head? = some c → isNumChar c = false

theorem skip_ws {c : Char} (h : isWs c = true) (s : List Char) : skip (c :: s) = skip s := by
  unfold skip; rw [List.dropWhile_cons]; simp [h]

theorem skip_non {c : Char} (h : isWs c = false) (s : List Char) : skip (c :: s) = c :: s := by
  unfold skip; rw [List.dropWhile_cons]; simp [h]

theorem value_ws {c : Char} (h : isWs c = true) (n : Nat) (s : List Char) : value n (c :: s) = value n s := by
  cases n with
  | zero => rfl
  | succ n => unfold value; rw [skip_ws h]

theorem expect_ws {c : Char} (h : isWs c = true) (d : Char) (s : List Char) : expect d (c :: s) = expect d s := by
  unfold expect; rw [skip_ws h]

theorem expect_self {c : Char} (h : isWs c = false) (s : List Char) : expect c (c :: s) = some s := by
  unfold expect; rw [skip_non h]; simp

theorem expect_other {c d : Char} (h : isWs c = false) (hd : c ≠ d) (s : List Char) : expect d (c :: s) = none := by
  unfold expect; rw [skip_non h]; simp [hd]

theorem elems_ws {c : Char} (h : isWs c = true) (n : Nat) (s : List Char) : elems n (c :: s) = elems n s := by
  cases n with
  | zero => rfl
  | succ n => unfold elems; rw [value_ws h]

theorem members_ws {c : Char} (h : isWs c = true) (n : Nat) (s : List Char) : members n (c :: s) = members n s := by
  cases n with
  | zero => rfl
  | succ n => unfold members; rw [expect_ws h]

theorem string_quote (r : List Char) : string ('"' :: r) = some ([], r) := by
  rw [string.eq_def]; simp

theorem string_plain {c : Char} (h1 : c ≠ '"') (h2 : c ≠ '\\') (h3 : ¬ c.toNat < 32) (r : List Char) :
    string (c :: r) = (string r).map fun p => (c :: p.1, p.2) := by
  rw [string.eq_def]; simp only [if_neg h1, if_neg h2, if_neg h3]

theorem string_back (d : Char) (r : List Char) :
    string ('\\' :: d :: r) = (unescape d).bind fun e => (string r).map fun p => (e :: p.1, p.2) := by
  rw [string.eq_def]; simp

theorem takeWhile_self {p : Char → Bool} {s : List Char} (h : ∀ c ∈ s, p c = true) : s.takeWhile p = s ∧ s.dropWhile p = [] := by
  induction s with
  | nil => exact ⟨rfl, rfl⟩
  | cons c s ih =>
    have := ih fun d hd => h d (by simp [hd])
    simp [List.takeWhile_cons, List.dropWhile_cons, h c, this.1, this.2]

theorem string_unescaped (s : List Char) (h : Unescaped s) (rest : List Char) : string (s ++ '"' :: rest) = some (s, rest) := by
  induction s with
  | nil => exact string_quote rest
  | cons c s ih =>
    have hc := h c (by simp)
    have h32 : ¬ c.toNat < 32 := by omega
    rw [List.cons_append, string_plain hc.1 hc.2.1 h32, ih fun d hd => h d (by simp [hd])]
    rfl

theorem string_escape (s : List Char) (h : NoControl s) (rest : List Char) : string (escape s ++ '"' :: rest) = some (s, rest) := by
  induction s with
  | nil => exact string_quote rest
  | cons c s ih =>
    have hc := h c (by simp)
    have h32 : ¬ c.toNat < 32 := by omega
    have ih' := ih fun d hd => h d (by simp [hd])
    rw [escape]
    by_cases h1 : c = '"' ∨ c = '\\'
    · rw [if_pos h1, List.cons_append, List.cons_append, string_back]
      rcases h1 with h1 | h1 <;> subst h1 <;> simp [unescape, ih']
    · have ⟨a, b⟩ := not_or.mp h1
      rw [if_neg h1, List.cons_append, string_plain a b h32, ih']
      rfl

/-- Doubling every backslash, the escaping of a path without quotes. -/
def doubled (s : List Char) : List Char := s.flatMap fun c => if c = '\\' then ['\\', '\\'] else [c]

theorem string_doubled (s : List Char) (h : ∀ c ∈ s, c ≠ '"' ∧ 32 ≤ c.toNat) (rest : List Char) :
    string (doubled s ++ '"' :: rest) = some (s, rest) := by
  have e : doubled s = escape s := by
    clear rest
    induction s with
    | nil => rfl
    | cons c s ih =>
      have hc := h c (by simp)
      have ih' := ih fun d hd => h d (by simp [hd])
      rw [escape]
      unfold doubled at ih' ⊢
      rw [List.flatMap_cons, ih']
      by_cases h1 : c = '\\'
      · subst h1; rfl
      · rw [if_neg h1, if_neg (not_or.mpr ⟨hc.1, h1⟩)]; rfl
  rw [e]
  exact string_escape s (fun c hc => (h c hc).2) rest

/-! Numbers. -/

theorem digits_all {s : List Char} (h : digits s = true) : s.all isNumChar = true := by
  unfold digits at h
  simp only [Bool.and_eq_true, List.all_eq_true] at h ⊢
  intro c hc
  simp [isNumChar, h.2 c hc]

theorem takeDrop_all {p q : Char → Bool} (s : List Char) (h1 : (s.takeWhile p).all q = true) (h2 : (s.dropWhile p).all q = true) :
    s.all q = true := by
  rw [← List.takeWhile_append_dropWhile (p := p) (l := s), List.all_append, h1, h2]; rfl

theorem headDrop {p : Char → Bool} {s r : List Char} {c : Char} (h : s.dropWhile p = c :: r) : p c = false := by
  have := List.head?_dropWhile_not p s
  rw [h] at this
  simpa using this

theorem dropSign_all {s : List Char} (h : digits (dropSign s) = true) : s.all isNumChar = true := by
  unfold dropSign at h
  split at h
  · simp only [List.all_cons, digits_all h]; rfl
  · simp only [List.all_cons, digits_all h]; rfl
  · exact digits_all h

theorem isUnsigned_all {s : List Char} (h : isUnsigned s = true) : s.all isNumChar = true ∧ s ≠ [] := by
  unfold isUnsigned at h
  simp only [Bool.and_eq_true, Bool.or_eq_true] at h
  obtain ⟨⟨h1, h2⟩, h3⟩ := h
  have hi : digits ((s.takeWhile fun c => !(c = 'e' || c = 'E')).takeWhile (· ≠ '.')) = true := by
    unfold isInt at h1; simp only [Bool.and_eq_true] at h1; exact h1.1
  constructor
  · apply takeDrop_all (p := fun c => !(c = 'e' || c = 'E'))
    · apply takeDrop_all (p := (· ≠ '.'))
      · exact digits_all hi
      · rcases h2 with h2 | h2
        · rw [List.isEmpty_iff] at h2; rw [h2]; rfl
        · cases hx : (s.takeWhile fun c => !(c = 'e' || c = 'E')).dropWhile (· ≠ '.') with
          | nil => rfl
          | cons c r =>
            rw [hx] at h2
            have hc := headDrop hx
            simp only [ne_eq, decide_not, Bool.not_eq_false', decide_eq_true_eq] at hc
            subst hc
            simp only [List.all_cons, List.tail_cons] at h2 ⊢
            rw [digits_all h2]; rfl
    · rcases h3 with h3 | h3
      · rw [List.isEmpty_iff] at h3; rw [h3]; rfl
      · cases hx : s.dropWhile fun c => !(c = 'e' || c = 'E') with
        | nil => rfl
        | cons c r =>
          rw [hx] at h3
          have hc := headDrop hx
          have : isNumChar c = true := by
            simp only [Bool.not_eq_false', Bool.or_eq_true, decide_eq_true_eq] at hc
            rcases hc with hc | hc <;> subst hc <;> rfl
          simp only [List.all_cons, List.tail_cons] at h3 ⊢
          rw [dropSign_all h3, this]; rfl
  · intro e
    subst e
    simp [digits] at hi

theorem isNumber_all {s : List Char} (h : isNumber s = true) : s.all isNumChar = true ∧ s ≠ [] := by
  unfold isNumber at h
  split at h
  · refine ⟨?_, by simp⟩
    rw [List.all_cons, (isUnsigned_all h).1]; rfl
  · exact isUnsigned_all h

theorem numChar_facts {c : Char} (h : isNumChar c = true) :
    isWs c = false ∧ c ≠ '"' ∧ c ≠ '[' ∧ c ≠ '{' ∧ c ≠ ']' ∧ c ≠ '}' ∧ c ≠ 't' ∧ c ≠ 'f' ∧ c ≠ 'n' := by
  have hne : ∀ d : Char, isNumChar d = false → c ≠ d := by
    intro d hd e; subst e; rw [hd] at h; cases h
  refine ⟨?_, hne _ (by decide), hne _ (by decide), hne _ (by decide), hne _ (by decide), hne _ (by decide), hne _ (by decide),
    hne _ (by decide), hne _ (by decide)⟩
  have a := hne ' ' (by decide)
  have b := hne '\n' (by decide)
  have d := hne '\t' (by decide)
  have e := hne '\r' (by decide)
  simp [isWs, a, b, d, e]

theorem takeWhile_stop {s rest : List Char} (h : s.all isNumChar = true) (hs : Stop rest) :
    (s ++ rest).takeWhile isNumChar = s ∧ (s ++ rest).dropWhile isNumChar = rest := by
  induction s with
  | nil =>
    cases rest with
    | nil => exact ⟨rfl, rfl⟩
    | cons c r =>
      have := hs c rfl
      simp [List.takeWhile_cons, List.dropWhile_cons, this]
  | cons c s ih =>
    simp only [List.all_cons, Bool.and_eq_true] at h
    have := ih h.2
    simp [List.takeWhile_cons, List.dropWhile_cons, h.1, this.1, this.2]

theorem value_number {s : List Char} (h : isNumber s = true) {rest : List Char} (hs : Stop rest) (n : Nat) :
    value (n + 1) (s ++ rest) = some (.num s, rest) := by
  have ⟨ha, hne⟩ := isNumber_all h
  have ht := takeWhile_stop ha hs
  cases s with
  | nil => exact absurd rfl hne
  | cons c s =>
    have hc : isNumChar c = true := by simp only [List.all_cons, Bool.and_eq_true] at ha; exact ha.1
    obtain ⟨h1, h2, h3, h4, _, _, h7, h8, h9⟩ := numChar_facts hc
    have p : ∀ (d : Char) (l : List Char) (r : List Char), c ≠ d → (d :: l).isPrefixOf (c :: r) = false := by
      intro d l r hd
      simp [List.isPrefixOf, Ne.symm hd]
    rw [List.cons_append] at ht ⊢
    unfold value
    rw [skip_non h1]
    simp only [if_neg h2, if_neg h3, if_neg h4, p _ _ _ h7, p _ _ _ h8, p _ _ _ h9, ht.1, ht.2, h]
    simp

theorem decimal_digits (n : Nat) : digits (Nat.toDigits 10 n) = true := by
  induction n using Nat.strongRecOn with
  | ind n ih =>
    by_cases h : n < 10
    · rw [Nat.toDigits_of_lt_base h]
      have : n = 0 ∨ n = 1 ∨ n = 2 ∨ n = 3 ∨ n = 4 ∨ n = 5 ∨ n = 6 ∨ n = 7 ∨ n = 8 ∨ n = 9 := by omega
      rcases this with h | h | h | h | h | h | h | h | h | h <;> subst h <;> decide
    · rw [Nat.toDigits_of_base_le (by decide) (by omega)]
      have ih' := ih (n / 10) (by omega)
      have hd : n % 10 < 10 := by omega
      have : ∀ k < 10, (Nat.digitChar k).isDigit = true := by decide
      unfold digits at ih' ⊢
      simp only [Bool.and_eq_true, List.all_append] at ih' ⊢
      refine ⟨by simp, ih'.2, ?_⟩
      simp [this _ hd]

theorem decimal_head (n : Nat) (h : 0 < n) : (Nat.toDigits 10 n).head? ≠ some '0' := by
  induction n using Nat.strongRecOn with
  | ind n ih =>
    by_cases hn : n < 10
    · rw [Nat.toDigits_of_lt_base hn]
      have : n = 1 ∨ n = 2 ∨ n = 3 ∨ n = 4 ∨ n = 5 ∨ n = 6 ∨ n = 7 ∨ n = 8 ∨ n = 9 := by omega
      rcases this with h | h | h | h | h | h | h | h | h <;> subst h <;> decide
    · rw [Nat.toDigits_of_base_le (by decide) (by omega)]
      have ih' := ih (n / 10) (by omega) (by omega)
      cases hx : Nat.toDigits 10 (n / 10) with
      | nil => have := decimal_digits (n / 10); rw [hx] at this; simp [digits] at this
      | cons c r => rw [hx] at ih'; simpa using ih'

theorem decimal_number (n : Nat) : isNumber (Nat.toDigits 10 n) = true := by
  have hd := decimal_digits n
  have hall : ∀ c ∈ Nat.toDigits 10 n, c.isDigit = true := by
    unfold digits at hd
    simp only [Bool.and_eq_true, List.all_eq_true] at hd
    exact hd.2
  have hne : ∀ d : Char, d.isDigit = false → ∀ c ∈ Nat.toDigits 10 n, c ≠ d := by
    intro d h c hc e; subst e; rw [hall c hc] at h; cases h
  have hi : isInt (Nat.toDigits 10 n) = true := by
    unfold isInt
    rw [hd]
    by_cases h : 0 < n
    · simp [decimal_head n h]
    · have : n = 0 := by omega
      subst this; decide
  have h1 : (Nat.toDigits 10 n).takeWhile (fun c => !(c = 'e' || c = 'E')) = Nat.toDigits 10 n := by
    refine (takeWhile_self ?_).1
    intro c hc
    simp [hne 'e' (by decide) c hc, hne 'E' (by decide) c hc]
  have h2 : (Nat.toDigits 10 n).dropWhile (fun c => !(c = 'e' || c = 'E')) = [] := by
    refine (takeWhile_self ?_).2
    intro c hc
    simp [hne 'e' (by decide) c hc, hne 'E' (by decide) c hc]
  have h3 : (Nat.toDigits 10 n).takeWhile (· ≠ '.') = Nat.toDigits 10 n := by
    refine (takeWhile_self ?_).1
    intro c hc
    simp [hne '.' (by decide) c hc]
  have h4 : (Nat.toDigits 10 n).dropWhile (· ≠ '.') = [] := by
    refine (takeWhile_self ?_).2
    intro c hc
    simp [hne '.' (by decide) c hc]
  have hu : isUnsigned (Nat.toDigits 10 n) = true := by
    unfold isUnsigned
    simp only [h1, h2, h3, h4, hi]; rfl
  unfold isNumber
  split
  · rename_i s hs
    exact absurd rfl (hne '-' (by decide) '-' (by rw [hs]; simp))
  · exact hu

/-! Values. -/

/-- How the text of a value begins. -/
def Begins (s : List Char) : Prop := ∃ c r, s = c :: r ∧ isWs c = false ∧ c ≠ ']' ∧ c ≠ '}'

theorem begins_print (v : LVal) (h : Loggable v) : Begins (print v) := by
  cases v with
  | plain put =>
    rw [Loggable] at h
    rw [print]
    rcases h with h | h | h
    · have ⟨ha, hne⟩ := isNumber_all h
      cases put with
      | nil => exact absurd rfl hne
      | cons c r =>
        have hc : isNumChar c = true := by simp only [List.all_cons, Bool.and_eq_true] at ha; exact ha.1
        have hf := numChar_facts hc
        exact ⟨c, r, rfl, hf.1, hf.2.2.2.2.1, hf.2.2.2.2.2.1⟩
    · subst h; exact ⟨_, _, rfl, by decide, by decide, by decide⟩
    · subst h; exact ⟨_, _, rfl, by decide, by decide, by decide⟩
  | text s => exact ⟨_, _, rfl, by decide, by decide, by decide⟩
  | list es => exact ⟨_, _, rfl, by decide, by decide, by decide⟩
  | tuple es => exact ⟨_, _, rfl, by decide, by decide, by decide⟩
  | pair a b => exact ⟨_, _, rfl, by decide, by decide, by decide⟩
  | obj ms => exact ⟨_, _, rfl, by decide, by decide, by decide⟩

theorem expect_begins {s : List Char} (h : Begins s) (rest : List Char) :
    expect ']' (s ++ rest) = none ∧ expect '}' (s ++ rest) = none := by
  obtain ⟨c, r, e, h1, h2, h3⟩ := h
  subst e
  exact ⟨expect_other h1 h2 _, expect_other h1 h3 _⟩

/-- The text is the value `j`, whatever follows. -/
def Means (s : List Char) (j : J) : Prop :=
  ∀ n rest, s.length ≤ n → Stop rest → value n (s ++ rest) = some (j, rest)

theorem stop_cons {c : Char} (h : isNumChar c = false) (r : List Char) : Stop (c :: r) := by
  intro d hd; simp at hd; subst hd; exact h

theorem value_open (n : Nat) (r : List Char) : value (n + 1) ('[' :: r) =
    match expect ']' r with
    | some r' => some (.arr [], r')
    | none => (elems n r).map fun p => (.arr p.1, p.2) := by
  rw [value, skip_non (by decide)]; simp; rfl

theorem value_brace (n : Nat) (r : List Char) : value (n + 1) ('{' :: r) =
    match expect '}' r with
    | some r' => some (.obj [], r')
    | none => (members n r).map fun p => (.obj p.1, p.2) := by
  rw [value, skip_non (by decide)]; simp; rfl

theorem value_quote (n : Nat) (r : List Char) : value (n + 1) ('"' :: r) = (string r).map fun p => (.text p.1, p.2) := by
  rw [value, skip_non (by decide)]; simp

/-- Elements: a value, then a comma and more, or the end. -/
theorem elems_more {s : List Char} {j : J} (h : Means s j) (n : Nat) (hn : s.length ≤ n) (rest : List Char) :
    elems (n + 1) (s ++ ',' :: rest) = (elems n rest).map fun q => (j :: q.1, q.2) := by
  rw [elems, h n _ hn (stop_cons (by decide) _)]
  simp [expect_self (c := ',') (by decide)]

theorem elems_last {s : List Char} {j : J} (h : Means s j) (n : Nat) (hn : s.length ≤ n) (rest : List Char) :
    elems (n + 1) (s ++ ']' :: rest) = some ([j], rest) := by
  rw [elems, h n _ hn (stop_cons (by decide) _)]
  simp [expect_self (c := ']') (by decide), expect_other (c := ']') (d := ',') (by decide) (by decide)]

theorem elems_lastWs {s : List Char} {j : J} (h : Means s j) {c : Char} (hc : isWs c = true) (n : Nat) (hn : s.length ≤ n) (rest : List Char) :
    elems (n + 1) (s ++ c :: ']' :: rest) = some ([j], rest) := by
  have hs : Stop (c :: ']' :: rest) := by
    apply stop_cons
    unfold isWs at hc
    simp only [Bool.or_eq_true, decide_eq_true_eq] at hc
    rcases hc with ((h | h) | h) | h <;> subst h <;> decide
  rw [elems, h n _ hn hs]
  simp [expect_ws hc, expect_self (c := ']') (by decide), expect_other (c := ']') (d := ',') (by decide) (by decide)]

/-- A member: its name, white space, a colon, white space, its value. -/
def Pair (s k : List Char) (j : J) : Prop :=
  ∃ q a b t, s = '"' :: q ++ a ++ ':' :: b ++ t ∧ a.all isWs = true ∧ b.all isWs = true ∧
    (∀ rest, string (q ++ rest) = some (k, rest)) ∧ Means t j

theorem expect_allWs {a : List Char} (h : a.all isWs = true) (d : Char) (s : List Char) : expect d (a ++ s) = expect d s := by
  induction a with
  | nil => rfl
  | cons c a ih =>
    simp only [List.all_cons, Bool.and_eq_true] at h
    rw [List.cons_append, expect_ws h.1, ih h.2]

theorem value_allWs {a : List Char} (h : a.all isWs = true) (n : Nat) (s : List Char) : value n (a ++ s) = value n s := by
  induction a with
  | nil => rfl
  | cons c a ih =>
    simp only [List.all_cons, Bool.and_eq_true] at h
    rw [List.cons_append, value_ws h.1, ih h.2]

theorem members_split {s k : List Char} {j : J} (h : Pair s k j) (n : Nat) (hn : s.length ≤ n) (rest : List Char) (hr : Stop rest) :
    members (n + 1) (s ++ rest) =
      match expect ',' rest with
      | some r => (members n r).map fun q => ((k, j) :: q.1, q.2)
      | none => (expect '}' rest).map fun r => ([(k, j)], r) := by
  obtain ⟨q, a, b, t, e, ha, hb, hq, ht⟩ := h
  subst e
  have e : '"' :: q ++ a ++ ':' :: b ++ t ++ rest = '"' :: (q ++ (a ++ (':' :: (b ++ (t ++ rest))))) := by simp
  have hl : t.length ≤ n := by simp at hn; omega
  rw [e, members, expect_self (c := '"') (by decide), Option.bind_some, hq, Option.bind_some, expect_allWs ha,
    expect_self (c := ':') (by decide), Option.bind_some, value_allWs hb, ht n _ hl hr, Option.bind_some]
  rfl

theorem members_more {s k : List Char} {j : J} (h : Pair s k j) (n : Nat) (hn : s.length ≤ n) (rest : List Char) :
    members (n + 1) (s ++ ',' :: rest) = (members n rest).map fun q => ((k, j) :: q.1, q.2) := by
  rw [members_split h n hn _ (stop_cons (by decide) _), expect_self (c := ',') (by decide)]

theorem members_last {s k : List Char} {j : J} (h : Pair s k j) (n : Nat) (hn : s.length ≤ n) {w : List Char} (hw : w.all isWs = true)
    (rest : List Char) : members (n + 1) (s ++ (w ++ '}' :: rest)) = some ([(k, j)], rest) := by
  have hs : Stop (w ++ '}' :: rest) := by
    cases w with
    | nil => exact stop_cons (by decide) _
    | cons c w =>
      simp only [List.all_cons, Bool.and_eq_true] at hw
      have hc := hw.1
      apply stop_cons
      unfold isWs at hc
      simp only [Bool.or_eq_true, decide_eq_true_eq] at hc
      rcases hc with ((h | h) | h) | h <;> subst h <;> decide
  rw [members_split h n hn _ hs, expect_allWs hw, expect_other (c := '}') (d := ',') (by decide) (by decide), expect_allWs hw,
    expect_self (c := '}') (by decide)]
  rfl

theorem means_text {s : List Char} (h : Unescaped s) : Means (printText s) (.text s) := by
  intro n rest hn _
  cases n with
  | zero => simp [printText] at hn
  | succ n =>
    have e : printText s ++ rest = '"' :: (s ++ '"' :: rest) := by simp [printText]
    rw [e, value_quote, string_unescaped s h]; rfl

theorem pair_unescaped {name : List Char} (h : Unescaped name) {t : List Char} {j : J} (ht : Means t j) {a b : List Char}
    (ha : a.all isWs = true) (hb : b.all isWs = true) : Pair ('"' :: name ++ ['"'] ++ a ++ ':' :: b ++ t) name j := by
  refine ⟨name ++ ['"'], a, b, t, by simp, ha, hb, ?_, ht⟩
  intro rest
  rw [List.append_assoc]
  exact string_unescaped name h rest

mutual
theorem means_print (v : LVal) (h : Loggable v) : Means (print v) (json v) := by
  cases v with
  | plain put =>
    rw [Loggable] at h
    intro n rest hn hs
    rw [print, json]
    rcases h with h | h | h
    · have hne : put ≠ ['t', 'r', 'u', 'e'] := by intro e; subst e; revert h; decide
      have hne' : put ≠ ['f', 'a', 'l', 's', 'e'] := by intro e; subst e; revert h; decide
      rw [if_neg hne, if_neg hne']
      cases n with
      | zero =>
        have := (isNumber_all h).2
        rw [print] at hn
        exact absurd (List.length_eq_zero_iff.mp (by omega)) this
      | succ n => exact value_number h hs n
    · subst h
      rw [print] at hn
      cases n with
      | zero => simp at hn
      | succ n => simp [value, skip, isWs, List.isPrefixOf]
    · subst h
      rw [print] at hn
      cases n with
      | zero => simp at hn
      | succ n => simp [value, skip, isWs, List.isPrefixOf]
  | text s =>
    rw [Loggable] at h
    rw [print, json]
    exact means_text h
  | list es =>
    rw [Loggable] at h
    intro n rest hn hs
    rw [print] at hn ⊢
    rw [json]
    have e : ['[', ' '] ++ printElems es ++ [' ', ']'] ++ rest = '[' :: ' ' :: (printElems es ++ ([' '] ++ ']' :: rest)) := by simp
    simp only [List.length_append, List.length_cons, List.length_nil] at hn
    rw [e]
    cases n with
    | zero => omega
    | succ n =>
      rw [value_open, expect_ws (by decide), elems_ws (by decide)]
      cases es with
      | nil =>
        rw [printElems]
        simp [expect_ws (c := ' ') (by decide), expect_self (c := ']') (by decide), jsons]
      | cons v vs =>
        rw [AllLoggable] at h
        have hb : expect ']' (printElems (.cons v vs) ++ ([' '] ++ ']' :: rest)) = none := by
          rw [printElems, List.append_assoc]
          exact (expect_begins (begins_print v h.1) _).1
        rw [hb]
        rw [printElems, means_elems (means_print v h.1) vs h.2 n (by rw [printElems] at hn; simp only [List.length_append] at hn; omega) [' '] (by decide)]
        rfl
  | tuple es =>
    rw [Loggable] at h
    intro n rest hn hs
    rw [print] at hn ⊢
    rw [json]
    have e : ['[', ' '] ++ printElems es ++ [']'] ++ rest = '[' :: ' ' :: (printElems es ++ ([] ++ ']' :: rest)) := by simp
    simp only [List.length_append, List.length_cons, List.length_nil] at hn
    rw [e]
    cases n with
    | zero => omega
    | succ n =>
      rw [value_open, expect_ws (by decide), elems_ws (by decide)]
      cases es with
      | nil =>
        rw [printElems]
        simp [expect_self (c := ']') (by decide), jsons]
      | cons v vs =>
        rw [AllLoggable] at h
        have hb : expect ']' (printElems (.cons v vs) ++ ([] ++ ']' :: rest)) = none := by
          rw [printElems, List.append_assoc]
          exact (expect_begins (begins_print v h.1) _).1
        rw [hb]
        rw [printElems, means_elems (means_print v h.1) vs h.2 n (by rw [printElems] at hn; simp only [List.length_append] at hn; omega) [] (by decide)]
        rfl
  | pair a b =>
    cases a with
    | text s =>
      rw [Loggable] at h
      intro n rest hn hs
      rw [print] at hn ⊢
      rw [json]
      have hp := pair_unescaped h.1 (means_print b h.2) (a := []) (b := [' ']) (by decide) (by decide)
      have e : ['{', ' '] ++ print (.text s) ++ [':', ' '] ++ print b ++ ['}'] ++ rest =
          '{' :: ' ' :: (('"' :: s ++ ['"'] ++ [] ++ ':' :: [' '] ++ print b) ++ ([] ++ '}' :: rest)) := by simp [print, printText]
      simp only [List.length_append, List.length_cons, List.length_nil, print, printText] at hn
      rw [e]
      cases n with
      | zero => omega
      | succ n =>
        cases n with
        | zero => omega
        | succ n =>
          rw [value_brace, expect_ws (by decide), members_ws (by decide)]
          have : expect '}' (('"' :: s ++ ['"'] ++ [] ++ ':' :: [' '] ++ print b) ++ ([] ++ '}' :: rest)) = none :=
            expect_other (by decide) (by decide) _
          rw [this, members_last hp n (by simp; omega) (by decide)]
          rfl
    | plain _ => simp [Loggable] at h
    | list _ => simp [Loggable] at h
    | tuple _ => simp [Loggable] at h
    | pair _ _ => simp [Loggable] at h
    | obj _ => simp [Loggable] at h
  | obj ms =>
    rw [Loggable] at h
    intro n rest hn hs
    rw [print] at hn ⊢
    rw [json]
    have e : ['{', ' '] ++ printMembers ms ++ [' ', '}'] ++ rest = '{' :: ' ' :: (printMembers ms ++ ([' '] ++ '}' :: rest)) := by simp
    simp only [List.length_append, List.length_cons, List.length_nil] at hn
    rw [e]
    cases n with
    | zero => omega
    | succ n =>
      rw [value_brace, expect_ws (by decide), members_ws (by decide)]
      cases ms with
      | nil =>
        rw [printMembers]
        simp [expect_ws (c := ' ') (by decide), expect_self (c := '}') (by decide), jsonMembers]
      | cons name v ms =>
        have hb : expect '}' (printMembers (.cons name v ms) ++ ([' '] ++ '}' :: rest)) = none := by
          rw [printMembers]
          exact expect_other (by decide) (by decide) _
        rw [MembersLoggable] at h
        have hp := pair_unescaped h.1 (means_print v h.2.1) (a := [' ']) (b := [' ']) (by decide) (by decide)
        have ep : '"' :: name ++ ['"'] ++ [' '] ++ ':' :: [' '] ++ print v = '"' :: name ++ ['"', ' ', ':', ' '] ++ print v := by simp
        rw [ep] at hp
        rw [hb]
        rw [printMembers] at hn ⊢
        simp only [List.length_append] at hn
        rw [means_members hp ms h.2.2 n (by simp only [List.length_append]; omega) [' '] (by decide)]
        rfl
theorem means_elems {s : List Char} {j : J} (hv : Means s j) (vs : LVals) (h : AllLoggable vs) (n : Nat)
    (hn : s.length + (separated vs).length + 1 ≤ n) (w : List Char)
    (hw : w = [] ∨ w = [' ']) (rest : List Char) :
    elems n (s ++ separated vs ++ (w ++ ']' :: rest)) = some (j :: jsons vs, rest) := by
  cases n with
  | zero => omega
  | succ n =>
    cases vs with
    | nil =>
      rw [separated, jsons]
      rcases hw with hw | hw <;> subst hw
      · simpa using elems_last hv n (by omega) rest
      · simpa using elems_lastWs hv (c := ' ') (by decide) n (by omega) rest
    | cons v' vs =>
      rw [AllLoggable] at h
      rw [separated] at hn ⊢
      rw [jsons]
      simp only [List.length_append, List.length_cons, List.length_nil] at hn
      have e : s ++ ([',', ' '] ++ print v' ++ separated vs) ++ (w ++ ']' :: rest) =
          s ++ ',' :: ' ' :: (print v' ++ separated vs ++ (w ++ ']' :: rest)) := by simp
      rw [e, elems_more hv n (by omega), elems_ws (by decide), means_elems (means_print v' h.1) vs h.2 n (by omega) w hw rest]
      rfl
theorem means_members {s k : List Char} {j : J} (hp : Pair s k j) (ms : Members) (h : MembersLoggable ms) (n : Nat)
    (hn : s.length + (separatedMembers ms).length + 1 ≤ n) (w : List Char)
    (hw : w.all isWs = true) (rest : List Char) :
    members n (s ++ separatedMembers ms ++ (w ++ '}' :: rest)) = some ((k, j) :: jsonMembers ms, rest) := by
  cases n with
  | zero => omega
  | succ n =>
    cases ms with
    | nil =>
      rw [separatedMembers, jsonMembers, List.append_nil]
      exact members_last hp n (by omega) hw rest
    | cons name' v' ms =>
      rw [MembersLoggable] at h
      rw [separatedMembers] at hn ⊢
      rw [jsonMembers]
      have hp' := pair_unescaped h.1 (means_print v' h.2.1) (a := [' ']) (b := [' ']) (by decide) (by decide)
      have ep : '"' :: name' ++ ['"'] ++ [' '] ++ ':' :: [' '] ++ print v' = '"' :: name' ++ ['"', ' ', ':', ' '] ++ print v' := by simp
      rw [ep] at hp'
      simp only [List.length_append, List.length_cons, List.length_nil] at hn
      have e : s ++
            ([',', ' '] ++ ('"' :: name' ++ ['"', ' ', ':', ' '] ++ print v') ++ separatedMembers ms) ++ (w ++ '}' :: rest) =
          s ++
            ',' :: ' ' :: ('"' :: name' ++ ['"', ' ', ':', ' '] ++ print v' ++ separatedMembers ms ++ (w ++ '}' :: rest)) := by simp
      rw [e, members_more hp n (by omega), members_ws (by decide),
        means_members hp' ms h.2.2 n (by simp only [List.length_append, List.length_cons, List.length_nil]; omega) w hw rest]
      rfl
end

end GTMesh.JsonLog
