import Verif.Proofs.JsonLog

namespace GTMesh.JsonLog

open Json

/-! Records. -/

/-- Texts with a comma and white space between them. -/
def joined (w : List Char) : List (List Char) → List Char
  | [] => []
  | [t] => t
  | t :: t' :: ts => t ++ ',' :: (w ++ joined w (t' :: ts))

theorem joined_append (w : List Char) (ts : List (List Char)) (h : ts ≠ []) (t : List Char) :
    joined w (ts ++ [t]) = joined w ts ++ ',' :: (w ++ t) := by
  induction ts with
  | nil => exact absurd rfl h
  | cons a ts ih =>
    cases ts with
    | nil => rfl
    | cons b ts =>
      have e : joined w (a :: b :: ts ++ [t]) = a ++ ',' :: (w ++ joined w (b :: ts ++ [t])) := rfl
      rw [e, ih (by simp)]
      simp [joined]

theorem members_allWs {a : List Char} (h : a.all isWs = true) (n : Nat) (s : List Char) : members n (a ++ s) = members n s := by
  induction a with
  | nil => rfl
  | cons c a ih =>
    simp only [List.all_cons, Bool.and_eq_true] at h
    rw [List.cons_append, members_ws h.1, ih h.2]

theorem elems_allWs {a : List Char} (h : a.all isWs = true) (n : Nat) (s : List Char) : elems n (a ++ s) = elems n s := by
  induction a with
  | nil => rfl
  | cons c a ih =>
    simp only [List.all_cons, Bool.and_eq_true] at h
    rw [List.cons_append, elems_ws h.1, ih h.2]

theorem members_joined {w : List Char} (hw : w.all isWs = true) {w1 : List Char} (hw1 : w1.all isWs = true) (rest : List Char)
    (ps : List (List Char × List Char × J)) (hne : ps ≠ []) (hp : ∀ p ∈ ps, Pair p.1 p.2.1 p.2.2) (n : Nat)
    (hn : (joined w (ps.map (·.1))).length + 1 ≤ n) :
    members n (joined w (ps.map (·.1)) ++ (w1 ++ '}' :: rest)) = some (ps.map (·.2), rest) := by
  induction ps generalizing n with
  | nil => exact absurd rfl hne
  | cons p ps ih =>
    cases n with
    | zero => omega
    | succ n =>
      cases ps with
      | nil => exact members_last (hp p (by simp)) n (by simpa [joined] using hn) hw1 rest
      | cons p' ps =>
        have e : joined w ((p :: p' :: ps).map (·.1)) = p.1 ++ ',' :: (w ++ joined w ((p' :: ps).map (·.1))) := rfl
        rw [e] at hn ⊢
        simp only [List.length_append, List.length_cons] at hn
        have e2 : p.1 ++ ',' :: (w ++ joined w ((p' :: ps).map (·.1))) ++ (w1 ++ '}' :: rest) =
            p.1 ++ ',' :: (w ++ (joined w ((p' :: ps).map (·.1)) ++ (w1 ++ '}' :: rest))) := by simp
        rw [e2, members_more (hp p (by simp)) n (by omega), members_allWs hw,
          ih (by simp) (fun q hq => hp q (by simp [hq])) n (by omega)]
        rfl

theorem means_obj {w0 w w1 : List Char} (h0 : w0.all isWs = true) (hw : w.all isWs = true) (hw1 : w1.all isWs = true)
    (ps : List (List Char × List Char × J)) (hne : ps ≠ []) (hp : ∀ p ∈ ps, Pair p.1 p.2.1 p.2.2) :
    Means ('{' :: (w0 ++ joined w (ps.map (·.1)) ++ w1 ++ ['}'])) (.obj (ps.map (·.2))) := by
  intro n rest hn _
  simp only [List.length_append, List.length_cons, List.length_nil] at hn
  have e : '{' :: (w0 ++ joined w (ps.map (·.1)) ++ w1 ++ ['}']) ++ rest =
      '{' :: (w0 ++ (joined w (ps.map (·.1)) ++ (w1 ++ '}' :: rest))) := by simp
  rw [e]
  cases n with
  | zero => omega
  | succ n =>
    have hb : expect '}' (joined w (ps.map (·.1)) ++ (w1 ++ '}' :: rest)) = none := by
      cases ps with
      | nil => exact absurd rfl hne
      | cons p ps =>
        obtain ⟨q, a, b, t, ep, _⟩ := hp p (by simp)
        cases ps with
        | nil => simp only [List.map_cons, List.map_nil, joined, ep]; exact expect_other (by decide) (by decide) _
        | cons p' ps => simp only [List.map_cons, joined, ep]; exact expect_other (by decide) (by decide) _
    rw [value_brace, expect_allWs h0, members_allWs h0, hb, members_joined hw hw1 rest ps hne hp n (by omega)]
    rfl

theorem means_ws {c : Char} (h : isWs c = true) {s : List Char} {j : J} (hs : Means s j) : Means (c :: s) j := by
  intro n rest hn hr
  rw [List.cons_append, value_ws h]
  exact hs n rest (by simp at hn; omega) hr

theorem pair_quoted {name s : List Char} (h : NoControl s) (hu : Unescaped name) :
    Pair ('"' :: name ++ ['"', ' ', ':', ' '] ++ quoted s) name (.text s) := by
  have hm : Means (quoted s) (.text s) := by
    intro n rest hn _
    cases n with
    | zero => simp [quoted] at hn
    | succ n =>
      have e : quoted s ++ rest = '"' :: (escape s ++ '"' :: rest) := by simp [quoted]
      rw [e, value_quote, string_escape s h]; rfl
  have := pair_unescaped hu hm (a := [' ']) (b := [' ']) (by decide) (by decide)
  have ep : '"' :: name ++ ['"'] ++ [' '] ++ ':' :: [' '] ++ quoted s = '"' :: name ++ ['"', ' ', ':', ' '] ++ quoted s := by simp
  rwa [ep] at this

theorem pair_of {name t : List Char} {j : J} (hu : Unescaped name) (h : Means t j) :
    Pair ('"' :: name ++ ['"', ' ', ':', ' '] ++ t) name j := by
  have := pair_unescaped hu h (a := [' ']) (b := [' ']) (by decide) (by decide)
  have ep : '"' :: name ++ ['"'] ++ [' '] ++ ':' :: [' '] ++ t = '"' :: name ++ ['"', ' ', ':', ' '] ++ t := by simp
  rwa [ep] at this

instance (s : List Char) : Decidable (Unescaped s) := by unfold Unescaped; infer_instance

theorem lit1 : "\t{\n\t\t\"expr\" : ".toList = ['\t', '{', '\n', '\t', '\t', '"', 'e', 'x', 'p', 'r', '"', ' ', ':', ' '] := by decide +kernel
theorem lit2 : ",\n\t\t\"data\" : ".toList = [',', '\n', '\t', '\t', '"', 'd', 'a', 't', 'a', '"', ' ', ':', ' '] := by decide +kernel
theorem lit3 : "\t{\n\t\t\"gInd\" : ".toList = ['\t', '{', '\n', '\t', '\t', '"', 'g', 'I', 'n', 'd', '"', ' ', ':', ' '] := by decide +kernel
theorem lit4 : ",\n\t\t\"file\" : \"".toList = [',', '\n', '\t', '\t', '"', 'f', 'i', 'l', 'e', '"', ' ', ':', ' ', '"'] := by decide +kernel
theorem lit5 : "\",\n\t\t\"line\" : ".toList = ['"', ',', '\n', '\t', '\t', '"', 'l', 'i', 'n', 'e', '"', ' ', ':', ' '] := by decide +kernel
theorem lit6 : ",\n\t\t\"expr\" : ".toList = [',', '\n', '\t', '\t', '"', 'e', 'x', 'p', 'r', '"', ' ', ':', ' '] := by decide +kernel
theorem lit7 : "\n\t}".toList = ['\n', '\t', '}'] := by decide +kernel
theorem key1 : "expr".toList = ['e', 'x', 'p', 'r'] := by decide +kernel
theorem key2 : "data".toList = ['d', 'a', 't', 'a'] := by decide +kernel
theorem key3 : "gInd".toList = ['g', 'I', 'n', 'd'] := by decide +kernel
theorem key4 : "file".toList = ['f', 'i', 'l', 'e'] := by decide +kernel
theorem key5 : "line".toList = ['l', 'i', 'n', 'e'] := by decide +kernel

/-- The characters of a record without a place. -/
def recordText (name : List Char) (v : LVal) : List Char :=
  "\t{\n\t\t\"expr\" : ".toList ++ quoted name ++ ",\n\t\t\"data\" : ".toList ++ print v ++ ['\n', '}']

theorem means_record (x : List Char × LVal) (h : NoControl x.1 ∧ Loggable x.2) : Means (recordText x.1 x.2) (record x) := by
  have p1 : Pair ('"' :: ['e', 'x', 'p', 'r'] ++ ['"', ' ', ':', ' '] ++ quoted x.1) ['e', 'x', 'p', 'r'] (.text x.1) :=
    pair_quoted h.1 (by decide)
  have p2 : Pair ('"' :: ['d', 'a', 't', 'a'] ++ ['"', ' ', ':', ' '] ++ print x.2) ['d', 'a', 't', 'a'] (json x.2) :=
    pair_of (by decide) (means_print x.2 h.2)
  have := means_obj (w0 := ['\n', '\t', '\t']) (w := ['\n', '\t', '\t']) (w1 := ['\n']) (by decide) (by decide) (by decide)
    [(_, _, _), (_, _, _)] (by simp) (by
      intro p hp
      simp only [List.mem_cons, List.not_mem_nil, or_false] at hp
      rcases hp with hp | hp
      · rw [hp]; exact p1
      · rw [hp]; exact p2)
  unfold recordText record
  rw [lit1, lit2, key1, key2]
  have := means_ws (c := '\t') (by decide) this
  simpa [joined] using this

theorem means_located (g line : Nat) (path : List Char) (hpath : ∀ c ∈ path, c ≠ '"' ∧ 32 ≤ c.toNat) (x : List Char × LVal)
    (h : NoControl x.1 ∧ Loggable x.2) : Means (located g line (doubled path) x.1 x.2) (recordAt g line path x) := by
  have hnum : ∀ n : Nat, Means (decimal n) (.num (Nat.toDigits 10 n)) := by
    intro n k rest hk hs
    have hd := decimal_number n
    cases k with
    | zero =>
      have := (isNumber_all hd).2
      exact absurd (List.length_eq_zero_iff.mp (by unfold decimal at hk; omega)) this
    | succ k => exact value_number hd hs k
  have hfile : Means ('"' :: doubled path ++ ['"']) (.text path) := by
    intro n rest hn _
    cases n with
    | zero => simp at hn
    | succ n =>
      have e : '"' :: doubled path ++ ['"'] ++ rest = '"' :: (doubled path ++ '"' :: rest) := by simp
      rw [e, value_quote, string_doubled path hpath]; rfl
  have p1 := pair_of (name := ['g', 'I', 'n', 'd']) (by decide) (hnum g)
  have p2 := pair_of (name := ['f', 'i', 'l', 'e']) (by decide) hfile
  have p3 := pair_of (name := ['l', 'i', 'n', 'e']) (by decide) (hnum line)
  have p4 : Pair ('"' :: ['e', 'x', 'p', 'r'] ++ ['"', ' ', ':', ' '] ++ quoted x.1) ['e', 'x', 'p', 'r'] (.text x.1) :=
    pair_quoted h.1 (by decide)
  have p5 : Pair ('"' :: ['d', 'a', 't', 'a'] ++ ['"', ' ', ':', ' '] ++ print x.2) ['d', 'a', 't', 'a'] (json x.2) :=
    pair_of (by decide) (means_print x.2 h.2)
  have := means_obj (w0 := ['\n', '\t', '\t']) (w := ['\n', '\t', '\t']) (w1 := ['\n', '\t']) (by decide) (by decide) (by decide)
    [(_, _, _), (_, _, _), (_, _, _), (_, _, _), (_, _, _)] (by simp) (by
      intro p hp
      simp only [List.mem_cons, List.not_mem_nil, or_false] at hp
      rcases hp with hp | hp | hp | hp | hp
      · rw [hp]; exact p1
      · rw [hp]; exact p2
      · rw [hp]; exact p3
      · rw [hp]; exact p4
      · rw [hp]; exact p5)
  unfold located recordAt
  rw [lit3, lit4, lit5, lit6, lit2, lit7, key1, key2, key3, key4, key5]
  have := means_ws (c := '\t') (by decide) this
  simpa [joined] using this

/-! Backslashes. -/

theorem doubled_append (a b : List Char) : doubled (a ++ b) = doubled a ++ doubled b := by simp [doubled]

theorem doubled_none {a : List Char} (h : '\\' ∉ a) : doubled a = a := by
  induction a with
  | nil => rfl
  | cons c a ih =>
    simp only [List.mem_cons, not_or] at h
    have := ih h.2
    unfold doubled at this ⊢
    rw [List.flatMap_cons, this, if_neg (Ne.symm h.1)]; rfl

theorem find_split (b : List Char) : (b.findIdx? (· = '\\') = none ∧ '\\' ∉ b) ∨
    ∃ m r, b = m ++ '\\' :: r ∧ '\\' ∉ m ∧ b.findIdx? (· = '\\') = some m.length := by
  induction b with
  | nil => left; simp
  | cons c b ih =>
    by_cases hc : c = '\\'
    · right; exact ⟨[], b, by simp [hc], by simp, by simp [List.findIdx?_cons, hc]⟩
    · rcases ih with ⟨h1, h2⟩ | ⟨m, r, h1, h2, h3⟩
      · left
        exact ⟨by simp [List.findIdx?_cons, hc, h1], by simp [Ne.symm hc, h2]⟩
      · right
        exact ⟨c :: m, r, by simp [h1], by simp [Ne.symm hc, h2], by simp [List.findIdx?_cons, hc, h3]⟩

theorem doubleLoop_eq (fuel : Nat) : ∀ (a b : List Char) (pos : Nat), (a.length = pos + 2 ∨ (a.length ≤ pos + 2 ∧ b = [])) →
    b.length < fuel → doubleLoop fuel (a ++ b) pos = .ok (a ++ doubled b) := by
  induction fuel with
  | zero => intro a b pos _ h; omega
  | succ fuel ih =>
    intro a b pos ha hb
    have hd : (a ++ b).drop (pos + 2) = b := by
      rcases ha with ha | ⟨ha, e⟩
      · rw [← ha, List.drop_left]
      · subst e; simp [ha]
    rw [doubleLoop]
    unfold findFrom
    rw [hd]
    rcases find_split b with ⟨h1, h2⟩ | ⟨m, r, h1, h2, h3⟩
    · rw [h1, doubled_none h2]; rfl
    · have hal : a.length = pos + 2 := by
        rcases ha with ha | ⟨_, e⟩
        · exact ha
        · subst e; simp at h1
      rw [h3]
      simp only [Option.map_some]
      subst h1
      have e1 : (a ++ (m ++ '\\' :: r)).take (m.length + (pos + 2)) = a ++ m := by
        rw [← List.append_assoc, List.take_left' (by simp; omega)]
      have e2 : (a ++ (m ++ '\\' :: r)).drop (m.length + (pos + 2) + 1) = r := by
        have : a ++ (m ++ '\\' :: r) = (a ++ m ++ ['\\']) ++ r := by simp
        rw [this, List.drop_left' (by simp; omega)]
      rw [e1, e2, ih (a ++ m ++ ['\\', '\\']) r _ (Or.inl (by simp; omega)) (by simp at hb; omega), doubled_append, doubled_none h2]
      simp [doubled]

theorem doubleBackSlash_eq (s : List Char) : doubleBackSlash s = .ok (s.take 2 ++ doubled (s.drop 2)) := by
  unfold doubleBackSlash
  have h : (s.take 2).length = 0 + 2 ∨ ((s.take 2).length ≤ 0 + 2 ∧ s.drop 2 = []) := by
    by_cases h : 2 ≤ s.length
    · left; simp [h]
    · right; exact ⟨by simp; omega, List.drop_eq_nil_of_le (by omega)⟩
  have := doubleLoop_eq (s.length + 1) (s.take 2) (s.drop 2) 0 h (by simp; omega)
  rwa [List.take_append_drop] at this

theorem doubleBackSlash_good {s : List Char} (h : '\\' ∉ s.take 2) : doubleBackSlash s = .ok (doubled s) := by
  rw [doubleBackSlash_eq]
  congr 1
  conv => rhs; rw [← List.take_append_drop 2 s, doubled_append, doubled_none h]

/-! The log. -/

/-- The texts that were written stand for these records. -/
def Logged (out : List Char) (js : List J) (first : Bool) : Prop :=
  ∃ ts : List (List Char × J), (∀ t ∈ ts, Means t.1 t.2 ∧ t.1.head? = some '\t' ∧ 2 ≤ t.1.length ∧ (t.1[1]? = some '{')) ∧ ts.map (·.2) = js ∧
    out = headerText ++ joined ['\n'] (ts.map (·.1)) ∧ (first = true ↔ ts = [])

/-- A logger that has written these records into the file `name`, or has not opened it yet. -/
def Wrote (name : List Char) (js : List J) (g : Nat) (l : Logger) : Prop :=
  l.closed = [] ∧ l.groupIndex = g ∧
    ((l.logFile = .null ∧ js = [] ∧ l.logFileName = name) ∨ ∃ out, l.logFile = .opened name out ∧ Logged out js l.firstWrite)

theorem wrote_ensure {name : List Char} {js : List J} {g : Nat} {l : Logger} (h : Wrote name js g l) :
    ∃ l' out, ensure l = .ok l' ∧ Wrote name js g l' ∧ l'.logFile = .opened name out ∧ Logged out js l'.firstWrite := by
  obtain ⟨h1, h2, h3⟩ := h
  rcases h3 with ⟨h3, h4, h5⟩ | ⟨out, h3, h4⟩
  · have hl : Logged headerText [] true := ⟨[], by simp, rfl, by simp [joined], by simp⟩
    refine ⟨{ l with firstWrite := true, logFile := .opened name headerText }, headerText, ?_, ?_, rfl, ?_⟩
    · unfold ensure; rw [h3]; simp only [create, h3, h5]
    · subst h4; exact ⟨h1, h2, Or.inr ⟨headerText, rfl, hl⟩⟩
    · subst h4; exact hl
  · refine ⟨l, out, ?_, ⟨h1, h2, Or.inr ⟨out, h3, h4⟩⟩, h3, h4⟩
    unfold ensure; rw [h3]

/-- One record is written. -/
theorem wrote_put {name : List Char} {js : List J} {g : Nat} {l : Logger} {out : List Char} (hc : l.closed = []) (hg : l.groupIndex = g)
    (ho : l.logFile = .opened name out) (hl : Logged out js l.firstWrite) {text : List Char} {j : J}
    (ht : Means text j ∧ text.head? = some '\t' ∧ 2 ≤ text.length ∧ text[1]? = some '{') :
    ∃ l1 l', comma l = .ok l1 ∧ l1.groupIndex = g ∧ put text l1 = .ok l' ∧ Wrote name (js ++ [j]) g l' := by
  obtain ⟨ts, h1, h2, h3, h4⟩ := hl
  have hlog : ∀ out', out' = headerText ++ joined ['\n'] ((ts ++ [(text, j)]).map (·.1)) → Logged out' (js ++ [j]) false := by
    intro out' ho'
    refine ⟨ts ++ [(text, j)], ?_, by simp [h2], ho', by simp⟩
    intro t hm
    simp only [List.mem_append, List.mem_cons, List.not_mem_nil, or_false] at hm
    rcases hm with hm | hm
    · exact h1 t hm
    · rw [hm]; exact ht
  by_cases hf : l.firstWrite = true
  · have hts := h4.mp hf
    refine ⟨{ l with firstWrite := false }, { l with firstWrite := false, logFile := .opened name (out ++ text) }, ?_, hg, ?_, hc, hg,
      Or.inr ⟨_, rfl, ?_⟩⟩
    · unfold comma; rw [if_neg (by simp [hf])]
    · unfold put; simp only [ho]
    · apply hlog
      subst hts
      rw [h3]; simp [joined]
  · have hf' : l.firstWrite = false := by simpa using hf
    have hts : ts ≠ [] := fun e => hf (h4.mpr e)
    refine ⟨{ l with logFile := .opened name (out ++ [',', '\n']) }, { l with logFile := .opened name (out ++ [',', '\n'] ++ text) },
      ?_, hg, rfl, hc, hg, Or.inr ⟨_, rfl, ?_⟩⟩
    · unfold comma; rw [if_pos hf']; unfold put; simp only [ho]
    · change Logged _ _ l.firstWrite
      rw [hf']
      apply hlog
      rw [h3, List.map_append, List.map_cons, List.map_nil, joined_append _ _ (by simpa using hts)]
      simp

theorem wrote_one {name : List Char} {js : List J} {g : Nat} {l : Logger} (h : Wrote name js g l) (x : List Char × LVal)
    (hx : NoControl x.1 ∧ Loggable x.2) : ∃ l', writeOne x.1 x.2 l = .ok l' ∧ Wrote name (js ++ [record x]) g l' := by
  obtain ⟨l0, out, he, hw, ho, hl⟩ := wrote_ensure h
  have ht : Means (recordText x.1 x.2) (record x) ∧ (recordText x.1 x.2).head? = some '\t' ∧ 2 ≤ (recordText x.1 x.2).length ∧
      (recordText x.1 x.2)[1]? = some '{' := by
    refine ⟨means_record x hx, ?_, ?_, ?_⟩ <;> unfold recordText <;> rw [lit1] <;> simp
  obtain ⟨l1, l', hcm, _, hp, hw'⟩ := wrote_put hw.1 hw.2.1 ho hl ht
  refine ⟨l', ?_, hw'⟩
  unfold writeOne
  rw [he]
  simp only [Res.bind, hcm]
  exact hp

theorem wrote_vars {name : List Char} {g : Nat} (rest : List (List Char × LVal)) : ∀ (n : List Char) (v : LVal) (js : List J) (l : Logger),
    Wrote name js g l → (∀ x ∈ (n, v) :: rest, NoControl x.1 ∧ Loggable x.2) →
    ∃ l', writeVars n v rest l = .ok l' ∧ Wrote name (js ++ ((n, v) :: rest).map record) g l' := by
  induction rest with
  | nil =>
    intro n v js l h hx
    exact wrote_one h (n, v) (hx (n, v) (by simp))
  | cons y rest ih =>
    intro n v js l h hx
    obtain ⟨l0, out, he, hw, _, _⟩ := wrote_ensure h
    obtain ⟨l1, h1, hw1⟩ := wrote_one hw (n, v) (hx (n, v) (by simp))
    obtain ⟨l2, h2, hw2⟩ := ih y.1 y.2 _ l1 hw1 (fun x hm => hx x (by simp at hm ⊢; exact Or.inr hm))
    refine ⟨l2, ?_, by simpa using hw2⟩
    unfold writeVars
    rw [he]
    simp only [Res.bind, h1]
    exact h2

theorem wrote_locatedOne {name : List Char} {js : List J} {g : Nat} {l : Logger} (h : Wrote name js g l) (line : Nat) (path : List Char)
    (hpath : ∀ c ∈ path, c ≠ '"' ∧ 32 ≤ c.toNat) (x : List Char × LVal)
    (hx : NoControl x.1 ∧ Loggable x.2) : ∃ l0 l1 l', ensure l = .ok l0 ∧ comma l0 = .ok l1 ∧
      put (located l1.groupIndex line (doubled path) x.1 x.2) l1 = .ok l' ∧ Wrote name (js ++ [recordAt g line path x]) g l' := by
  obtain ⟨l0, out, he, hw, ho, hl⟩ := wrote_ensure h
  have ht : Means (located g line (doubled path) x.1 x.2) (recordAt g line path x) ∧ (located g line (doubled path) x.1 x.2).head? = some '\t' ∧
      2 ≤ (located g line (doubled path) x.1 x.2).length ∧ (located g line (doubled path) x.1 x.2)[1]? = some '{' := by
    refine ⟨means_located g line path hpath x hx, ?_, ?_, ?_⟩ <;> unfold located <;> rw [lit3] <;> simp
  obtain ⟨l1, l', hcm, hg, hp, hw'⟩ := wrote_put hw.1 hw.2.1 ho hl ht
  exact ⟨l0, l1, l', he, hcm, by rw [hg]; exact hp, hw'⟩

theorem wrote_located {name : List Char} {g : Nat} (line : Nat) (path : List Char) (hpath : ∀ c ∈ path, c ≠ '"' ∧ 32 ≤ c.toNat)
    (rest : List (List Char × LVal)) : ∀ (n : List Char) (v : LVal) (js : List J) (l : Logger),
    Wrote name js g l → (∀ x ∈ (n, v) :: rest, NoControl x.1 ∧ Loggable x.2) →
    ∃ l', writeLocated line (doubled path) n v rest l = .ok l' ∧ Wrote name (js ++ ((n, v) :: rest).map (recordAt g line path)) (g + 1) l' := by
  induction rest with
  | nil =>
    intro n v js l h hx
    obtain ⟨l0, l1, l', h0, h1, h2, hw⟩ := wrote_locatedOne h line path hpath (n, v) (hx (n, v) (by simp))
    refine ⟨{ l' with groupIndex := l'.groupIndex + 1 }, ?_, hw.1, by rw [← hw.2.1], ?_⟩
    · unfold writeLocated; simp only [h0, Res.bind, h1, h2]
    · rcases hw.2.2 with hn | hn
      · exact Or.inl hn
      · exact Or.inr hn
  | cons y rest ih =>
    intro n v js l h hx
    obtain ⟨l0, l1, l', h0, h1, h2, hw⟩ := wrote_locatedOne h line path hpath (n, v) (hx (n, v) (by simp))
    obtain ⟨l2, h3, hw2⟩ := ih y.1 y.2 _ l' hw (fun x hm => hx x (by simp at hm ⊢; exact Or.inr hm))
    refine ⟨l2, ?_, by simpa using hw2⟩
    unfold writeLocated
    simp only [h0, Res.bind, h1, h2]
    exact h3

theorem wrote_calls {name : List Char} (cs : List Call) : ∀ (js : List J) (g : Nat) (l : Logger),
    Wrote name js g l → (∀ c ∈ cs, GoodCall c) → ∃ l' g', calls cs l = .ok l' ∧ Wrote name (js ++ records g cs) g' l' := by
  induction cs with
  | nil => intro js g l h _; exact ⟨l, g, rfl, by simpa [records] using h⟩
  | cons c cs ih =>
    intro js g l h hc
    have hc0 := hc c (by simp)
    cases c with
    | vars n v rest =>
      obtain ⟨l1, h1, hw1⟩ := wrote_vars rest n v js l h hc0
      obtain ⟨l2, g2, h2, hw2⟩ := ih _ g l1 hw1 (fun x hx => hc x (by simp [hx]))
      refine ⟨l2, g2, ?_, by simpa [records] using hw2⟩
      unfold calls call
      simp only [h1, Res.bind]
      exact h2
    | at_ line path n v rest =>
      obtain ⟨l1, h1, hw1⟩ := wrote_located line path hc0.1.1 rest n v js l h hc0.2
      obtain ⟨l2, g2, h2, hw2⟩ := ih _ (g + 1) l1 hw1 (fun x hx => hc x (by simp [hx]))
      refine ⟨l2, g2, ?_, by simpa [records] using hw2⟩
      unfold calls call
      simp only [doubleBackSlash_good hc0.1.2, h1, Res.bind]
      exact h2

theorem elems_joined (rest : List Char)
    (ts : List (List Char × J)) (hne : ts ≠ []) (hp : ∀ t ∈ ts, Means t.1 t.2) (n : Nat)
    (hn : (joined ['\n'] (ts.map (·.1))).length + 1 ≤ n) :
    elems n (joined ['\n'] (ts.map (·.1)) ++ '\n' :: ']' :: rest) = some (ts.map (·.2), rest) := by
  induction ts generalizing n with
  | nil => exact absurd rfl hne
  | cons p ps ih =>
    cases n with
    | zero => omega
    | succ n =>
      cases ps with
      | nil => exact elems_lastWs (hp p (by simp)) (by decide) n (by simpa [joined] using hn) rest
      | cons p' ps =>
        have e : joined ['\n'] ((p :: p' :: ps).map (·.1)) = p.1 ++ ',' :: (['\n'] ++ joined ['\n'] ((p' :: ps).map (·.1))) := rfl
        rw [e] at hn ⊢
        simp only [List.length_append, List.length_cons] at hn
        have e2 : p.1 ++ ',' :: (['\n'] ++ joined ['\n'] ((p' :: ps).map (·.1))) ++ '\n' :: ']' :: rest =
            p.1 ++ ',' :: '\n' :: (joined ['\n'] ((p' :: ps).map (·.1)) ++ '\n' :: ']' :: rest) := by simp
        rw [e2, elems_more (hp p (by simp)) n (by omega), elems_ws (by decide),
          ih (by simp) (fun q hq => hp q (by simp [hq])) n (by omega)]
        rfl

theorem parse_means {s : List Char} {j : J} (h : Means s j) : parse s = some j := by
  unfold parse
  have := h (s.length + 1) [] (Nat.le_succ _) (by intro c hc; simp at hc)
  rw [List.append_nil] at this
  rw [this]
  simp [skip]

theorem parse_logged {out : List Char} {js : List J} {first : Bool} (h : Logged out js first) :
    parse (out ++ ['\n', ']', '\n', '}']) = some (.obj [("logs".toList, .arr js)]) := by
  obtain ⟨ts, h1, h2, h3, _⟩ := h
  have hkey : "logs".toList = ['l', 'o', 'g', 's'] := by decide +kernel
  have harr : Means ('[' :: '\n' :: joined ['\n'] (ts.map (·.1)) ++ ['\n', ']']) (.arr js) := by
    intro n rest hn _
    simp only [List.length_append, List.length_cons, List.length_nil] at hn
    have e : '[' :: '\n' :: joined ['\n'] (ts.map (·.1)) ++ ['\n', ']'] ++ rest =
        '[' :: '\n' :: (joined ['\n'] (ts.map (·.1)) ++ '\n' :: ']' :: rest) := by simp
    rw [e]
    cases n with
    | zero => omega
    | succ n =>
      rw [value_open, expect_ws (by decide), elems_ws (by decide)]
      cases ts with
      | nil =>
        subst h2
        simp [joined, expect_ws (c := '\n') (by decide), expect_self (c := ']') (by decide)]
      | cons t ts =>
        have hb : expect ']' (joined ['\n'] ((t :: ts).map (·.1)) ++ '\n' :: ']' :: rest) = none := by
          obtain ⟨_, hh, hlen, h1c⟩ := h1 t (by simp)
          have : ∃ r, t.1 = '\t' :: '{' :: r := by
            cases hx : t.1 with
            | nil => rw [hx] at hh; simp at hh
            | cons a r =>
              rw [hx] at hh h1c
              cases r with
              | nil => simp at h1c
              | cons b r => simp at hh h1c; exact ⟨r, by rw [hh, h1c]⟩
          obtain ⟨r, er⟩ := this
          cases ts with
          | nil => simp only [List.map_cons, List.map_nil, joined, er, List.cons_append]; rw [expect_ws (by decide)]; exact expect_other (by decide) (by decide) _
          | cons t' ts => simp only [List.map_cons, joined, er, List.cons_append]; rw [expect_ws (by decide)]; exact expect_other (by decide) (by decide) _
        rw [hb, elems_joined rest (t :: ts) (by simp) (fun t ht => (h1 t ht).1) n (by omega), h2]
        rfl
  have hp := pair_unescaped (name := ['l', 'o', 'g', 's']) (by decide) harr (a := []) (b := []) (by decide) (by decide)
  have ho := means_obj (w0 := ['\n']) (w := []) (w1 := ['\n']) (by decide) (by decide) (by decide) [(_, _, _)] (by simp) (by
    intro p hm
    simp only [List.mem_cons, List.not_mem_nil, or_false] at hm
    rw [hm]; exact hp)
  have e : out ++ ['\n', ']', '\n', '}'] = '{' :: (['\n'] ++ joined [] (([('"' :: ['l', 'o', 'g', 's'] ++ ['"'] ++ [] ++
      ':' :: [] ++ ('[' :: '\n' :: joined ['\n'] (ts.map (·.1)) ++ ['\n', ']']), (['l', 'o', 'g', 's'], J.arr js))]).map (·.1)) ++ ['\n'] ++ ['}']) := by
    rw [h3]; simp [joined, headerText]
  rw [e, hkey]
  exact parse_means ho

end GTMesh.JsonLog
