import Verif.Spec.DebugSwitch

/-! # The debugging macros: parsing and execution -/

namespace GTMesh.DebugSwitch

def Codes.append : Codes → Codes → Codes
  | .nil, d => d
  | .cons c cs, d => .cons c (cs.append d)

/-- Expressions as statements. -/
def acts : List Nat → Codes
  | [] => .nil
  | a :: as => .cons (.act a) (acts as)

mutual
/-- What a fine statement is parsed to, without an empty statement that may follow. -/
def code (u : Bool) : Stmt → Code
  | .act a => .act a
  | .empty => .empty
  | .block ss => .block (codeAll u ss)
  | .ite c t => .ite c (code u t)
  | .itee c t e => .itee c (code u t) (code u e)
  | .loop c b => .loop c (code u b)
  | .var _ v => if u then .empty else .log v
  | .varCond _ c v => if u then .empty else .ite c (.log v)
  | .tryy a as => if u then .act a else .tryExit (acts (a :: as))
def codeAll (u : Bool) : Stmts → Codes
  | .nil => .nil
  | .cons s ss => (extra u s).append (codeAll u ss) |> .cons (code u s)
/-- The statements that follow. -/
def extra (u : Bool) : Stmt → Codes
  | .ite _ t => extra u t
  | .itee _ _ e => extra u e
  | .loop _ b => extra u b
  | .tryy _ as => if u then acts as else .cons .empty .nil
  | _ => .nil
end

/-- The tokens that follow. -/
def extraTokens (u : Bool) : Stmt → List Tok
  | .ite _ t => extraTokens u t
  | .itee _ _ e => extraTokens u e
  | .loop _ b => extraTokens u b
  | .tryy _ as => if u then as.flatMap fun a => [.act a, .semi] else [.semi]
  | _ => []

theorem codeTokens_semi (a : Nat) (as : List Nat) : codeTokens a as ++ [.semi] = (a :: as).flatMap fun a => [.act a, .semi] := by
  induction as generalizing a with
  | nil => rfl
  | cons b bs ih => simp only [codeTokens, List.cons_append, ih, List.flatMap_cons]; rfl

theorem parseAll_step (k : Nat) (ts : List Tok) (c : Code) (r : List Tok) (h : parse k ts = some (c, r)) (hne : ts.head? ≠ some .rb) :
    parseAll (k + 1) ts = (parseAll k r).map fun q => (.cons c q.1, q.2) := by
  rw [parseAll]
  · simp [h]
  · rintro r rfl
    simp at hne

theorem parseAll_acts (as : List Nat) (ts : List Tok) (n : Nat) (cs : Codes) (r : List Tok)
    (h : ∀ m, n ≤ m → parseAll m ts = some (cs, r)) :
    ∀ m, n + (as.flatMap fun a => [Tok.act a, .semi]).length ≤ m →
      parseAll m ((as.flatMap fun a => [Tok.act a, .semi]) ++ ts) = some ((acts as).append cs, r) := by
  induction as with
  | nil => intro m hm; exact h m (by simpa using hm)
  | cons a as ih =>
    intro m hm
    simp only [List.flatMap_cons, List.length_append, List.length_cons, List.length_nil] at hm
    obtain ⟨k, rfl⟩ : ∃ k, m = k + 2 := ⟨m - 2, by omega⟩
    have := ih (k + 1) (by omega)
    have hp : parse (k + 1) (((a :: as).flatMap fun a => [Tok.act a, .semi]) ++ ts) =
        some (.act a, (as.flatMap fun a => [Tok.act a, .semi]) ++ ts) := by
      simp only [List.flatMap_cons, List.cons_append, List.nil_append, parse]
    rw [parseAll_step _ _ _ _ hp (by simp), this]
    rfl

theorem append_nil (c : Codes) : c.append .nil = c := by
  match c with
  | .nil => rfl
  | .cons a as => simp [Codes.append, append_nil as]

theorem append_assoc (a b c : Codes) : (a.append b).append c = a.append (b.append c) := by
  match a with
  | .nil => rfl
  | .cons x a => simp [Codes.append, append_assoc a b c]

/-- Fine, or `DBGTRY` in a block. -/
def FineIn (s : Stmt) : Prop := Fine s ∨ ∃ a as, s = .tryy a as

theorem fine_extra_empty {u : Bool} : ∀ {s : Stmt}, Fine s → extraTokens u s = [] ∨ (u = false ∧ extraTokens u s = [.semi])
  | .act _, _ => .inl rfl
  | .empty, _ => .inl rfl
  | .block _, _ => .inl rfl
  | .ite _ t, h => fine_extra_empty (s := t) h
  | .itee _ _ e, h => fine_extra_empty (s := e) h.2.2
  | .loop _ b, h => fine_extra_empty (s := b) h
  | .var _ _, _ => .inl rfl
  | .varCond _ _ _, _ => .inl rfl
  | .tryy _ _, h => by
    cases u
    · exact .inr ⟨rfl, rfl⟩
    · simp only [Fine] at h
      subst h
      exact .inl rfl

theorem closed_extra {u : Bool} : ∀ {s : Stmt}, endsOpen s = false → extraTokens u s = []
  | .act _, _ => rfl
  | .empty, _ => rfl
  | .block _, _ => rfl
  | .ite _ t, h => by simp [endsOpen] at h
  | .itee _ _ e, h => closed_extra (s := e) h
  | .loop _ b, h => closed_extra (s := b) h
  | .var _ _, _ => rfl
  | .varCond _ _ _, h => by simp [endsOpen] at h
  | .tryy _ _, h => by simp [endsOpen] at h

theorem head_tokens (u : Bool) (s : Stmt) : ∃ t r, tokens u s = t :: r ∧ t ≠ .rb ∧ t ≠ .els := by
  match s with
  | .act a => exact ⟨_, _, rfl, by simp⟩
  | .empty => exact ⟨_, _, rfl, by simp⟩
  | .block ss => exact ⟨_, _, rfl, by simp⟩
  | .ite c t => exact ⟨_, _, rfl, by simp⟩
  | .itee c t e => exact ⟨_, _, rfl, by simp⟩
  | .loop c b => exact ⟨_, _, rfl, by simp⟩
  | .var d v => cases u <;> cases d <;> exact ⟨_, _, rfl, by simp⟩
  | .varCond d c v => cases u <;> cases d <;> exact ⟨_, _, rfl, by simp⟩
  | .tryy a as => cases u <;> cases as <;> exact ⟨_, _, rfl, by simp⟩

theorem parse_extra (u : Bool) : ∀ (s : Stmt) (ts : List Tok) (n : Nat) (cs : Codes) (r : List Tok),
    (∀ m, n ≤ m → parseAll m ts = some (cs, r)) → ∀ m, n + (extraTokens u s).length ≤ m →
      parseAll m (extraTokens u s ++ ts) = some ((extra u s).append cs, r)
  | .act _, _, _, _, _, H, m, hm => H m (by simpa [extraTokens] using hm)
  | .empty, _, _, _, _, H, m, hm => H m (by simpa [extraTokens] using hm)
  | .block _, _, _, _, _, H, m, hm => H m (by simpa [extraTokens] using hm)
  | .ite _ t, ts, n, cs, r, H, m, hm => parse_extra u t ts n cs r H m hm
  | .itee _ _ e, ts, n, cs, r, H, m, hm => parse_extra u e ts n cs r H m hm
  | .loop _ b, ts, n, cs, r, H, m, hm => parse_extra u b ts n cs r H m hm
  | .var _ _, _, _, _, _, H, m, hm => H m (by simpa [extraTokens] using hm)
  | .varCond _ _ _, _, _, _, _, H, m, hm => H m (by simpa [extraTokens] using hm)
  | .tryy a as, ts, n, cs, r, H, m, hm => by
    cases u with
    | true => exact parseAll_acts as ts n cs r H m (by simpa [extraTokens] using hm)
    | false =>
      simp only [extraTokens, Bool.false_eq_true, if_false, List.length_cons, List.length_nil] at hm
      have h0 : m ≠ 0 := by omega
      obtain ⟨k, rfl⟩ : ∃ k, m = k + 1 := ⟨m - 1, by omega⟩
      have hk : k ≠ 0 := by
        rintro rfl
        have := H 0 (by omega)
        simp [parseAll] at this
      obtain ⟨j, rfl⟩ : ∃ j, k = j + 1 := ⟨k - 1, by omega⟩
      have hp : parse (j + 1) (.semi :: ts) = some (.empty, ts) := rfl
      show parseAll (j + 1 + 1) (.semi :: ts) = _
      rw [parseAll_step _ _ _ _ hp (by simp), H (j + 1) (by omega)]
      rfl

theorem extra_length (u : Bool) : ∀ (s : Stmt), (extraTokens u s).length + 1 ≤ (tokens u s).length
  | .act _ => by simp [extraTokens, tokens]
  | .empty => by simp [extraTokens, tokens]
  | .block _ => by simp [extraTokens, tokens]
  | .ite _ t => by have := extra_length u t; simp [extraTokens, tokens]; omega
  | .itee _ _ e => by have := extra_length u e; simp [extraTokens, tokens]; omega
  | .loop _ b => by have := extra_length u b; simp [extraTokens, tokens]; omega
  | .var _ _ => by simp [extraTokens, tokens]
  | .varCond _ _ _ => by simp [extraTokens, tokens]
  | .tryy a as => by
    have h := congrArg List.length (codeTokens_semi a as)
    rw [List.flatMap_cons, List.length_append, List.length_append] at h
    simp only [List.length_cons, List.length_nil] at h
    cases u
    · simp [extraTokens, tokens, tryTokens]
    · simp only [extraTokens, tokens, tryTokens, if_true, List.length_append, List.length_cons, List.length_nil]
      omega

theorem parse_try (a : Nat) (as : List Nat) (rest : List Tok) (n : Nat) (hn : (tokens false (.tryy a as)).length ≤ n) :
    parse n (tokens false (.tryy a as) ++ rest) = some (code false (.tryy a as), .semi :: rest) := by
  have hl : (tokens false (.tryy a as)).length = ((a :: as).flatMap fun a => [Tok.act a, .semi]).length + 5 := by
    rw [← codeTokens_semi]
    simp [tokens, tryTokens]
  obtain ⟨k, rfl⟩ : ∃ k, n = k + 1 := ⟨n - 1, by omega⟩
  have h := parseAll_acts (a :: as) (.rb :: .handler :: .semi :: rest) 1 .nil (.handler :: .semi :: rest)
    (by intro m hm; obtain ⟨j, rfl⟩ : ∃ j, m = j + 1 := ⟨m - 1, by omega⟩; rfl) k (by omega)
  have ht : tokens false (.tryy a as) ++ rest = .try_ :: .lb ::
      (((a :: as).flatMap fun a => [Tok.act a, .semi]) ++ .rb :: .handler :: .semi :: rest) := by
    rw [← codeTokens_semi]
    simp [tokens, tryTokens]
  rw [ht]
  simp only [parse, h, Option.bind_some, code, append_nil]
  rfl

mutual
theorem parse_fine (u : Bool) : ∀ (s : Stmt), FineIn s → ∀ n, (tokens u s).length ≤ n → ∀ rest,
    (endsOpen s = false ∨ rest.head? ≠ some .els) →
    parse n (tokens u s ++ rest) = some (code u s, extraTokens u s ++ rest)
  | .act a, _, n, hn, rest, _ => by
    obtain ⟨k, rfl⟩ : ∃ k, n = k + 1 := ⟨n - 1, by simp [tokens] at hn; omega⟩
    rfl
  | .empty, _, n, hn, rest, _ => by
    obtain ⟨k, rfl⟩ : ∃ k, n = k + 1 := ⟨n - 1, by simp [tokens] at hn; omega⟩
    rfl
  | .block ss, h, n, hn, rest, _ => by
    have h' : FineAll ss := by
      rcases h with h | ⟨a, as, h⟩
      · exact h
      · cases h
    simp only [tokens, List.length_append, List.length_cons, List.length_nil] at hn
    obtain ⟨k, rfl⟩ : ∃ k, n = k + 1 := ⟨n - 1, by omega⟩
    have := parse_fines u ss h' k (by omega) rest
    simp only [tokens, List.cons_append, List.append_assoc, List.nil_append, parse, this, Option.map_some, code, extraTokens]
  | .ite c t, h, n, hn, rest, ho => by
    have h' : Fine t := by
      rcases h with h | ⟨a, as, h⟩
      · exact h
      · cases h
    simp only [tokens, List.length_cons] at hn
    obtain ⟨k, rfl⟩ : ∃ k, n = k + 1 := ⟨n - 1, by omega⟩
    have hr : rest.head? ≠ some .els := by simpa [endsOpen] using ho
    have := parse_fine u t (.inl h') k (by omega) rest (.inr hr)
    simp only [tokens, List.cons_append, parse, this, Option.bind_some, code, extraTokens]
    split
    · rename_i r' heq
      rcases fine_extra_empty (u := u) h' with h0 | ⟨_, h0⟩
      · rw [h0, List.nil_append] at heq
        rw [heq] at hr
        simp at hr
      · rw [h0] at heq
        simp at heq
    · rfl
  | .itee c t e, h, n, hn, rest, ho => by
    have h' : endsOpen t = false ∧ Fine t ∧ Fine e := by
      rcases h with h | ⟨a, as, h⟩
      · exact h
      · cases h
    simp only [tokens, List.length_cons, List.length_append] at hn
    obtain ⟨k, rfl⟩ : ∃ k, n = k + 1 := ⟨n - 1, by omega⟩
    have h1 := parse_fine u t (.inl h'.2.1) k (by omega) (.els :: (tokens u e ++ rest)) (.inl h'.1)
    have h2 := parse_fine u e (.inl h'.2.2) k (by omega) rest (by simpa [endsOpen] using ho)
    rw [closed_extra h'.1, List.nil_append] at h1
    simp only [tokens, List.cons_append, List.append_assoc, parse, h1, Option.bind_some, h2, Option.map_some, code, extraTokens]
  | .loop c b, h, n, hn, rest, ho => by
    have h' : Fine b := by
      rcases h with h | ⟨a, as, h⟩
      · exact h
      · cases h
    simp only [tokens, List.length_cons] at hn
    obtain ⟨k, rfl⟩ : ∃ k, n = k + 1 := ⟨n - 1, by omega⟩
    have := parse_fine u b (.inl h') k (by omega) rest (by simpa [endsOpen] using ho)
    simp only [tokens, List.cons_append, parse, this, Option.map_some, code, extraTokens]
  | .var d v, h, n, hn, rest, _ => by
    have h' : d ≠ .stdio ∧ d ≠ .csv := by
      rcases h with h | ⟨a, as, h⟩
      · exact h
      · cases h
    obtain ⟨k, rfl⟩ : ∃ k, n = k + 1 := ⟨n - 1, by simp [tokens] at hn; omega⟩
    cases u <;> cases d <;> simp at h' <;> rfl
  | .varCond d c v, h, n, hn, rest, ho => by
    have h' : d ≠ .stdio ∧ d ≠ .csv := by
      rcases h with h | ⟨a, as, h⟩
      · exact h
      · cases h
    have hr : rest.head? ≠ some .els := by simpa [endsOpen] using ho
    cases u with
    | true =>
      obtain ⟨k, rfl⟩ : ∃ k, n = k + 1 := ⟨n - 1, by simp [tokens] at hn; omega⟩
      cases d <;> simp at h' <;> rfl
    | false =>
      obtain ⟨k, rfl⟩ : ∃ k, n = k + 2 := ⟨n - 2, by cases d <;> simp [tokens, condTokens, varTokens] at hn h' ⊢ <;> omega⟩
      have ht : tokens false (.varCond d c v) ++ rest = .iff c :: .log v :: .semi :: rest := by
        cases d <;> simp at h' <;> rfl
      rw [ht]
      simp only [parse, Option.bind_some, code, extraTokens, List.nil_append]
      split
      · simp at hr
      · rfl
  | .tryy a as, h, n, hn, rest, _ => by
    cases u with
    | false => exact parse_try a as rest n hn
    | true =>
      have ht : tokens true (.tryy a as) ++ rest = .act a :: .semi :: ((as.flatMap fun a => [Tok.act a, .semi]) ++ rest) := by
        have := codeTokens_semi a as
        simp only [tokens, tryTokens, if_true, this, List.flatMap_cons]
        rfl
      obtain ⟨k, rfl⟩ : ∃ k, n = k + 1 := ⟨n - 1, by simp [tokens] at hn; omega⟩
      rw [ht]
      rfl
theorem parse_fines (u : Bool) : ∀ (ss : Stmts), FineAll ss → ∀ n, (tokensAll u ss).length + 1 ≤ n → ∀ rest,
    parseAll n (tokensAll u ss ++ .rb :: rest) = some (codeAll u ss, rest)
  | .nil, _, n, hn, rest => by
    obtain ⟨k, rfl⟩ : ∃ k, n = k + 1 := ⟨n - 1, by omega⟩
    rfl
  | .cons s ss, h, n, hn, rest => by
    simp only [tokensAll, List.length_append] at hn
    obtain ⟨k, rfl⟩ : ∃ k, n = k + 1 := ⟨n - 1, by omega⟩
    have hstop : (tokensAll u ss ++ Tok.rb :: rest).head? ≠ some .els := by
      match ss, h.2 with
      | .nil, _ => simp [tokensAll]
      | .cons s' ss', h2 =>
        obtain ⟨t, r, ht, _, hne⟩ := head_tokens u s'
        simpa [tokensAll, ht] using hne
    have h1 := parse_fine u s h.1 k (by omega) (tokensAll u ss ++ .rb :: rest) (.inr hstop)
    obtain ⟨t, r, ht, hne, _⟩ := head_tokens u s
    have hhead : (tokens u s ++ (tokensAll u ss ++ .rb :: rest)).head? ≠ some .rb := by
      rw [ht]
      simpa using hne
    have h2 := parse_fines u ss h.2
    rw [tokensAll, List.append_assoc, parseAll_step k _ _ _ h1 hhead]
    have h3 : parseAll k (extraTokens u s ++ (tokensAll u ss ++ .rb :: rest)) = some ((extra u s).append (codeAll u ss), rest) :=
      parse_extra u s _ ((tokensAll u ss).length + 1) _ _ (fun m hm => h2 m hm rest) k (by
        have := extra_length u s
        omega)
    rw [h3]
    rfl
end

/-- A fine program compiles. -/
theorem compile_fine (u : Bool) (ss : Stmts) (h : FineAll ss) : compile u ss = some (codeAll u ss) := by
  have := parse_fines u ss h (2 * (tokensAll u ss ++ [Tok.rb]).length) (by simp; omega) []
  simp only [compile, this]

variable {σ ε : Type} (env : Env σ ε) (fuel : Nat)

theorem bind_assoc (o : Out σ ε) (f g : σ → Out σ ε) : (o.bind f).bind g = o.bind fun s => (f s).bind g := by
  cases o <;> rfl

theorem bind_ok (o : Out σ ε) : o.bind .ok = o := by
  cases o <;> rfl

theorem runAll_append : ∀ (c d : Codes) (s : σ), runAll env fuel (c.append d) s = (runAll env fuel c s).bind (runAll env fuel d)
  | .nil, d, s => rfl
  | .cons x c, d, s => by
    simp only [Codes.append, runAll, bind_assoc]
    congr 1
    funext s'
    exact runAll_append c d s'

theorem acts_throw (as : List Nat) (h : ∀ a ∈ as, ∀ s e s', env.act a s = .throw e s' → env.std e = false) :
    ∀ s e s', runAll env fuel (acts as) s = .throw e s' → env.std e = false := by
  induction as with
  | nil => intro s e s' hr; simp [acts, runAll] at hr
  | cons a as ih =>
    intro s e s' hr
    simp only [acts, runAll, run] at hr
    cases ho : env.act a s with
    | ok s1 => rw [ho] at hr; exact ih (fun b hb => h b (List.mem_cons_of_mem _ hb)) s1 e s' hr
    | throw e1 s1 =>
      rw [ho] at hr
      simp only [Out.bind, Out.throw.injEq] at hr
      obtain ⟨rfl, rfl⟩ := hr
      exact h a List.mem_cons_self s _ _ ho
    | exit n s1 => rw [ho] at hr; simp [Out.bind] at hr
    | diverge => rw [ho] at hr; simp [Out.bind] at hr

theorem try_acts (as : List Nat) (h : ∀ a ∈ as, ∀ s e s', env.act a s = .throw e s' → env.std e = false) (s : σ) :
    run env fuel (.tryExit (acts as)) s = runAll env fuel (acts as) s := by
  simp only [run]
  split
  · rename_i e s' ho
    rw [acts_throw env fuel as h s e s' ho, ho]
    rfl
  · rfl

/-- What follows a fine statement does nothing. -/
theorem extra_nothing (u : Bool) : ∀ (st : Stmt), Fine st → ∀ s, runAll env fuel (extra u st) s = .ok s
  | .act _, _, _ => rfl
  | .empty, _, _ => rfl
  | .block _, _, _ => rfl
  | .ite _ t, h, s => extra_nothing u t h s
  | .itee _ _ e, h, s => extra_nothing u e h.2.2 s
  | .loop _ b, h, s => extra_nothing u b h s
  | .var _ _, _, _ => rfl
  | .varCond _ _ _, _, _ => rfl
  | .tryy _ _, h, _ => by
    simp only [Fine] at h
    subst h
    cases u <;> rfl

mutual
theorem run_same : ∀ (st : Stmt), Fine st → (∀ v ∈ logged st, ∀ s, env.log v s = .ok s) → (∀ c ∈ conds st, ∀ s, (env.cond c s).1 = s) →
    (∀ a ∈ tried st, ∀ s e s', env.act a s = .throw e s' → env.std e = false) → ∀ s,
    run env fuel (code false st) s = run env fuel (code true st) s
  | .act _, _, _, _, _, _ => rfl
  | .empty, _, _, _, _, _ => rfl
  | .block ss, h, h1, h2, h3, s => runAll_same ss h h1 h2 h3 s
  | .ite c t, h, h1, h2, h3, s => by
    simp only [code, run, run_same t h h1 h2 h3]
  | .itee c t e, h, h1, h2, h3, s => by
    simp only [logged, conds, tried, List.mem_append] at h1 h2 h3
    simp only [code, run, run_same t h.2.1 (fun v hv => h1 v (.inl hv)) (fun v hv => h2 v (.inl hv)) (fun v hv => h3 v (.inl hv)),
      run_same e h.2.2 (fun v hv => h1 v (.inr hv)) (fun v hv => h2 v (.inr hv)) (fun v hv => h3 v (.inr hv))]
  | .loop c b, h, h1, h2, h3, s => by
    have : run env fuel (code false b) = run env fuel (code true b) := funext (run_same b h h1 h2 h3)
    simp only [code, run, this]
  | .var d v, h, h1, _, _, s => by
    simpa [code, run] using h1 v (by simp [logged]) s
  | .varCond d c v, h, h1, h2, _, s => by
    have hc := h2 c (by simp [conds]) s
    have hv := h1 v (by simp [logged]) s
    simp [code, run, hc, hv]
  | .tryy a as, h, _, _, h3, s => by
    simp only [Fine] at h
    subst h
    have := try_acts env fuel [a] h3 s
    simp only [code, Bool.false_eq_true, if_false, if_true, this]
    simp only [acts, runAll, run]
    exact bind_ok _
theorem runAll_same : ∀ (ss : Stmts), FineAll ss → (∀ v ∈ loggedAll ss, ∀ s, env.log v s = .ok s) →
    (∀ c ∈ condsAll ss, ∀ s, (env.cond c s).1 = s) →
    (∀ a ∈ triedAll ss, ∀ s e s', env.act a s = .throw e s' → env.std e = false) → ∀ s,
    runAll env fuel (codeAll false ss) s = runAll env fuel (codeAll true ss) s
  | .nil, _, _, _, _, _ => rfl
  | .cons st ss, h, h1, h2, h3, s => by
    simp only [loggedAll, condsAll, triedAll, List.mem_append] at h1 h2 h3
    have ih := fun s => runAll_same ss h.2 (fun v hv => h1 v (.inr hv)) (fun v hv => h2 v (.inr hv)) (fun v hv => h3 v (.inr hv)) s
    have key : (run env fuel (code false st) s).bind (runAll env fuel (extra false st)) =
        (run env fuel (code true st) s).bind (runAll env fuel (extra true st)) := by
      rcases h.1 with hf | ⟨a, as, rfl⟩
      · have e1 : runAll env fuel (extra false st) = .ok := funext (extra_nothing env fuel false st hf)
        have e2 : runAll env fuel (extra true st) = .ok := funext (extra_nothing env fuel true st hf)
        rw [e1, e2, bind_ok, bind_ok]
        exact run_same st hf (fun v hv => h1 v (.inl hv)) (fun v hv => h2 v (.inl hv)) (fun v hv => h3 v (.inl hv)) s
      · have := try_acts env fuel (a :: as) (fun v hv => h3 v (.inl hv)) s
        simp only [code, extra, Bool.false_eq_true, if_false, if_true, this]
        have e1 : runAll env fuel (.cons .empty .nil) = .ok := rfl
        rw [e1, bind_ok]
        rfl
    simp only [codeAll, runAll]
    have split : ∀ u, ((run env fuel (code u st) s).bind fun s => (runAll env fuel (extra u st) s).bind (runAll env fuel (codeAll u ss))) =
        ((run env fuel (code u st) s).bind (runAll env fuel (extra u st))).bind (runAll env fuel (codeAll u ss)) := fun u => by
      rw [bind_assoc]
    have e : ∀ u, runAll env fuel ((extra u st).append (codeAll u ss)) =
        fun s => (runAll env fuel (extra u st) s).bind (runAll env fuel (codeAll u ss)) := fun u => funext (runAll_append env fuel _ _)
    rw [e, e, split, split, key, funext ih]
end

theorem acts_inTurn (as : List Nat) : ∀ s, runAll env fuel (acts as) s = inTurn env as s := by
  induction as with
  | nil => intro s; rfl
  | cons a as ih =>
    intro s
    simp only [acts, runAll, run, inTurn]
    cases env.act a s <;> simp [Out.bind, ih]

theorem rounds_while (c : Nat) (f g : σ → Out σ ε) (h : ∀ s, f s = g s) : ∀ n s, rounds (env.cond c) f n s = whileHolds env c g n s := by
  intro n
  induction n with
  | zero => intro s; rfl
  | succ n ih =>
    intro s
    rw [rounds, whileHolds]
    rcases env.cond c s with ⟨s', _ | _⟩
    · rfl
    · simp only [if_true, h]
      cases g s' <;> simp [Out.bind, ih]

mutual
theorem run_means : ∀ (st : Stmt), Fine st → ∀ s, run env fuel (code true st) s = means env fuel st s
  | .act _, _, _ => rfl
  | .empty, _, _ => rfl
  | .block ss, h, s => runAll_means ss h s
  | .ite c t, h, s => by
    simp only [code, run, means, run_means t h]
    rcases env.cond c s with ⟨s', _ | _⟩ <;> rfl
  | .itee c t e, h, s => by
    simp only [code, run, means, run_means t h.2.1, run_means e h.2.2]
    rcases env.cond c s with ⟨s', _ | _⟩ <;> rfl
  | .loop c b, h, s => rounds_while env c _ _ (run_means b h) fuel s
  | .var _ _, _, _ => rfl
  | .varCond _ _ _, _, _ => rfl
  | .tryy a as, h, s => by
    simp only [Fine] at h
    subst h
    simp only [code, means, inTurn, if_true, run]
    cases env.act a s <;> rfl
theorem runAll_means : ∀ (ss : Stmts), FineAll ss → ∀ s, runAll env fuel (codeAll true ss) s = meansAll env fuel ss s
  | .nil, _, _ => rfl
  | .cons st ss, h, s => by
    have ih := runAll_means ss h.2
    have key : (runAll env fuel (.cons (code true st) (extra true st)) s) = means env fuel st s := by
      rcases h.1 with hf | ⟨a, as, rfl⟩
      · have he := extra_nothing env fuel true st hf
        rw [runAll, run_means st hf, show runAll env fuel (extra true st) = Out.ok from funext he, bind_ok]
      · exact acts_inTurn env fuel (a :: as) s
    show runAll env fuel (Codes.append (.cons (code true st) (extra true st)) (codeAll true ss)) s = _
    rw [runAll_append, key, meansAll]
    cases means env fuel st s <;> simp [Out.bind, ih]
end

end GTMesh.DebugSwitch
