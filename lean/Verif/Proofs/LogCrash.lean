import Verif.Model.LogCrash

/-! # Logs and the end of the program -/

namespace GTMesh.LogCrash

/-- All that was put. -/
def textOf : List Op → List Char
  | [] => []
  | .put t :: r => t ++ textOf r
  | .flush :: r => textOf r

theorem textOf_append (a b : List Op) : textOf (a ++ b) = textOf a ++ textOf b := by
  induction a with
  | nil => rfl
  | cons x a ih => cases x <;> simp [textOf, ih]

theorem fold_sent (ops : List Op) : ∀ f : File, (ops.foldl File.step f).sent = f.sent ++ textOf ops := by
  induction ops with
  | nil => simp [textOf]
  | cons x a ih => intro f; rw [List.foldl_cons, ih]; cases x <;> simp [File.step, textOf]

theorem after_sent (ops : List Op) : (after ops).sent = textOf ops := by unfold after; rw [fold_sent]; rfl

theorem fold_kept_sent (ops : List Op) : ∀ f : File, f.kept <+: f.sent → (ops.foldl File.step f).kept <+: (ops.foldl File.step f).sent := by
  induction ops with
  | nil => exact fun f h => h
  | cons x a ih =>
    intro f h
    refine ih _ ?_
    cases x with
    | put t => exact h.trans (List.prefix_append _ _)
    | flush => exact List.prefix_refl _

theorem fold_kept (ops : List Op) : ∀ f : File, f.kept <+: f.sent → f.kept <+: (ops.foldl File.step f).kept := by
  induction ops with
  | nil => exact fun f h => List.prefix_refl _
  | cons x a ih =>
    intro f h
    cases x with
    | put t => exact ih { f with sent := f.sent ++ t } (h.trans (List.prefix_append _ _))
    | flush => exact h.trans (ih { f with kept := f.sent } (List.prefix_refl _))

theorem after_append (a b : List Op) : after (a ++ b) = b.foldl File.step (after a) := by unfold after; rw [List.foldl_append]

theorem after_kept_sent (ops : List Op) : (after ops).kept <+: (after ops).sent := fold_kept_sent ops _ (List.prefix_refl _)

theorem after_kept_mono (a b : List Op) : (after a).kept <+: (after (a ++ b)).kept := by
  rw [after_append]; exact fold_kept b _ (after_kept_sent a)

theorem after_flush (a : List Op) : (after (a ++ [.flush])).kept = textOf a := by
  rw [after_append]; exact after_sent a

theorem fold_noflush (ops : List Op) (h : Op.flush ∉ ops) : ∀ f : File, (ops.foldl File.step f).kept = f.kept := by
  induction ops with
  | nil => exact fun f => rfl
  | cons x a ih =>
    intro f
    rw [List.foldl_cons, ih fun hm => h (List.mem_cons_of_mem _ hm)]
    cases x with
    | put t => rfl
    | flush => exact absurd List.mem_cons_self h

theorem after_noflush (ops : List Op) (h : Op.flush ∉ ops) : (after ops).kept = [] := fold_noflush ops h _

theorem textOf_take (ops : List Op) (k : Nat) : textOf (ops.take k) <+: textOf ops := by
  conv => rhs; rw [← List.take_append_drop k ops, textOf_append]
  exact List.prefix_append _ _

/-- Whatever is on the disk is a beginning of the text. -/
theorem crash_prefix {n : Nat} {ops : List Op} {d : List Char} (h : CrashAfter n ops d) : d <+: textOf ops := by
  obtain ⟨k, -, -, h⟩ := h
  rw [after_sent] at h
  exact h.trans (textOf_take ops _)

/-- What was flushed is on the disk. -/
theorem crash_kept {a b : List Op} {d : List Char} (h : CrashAfter (a ++ [Op.flush]).length ((a ++ [Op.flush]) ++ b) d) : textOf a <+: d := by
  obtain ⟨k, hk, h, -⟩ := h
  refine List.IsPrefix.trans ?_ h
  rw [List.take_append, List.take_of_length_le hk, ← after_flush]
  exact after_kept_mono _ _

/-- Nothing was flushed: anything may be on the disk. -/
theorem crash_any {ops : List Op} (h : Op.flush ∉ ops) {d : List Char} (hd : d <+: textOf ops) : CrashAfter ops.length ops d := by
  refine ⟨ops.length, Nat.le_refl _, ?_, ?_⟩
  · rw [List.take_length, after_noflush ops h]; exact List.nil_prefix
  · rw [List.take_of_length_le (by omega), after_sent]; exact hd

/-- After the last `flush` the text is complete. -/
theorem crash_end {a : List Op} {d : List Char} (h : CrashAfter (a ++ [Op.flush]).length (a ++ [Op.flush]) d) : d = textOf a := by
  have h1 := crash_prefix h
  have h2 := crash_kept (b := []) (by simpa using h)
  rw [textOf_append] at h1
  have h1 : d <+: textOf a := by simpa [textOf] using h1
  exact h1.eq_of_length_le h2.length_le

variable {Λ : Type}

/-- The traced function does what the function does. -/
def Faithful (F : Traced Λ) (f : Λ → Res Λ) : Prop := ∀ l, ((F l).bind fun p => .ok p.2) = f l

theorem Faithful.seq {F G : Traced Λ} {f g : Λ → Res Λ} (hF : Faithful F f) (hG : Faithful G g) :
    Faithful (F.seq G) fun l => (f l).bind g := by
  intro l
  simp only [← hF l, Traced.seq]
  cases F l with
  | ok p =>
    simp only [Res.bind, ← hG p.2]
    cases G p.2 <;> rfl
  | throw e => rfl
  | ub => rfl
  | diverge => rfl

theorem Faithful.ok {F : Traced Λ} {f : Λ → Res Λ} (h : Faithful F f) {l l' : Λ} (hf : f l = .ok l') : ∃ ops, F l = .ok (ops, l') := by
  have := h l
  rw [hf] at this
  cases hF : F l with
  | ok p => rw [hF] at this; injection this with e; exact ⟨p.1, by rw [← e]⟩
  | throw e => rw [hF] at this; cases this
  | ub => rw [hF] at this; cases this
  | diverge => rw [hF] at this; cases this

/-- What holds of the operations of both parts, and what the loggers have to do with each other. -/
theorem seq_ok {F G : Traced Λ} {l : Λ} {p : List Op × Λ} (h : (F.seq G) l = .ok p) :
    ∃ a l1 b, F l = .ok (a, l1) ∧ G l1 = .ok (b, p.2) ∧ p.1 = a ++ b := by
  unfold Traced.seq at h
  cases hF : F l with
  | ok q =>
    rw [hF] at h
    simp only [Res.bind] at h
    cases hG : G q.2 with
    | ok r =>
      rw [hG] at h
      injection h with h
      exact ⟨q.1, q.2, r.1, rfl, by rw [hG, ← h], by rw [← h]⟩
    | throw e => rw [hG] at h; cases h
    | ub => rw [hG] at h; cases h
    | diverge => rw [hG] at h; cases h
  | throw e => rw [hF] at h; cases h
  | ub => rw [hF] at h; cases h
  | diverge => rw [hF] at h; cases h

/-- A property of operations and the loggers before and after them that is kept by sequences. -/
structure Seq (R : List Op → Λ → Λ → Prop) : Prop where
  trans : ∀ a b l l1 l2, R a l l1 → R b l1 l2 → R (a ++ b) l l2

/-- Every run of the function has the property. -/
def Runs (R : List Op → Λ → Λ → Prop) (F : Traced Λ) : Prop := ∀ l ops l', F l = .ok (ops, l') → R ops l l'

theorem Runs.seq {R : List Op → Λ → Λ → Prop} (hR : Seq R) {F G : Traced Λ} (hF : Runs R F) (hG : Runs R G) : Runs R (F.seq G) := by
  intro l ops l' h
  obtain ⟨a, l1, b, h1, h2, h3⟩ := seq_ok h
  rw [show ops = a ++ b from h3]
  exact hR.trans a b l l1 l' (hF l a l1 h1) (hG l1 b l' h2)

theorem noFlush_seq : Seq (Λ := Λ) fun ops _ _ => Op.flush ∉ ops :=
  ⟨fun a b _ _ _ h1 h2 hm => (List.mem_append.mp hm).elim h1 h2⟩

/-- The text of the stream grows by what is put; nothing else is closed or renamed. -/
def Grows (out name : Λ → List Char) (closed : Λ → List (List Char × List Char)) (ops : List Op) (l l' : Λ) : Prop :=
  out l' = out l ++ textOf ops ∧ name l' = name l ∧ closed l' = closed l

theorem grows_seq (out name : Λ → List Char) (closed : Λ → List (List Char × List Char)) : Seq (Grows out name closed) :=
  ⟨fun a b l l1 l2 h1 h2 => ⟨by rw [h2.1, h1.1, textOf_append, List.append_assoc], h2.2.1.trans h1.2.1, h2.2.2.trans h1.2.2⟩⟩

end GTMesh.LogCrash

namespace GTMesh.JsonLog
open LogCrash

/-- The text of the stream. -/
def outOf (l : Logger) : List Char := match l.logFile with | .opened _ out => out | _ => []

/-- The file of the stream, or the one that will be opened. -/
def nameOf (l : Logger) : List Char := match l.logFile with | .opened n _ => n | _ => l.logFileName

theorem ensureT_faithful : Faithful ensureT ensure := by
  intro l
  unfold ensureT ensure
  cases h : l.logFile with
  | null => simp only [h]; cases create l.logFileName l <;> rfl
  | opened n o => simp [h]
  | dangling => simp [h]

theorem putT_faithful (t : List Char) : Faithful (putT t) (put t) := by
  intro l; unfold putT; cases put t l <;> rfl

theorem commaT_faithful : Faithful commaT comma := by
  intro l
  unfold commaT comma
  split
  · exact putT_faithful _ l
  · rfl

theorem writeOneT_faithful (n : List Char) (v : LVal) : Faithful (writeOneT n v) (writeOne n v) := by
  have h : ∀ t, Faithful ((putT t).seq flush) (put t) := by
    intro t l
    unfold Traced.seq putT
    cases put t l <;> rfl
  exact ensureT_faithful.seq (commaT_faithful.seq (h _))

theorem writeVarsT_faithful (rest : List (List Char × LVal)) : ∀ n v, Faithful (writeVarsT n v rest) (writeVars n v rest) := by
  induction rest with
  | nil => exact fun n v => writeOneT_faithful n v
  | cons y rest ih => exact fun n v => ensureT_faithful.seq ((writeOneT_faithful n v).seq (ih y.1 y.2))

theorem locT_faithful (line : Nat) (p n : List Char) (v : LVal) :
    Faithful (fun l => putT (located l.groupIndex line p n v) l) (fun l => put (located l.groupIndex line p n v) l) :=
  fun l => putT_faithful _ l

theorem writeLocatedT_faithful (line : Nat) (p : List Char) (rest : List (List Char × LVal)) :
    ∀ n v, Faithful (writeLocatedT line p n v rest) (writeLocated line p n v rest) := by
  induction rest with
  | nil => exact fun n v => ensureT_faithful.seq (commaT_faithful.seq ((locT_faithful line p n v).seq fun _ => rfl))
  | cons y rest ih => exact fun n v => ensureT_faithful.seq (commaT_faithful.seq ((locT_faithful line p n v).seq (ih y.1 y.2)))

theorem callT_faithful (c : Call) : Faithful (callT c) (call c) := by
  cases c with
  | vars n v rest => exact writeVarsT_faithful rest n v
  | at_ line path n v rest =>
    intro l
    simp only [callT, call]
    cases doubleBackSlash path with
    | ok p => exact writeLocatedT_faithful line p rest n v l
    | _ => rfl

theorem callsT_faithful (cs : List Call) : Faithful (callsT cs) (calls cs) := by
  induction cs with
  | nil => exact fun _ => rfl
  | cons c cs ih => exact (callT_faithful c).seq ih

theorem destroyT_faithful : Faithful destroyT destroy := by
  intro l; unfold destroyT; cases destroy l <;> rfl

theorem sessionT_faithful (file : List Char) (cs : List Call) : ((sessionT file cs).bind fun p => .ok p.2) = session file cs :=
  ((callsT_faithful cs).seq destroyT_faithful) (Logger.new file)

/-- The part of a property that does not depend on the function. -/
theorem runs_calls {R : List Op → Logger → Logger → Prop} (hR : Seq R) (hq : ∀ l, R [] l l) (he : Runs R ensureT) (hp : ∀ t, Runs R (putT t))
    (hc : Runs R commaT) (hg : Runs R (quiet fun l => { l with groupIndex := l.groupIndex + 1 })) (cs : List Call)
    (hf : Runs R flush ∨ ∀ c ∈ cs, ∃ line path n v rest, c = .at_ line path n v rest) : Runs R (callsT cs) := by
  have loc : ∀ line p (rest : List (List Char × LVal)) n v, Runs R (writeLocatedT line p n v rest) := by
    intro line p rest
    induction rest with
    | nil => exact fun n v => he.seq hR (hc.seq hR (Runs.seq hR (fun l => hp _ l) hg))
    | cons y rest ih => exact fun n v => he.seq hR (hc.seq hR (Runs.seq hR (fun l => hp _ l) (ih y.1 y.2)))
  induction cs with
  | nil => intro l ops l' h; cases h; exact hq l
  | cons c cs ih =>
    refine Runs.seq hR ?_ (ih (hf.imp_right fun h x hx => h x (List.mem_cons_of_mem _ hx)))
    cases c with
    | vars n v rest =>
      rcases hf with hf | hf
      · have one : ∀ n v, Runs R (writeOneT n v) := fun n v => he.seq hR (hc.seq hR ((hp _).seq hR hf))
        have many : ∀ (rest : List (List Char × LVal)) n v, Runs R (writeVarsT n v rest) := by
          intro rest
          induction rest with
          | nil => exact one
          | cons y rest ih => exact fun n v => he.seq hR ((one n v).seq hR (ih y.1 y.2))
        exact many rest n v
      · obtain ⟨_, _, _, _, _, h⟩ := hf _ List.mem_cons_self
        cases h
    | at_ line path n v rest =>
      intro l ops l' h
      simp only [callT] at h
      cases hd : doubleBackSlash path with
      | ok p => rw [hd] at h; exact loc line p rest n v l ops l' h
      | throw e => rw [hd] at h; cases h
      | ub => rw [hd] at h; cases h
      | diverge => rw [hd] at h; cases h

theorem put_ok {t : List Char} {l l' : Logger} {ops : List Op} (h : putT t l = .ok (ops, l')) :
    ops = [.put t] ∧ ∃ n out, l.logFile = .opened n out ∧ l' = { l with logFile := .opened n (out ++ t) } := by
  unfold putT put at h
  cases hl : l.logFile with
  | opened n out =>
    rw [hl] at h
    injection h with h
    exact ⟨congrArg Prod.fst h.symm, n, out, rfl, congrArg Prod.snd h.symm⟩
  | null => rw [hl] at h; cases h
  | dangling => rw [hl] at h; cases h

theorem callsT_grows (cs : List Call) : Runs (Grows outOf nameOf Logger.closed) (callsT cs) := by
  have hp : ∀ t, Runs (Grows outOf nameOf Logger.closed) (putT t) := by
    intro t l ops l' h
    obtain ⟨rfl, n, out, h1, rfl⟩ := put_ok h
    exact ⟨by simp [outOf, h1, textOf], by simp [nameOf, h1], rfl⟩
  refine runs_calls (grows_seq _ _ _) (fun l => ⟨by simp [textOf], rfl, rfl⟩) ?_ hp ?_ ?_ cs (Or.inl ?_)
  · intro l ops l' h
    unfold ensureT at h
    cases hl : l.logFile with
    | null =>
      simp only [hl, create] at h
      injection h with h
      obtain ⟨rfl, rfl⟩ := Prod.mk.inj h
      exact ⟨by simp [outOf, hl, textOf], by simp [nameOf, hl], rfl⟩
    | opened n o => simp only [hl] at h; cases h; exact ⟨by simp [textOf], rfl, rfl⟩
    | dangling => simp only [hl] at h; cases h; exact ⟨by simp [textOf], rfl, rfl⟩
  · intro l ops l' h
    unfold commaT at h
    split at h
    · exact hp _ l ops l' h
    · cases h; exact ⟨by simp [outOf, textOf], rfl, rfl⟩
  · intro l ops l' h
    cases h; exact ⟨by simp [outOf, textOf], rfl, rfl⟩
  · intro l ops l' h
    cases h; exact ⟨by simp [textOf], rfl, rfl⟩

theorem callsT_noFlush (cs : List Call) (h : ∀ c ∈ cs, ∃ line path n v rest, c = .at_ line path n v rest) :
    Runs (fun ops _ _ => Op.flush ∉ ops) (callsT cs) := by
  have hp : ∀ t, Runs (fun ops _ _ => Op.flush ∉ ops) (putT t) := by
    intro t l ops l' h
    obtain ⟨rfl, -⟩ := put_ok h
    simp
  refine runs_calls noFlush_seq (fun _ => by simp) ?_ hp ?_ ?_ cs (Or.inr h)
  · intro l ops l' h
    unfold ensureT at h
    cases hl : l.logFile with
    | null => simp only [hl, create] at h; cases h; simp
    | opened n o => simp only [hl] at h; cases h; simp
    | dangling => simp only [hl] at h; cases h; simp
  · intro l ops l' h
    unfold commaT at h
    split at h
    · exact hp _ l ops l' h
    · cases h; simp
  · intro l ops l' h
    cases h; simp

/-- A call without a place ends with a `flush`. -/
theorem varsT_flush (rest : List (List Char × LVal)) : ∀ n v l ops l', writeVarsT n v rest l = .ok (ops, l') → ∃ a, ops = a ++ [.flush] := by
  have one : ∀ n v l ops l', writeOneT n v l = .ok (ops, l') → ∃ a, ops = a ++ [.flush] := by
    intro n v l ops l' h
    obtain ⟨a, l1, b, -, h2, rfl⟩ := seq_ok h
    obtain ⟨c, l2, d, -, h3, rfl⟩ := seq_ok h2
    obtain ⟨e, l3, f, -, h4, rfl⟩ := seq_ok h3
    cases h4
    exact ⟨a ++ (c ++ e), by simp⟩
  induction rest with
  | nil => exact one
  | cons y rest ih =>
    intro n v l ops l' h
    obtain ⟨a, l1, b, -, h2, rfl⟩ := seq_ok h
    obtain ⟨c, l2, d, -, h3, rfl⟩ := seq_ok h2
    obtain ⟨e, rfl⟩ := ih _ _ _ _ _ h3
    exact ⟨a ++ (c ++ e), by simp⟩

theorem callsT_append (a b : List Call) (l : Logger) : callsT (a ++ b) l = ((callsT a).seq (callsT b)) l := by
  induction a generalizing l with
  | nil =>
    simp only [List.nil_append, callsT, Traced.seq, quiet, Res.bind, id_eq, List.nil_append]
    cases callsT b l <;> rfl
  | cons c a ih =>
    simp only [List.cons_append, callsT, Traced.seq]
    cases callT c l with
    | ok p =>
      simp only [Res.bind, ih, Traced.seq]
      cases callsT a p.2 with
      | ok q =>
        simp only [Res.bind]
        cases callsT b q.2 with
        | ok r => simp
        | _ => rfl
      | _ => rfl
    | _ => rfl

end GTMesh.JsonLog

namespace GTMesh.HtmlLog
open LogCrash
open JsonLog (LVal)

/-- The text of the stream. -/
def outOf (l : Logger) : List Char := match l.logFile with | .opened _ out => out | _ => []

/-- The file of the stream, or the one that will be opened. -/
def nameOf (l : Logger) : List Char := match l.logFile with | .opened n _ => n | _ => l.logFileName

theorem ensureT_faithful : Faithful ensureT ensure := by
  intro l
  unfold ensureT ensure
  cases h : l.logFile with
  | null => simp only [h]; cases create l.logFileName l <;> rfl
  | opened n o => simp [h]
  | dangling => simp [h]

theorem putT_faithful (t : List Char) : Faithful (putT t) (put t) := by
  intro l; unfold putT; cases put t l <;> rfl

theorem writeVarsT_faithful (xs : List (List Char × List Char)) : Faithful (writeVarsT xs) (writeVars xs) := by
  induction xs with
  | nil => exact fun _ => rfl
  | cons x xs ih =>
    exact ensureT_faithful.seq ((putT_faithful _).seq (G := flush.seq (writeVarsT xs)) (g := writeVars xs)
      (Faithful.seq (F := flush) (f := .ok) (fun _ => rfl) ih))

theorem writeLocatedT_faithful (line : Nat) (p : List Char) (rest : List (List Char × LVal)) :
    ∀ n v, Faithful (writeLocatedT line p n v rest) (writeLocated line p n v rest) := by
  have loc : ∀ n v, Faithful (fun l => putT (row l.groupIndex line p n v) l) (fun l => put (row l.groupIndex line p n v) l) :=
    fun n v l => putT_faithful _ l
  induction rest with
  | nil => exact fun n v => ensureT_faithful.seq ((loc n v).seq fun _ => rfl)
  | cons y rest ih => exact fun n v => ensureT_faithful.seq ((loc n v).seq (ih y.1 y.2))

theorem callT_faithful (c : Call) : Faithful (callT c) (call c) := by
  cases c with
  | vars x rest => exact writeVarsT_faithful (x :: rest)
  | at_ line path n v rest => exact writeLocatedT_faithful line _ rest n v

theorem callsT_faithful (cs : List Call) : Faithful (callsT cs) (calls cs) := by
  induction cs with
  | nil => exact fun _ => rfl
  | cons c cs ih => exact (callT_faithful c).seq ih

theorem destroyT_faithful : Faithful destroyT destroy := by
  intro l; unfold destroyT; cases destroy l <;> rfl

theorem sessionT_faithful (file : List Char) (cs : List Call) : ((sessionT file cs).bind fun p => .ok p.2) = session file cs :=
  ((callsT_faithful cs).seq destroyT_faithful) (Logger.new file)

theorem put_ok {t : List Char} {l l' : Logger} {ops : List Op} (h : putT t l = .ok (ops, l')) :
    ops = [.put t] ∧ ∃ n out, l.logFile = .opened n out ∧ l' = { l with logFile := .opened n (out ++ t) } := by
  unfold putT put at h
  cases hl : l.logFile with
  | opened n out =>
    rw [hl] at h
    injection h with h
    exact ⟨congrArg Prod.fst h.symm, n, out, rfl, congrArg Prod.snd h.symm⟩
  | null => rw [hl] at h; cases h
  | dangling => rw [hl] at h; cases h

theorem runs_calls {R : List Op → Logger → Logger → Prop} (hR : Seq R) (hq : ∀ l, R [] l l) (he : Runs R ensureT) (hp : ∀ t, Runs R (putT t))
    (hg : Runs R (quiet fun l => { l with groupIndex := l.groupIndex + 1 })) (cs : List Call)
    (hf : Runs R flush ∨ ∀ c ∈ cs, ∃ line path n v rest, c = .at_ line path n v rest) : Runs R (callsT cs) := by
  have loc : ∀ line p (rest : List (List Char × LVal)) n v, Runs R (writeLocatedT line p n v rest) := by
    intro line p rest
    induction rest with
    | nil => exact fun n v => he.seq hR (Runs.seq hR (fun l => hp _ l) hg)
    | cons y rest ih => exact fun n v => he.seq hR (Runs.seq hR (fun l => hp _ l) (ih y.1 y.2))
  induction cs with
  | nil => intro l ops l' h; cases h; exact hq l
  | cons c cs ih =>
    refine Runs.seq hR ?_ (ih (hf.imp_right fun h x hx => h x (List.mem_cons_of_mem _ hx)))
    cases c with
    | vars x rest =>
      rcases hf with hf | hf
      · have many : ∀ xs, Runs R (writeVarsT xs) := by
          intro xs
          induction xs with
          | nil => intro l ops l' h; cases h; exact hq l
          | cons x xs ih => exact he.seq hR ((hp _).seq hR (hf.seq hR ih))
        exact many (x :: rest)
      · obtain ⟨_, _, _, _, _, h⟩ := hf _ List.mem_cons_self
        cases h
    | at_ line path n v rest => exact loc line _ rest n v

theorem ensure_ok {l l' : Logger} {ops : List Op} (h : ensureT l = .ok (ops, l')) :
    (ops = [] ∧ l' = l) ∨ ∃ t, ops = [.put t] ∧ l.logFile = .null ∧ l' = { l with logFile := .opened l.logFileName t } := by
  unfold ensureT create at h
  generalize scriptText = t at h
  cases hl : l.logFile with
  | null =>
    simp only [hl] at h
    injection h with h
    obtain ⟨rfl, rfl⟩ := Prod.mk.inj h
    exact Or.inr ⟨t, rfl, rfl, rfl⟩
  | opened n o => simp only [hl] at h; cases h; exact Or.inl ⟨rfl, rfl⟩
  | dangling => simp only [hl] at h; cases h; exact Or.inl ⟨rfl, rfl⟩

theorem callsT_grows (cs : List Call) : Runs (Grows outOf nameOf Logger.closed) (callsT cs) := by
  refine runs_calls (grows_seq _ _ _) (fun l => ⟨by simp [textOf], rfl, rfl⟩) ?_ ?_ ?_ cs (Or.inl ?_)
  · intro l ops l' h
    rcases ensure_ok h with ⟨rfl, rfl⟩ | ⟨t, rfl, hl, rfl⟩
    · exact ⟨by simp [textOf], rfl, rfl⟩
    · exact ⟨by simp [outOf, hl, textOf], by simp [nameOf, hl], rfl⟩
  · intro t l ops l' h
    obtain ⟨rfl, n, out, h1, rfl⟩ := put_ok h
    exact ⟨by simp [outOf, h1, textOf], by simp [nameOf, h1], rfl⟩
  · intro l ops l' h
    cases h; exact ⟨by simp [outOf, textOf], rfl, rfl⟩
  · intro l ops l' h
    cases h; exact ⟨by simp [textOf], rfl, rfl⟩

theorem callsT_noFlush (cs : List Call) (h : ∀ c ∈ cs, ∃ line path n v rest, c = .at_ line path n v rest) :
    Runs (fun ops _ _ => Op.flush ∉ ops) (callsT cs) := by
  refine runs_calls noFlush_seq (fun _ => by simp) ?_ ?_ ?_ cs (Or.inr h)
  · intro l ops l' h
    rcases ensure_ok h with ⟨rfl, rfl⟩ | ⟨t, rfl, hl, rfl⟩
    · simp
    · exact fun hm => Op.noConfusion (List.mem_singleton.mp hm)
  · intro t l ops l' h
    obtain ⟨rfl, -⟩ := put_ok h
    simp
  · intro l ops l' h
    cases h; simp

/-- A call without a place ends with a `flush`, and the file is open. -/
theorem varsT_flush (xs : List (List Char × List Char)) : ∀ x l ops l', writeVarsT (x :: xs) l = .ok (ops, l') →
    (∃ a, ops = a ++ [.flush]) ∧ ∃ n out, l'.logFile = .opened n out := by
  induction xs with
  | nil =>
    intro x l ops l' h
    obtain ⟨a, l1, b, -, h2, rfl⟩ := seq_ok h
    obtain ⟨c, l2, d, h3, h4, rfl⟩ := seq_ok h2
    cases h4
    obtain ⟨-, n, out, -, rfl⟩ := put_ok h3
    exact ⟨⟨a ++ c, by simp⟩, n, _, rfl⟩
  | cons y xs ih =>
    intro x l ops l' h
    obtain ⟨a, l1, b, -, h2, rfl⟩ := seq_ok h
    obtain ⟨c, l2, d, -, h3, rfl⟩ := seq_ok h2
    obtain ⟨e, l3, f, -, h4, rfl⟩ := seq_ok h3
    obtain ⟨⟨g, rfl⟩, h5⟩ := ih _ _ _ _ h4
    exact ⟨⟨a ++ (c ++ (e ++ g)), by simp⟩, h5⟩

theorem callsT_append (a b : List Call) (l : Logger) : callsT (a ++ b) l = ((callsT a).seq (callsT b)) l := by
  induction a generalizing l with
  | nil =>
    simp only [List.nil_append, callsT, Traced.seq, quiet, Res.bind, id_eq, List.nil_append]
    cases callsT b l <;> rfl
  | cons c a ih =>
    simp only [List.cons_append, callsT, Traced.seq]
    cases callT c l with
    | ok p =>
      simp only [Res.bind, ih, Traced.seq]
      cases callsT a p.2 with
      | ok q =>
        simp only [Res.bind]
        cases callsT b q.2 with
        | ok r => simp
        | _ => rfl
      | _ => rfl
    | _ => rfl

end GTMesh.HtmlLog
