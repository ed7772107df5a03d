import Verif.Spec.Singleton

/-! # C65: the object behind the HTML and JSON macros exists once -/

namespace GTMesh.Singleton

theorem run_append (fails : Nat → Bool) (s : Sys) (a b : List Nat) : run fails s (a ++ b) = run fails (run fails s a) b := by
  simp [run, List.foldl_append]

/-- An invariant of all steps. -/
theorem run_inv {fails : Nat → Bool} (I : Sys → Prop) (h : ∀ s t, I s → I (step fails s t)) (s : Sys) (hs : I s) (l : List Nat) :
    I (run fails s l) := by
  induction l generalizing s with
  | nil => exact hs
  | cons t l ih => exact ih _ (h s t hs)

/-! ## Calls that do not overlap -/

/-- The state between the steps of calls that do not overlap. -/
structure Seq (s : Sys) : Prop where
  ub : s.ub = false
  destroyed : s.destroyed = []
  ended : ∀ t m, (t, some m) ∈ s.ended → s.p = some m
  create : ∀ t, s.pc t = .create → s.p = none ∧ s.made = []
  assign : ∀ t n, s.pc t = .assign n → s.p = none ∧ s.made = [n]
  ret : ∀ t, s.pc t = .ret → s.p ≠ none
  none : s.p = none → (∀ t n, s.pc t ≠ .assign n) → s.made = []
  some : ∀ n, s.p = some n → s.made = [n]

theorem seq_step {fails : Nat → Bool} {s : Sys} {t : Nat} (h : Seq s) (ho : ∀ u, u ≠ t → s.pc u = .idle) : Seq (step fails s t) := by
  have other : ∀ c u, u ≠ t → (s.goto t c).pc u = .idle := fun c u hu => by simp [Sys.goto, hu, ho u hu]
  have self : ∀ c, (s.goto t c).pc t = c := fun c => by simp [Sys.goto]
  have idle_or : ∀ (c : Pc) u x, (s.goto t c).pc u = x → x ≠ .idle → u = t ∧ c = x := by
    intro c u x hx hne
    by_cases hu : u = t
    · subst hu; rw [self] at hx; exact ⟨rfl, hx⟩
    · rw [other c u hu] at hx; exact absurd hx.symm hne
  unfold step
  cases hpc : s.pc t with
  | idle =>
    have hna : ∀ u n, s.pc u ≠ .assign n := fun u n hu => by
      by_cases e : u = t
      · subst e; rw [hpc] at hu; cases hu
      · rw [ho u e] at hu; cases hu
    simp only
    cases hp : s.p with
    | none =>
      rw [if_pos rfl]
      refine ⟨h.ub, h.destroyed, h.ended, fun u _ => ⟨hp, h.none hp hna⟩, fun u n hu => ?_, fun u hu => ?_, fun _ _ => h.none hp hna, h.some⟩
      · exact absurd (idle_or _ u _ hu (by simp)).2 (by simp)
      · exact absurd (idle_or _ u _ hu (by simp)).2 (by simp)
    | some n =>
      rw [if_neg (by simp)]
      refine ⟨h.ub, h.destroyed, h.ended, fun u hu => ?_, fun u n hu => ?_, fun u _ => by simp [Sys.goto, hp], fun hq => by simp [Sys.goto, hp] at hq, h.some⟩
      · exact absurd (idle_or _ u _ hu (by simp)).2 (by simp)
      · exact absurd (idle_or _ u _ hu (by simp)).2 (by simp)
  | create =>
    obtain ⟨hp, hm⟩ := h.create t hpc
    simp only
    by_cases hf : fails s.begun = true
    · rw [if_pos hf]
      refine ⟨h.ub, h.destroyed, fun u m hu => ?_, fun u hu => ?_, fun u n hu => ?_, fun u hu => ?_, fun _ _ => hm, h.some⟩
      · simp only [List.mem_append, List.mem_singleton, Prod.mk.injEq, reduceCtorEq, and_false, or_false] at hu
        exact h.ended u m hu
      · exact absurd (idle_or _ u _ hu (by simp)).2 (by simp)
      · exact absurd (idle_or _ u _ hu (by simp)).2 (by simp)
      · exact absurd (idle_or _ u _ hu (by simp)).2 (by simp)
    · rw [if_neg hf]
      refine ⟨h.ub, h.destroyed, h.ended, fun u hu => ?_, fun u n hu => ?_, fun u hu => ?_, fun _ hn => ?_, fun n hn => ?_⟩
      · exact absurd (idle_or _ u _ hu (by simp)).2 (by simp)
      · have := (idle_or _ u _ hu (by simp)).2
        simp only [Pc.assign.injEq] at this
        subst this
        exact ⟨hp, by simp [hm]⟩
      · exact absurd (idle_or _ u _ hu (by simp)).2 (by simp)
      · exact absurd (self _) (hn t s.begun)
      · have hn' : s.p = Option.some n := hn
        rw [hp] at hn'
        cases hn'
  | assign n =>
    obtain ⟨hp, hm⟩ := h.assign t n hpc
    simp only
    refine ⟨h.ub, by simp [h.destroyed, hp], fun u m hu => ?_, fun u hu => ?_, fun u n hu => ?_, fun u _ => by simp, fun hq => by simp at hq, fun m hm' => ?_⟩
    · have := h.ended u m hu
      rw [hp] at this
      cases this
    · exact absurd (idle_or _ u _ hu (by simp)).2 (by simp)
    · exact absurd (idle_or _ u _ hu (by simp)).2 (by simp)
    · simp only [Option.some.injEq] at hm'
      subst hm'
      exact hm
  | ret =>
    simp only
    cases hp : s.p with
    | none => exact absurd hp (h.ret t hpc)
    | some n =>
      simp only
      refine ⟨h.ub, h.destroyed, fun u m hu => ?_, fun u hu => ?_, fun u n hu => ?_, fun u hu => ?_, fun hq => ?_, h.some⟩
      · simp only [List.mem_append, List.mem_singleton, Prod.mk.injEq, Option.some.injEq] at hu
        rcases hu with hu | ⟨_, hu⟩
        · exact h.ended u m hu
        · rw [hu]; exact hp
      · exact absurd (idle_or _ u _ hu (by simp)).2 (by simp)
      · exact absurd (idle_or _ u _ hu (by simp)).2 (by simp)
      · exact absurd (idle_or _ u _ hu (by simp)).2 (by simp)
      · have hq' : s.p = Option.none := hq
        rw [hp] at hq'
        cases hq'

theorem seq_run {fails : Nat → Bool} : ∀ (l : List Nat) (s : Sys), Seq s → OneAtATime fails s l → Seq (run fails s l) := by
  intro l
  induction l with
  | nil => intro s h _; exact h
  | cons t l ih =>
    intro s h ho
    refine ih (step fails s t) (seq_step h (ho [] t l rfl)) fun before u after he => ?_
    exact ho (t :: before) u after (by rw [he]; rfl)

theorem seq_init : Seq {} := by
  refine ⟨rfl, rfl, fun _ _ h => by simp at h, fun _ h => by simp at h, fun _ _ h => by simp at h, fun _ h => by simp at h, fun _ _ => rfl, fun _ h => by simp at h⟩

/-- C65, calls that do not overlap, in any number of threads and with any constructions ending with an exception: all the references refer to
one object, which exists, and no other object was made. -/
theorem C65_one_at_a_time (fails : Nat → Bool) (schedule : List Nat) (h : OneAtATime fails {} schedule) :
    Good (run fails {} schedule) ∧ (run fails {} schedule).made.length ≤ 1 ∧ (run fails {} schedule).destroyed = [] := by
  have hs := seq_run schedule {} seq_init h
  refine ⟨⟨hs.ub, ?_⟩, ?_, hs.destroyed⟩
  · cases hp : (run fails {} schedule).p with
    | none =>
      refine ⟨0, fun t m hm => ?_⟩
      have := hs.ended t m hm
      rw [hp] at this
      cases this
    | some n =>
      refine ⟨n, fun t m hm => ?_⟩
      have := hs.ended t m hm
      rw [hp] at this
      cases this
      exact ⟨rfl, by simp [hs.destroyed]⟩
  · cases hp : (run fails {} schedule).p with
    | some n => simp [hs.some n hp]
    | none =>
      by_cases ha : ∃ t n, (run fails {} schedule).pc t = .assign n
      · obtain ⟨t, n, ha⟩ := ha
        simp [(hs.assign t n ha).2]
      · rw [hs.none hp fun t n hn => ha ⟨t, n, hn⟩]
        simp

/-- The calls of one thread do not overlap. -/
theorem oneThread (fails : Nat → Bool) (t k : Nat) : OneAtATime fails {} (List.replicate k t) := by
  have key : ∀ (l : List Nat), (∀ x ∈ l, x = t) → ∀ u, u ≠ t → (run fails {} l).pc u = .idle := by
    intro l hl u hu
    have : ∀ (l : List Nat) (s : Sys), (∀ x ∈ l, x = t) → s.pc u = .idle → (run fails s l).pc u = .idle := by
      intro l
      induction l with
      | nil => intro s _ hs; exact hs
      | cons x l ih =>
        intro s hl hs
        refine ih _ (fun y hy => hl y (by simp [hy])) ?_
        rw [hl x (by simp)]
        unfold step
        cases s.pc t <;> simp only
        · split <;> simp [Sys.goto, hu, hs]
        · split <;> simp [Sys.goto, hu, hs]
        · simp [Sys.goto, hu, hs]
        · cases s.p <;> simp [Sys.goto, hu, hs]
    exact this l {} hl rfl
  intro before x after he u hu
  have hall : ∀ y ∈ before ++ x :: after, y = t := by rw [← he]; intro y hy; exact List.eq_of_mem_replicate hy
  have hx : x = t := hall x (by simp)
  exact key before (fun y hy => hall y (by simp [hy])) u (by rw [← hx]; exact hu)

/-- A thread whose first construction fails and which then calls twice: the object is made once. -/
example : OneAtATime (fun k => k == 0) {} (List.replicate 8 5) ∧
    (run (fun k => k == 0) {} (List.replicate 8 5)).ended = [(5, none), (5, some 1), (5, some 1)] :=
  ⟨oneThread _ 5 8, by decide⟩

/-! ## The object is there before the threads begin -/

/-- Once the object is there and no thread has found that it is not, every schedule of any number of threads keeps it: no object
is made or destroyed, and every call that ends returns a reference to it. -/
theorem C65_after_first (fails : Nat → Bool) (s : Sys) (n : Nat) (hp : s.p = some n)
    (hc : ∀ t, s.pc t = .idle ∨ s.pc t = .ret) (schedule : List Nat) :
    (run fails s schedule).made = s.made ∧ (run fails s schedule).destroyed = s.destroyed ∧ (run fails s schedule).ub = s.ub ∧
      ∃ l, (run fails s schedule).ended = s.ended ++ l ∧ ∀ e ∈ l, e.2 = some n := by
  have := run_inv (fails := fails) (fun s' => s'.p = some n ∧ (∀ t, s'.pc t = .idle ∨ s'.pc t = .ret) ∧ s'.made = s.made ∧
    s'.destroyed = s.destroyed ∧ s'.ub = s.ub ∧ ∃ l, s'.ended = s.ended ++ l ∧ ∀ e ∈ l, e.2 = some n) ?_ s
    ⟨hp, hc, rfl, rfl, rfl, [], by simp, by simp⟩ schedule
  · exact this.2.2
  · rintro s' t ⟨h1, h2, h3, h4, h5, l, h6, h7⟩
    have pcs : ∀ c, (c = Pc.idle ∨ c = .ret) → ∀ u, (s'.goto t c).pc u = .idle ∨ (s'.goto t c).pc u = .ret := by
      intro c hc u
      by_cases hu : u = t <;> simp only [Sys.goto, hu, if_true, if_false]
      · exact hc
      · exact h2 u
    unfold step
    rcases h2 t with h | h <;> rw [h] <;> simp only
    · rw [if_neg (by simp [h1])]
      exact ⟨h1, pcs _ (.inr rfl), h3, h4, h5, l, h6, h7⟩
    · rw [h1]
      simp only
      refine ⟨h1, pcs _ (.inl rfl), h3, h4, h5, l ++ [(t, some n)], by simp [h6], fun e he => ?_⟩
      rcases List.mem_append.mp he with he | he
      · exact h7 e he
      · simp at he; simp [he]

/-- C65, a program that uses the object once before it starts its threads is safe in every schedule. -/
theorem C65_warm (fails : Nat → Bool) (hf : fails 0 = false) (main : Nat) (schedule : List Nat) :
    Good (run fails {} ([main, main, main, main] ++ schedule)) ∧ (run fails {} ([main, main, main, main] ++ schedule)).made = [0] := by
  obtain ⟨q1, q2, q3, q4, q5, q6⟩ : (run fails {} [main, main, main, main]).p = some 0 ∧ (run fails {} [main, main, main, main]).made = [0] ∧
      (run fails {} [main, main, main, main]).destroyed = [] ∧ (run fails {} [main, main, main, main]).ended = [(main, some 0)] ∧
      (run fails {} [main, main, main, main]).ub = false ∧ ∀ t, (run fails {} [main, main, main, main]).pc t = .idle := by
    simp [run, step, Sys.goto, hf]
    intro t ht
    simp [ht]
  rw [run_append]
  obtain ⟨a, b, c, l, d, e⟩ := C65_after_first fails (run fails {} [main, main, main, main]) 0 q1 (fun t => .inl (q6 t)) schedule
  refine ⟨⟨by rw [c, q5], 0, fun t m hm => ?_⟩, by rw [a, q2]⟩
  rw [b, q3]
  refine ⟨?_, by simp⟩
  rw [d, q4] at hm
  rcases List.mem_append.mp hm with hm | hm
  · simp at hm; exact hm.2
  · have := e _ hm
    simpa using this

example : (run (fun _ => false) {} ([0, 0, 0, 0] ++ [1, 2, 1, 3, 3, 2])).ended = [(0, some 0), (1, some 0), (3, some 0), (2, some 0)] := by decide

/-! ## Every schedule -/

/-- The objects in front of their assignment. -/
def Held (s : Sys) (n : Nat) : Prop := ∃ t, s.pc t = .assign n

/-- What holds in every schedule. -/
structure Any (s : Sys) : Prop where
  ub : s.ub = false
  below : ∀ n ∈ s.made, n < s.begun
  nodup : s.made.Nodup
  where_ : ∀ n ∈ s.made, n ∈ s.destroyed ∨ s.p = some n ∨ Held s n
  destroyed : s.destroyed.Nodup
  live : ∀ n, s.p = some n → n ∈ s.made ∧ n ∉ s.destroyed
  held : ∀ t n, s.pc t = .assign n → n ∈ s.made ∧ n ∉ s.destroyed ∧ s.p ≠ some n
  distinct : ∀ t u n, s.pc t = .assign n → s.pc u = .assign n → t = u
  made : ∀ n ∈ s.destroyed, n ∈ s.made
  ret : ∀ t, s.pc t = .ret → s.p ≠ none
  ended : ∀ t n, (t, some n) ∈ s.ended → n ∈ s.made

theorem any_step (fails : Nat → Bool) (s : Sys) (t : Nat) (h : Any s) : Any (step fails s t) := by
  have self : ∀ c, (s.goto t c).pc t = c := fun c => by simp [Sys.goto]
  have other : ∀ c u, u ≠ t → (s.goto t c).pc u = s.pc u := fun c u hu => by simp [Sys.goto, hu]
  have cases' : ∀ c u, u = t ∧ (s.goto t c).pc u = c ∨ u ≠ t ∧ (s.goto t c).pc u = s.pc u := by
    intro c u
    by_cases hu : u = t
    · exact .inl ⟨hu, by rw [hu, self]⟩
    · exact .inr ⟨hu, other c u hu⟩
  unfold step
  cases hpc : s.pc t with
  | idle =>
    have heldEq : ∀ c, (∀ n, c ≠ Pc.assign n) → ∀ n, Held (s.goto t c) n ↔ Held s n := by
      intro c hc n
      constructor
      · rintro ⟨u, hu⟩
        rcases cases' c u with ⟨_, h2⟩ | ⟨_, h2⟩
        · rw [h2] at hu; exact absurd hu (hc n)
        · exact ⟨u, by rw [← h2]; exact hu⟩
      · rintro ⟨u, hu⟩
        by_cases e : u = t
        · subst e; rw [hpc] at hu; cases hu
        · exact ⟨u, by rw [other c u e]; exact hu⟩
    have key : ∀ c, (∀ n, c ≠ Pc.assign n) → (c = .ret → s.p ≠ none) → Any (s.goto t c) := by
      intro c hc hr
      refine ⟨h.ub, h.below, h.nodup, fun n hn => ?_, h.destroyed, h.live, fun u n hu => ?_, fun u v n hu hv => ?_, h.made, fun u hu => ?_, h.ended⟩
      · rw [heldEq c hc]; exact h.where_ n hn
      · rcases cases' c u with ⟨_, h2⟩ | ⟨_, h2⟩ <;> rw [h2] at hu
        · exact absurd hu (hc n)
        · exact h.held u n hu
      · rcases cases' c u with ⟨_, h2⟩ | ⟨_, h2⟩ <;> rw [h2] at hu
        · exact absurd hu (hc n)
        · rcases cases' c v with ⟨_, h3⟩ | ⟨_, h3⟩ <;> rw [h3] at hv
          · exact absurd hv (hc n)
          · exact h.distinct u v n hu hv
      · rcases cases' c u with ⟨_, h2⟩ | ⟨_, h2⟩ <;> rw [h2] at hu
        · exact hr hu
        · exact h.ret u hu
    simp only
    split
    · exact key _ (by simp) (by simp)
    · rename_i hp
      exact key _ (by simp) (fun _ => hp)
  | create =>
    simp only
    by_cases hf : fails s.begun = true
    · rw [if_pos hf]
      refine ⟨h.ub, fun n hn => Nat.lt_succ_of_lt (h.below n hn), h.nodup, fun n hn => ?_, h.destroyed, h.live, fun u n hu => ?_, fun u v n hu hv => ?_, h.made, fun u hu => ?_, fun u n hu => ?_⟩
      · rcases h.where_ n hn with h1 | h1 | ⟨u, hu⟩
        · exact .inl h1
        · exact .inr (.inl h1)
        · refine .inr (.inr ⟨u, ?_⟩)
          have : u ≠ t := by rintro rfl; rw [hpc] at hu; cases hu
          exact (other _ u this).trans hu
      · rcases cases' .idle u with ⟨_, h2⟩ | ⟨_, h2⟩ <;> rw [h2] at hu
        · cases hu
        · exact h.held u n hu
      · rcases cases' .idle u with ⟨_, h2⟩ | ⟨_, h2⟩ <;> rw [h2] at hu
        · cases hu
        · rcases cases' .idle v with ⟨_, h3⟩ | ⟨_, h3⟩ <;> rw [h3] at hv
          · cases hv
          · exact h.distinct u v n hu hv
      · rcases cases' .idle u with ⟨_, h2⟩ | ⟨_, h2⟩ <;> rw [h2] at hu
        · cases hu
        · exact h.ret u hu
      · simp only [List.mem_append, List.mem_singleton, Prod.mk.injEq, reduceCtorEq, and_false, or_false] at hu
        exact h.ended u n hu
    · rw [if_neg hf]
      have hnew : s.begun ∉ s.made := fun hm => Nat.lt_irrefl _ (h.below _ hm)
      refine ⟨h.ub, fun n hn => ?_, ?_, fun n hn => ?_, h.destroyed, fun n hn => ?_, fun u n hu => ?_, fun u v n hu hv => ?_, fun n hn => ?_, fun u hu => ?_, fun u n hu => ?_⟩
      · rcases List.mem_append.mp hn with hn | hn
        · exact Nat.lt_succ_of_lt (h.below n hn)
        · rw [List.mem_singleton.mp hn]; exact Nat.lt_succ_self _
      · refine List.nodup_append.mpr ⟨h.nodup, by simp, fun a ha b hb => ?_⟩
        rw [List.mem_singleton.mp hb]
        rintro rfl
        exact hnew ha
      · rcases List.mem_append.mp hn with hn | hn
        · rcases h.where_ n hn with h1 | h1 | ⟨u, hu⟩
          · exact .inl h1
          · exact .inr (.inl h1)
          · refine .inr (.inr ⟨u, ?_⟩)
            have : u ≠ t := by rintro rfl; rw [hpc] at hu; cases hu
            exact (other _ u this).trans hu
        · rw [List.mem_singleton.mp hn]
          exact .inr (.inr ⟨t, self _⟩)
      · exact ⟨List.mem_append_left _ (h.live n hn).1, (h.live n hn).2⟩
      · rcases cases' (.assign s.begun) u with ⟨_, h2⟩ | ⟨_, h2⟩ <;> rw [h2] at hu
        · cases hu
          exact ⟨by simp, fun hd => hnew (h.made _ hd), fun hp => hnew (h.live _ hp).1⟩
        · obtain ⟨a, b, c⟩ := h.held u n hu
          exact ⟨List.mem_append_left _ a, b, c⟩
      · rcases cases' (.assign s.begun) u with ⟨e1, h2⟩ | ⟨e1, h2⟩ <;> rw [h2] at hu
        · cases hu
          rcases cases' (.assign s.begun) v with ⟨e2, h3⟩ | ⟨_, h3⟩ <;> rw [h3] at hv
          · rw [e1, e2]
          · exact absurd (h.held v _ hv).1 hnew
        · rcases cases' (.assign s.begun) v with ⟨_, h3⟩ | ⟨_, h3⟩ <;> rw [h3] at hv
          · cases hv
            exact absurd (h.held u _ hu).1 hnew
          · exact h.distinct u v n hu hv
      · exact List.mem_append_left _ (h.made n hn)
      · rcases cases' (.assign s.begun) u with ⟨_, h2⟩ | ⟨_, h2⟩ <;> rw [h2] at hu
        · cases hu
        · exact h.ret u hu
      · exact List.mem_append_left _ (h.ended u n hu)
  | assign n =>
    obtain ⟨hm, hd, hp⟩ := h.held t n hpc
    simp only
    refine ⟨h.ub, h.below, h.nodup, fun k hk => ?_, ?_, fun k hk => ?_, fun u k hu => ?_, fun u v k hu hv => ?_, fun k hk => ?_, fun u _ => by simp, h.ended⟩
    · rcases h.where_ k hk with h1 | h1 | ⟨u, hu⟩
      · exact .inl (List.mem_append_left _ h1)
      · exact .inl (by simp [h1])
      · by_cases e : u = t
        · subst e
          rw [hpc] at hu
          cases hu
          exact .inr (.inl rfl)
        · exact .inr (.inr ⟨u, (other _ u e).trans hu⟩)
    · refine List.nodup_append.mpr ⟨h.destroyed, by cases s.p <;> simp, fun a ha b hb => ?_⟩
      simp only [Option.mem_toList] at hb
      rintro rfl
      exact (h.live _ hb).2 ha
    · simp only [Option.some.injEq] at hk
      subst hk
      refine ⟨hm, fun hx => ?_⟩
      rcases List.mem_append.mp hx with hx | hx
      · exact hd hx
      · simp only [Option.mem_toList] at hx
        exact hp hx
    · rcases cases' .ret u with ⟨_, h2⟩ | ⟨e, h2⟩ <;> rw [h2] at hu
      · cases hu
      · obtain ⟨a, b, c⟩ := h.held u k hu
        refine ⟨a, fun hx => ?_, fun hx => ?_⟩
        · rcases List.mem_append.mp hx with hx | hx
          · exact b hx
          · simp only [Option.mem_toList] at hx
            exact c hx
        · simp only [Option.some.injEq] at hx
          subst hx
          exact e (h.distinct u t _ hu hpc)
    · rcases cases' .ret u with ⟨_, h2⟩ | ⟨_, h2⟩ <;> rw [h2] at hu
      · cases hu
      · rcases cases' .ret v with ⟨_, h3⟩ | ⟨_, h3⟩ <;> rw [h3] at hv
        · cases hv
        · exact h.distinct u v k hu hv
    · rcases List.mem_append.mp hk with hk | hk
      · exact h.made k hk
      · simp only [Option.mem_toList] at hk
        exact (h.live k hk).1
  | ret =>
    simp only
    cases hp : s.p with
    | none => exact absurd hp (h.ret t hpc)
    | some m =>
      simp only
      refine ⟨h.ub, h.below, h.nodup, fun n hn => ?_, h.destroyed, h.live, fun u n hu => ?_, fun u v n hu hv => ?_, h.made, fun u hu => ?_, fun u n hu => ?_⟩
      · rcases h.where_ n hn with h1 | h1 | ⟨u, hu⟩
        · exact .inl h1
        · exact .inr (.inl h1)
        · refine .inr (.inr ⟨u, ?_⟩)
          have : u ≠ t := by rintro rfl; rw [hpc] at hu; cases hu
          exact (other _ u this).trans hu
      · rcases cases' .idle u with ⟨_, h2⟩ | ⟨_, h2⟩ <;> rw [h2] at hu
        · cases hu
        · exact h.held u n hu
      · rcases cases' .idle u with ⟨_, h2⟩ | ⟨_, h2⟩ <;> rw [h2] at hu
        · cases hu
        · rcases cases' .idle v with ⟨_, h3⟩ | ⟨_, h3⟩ <;> rw [h3] at hv
          · cases hv
          · exact h.distinct u v n hu hv
      · rcases cases' .idle u with ⟨_, h2⟩ | ⟨_, h2⟩ <;> rw [h2] at hu
        · cases hu
        · exact h.ret u hu
      · simp only [List.mem_append, List.mem_singleton, Prod.mk.injEq, Option.some.injEq] at hu
        rcases hu with hu | ⟨_, hu⟩
        · exact h.ended u n hu
        · rw [hu]; exact (h.live m hp).1

theorem any_init : Any {} := by
  refine ⟨rfl, ?_, ?_, ?_, ?_, ?_, ?_, ?_, ?_, ?_, ?_⟩ <;> simp

/-- C65, what holds in every schedule of any number of threads: no null pointer is used, no object is destroyed twice, and when no thread is in
a call, exactly one of the objects that were made exists (or none was made). -/
theorem C65_every_schedule_partial (fails : Nat → Bool) (schedule : List Nat) :
    (run fails {} schedule).ub = false ∧ (run fails {} schedule).destroyed.Nodup ∧
    ((∀ t, (run fails {} schedule).pc t = .idle) → ∀ n, (n ∈ (run fails {} schedule).made ∧ n ∉ (run fails {} schedule).destroyed) ↔
      (run fails {} schedule).p = some n) := by
  have h := run_inv (fails := fails) Any (any_step fails) {} any_init schedule
  refine ⟨h.ub, h.destroyed, fun hidle n => ⟨fun ⟨h1, h2⟩ => ?_, h.live n⟩⟩
  rcases h.where_ n h1 with h3 | h3 | ⟨t, ht⟩
  · exact absurd h3 h2
  · exact h3
  · rw [hidle t] at ht
    cases ht

/-- C65 is false when the first calls overlap: two threads find that there is no object, both make one, and the reference that the first thread
gets refers to an object which the second thread destroys. -/
theorem C65_overlap_violated (t u : Nat) (h : t ≠ u) :
    ¬ Good (run (fun _ => false) {} [t, u, t, u, t, t, u, u]) ∧
    (run (fun _ => false) {} [t, u, t, u, t, t, u, u]).made = [0, 1] ∧ (run (fun _ => false) {} [t, u, t, u, t, t, u, u]).destroyed = [0] ∧
    (run (fun _ => false) {} [t, u, t, u, t, t, u, u]).ended = [(t, some 0), (u, some 1)] := by
  have hu : u ≠ t := fun e => h e.symm
  have e : (run (fun _ => false) {} [t, u, t, u, t, t, u, u]).made = [0, 1] ∧ (run (fun _ => false) {} [t, u, t, u, t, t, u, u]).destroyed = [0] ∧
      (run (fun _ => false) {} [t, u, t, u, t, t, u, u]).ended = [(t, some 0), (u, some 1)] := by
    simp [run, step, Sys.goto, h, hu]
  refine ⟨?_, e⟩
  rintro ⟨_, n, hn⟩
  rw [e.2.1, e.2.2] at hn
  have := hn t 0 (by simp)
  exact this.2 (by simp [← this.1])

end GTMesh.Singleton
