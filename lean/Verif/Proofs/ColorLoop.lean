import Verif.Model.ColorLoop
import Mathlib.Algebra.BigOperators.Group.Finset.Basic

/-! # Parallel loops over elements with disjoint entries -/

namespace GTMesh.ColorLoop

variable {L D : Type}

/-- The body of element `i` reads and writes only entries in `fp`. -/
def Uses (P : Body L D) (i : Nat) (fp : List Nat) : Prop :=
  (∀ l c f, P i l = some (.read c f) → c ∈ fp) ∧ ∀ l c v l', P i l = some (.write c v l') → c ∈ fp

/-- What element `i` sees is the same. -/
def Agree (fp : List Nat) (i : Nat) (s s' : State L D) : Prop := s.loc i = s'.loc i ∧ ∀ c ∈ fp, s.data c = s'.data c

theorem step_same {P : Body L D} {i : Nat} {fp : List Nat} (hu : Uses P i fp) {s s' : State L D} (h : Agree fp i s s') :
    Agree fp i (step P i s) (step P i s') := by
  obtain ⟨h1, h2⟩ := h
  unfold step
  rw [← h1]
  cases hp : P i (s.loc i) with
  | none => exact ⟨h1, h2⟩
  | some x =>
    cases x with
    | read c f => exact ⟨by simp [update, h2 c (hu.1 _ _ _ hp)], h2⟩
    | write c v l =>
      refine ⟨by simp [update], fun d hd => ?_⟩
      simp only [update]
      split
      · rfl
      · exact h2 d hd
    | compute l => exact ⟨by simp [update], h2⟩

theorem step_other {P : Body L D} {i j : Nat} {fp fp' : List Nat} (hu : Uses P j fp') (hij : j ≠ i) (hd : ∀ c ∈ fp, c ∉ fp')
    (s : State L D) : Agree fp i (step P j s) s := by
  unfold step
  cases hp : P j (s.loc j) with
  | none => exact ⟨rfl, fun _ _ => rfl⟩
  | some x =>
    cases x with
    | read c f => exact ⟨by simp [update, hij.symm], fun _ _ => rfl⟩
    | write c v l =>
      refine ⟨by simp [update, hij.symm], fun d hdm => ?_⟩
      have : d ≠ c := fun e => hd d hdm (e ▸ hu.2 _ _ _ _ hp)
      simp [update, this]
    | compute l => exact ⟨by simp [update, hij.symm], fun _ _ => rfl⟩

theorem step_data {P : Body L D} {j : Nat} {fp : List Nat} (hu : Uses P j fp) (s : State L D) (c : Nat) (hc : c ∉ fp) :
    (step P j s).data c = s.data c := by
  unfold step
  cases hp : P j (s.loc j) with
  | none => rfl
  | some x =>
    cases x with
    | read d f => rfl
    | write d v l =>
      have : c ≠ d := fun e => hc (e ▸ hu.2 _ _ _ _ hp)
      simp [update, this]
    | compute l => rfl

theorem step_loc {P : Body L D} {i j : Nat} (s : State L D) (h : i ≠ j) : (step P j s).loc i = s.loc i := by
  unfold step
  cases hp : P j (s.loc j) with
  | none => rfl
  | some x => cases x <;> simp [update, h]

theorem Agree.trans {fp : List Nat} {i : Nat} {a b c : State L D} (h : Agree fp i a b) (h' : Agree fp i b c) : Agree fp i a c :=
  ⟨h.1.trans h'.1, fun d hd => (h.2 d hd).trans (h'.2 d hd)⟩

theorem Agree.symm {fp : List Nat} {i : Nat} {a b : State L D} (h : Agree fp i a b) : Agree fp i b a :=
  ⟨h.1.symm, fun d hd => (h.2 d hd).symm⟩

theorem run_append (P : Body L D) (a b : List Nat) (s : State L D) : run P (a ++ b) s = run P b (run P a s) := by
  simp [run]

/-- Elements whose entries are disjoint. -/
structure Apart (P : Body L D) (T : Nat → Prop) (fp : Nat → List Nat) : Prop where
  uses : ∀ i, T i → Uses P i (fp i)
  disjoint : ∀ i j, T i → T j → i ≠ j → ∀ c ∈ fp i, c ∉ fp j

/-- In every schedule an element sees what it would see alone. -/
theorem run_alone {P : Body L D} {T : Nat → Prop} {fp : Nat → List Nat} (h : Apart P T fp) (s : State L D) (sch : List Nat)
    (hs : ∀ i ∈ sch, T i) (i : Nat) (hi : T i) : Agree (fp i) i (run P sch s) (run P (List.replicate (sch.count i) i) s) := by
  induction sch using List.reverseRecOn with
  | nil => exact ⟨rfl, fun _ _ => rfl⟩
  | append_singleton sch j ih =>
    have ih := ih fun k hk => hs k (List.mem_append_left _ hk)
    have hj : T j := hs j (by simp)
    rw [run_append]
    by_cases e : j = i
    · subst e
      have : (sch ++ [j]).count j = sch.count j + 1 := by simp
      rw [this, List.replicate_succ', run_append]
      exact step_same (h.uses j hj) ih
    · have : (sch ++ [j]).count i = sch.count i := by simp [List.count_append, List.count_singleton, e]
      rw [this]
      exact (step_other (h.uses j hj) e (h.disjoint i j hi hj (Ne.symm e)) _).trans ih

theorem run_data {P : Body L D} {T : Nat → Prop} {fp : Nat → List Nat} (h : Apart P T fp) (s : State L D) (sch : List Nat)
    (hs : ∀ i ∈ sch, T i) (c : Nat) (hc : ∀ i, T i → c ∉ fp i) : (run P sch s).data c = s.data c := by
  induction sch using List.reverseRecOn with
  | nil => rfl
  | append_singleton sch j ih =>
    rw [run_append]
    have hj : T j := hs j (by simp)
    exact (step_data (h.uses j hj) _ c (hc j hj)).trans (ih fun k hk => hs k (List.mem_append_left _ hk))

theorem run_loc {P : Body L D} (s : State L D) (sch : List Nat) (i : Nat) (hi : i ∉ sch) : (run P sch s).loc i = s.loc i := by
  induction sch using List.reverseRecOn with
  | nil => rfl
  | append_singleton sch j ih =>
    rw [run_append]
    simp only [List.mem_append, List.mem_singleton, not_or] at hi
    exact (step_loc _ hi.2).trans (ih hi.1)

theorem step_done {P : Body L D} {i : Nat} {s : State L D} (h : Done P i s) : step P i s = s := by
  unfold step
  rw [show P i (s.loc i) = none from h]

theorem run_done {P : Body L D} {i : Nat} {s : State L D} (h : Done P i s) (n : Nat) : run P (List.replicate n i) s = s := by
  induction n with
  | zero => rfl
  | succ n ih => rw [List.replicate_succ', run_append, ih]; exact step_done h

/-- Alone: after the end nothing changes. -/
theorem solo_done {P : Body L D} {i : Nat} {s : State L D} {n m : Nat} (hn : Done P i (run P (List.replicate n i) s)) (h : n ≤ m) :
    run P (List.replicate m i) s = run P (List.replicate n i) s := by
  obtain ⟨k, rfl⟩ := Nat.exists_eq_add_of_le h
  rw [List.replicate_add, run_append, run_done hn]

theorem Agree.done {P : Body L D} {fp : List Nat} {i : Nat} {s s' : State L D} (h : Agree fp i s s') (hd : Done P i s) : Done P i s' := by
  unfold Done at *
  rw [← h.1]; exact hd

/-- Two complete schedules end in the same state. -/
theorem complete_same {P : Body L D} {T : Nat → Prop} {fp : Nat → List Nat} (h : Apart P T fp) (s : State L D) (a b : List Nat)
    (ha : ∀ i ∈ a, T i) (hb : ∀ i ∈ b, T i) (da : ∀ i, T i → Done P i (run P a s)) (db : ∀ i, T i → Done P i (run P b s)) :
    run P a s = run P b s := by
  have key : ∀ i, T i → Agree (fp i) i (run P a s) (run P b s) := by
    intro i hi
    have h1 := run_alone h s a ha i hi
    have h2 := run_alone h s b hb i hi
    have e : run P (List.replicate (a.count i) i) s = run P (List.replicate (b.count i) i) s := by
      rcases Nat.le_total (a.count i) (b.count i) with hle | hle
      · exact (solo_done (h1.done (da i hi)) hle).symm
      · exact solo_done (h2.done (db i hi)) hle
    rw [e] at h1
    exact h1.trans h2.symm
  apply State.ext
  · funext c
    by_cases hc : ∃ i, T i ∧ c ∈ fp i
    · obtain ⟨i, hi, hc⟩ := hc
      exact (key i hi).2 c hc
    · have hc' : ∀ i, T i → c ∉ fp i := fun i hi hm => hc ⟨i, hi, hm⟩
      rw [run_data h s a ha c hc', run_data h s b hb c hc']
  · funext i
    by_cases hi : T i
    · exact (key i hi).1
    · rw [run_loc s a i fun hm => hi (ha i hm), run_loc s b i fun hm => hi (hb i hm)]

/-- Whoever gets the steps it needs alone finishes. -/
theorem complete_more {P : Body L D} {T : Nat → Prop} {fp : Nat → List Nat} (h : Apart P T fp) (s : State L D) (b : List Nat)
    (hb : ∀ i ∈ b, T i) (i : Nat) (hi : T i) (n : Nat) (hn : Done P i (run P (List.replicate n i) s)) (hc : n ≤ b.count i) :
    Done P i (run P b s) := by
  have h2 := run_alone h s b hb i hi
  rw [solo_done hn hc] at h2
  exact h2.symm.done hn

/-! ## Adding -/

theorem addBody_uses [Add D] (conn : Nat → List Nat) (w : Nat → Nat → D) (i : Nat) : Uses (addBody conn w) i (conn i) := by
  refine ⟨fun l c f hf => ?_, fun l c v l' hf => ?_⟩
  all_goals
    unfold addBody at hf
    cases hk : (conn i)[l.1]? with
    | none => simp [hk] at hf
    | some c' =>
      rw [hk] at hf
      cases ho : l.2 with
      | none =>
        simp [ho] at hf
        try (obtain ⟨rfl, _⟩ := hf; exact List.mem_of_getElem? hk)
      | some d =>
        simp [ho] at hf
        try (obtain ⟨rfl, _⟩ := hf; exact List.mem_of_getElem? hk)

/-- Alone: after `2 * k` steps the first `k` entries have been added to. -/
theorem addBody_solo [AddZeroClass D] (conn : Nat → List Nat) (w : Nat → Nat → D) (i : Nat) (hn : (conn i).Nodup) (s : State (Nat × Option D) D)
    (hs : s.loc i = (0, none)) (k : Nat) (hk : k ≤ (conn i).length) :
    (run (addBody conn w) (List.replicate (2 * k) i) s).loc i = (k, none) ∧
      ∀ c, (run (addBody conn w) (List.replicate (2 * k) i) s).data c = s.data c + if c ∈ (conn i).take k then w i c else 0 := by
  induction k with
  | zero => exact ⟨hs, fun c => by simp [run]⟩
  | succ k ih =>
    obtain ⟨h1, h2⟩ := ih (by omega)
    rw [show 2 * (k + 1) = 2 * k + 1 + 1 by omega, List.replicate_succ', List.replicate_succ', run_append, run_append]
    generalize run (addBody conn w) (List.replicate (2 * k) i) s = u at h1 h2
    have hk' : (conn i)[k]? = some (conn i)[k] := by simp [show k < (conn i).length by omega]
    generalize hc0 : (conn i)[k] = c0 at hk'
    have e1 : run (addBody conn w) [i] u = { u with loc := update u.loc i (k, some (u.data c0)) } := by
      simp [run, step, addBody, h1, hk']
    have e2 : run (addBody conn w) [i] (run (addBody conn w) [i] u) =
        { data := update u.data c0 (u.data c0 + w i c0), loc := update (update u.loc i (k, some (u.data c0))) i (k + 1, none) } := by
      rw [e1]
      simp [run, step, addBody, update, hk']
    rw [e2]
    refine ⟨by simp [update], fun c => ?_⟩
    have ht : (conn i).take (k + 1) = (conn i).take k ++ [c0] := by
      rw [List.take_succ, hk']; rfl
    have hnm : c0 ∉ (conn i).take k := by
      have : ((conn i).take (k + 1)).Nodup := hn.sublist (List.take_sublist _ _)
      rw [ht, List.nodup_append] at this
      exact fun hm => this.2.2 c0 hm c0 (by simp) rfl
    simp only [update, ht]
    by_cases hc : c = c0
    · subst hc
      simp [h2, hnm]
    · simp [hc, h2]

theorem addBody_done_iff [Add D] (conn : Nat → List Nat) (w : Nat → Nat → D) (i : Nat) (s : State (Nat × Option D) D) :
    Done (addBody conn w) i s ↔ (conn i).length ≤ (s.loc i).1 := by
  unfold Done addBody
  cases hk : (conn i)[(s.loc i).1]? with
  | none => simpa using hk
  | some c =>
    have := (List.getElem?_eq_some_iff.mp hk).1
    cases ho : (s.loc i).2 <;> simp [ho] <;> omega

/-- A complete phase of additions. -/
theorem addBody_phase [AddZeroClass D] {conn : Nat → List Nat} {w : Nat → Nat → D} {T : Nat → Prop} (h : Apart (addBody conn w) T conn)
    (hn : ∀ i, T i → (conn i).Nodup) (s : State (Nat × Option D) D) (hl : ∀ i, T i → s.loc i = (0, none)) (sch : List Nat) (hs : ∀ i ∈ sch, T i)
    (hd : ∀ i, T i → Done (addBody conn w) i (run (addBody conn w) sch s)) (i : Nat) (hi : T i) (c : Nat) (hc : c ∈ conn i) :
    (run (addBody conn w) sch s).data c = s.data c + w i c := by
  have h1 := run_alone h s sch hs i hi
  obtain ⟨h2, h3⟩ := addBody_solo conn w i (hn i hi) s (hl i hi) (conn i).length (Nat.le_refl _)
  have h4 : Done (addBody conn w) i (run (addBody conn w) (List.replicate (2 * (conn i).length) i) s) := by
    rw [addBody_done_iff, h2]
  have e : run (addBody conn w) (List.replicate (sch.count i) i) s = run (addBody conn w) (List.replicate (2 * (conn i).length) i) s := by
    rcases Nat.le_total (sch.count i) (2 * (conn i).length) with hle | hle
    · exact (solo_done (h1.done (hd i hi)) hle).symm
    · exact solo_done h4 hle
  rw [h1.2 c hc, e, h3 c]
  simp [hc]

end GTMesh.ColorLoop
