import Verif.Proofs.Fpma

/-! # Files of which the numbers are arbitrary -/

namespace GTMesh.Fpma
open Spec
variable {R : Type}

/-- What `linkFaces` does not refuse among `n` faces: the invalid index passes anywhere but at the end. -/
def Passes (n : Nat) : List Idx → Prop
  | [] => True
  | [f] => f < n
  | f :: g :: l => (f < n ∨ f = INVALID) ∧ Passes n (g :: l)

theorem setNextAt_ok {fs : List Face} {f : Idx} (h : f < fs.length) (next cell : Idx) :
    ∃ fs', setNextAt fs f next cell = .ok fs' ∧ fs'.length = fs.length := by
  unfold setNextAt
  rw [show Res.at' fs f = .ok fs[f] by simp [h]]
  exact ⟨_, rfl, by simp⟩

theorem setNextAt_out {fs : List Face} {f : Idx} (h : ¬ f < fs.length) (next cell : Idx) : setNextAt fs f next cell = .throw .outOfRange := by
  unfold setNextAt
  rw [show Res.at' fs f = .throw .outOfRange by unfold Res.at'; rw [List.getElem?_eq_none (Nat.not_lt.mp h)]]
  rfl

theorem linkFaces_any (cell first : Idx) : ∀ (l : List Idx) (prev : Idx) (fs : List Face), (prev = INVALID ∨ prev < fs.length) →
    (Passes fs.length l → ∃ fs', linkFaces cell first prev l fs = .ok fs' ∧ fs'.length = fs.length) ∧
    (¬ Passes fs.length l → linkFaces cell first prev l fs = .throw .outOfRange) := by
  intro l
  induction l with
  | nil => intro prev fs _; exact ⟨fun _ => ⟨fs, rfl, rfl⟩, fun h => absurd trivial h⟩
  | cons f l ih =>
    intro prev fs hp
    obtain ⟨fs1, h1, h2⟩ : ∃ fs1, (if prev ≠ INVALID then setNextAt fs prev f cell else .ok fs) = .ok fs1 ∧ fs1.length = fs.length := by
      by_cases h : prev = INVALID
      · exact ⟨fs, by simp [h], rfl⟩
      · rw [if_pos h]
        exact setNextAt_ok (hp.resolve_left h) _ _
    rw [linkFaces, h1]
    simp only [Res.bind]
    cases l with
    | nil =>
      rw [if_pos rfl]
      by_cases hf : f < fs.length
      · obtain ⟨fs2, h3, h4⟩ := setNextAt_ok (fs := fs1) (by rw [h2]; exact hf) first cell
        rw [h3]
        exact ⟨fun _ => ⟨fs2, rfl, by rw [h4, h2]⟩, fun h => absurd hf h⟩
      · rw [setNextAt_out (by rw [h2]; exact hf)]
        exact ⟨fun h => absurd h hf, fun _ => rfl⟩
    | cons g l =>
      rw [if_neg (by simp)]
      simp only
      by_cases hf : f = INVALID ∨ f < fs.length
      · have := ih f fs1 (by rw [h2]; exact hf)
        rw [h2] at this
        refine ⟨fun h => this.1 h.2, fun h => this.2 fun h' => h ⟨hf.symm, h'⟩⟩
      · have hnf : ¬ f < fs1.length := by rw [h2]; exact fun h => hf (.inr h)
        refine ⟨fun h => absurd h.1.symm hf, fun _ => ?_⟩
        rw [linkFaces, if_pos fun h => hf (.inl h), setNextAt_out hnf]
        rfl

theorem loadCellList_any : ∀ (ls : List (List Idx)) (cs : List Cell) (k : Nat) (fs : List Face) (rest : List (Tok R)), cs.length = ls.length →
    ((∀ l ∈ ls, Passes fs.length l) → ∃ cs' fs', loadCellList cs k fs (ls.flatMap listTokens ++ rest) = .ok (cs', fs', rest)) ∧
    ((∃ l ∈ ls, ¬ Passes fs.length l) → loadCellList cs k fs (ls.flatMap listTokens ++ rest) = .throw .outOfRange) := by
  intro ls
  induction ls with
  | nil =>
    intro cs k fs rest hl
    rw [List.length_eq_zero_iff.mp hl]
    exact ⟨fun _ => ⟨_, _, rfl⟩, fun ⟨l, hl, _⟩ => by cases hl⟩
  | cons l ls ih =>
    intro cs k fs rest hlen
    obtain ⟨c, cs, rfl⟩ : ∃ c cs', cs = c :: cs' := by
      cases cs with
      | nil => simp at hlen
      | cons c cs => exact ⟨c, cs, rfl⟩
    obtain ⟨h1, h2⟩ := linkFaces_any k (l.head?.getD c.bElem) l INVALID fs (.inl rfl)
    simp only [List.flatMap_cons, listTokens, List.cons_append, List.append_assoc, loadCellList, readNum, Res.bind]
    rw [readNums_map]
    simp only
    by_cases hp : Passes fs.length l
    · obtain ⟨fs1, h3, h4⟩ := h1 hp
      rw [h3]
      simp only
      obtain ⟨i1, i2⟩ := ih cs (k + 1) fs1 rest (by simpa using hlen)
      rw [h4] at i1 i2
      constructor
      · intro h
        obtain ⟨cs', fs', h5⟩ := i1 fun l hl => h l (by simp [hl])
        rw [h5]
        exact ⟨_, _, rfl⟩
      · rintro ⟨l', hl', hn⟩
        rcases List.mem_cons.mp hl' with rfl | hl'
        · exact absurd hp hn
        · rw [i2 ⟨l', hl', hn⟩]
    · rw [h2 hp]
      exact ⟨fun h => absurd (h l (by simp)) hp, fun _ => rfl⟩

/-! ## Faces of three cells -/

theorem filter_index {α : Type} (p : α → Bool) : ∀ (ls : List α) (n : Nat), n < (ls.filter p).length →
    ∃ (c : Nat) (l : α), ls[c]? = some l ∧ p l = true ∧ n ≤ ((ls.take c).filter p).length := by
  intro ls
  induction ls using List.reverseRecOn with
  | nil => intro n h; simp at h
  | append_singleton ls l ih =>
    intro n h
    by_cases hn : n < (ls.filter p).length
    · obtain ⟨c, x, h1, h2, h3⟩ := ih n hn
      have hc := (List.getElem?_eq_some_iff.mp h1).1
      exact ⟨c, x, by rw [List.getElem?_append_left hc]; exact h1, h2, by rw [List.take_append_of_le_length (by omega)]; exact h3⟩
    · have hl : p l = true := by
        by_contra hl
        rw [List.filter_append] at h
        simp [hl] at h
        simp at hn
        omega
      refine ⟨ls.length, l, by simp, hl, ?_⟩
      rw [List.filter_append] at h
      simp [hl] at h
      simp
      omega

theorem firstOcc_append {α : Type} [DecidableEq α] (a b : List α) : ∃ t, firstOcc (a ++ b) = firstOcc a ++ t := by
  induction b using List.reverseRecOn with
  | nil => exact ⟨[], by simp⟩
  | append_singleton b x ih =>
    obtain ⟨t, ht⟩ := ih
    rw [← List.append_assoc, firstOcc_append_singleton]
    split
    · exact ⟨t, ht⟩
    · exact ⟨t ++ [x], by rw [ht, List.append_assoc]⟩

/-- The third cell of a face is not registered. -/
theorem third_unregistered {a b : List (Idx × Idx)} {c1 c2 c3 : Idx} (h1 : c1 ∈ a.map (·.2)) (h2 : c2 ∈ a.map (·.2)) (h12 : c1 ≠ c2)
    (i1 : c1 ≠ INVALID) (i2 : c2 ≠ INVALID) (h3 : c3 ∉ a.map (·.2)) : c3 ∉ registered (a ++ b) := by
  unfold registered validOnly
  rw [List.map_append, List.filter_append]
  obtain ⟨t, ht⟩ := firstOcc_append ((a.map (·.2)).filter fun c => decide (c ≠ INVALID)) ((b.map (·.2)).filter fun c => decide (c ≠ INVALID))
  rw [ht]
  have m1 : c1 ∈ firstOcc ((a.map (·.2)).filter fun c => decide (c ≠ INVALID)) := mem_firstOcc.mpr (List.mem_filter.mpr ⟨h1, by simpa using i1⟩)
  have m2 : c2 ∈ firstOcc ((a.map (·.2)).filter fun c => decide (c ≠ INVALID)) := mem_firstOcc.mpr (List.mem_filter.mpr ⟨h2, by simpa using i2⟩)
  have m3 : c3 ∉ firstOcc ((a.map (·.2)).filter fun c => decide (c ≠ INVALID)) := fun h => h3 (List.mem_filter.mp (mem_firstOcc.mp h)).1
  generalize firstOcc ((a.map (·.2)).filter fun c => decide (c ≠ INVALID)) = v at *
  have hlen : 2 ≤ v.length := by
    match v, m1, m2 with
    | [], m1, _ => cases m1
    | [x], m1, m2 =>
      simp only [List.mem_singleton] at m1 m2
      exact absurd (m1.trans m2.symm) h12
    | x :: y :: l, _, _ => simp
  rw [List.take_append_of_le_length hlen]
  exact fun h => m3 (List.mem_of_mem_take h)

theorem chainCalls_append : ∀ (a b : List (List Idx)) (k : Nat), chainCalls k (a ++ b) = chainCalls k a ++ chainCalls (k + a.length) b := by
  intro a
  induction a with
  | nil => intro b k; rfl
  | cons l a ih =>
    intro b k
    rw [List.cons_append, chainCalls, ih, chainCalls, List.append_assoc, List.length_cons, show k + 1 + a.length = k + (a.length + 1) by omega]

theorem getNext_third {ls : List (List Idx)} (hn : ∀ l ∈ ls, NoRepetition l) (hlen : ls.length ≤ INVALID) {f : Idx}
    (h : 2 < (ls.filter fun l => decide (f ∈ l)).length) :
    ∃ (c : Nat) (l : List Idx), ls[c]? = some l ∧ f ∈ l ∧ (({} : Conn).runNext (histOf f (chainCalls 0 ls))).getNextBElem c = .throw .runtimeError := by
  obtain ⟨c3, l3, a1, a2, a3⟩ := filter_index _ ls 2 h
  obtain ⟨c2, l2, b1, b2, b3⟩ := filter_index _ (ls.take c3) 1 a3
  obtain ⟨c1, l1, d1, d2, -⟩ := filter_index _ ((ls.take c3).take c2) 0 b3
  have hc3 := (List.getElem?_eq_some_iff.mp a1).1
  have hc2 := (List.getElem?_eq_some_iff.mp b1).1
  have hc1 := (List.getElem?_eq_some_iff.mp d1).1
  rw [List.getElem?_take_of_lt (by simp at hc1; omega)] at d1
  simp at hc1 hc2
  obtain ⟨-, g2, g3⟩ := histOf_cells f (ls.take c3) 0 fun l hl => hn l (List.mem_of_mem_take hl)
  refine ⟨c3, l3, a1, by simpa using a2, ?_⟩
  rw [getNext_runNext, if_neg]
  have e : chainCalls 0 ls = chainCalls 0 (ls.take c3) ++ chainCalls (0 + (ls.take c3).length) (ls.drop c3) := by
    rw [← chainCalls_append, List.take_append_drop]
  rw [e, histOf_append]
  have m1 := g3 c1 l1 d1 (by simpa using d2)
  have m2 := g3 c2 l2 b1 (by simpa using b2)
  rw [Nat.zero_add] at m1 m2
  refine third_unregistered m1 m2 (by omega) (by omega) (by omega) fun hc => ?_
  have := (g2 c3 hc).2
  simp at this
  omega

end GTMesh.Fpma
