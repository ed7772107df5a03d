import Verif.Model.EdgeTable
import Verif.Spec.Polygon

namespace GTMesh
open Spec

theorem decimal_inj {a b : Nat} (h : decimal a = decimal b) : a = b := by
  have := congrArg (fun l => Nat.ofDigitChars 10 l 0) h
  simpa [decimal, Nat.ofDigitChars_ten_toDigits] using this

theorem semicolon_not_mem_decimal (a : Nat) : ';' ∉ decimal a := by
  intro h
  have := Nat.isDigit_of_mem_toDigits (by omega) (by omega) h
  simp [Char.isDigit] at this

/-- Splitting at the first separator is unique. -/
theorem split_unique {c : Char} : ∀ {a b r s : List Char}, c ∉ a → c ∉ b → a ++ c :: r = b ++ c :: s →
    a = b ∧ r = s := by
  intro a
  induction a with
  | nil =>
    intro b r s _ hb h
    cases b with
    | nil => simpa using h
    | cons x xs => simp at h; simp [h.1] at hb
  | cons x xs ih =>
    intro b r s ha hb h
    cases b with
    | nil => simp at h; simp [h.1] at ha
    | cons y ys =>
      simp only [List.cons_append, List.cons.injEq] at h
      simp only [List.mem_cons, not_or] at ha hb
      obtain ⟨h1, h2⟩ := ih ha.2 hb.2 h.2
      exact ⟨by rw [h.1, h1], h2⟩

theorem joined_inj {a b c d : Nat} (h : decimal a ++ ';' :: decimal b = decimal c ++ ';' :: decimal d) :
    a = c ∧ b = d := by
  obtain ⟨h1, h2⟩ := split_unique (semicolon_not_mem_decimal a) (semicolon_not_mem_decimal c) h
  exact ⟨decimal_inj h1, decimal_inj h2⟩

/-- Two edges get the same key exactly when they join the same vertices. -/
theorem edgeKey_eq_iff {a b c d : Idx} : edgeKey a b = edgeKey c d ↔ SamePair (a, b) (c, d) := by
  unfold edgeKey SamePair
  constructor
  · intro h
    split at h <;> split at h <;> have := joined_inj h <;> simp <;> omega
  · rintro (h | h)
    · cases h; rfl
    · simp only at h
      obtain ⟨rfl, rfl⟩ := h
      rcases Nat.lt_trichotomy a b with h | h | h
      · rw [if_pos h, if_neg (by omega)]
      · subst h; rfl
      · rw [if_neg (by omega), if_pos h]

theorem SamePair.symm {p q : Idx × Idx} (h : SamePair p q) : SamePair q p := by
  rcases h with h | h
  · exact Or.inl h.symm
  · exact Or.inr ⟨h.2.symm, h.1.symm⟩

theorem SamePair.trans {p q r : Idx × Idx} (h : SamePair p q) (h' : SamePair q r) : SamePair p r := by
  have e : ∀ p q : Idx × Idx, SamePair p q ↔ edgeKey p.1 p.2 = edgeKey q.1 q.2 := fun p q => edgeKey_eq_iff.symm
  rw [e] at *
  exact h.trans h'

/-- The dictionary describes the edges: the edge with a key is found under it, and nothing else. -/
structure TableInv (d : Dict) (es : List Edge) (used : List (Idx × Idx)) : Prop where
  find : ∀ k (i : Nat), d.find k = some i ↔ ∃ e, es[i]? = some e ∧ edgeKey e.a e.b = k
  index : ∀ (i : Nat) e, es[i]? = some e → e.index = i
  origin : ∀ (i : Nat) e, es[i]? = some e → (e.a, e.b) ∈ used

theorem TableInv.empty (used : List (Idx × Idx)) : TableInv [] [] used where
  find k i := by simp [Dict.find]
  index i e h := by simp at h
  origin i e h := by simp at h

/-- Edges that differ have different end points. -/
theorem TableInv.unique {d : Dict} {es : List Edge} {used} (h : TableInv d es used) {i j : Nat} {e f : Edge}
    (hi : es[i]? = some e) (hj : es[j]? = some f) (hp : SamePair (e.a, e.b) (f.a, f.b)) : i = j := by
  have h1 := (h.find _ i).mpr ⟨e, hi, rfl⟩
  have h2 := (h.find _ j).mpr ⟨f, hj, rfl⟩
  rw [edgeKey_eq_iff.mpr hp, h2] at h1
  simpa using h1.symm

/-- The invariant only depends on the end points and the indices. -/
theorem TableInv.congr {d : Dict} {es es' : List Edge} {used} (h : TableInv d es used)
    (he : es'.map (fun e => (e.index, e.a, e.b)) = es.map (fun e => (e.index, e.a, e.b))) :
    TableInv d es' used := by
  have key : ∀ (i : Nat) e', es'[i]? = some e' → ∃ e, es[i]? = some e ∧ e.index = e'.index ∧ e.a = e'.a ∧ e.b = e'.b := by
    intro i e' hi
    have := congrArg (fun l => l[i]?) he
    simp only [List.getElem?_map, hi, Option.map_some] at this
    cases hh : es[i]? with
    | none => simp [hh] at this
    | some e =>
      simp only [hh, Option.map_some, Option.some.injEq, Prod.mk.injEq] at this
      exact ⟨e, rfl, this.1.symm, this.2.1.symm, this.2.2.symm⟩
  have key' : ∀ (i : Nat) e, es[i]? = some e → ∃ e', es'[i]? = some e' ∧ e'.a = e.a ∧ e'.b = e.b := by
    intro i e hi
    have := congrArg (fun l => l[i]?) he
    simp only [List.getElem?_map, hi, Option.map_some] at this
    cases hh : es'[i]? with
    | none => simp [hh] at this
    | some e' =>
      simp only [hh, Option.map_some, Option.some.injEq, Prod.mk.injEq] at this
      exact ⟨e', rfl, this.2.1, this.2.2⟩
  constructor
  · intro k i
    rw [h.find]
    constructor
    · rintro ⟨e, h1, h2⟩
      obtain ⟨e', h3, h4, h5⟩ := key' i e h1
      exact ⟨e', h3, by rw [h4, h5, h2]⟩
    · rintro ⟨e, h1, h2⟩
      obtain ⟨e', h3, _, h4, h5⟩ := key i e h1
      exact ⟨e', h3, by rw [h4, h5, h2]⟩
  · intro i e hi
    obtain ⟨e', h3, h4, _⟩ := key i e hi
    rw [← h4]; exact h.index i e' h3
  · intro i e hi
    obtain ⟨e', h3, _, h4, h5⟩ := key i e hi
    rw [← h4, ← h5]; exact h.origin i e' h3

theorem TableInv.mono {d : Dict} {es : List Edge} {used used'} (h : TableInv d es used)
    (hu : ∀ p ∈ used, p ∈ used') : TableInv d es used' :=
  ⟨h.find, h.index, fun i e he => hu _ (h.origin i e he)⟩

theorem lookup_cons_eq (d : Dict) (k k' : List Char) (i : Idx) :
    (d.put k i).find k' = if k' = k then some i else d.find k' := by
  unfold Dict.put Dict.find
  rw [List.lookup_cons]
  by_cases h : k' = k
  · simp [h]
  · simp [h, beq_eq_false_iff_ne.mpr h]

/-- Effect of finding or adding an edge. -/
theorem findOrAddEdge_spec {d : Dict} {es : List Edge} {used} (h : TableInv d es used) (iA iB : Idx)
    (hu : (iA, iB) ∈ used) :
    let r := findOrAddEdge d es iA iB
    TableInv r.1 r.2.1 used ∧ Joins r.2.1 r.2.2.1 iA iB ∧
    (r.2.1 = es ∨ ∃ e, r.2.1 = es ++ [e]) ∧ r.2.2.1 < r.2.1.length := by
  unfold findOrAddEdge
  cases hf : d.find (edgeKey iA iB) with
  | some i =>
    obtain ⟨e, he, hk⟩ := (h.find _ i).mp hf
    simp only
    exact ⟨h, ⟨e, he, edgeKey_eq_iff.mp hk⟩, by simp, (List.getElem?_eq_some_iff.mp he).1⟩
  | none =>
    simp only
    refine ⟨⟨?_, ?_, ?_⟩, ⟨{ index := es.length, a := iA, b := iB }, by simp, Or.inl rfl⟩, Or.inr ⟨_, rfl⟩, by simp⟩
    · intro k i
      rw [lookup_cons_eq]
      by_cases hk : k = edgeKey iA iB
      · subst hk
        rw [if_pos rfl]
        constructor
        · intro hi
          have hi' : es.length = i := by simpa using hi
          subst hi'
          exact ⟨{ index := es.length, a := iA, b := iB }, by simp, rfl⟩
        · rintro ⟨e, he, hk⟩
          by_cases hi : i < es.length
          · rw [List.getElem?_append_left hi] at he
            have := (h.find _ i).mpr ⟨e, he, hk⟩
            rw [hf] at this; simp at this
          · have : i < (es ++ [({ index := es.length, a := iA, b := iB } : Edge)]).length :=
              (List.getElem?_eq_some_iff.mp he).1
            simp at this
            have : es.length = i := by omega
            rw [this]
      · rw [if_neg hk, h.find]
        constructor
        · rintro ⟨e, he, h2⟩
          exact ⟨e, by rw [List.getElem?_append_left (List.getElem?_eq_some_iff.mp he).1]; exact he, h2⟩
        · rintro ⟨e, he, h2⟩
          by_cases hi : i < es.length
          · rw [List.getElem?_append_left hi] at he
            exact ⟨e, he, h2⟩
          · exfalso
            have hlt : i < (es ++ [({ index := es.length, a := iA, b := iB } : Edge)]).length :=
              (List.getElem?_eq_some_iff.mp he).1
            simp at hlt
            have hi' : i = es.length := by omega
            subst hi'
            simp at he
            subst he
            exact hk h2.symm
    · intro i e he
      by_cases hi : i < es.length
      · rw [List.getElem?_append_left hi] at he
        exact h.index i e he
      · have hlt := (List.getElem?_eq_some_iff.mp he).1
        simp at hlt
        have hi' : i = es.length := by omega
        subst hi'
        simp at he
        rw [← he]
    · intro i e he
      by_cases hi : i < es.length
      · rw [List.getElem?_append_left hi] at he
        exact h.origin i e he
      · have hlt := (List.getElem?_eq_some_iff.mp he).1
        simp at hlt
        have hi' : i = es.length := by omega
        subst hi'
        simp at he
        rw [← he]; exact hu

theorem Joins.mono {es es' : List Edge} {e u v : Idx} (h : Joins es e u v)
    (hp : ∀ (i : Nat) x, es[i]? = some x → ∃ y, es'[i]? = some y ∧ y.a = x.a ∧ y.b = x.b) : Joins es' e u v := by
  obtain ⟨x, hx, hs⟩ := h
  obtain ⟨y, hy, h1, h2⟩ := hp e x hx
  exact ⟨y, hy, by rw [h1, h2]; exact hs⟩

theorem consecutive_length (vs : List Idx) : (consecutive vs).length = vs.length := by simp [consecutive]

theorem consecutive_get (vs : List Idx) (j : Nat) (hj : j < vs.length) : ∃ u v,
    (consecutive vs)[j]? = some (u, v) ∧ cyc vs j = some u ∧ cyc vs (j + 1) = some v := by
  have h2 : (j + 1) % vs.length < vs.length := Nat.mod_lt _ (by omega)
  refine ⟨vs[j], vs[(j + 1) % vs.length], ?_, ?_, ?_⟩
  · simp [consecutive, hj, h2]
  · simp [cyc, Nat.mod_eq_of_lt hj]
  · simp [cyc, h2]

end GTMesh
