import Verif.Model.CopySerializer
import Verif.Props.Serializer

/-! # C91: copies of a serializer -/

namespace GTMesh.Ser
open Serializer

/-- What a read gives, without the state it leaves. -/
def valuesOf {α : Type} (r : Res (α × Serializer)) : Res α := r.bind fun p => .ok p.1

theorem read_dangling (lt : Order) (s : Serializer) (h : s.cur = .dangling) (t : Ty) (old : t.den) : s.read lt t old = .ub := by
  simp [Serializer.read, resetIfNotValid, isIteratorValid, h, Res.bind]

/-- The values that are read depend on the bytes and the iterator, not on the capacity. -/
theorem read_values (lt : Order) (s s' : Serializer) (hd : s.data = s'.data) (hc : s.cur = s'.cur) (t : Ty) (old : t.den) :
    (∃ v q, s.read lt t old = .ok (v, { s with cur := q }) ∧ s'.read lt t old = .ok (v, { s' with cur := q })) ∨
      ((∀ r, s.read lt t old ≠ .ok r) ∧ valuesOf (s.read lt t old) = valuesOf (s'.read lt t old) ∧ ∀ r, s'.read lt t old ≠ .ok r) := by
  obtain ⟨d, c, k⟩ := s
  obtain ⟨d', c', k'⟩ := s'
  simp only at hd hc
  subst hd hc
  cases k with
  | null =>
    simp only [Serializer.read, resetIfNotValid, isIteratorValid, resetIterator, Res.bind, Bool.false_eq_true, if_false]
    cases h : deserialize lt t old (d.drop 0) with
    | ok q => left; exact ⟨_, _, rfl, rfl⟩
    | throw e => right; simp [valuesOf, Res.bind]
    | ub => right; simp [valuesOf, Res.bind]
    | diverge => right; simp [valuesOf, Res.bind]
  | «at» p =>
    by_cases hp : p < d.length
    · simp only [Serializer.read, resetIfNotValid, isIteratorValid, Res.bind, hp, decide_true, if_true]
      cases h : deserialize lt t old (d.drop p) with
      | ok q => left; exact ⟨_, _, rfl, rfl⟩
      | throw e => right; simp [valuesOf, Res.bind]
      | ub => right; simp [valuesOf, Res.bind]
      | diverge => right; simp [valuesOf, Res.bind]
    · simp only [Serializer.read, resetIfNotValid, isIteratorValid, resetIterator, Res.bind, hp, decide_false, Bool.false_eq_true, if_false]
      cases h : deserialize lt t old (d.drop 0) with
      | ok q => left; exact ⟨_, _, rfl, rfl⟩
      | throw e => right; simp [valuesOf, Res.bind]
      | ub => right; simp [valuesOf, Res.bind]
      | diverge => right; simp [valuesOf, Res.bind]
  | dangling => right; simp [Serializer.read, resetIfNotValid, isIteratorValid, valuesOf, Res.bind]

/-- The same for many values. -/
theorem readAll_values (lt : Order) : ∀ (ts : List Ty) (s s' : Serializer), s.data = s'.data → s.cur = s'.cur →
    valuesOf (s.readAll lt ts) = valuesOf (s'.readAll lt ts)
  | [], _, _, _, _ => rfl
  | t :: ts, s, s', hd, hc => by
    simp only [readAll]
    rcases read_values lt s s' hd hc t t.dflt with ⟨v, q, h1, h2⟩ | ⟨h1, h2, h3⟩
    · rw [h1, h2]
      have := readAll_values lt ts { s with cur := q } { s' with cur := q } hd rfl
      simp only [Res.bind]
      cases e1 : readAll lt { s with cur := q } ts <;> cases e2 : readAll lt { s' with cur := q } ts <;> simp_all [valuesOf]
    · cases e1 : s.read lt t t.dflt <;> cases e2 : s'.read lt t t.dflt <;> simp_all [valuesOf, Res.bind]

/-- C91, the part that holds: when nothing was read from a serializer, a copy of it and an object it was assigned to give the same values as the serializer itself. -/
theorem C91_copy_partial (lt : Order) (a b : Serializer) (ts : List Ty) (h : a.cur = .null) :
    valuesOf (a.copy.readAll lt ts) = valuesOf (a.readAll lt ts) ∧ valuesOf ((assign b a).readAll lt ts) = valuesOf (a.readAll lt ts) :=
  ⟨readAll_values lt ts _ _ rfl (by simp [copy, foreign, h]), readAll_values lt ts _ _ rfl (by simp [assign, foreign, h])⟩

/-- C91, the part that holds: behind `resetIterator()` a copy gives the values from the beginning, as the serializer itself behind it. -/
theorem C91_reset_partial (lt : Order) (a b : Serializer) (ts : List Ty) :
    valuesOf (a.copy.resetIterator.readAll lt ts) = valuesOf (a.resetIterator.readAll lt ts) ∧
    valuesOf ((assign b a).resetIterator.readAll lt ts) = valuesOf (a.resetIterator.readAll lt ts) :=
  ⟨readAll_values lt ts _ _ rfl rfl, readAll_values lt ts _ _ rfl rfl⟩

/-- C91, the part that holds: an object that a serializer was moved to continues where the serializer stopped. -/
theorem C91_move_partial (lt : Order) (a : Serializer) (ts : List Ty) : a.move.1.readAll lt ts = a.readAll lt ts := rfl

/-- C91, false of the code: after a value was read, every read from a copy, or from an object the serializer was assigned to, is undefined behaviour, although the
serializer itself could go on. -/
theorem C91_copy_violated (lt : Order) (a b : Serializer) (t : Ty) (old v : t.den) (s : Serializer) (h : a.read lt t old = .ok (v, s)) (u : Ty) (x : u.den) :
    s.copy.read lt u x = .ub ∧ (assign b s).read lt u x = .ub := by
  have hs : ∃ p, s.cur = .at p := by
    rcases read_values lt a a rfl rfl t old with ⟨w, q, h1, _⟩ | ⟨h1, _⟩
    · unfold Serializer.read at h
      cases hr : a.resetIfNotValid with
      | ok s' =>
        rw [hr] at h
        simp only [Res.bind] at h
        cases hc : s'.cur with
        | null => rw [hc] at h; simp at h
        | dangling => rw [hc] at h; simp at h
        | «at» p =>
          rw [hc] at h
          simp only at h
          cases hd : deserialize lt t old (s'.data.drop p) with
          | ok q =>
            rw [hd] at h
            simp only [Res.ok.injEq, Prod.mk.injEq] at h
            exact ⟨_, by rw [← h.2]⟩
          | throw e => rw [hd] at h; simp at h
          | ub => rw [hd] at h; simp at h
          | diverge => rw [hd] at h; simp at h
      | throw e => rw [hr] at h; simp [Res.bind] at h
      | ub => rw [hr] at h; simp [Res.bind] at h
      | diverge => rw [hr] at h; simp [Res.bind] at h
    · exact absurd h (h1 _)
  obtain ⟨p, hp⟩ := hs
  exact ⟨read_dangling lt _ (by simp [copy, foreign, hp]) u x, read_dangling lt _ (by simp [assign, foreign, hp]) u x⟩

/-- C91, false of the code: a serializer that was read from and moved away, and is written to again, cannot be read: its iterator belongs to the other object. -/
theorem C91_moved_from_violated (lt : Order) (grow : Nat → Nat → Nat) (a : Serializer) (p : Nat) (h : a.cur = .at p) (t : Ty) (v old : t.den) :
    ((a.move.2).write grow t v).read lt t old = .ub := by
  apply read_dangling
  have : a.move.2.cur = .dangling := by simp [move, foreign, h]
  unfold Serializer.write
  simp only
  split
  · exact this
  · simp only [this]

/-- C91, the part that holds: `clear()` makes a copy, or an object that was moved away, a serializer as any other. -/
theorem C91_clear_partial (lt : Order) (grow : Nat → Nat → Nat) (a : Serializer) (vs : List ((t : Ty) × t.den)) (hv : ∀ v ∈ vs, Ok lt v.1 v.2) :
    (∃ s', (a.copy.clear.writeAll grow vs).readAll lt (vs.map (·.1)) = .ok (vs, s')) ∧
    ∃ s', (a.move.2.clear.writeAll grow vs).readAll lt (vs.map (·.1)) = .ok (vs, s') :=
  ⟨C32_clear lt grow _ vs hv, C32_clear lt grow _ vs hv⟩

/-- Two numbers, one of them read: the next one can be read from the object, not from a copy of it. -/
example : ∃ s v s', ({ data := [7, 8] } : Serializer).read exOrder (.simple 1) (Ty.dflt _) = .ok (v, s) ∧ s.read exOrder (.simple 1) (Ty.dflt _) = .ok (⟨[8], rfl⟩, s') ∧
    s.copy.read exOrder (.simple 1) (Ty.dflt _) = .ub :=
  ⟨_, _, _, rfl, rfl, (C91_copy_violated exOrder { data := [7, 8] } {} (.simple 1) (Ty.dflt _) _ _ rfl (.simple 1) (Ty.dflt _)).1⟩

example : valuesOf (({ data := [7, 8] } : Serializer).copy.readAll exOrder [.simple 1, .simple 1]) = .ok [⟨.simple 1, ⟨[7], rfl⟩⟩, ⟨.simple 1, ⟨[8], rfl⟩⟩] :=
  (C91_copy_partial exOrder { data := [7, 8] } {} [.simple 1, .simple 1] rfl).1

end GTMesh.Ser
