import Verif.Model.DataAlias
import Verif.Props.DataContainer

/-! # C75: an entry of the container as the initial value -/

namespace GTMesh.Props
open Spec DataCont
variable {α V : Type}
open scoped Classical

/-- Some array after the position `p` gets new entries. -/
def GrowsAfter (c : DataCont α) (sizes : Nat → Nat) (p : Nat) : Prop :=
  ∃ (q d : Nat) (a : List α), p < q ∧ c[q]? = some (d, a) ∧ a.length < sizes d

theorem own_some (sizes : Nat → Nat) (p i cap : Nat) (v : α) (c : DataCont α) : ∀ pos, p < pos →
    allocateOwn sizes p i cap pos (some v) c = .ok (allocateMemory sizes v c) := by
  induction c with
  | nil => intro pos _; rfl
  | cons x r ih =>
    obtain ⟨d, a⟩ := x
    intro pos hp
    have e : (if a.length < sizes d then Res.ok (resize a (sizes d) v) else Res.ok (a.take (sizes d))) = Res.ok (resize a (sizes d) v) := by
      split
      · rfl
      · rename_i h; rw [resize, show sizes d - a.length = 0 by omega]; simp
    rw [allocateOwn]
    simp only [e, Res.bind, show ¬pos = p by omega, false_and, if_false, ih (pos + 1) (by omega), allocateMemory]

theorem own_none (sizes : Nat → Nat) (p i cap : Nat) (v : α) (c : DataCont α) : ∀ pos,
    allocateOwn sizes p i cap pos none c =
      if ∃ (q d : Nat) (a : List α), c[q]? = some (d, a) ∧ a.length < sizes d then .ub else .ok (allocateMemory sizes v c) := by
  induction c with
  | nil => intro pos; simp [allocateOwn, allocateMemory]
  | cons x r ih =>
    obtain ⟨d, a⟩ := x
    intro pos
    rw [allocateOwn]
    by_cases h : a.length < sizes d
    · have h' : ∃ (q d' : Nat) (a' : List α), ((d, a) :: r)[q]? = some (d', a') ∧ a'.length < sizes d' := ⟨0, d, a, rfl, h⟩
      simp only [h, if_true, Res.bind, h']
    · rw [if_neg h]
      simp only [Res.bind, ite_self, ih (pos + 1)]
      have e : (∃ (q d' : Nat) (a' : List α), ((d, a) :: r)[q]? = some (d', a') ∧ a'.length < sizes d') ↔
          ∃ (q d' : Nat) (a' : List α), r[q]? = some (d', a') ∧ a'.length < sizes d' := by
        constructor
        · rintro ⟨q, d', a', h1, h2⟩
          cases q with
          | zero => cases h1; exact absurd h2 h
          | succ q => exact ⟨q, d', a', h1, h2⟩
        · rintro ⟨q, d', a', h1, h2⟩
          exact ⟨q + 1, d', a', h1, h2⟩
      by_cases h' : ∃ (q d' : Nat) (a' : List α), r[q]? = some (d', a') ∧ a'.length < sizes d'
      · rw [if_pos h', if_pos (e.mpr h')]
      · rw [if_neg h', if_neg (mt e.mp h')]
        rw [allocateMemory, resize, show sizes d - a.length = 0 by omega]
        simp

theorem own_at (sizes : Nat → Nat) (p i cap : Nat) (v : α) (c : DataCont α) : ∀ pos k d a, pos + k = p → c[k]? = some (d, a) →
    allocateOwn sizes p i cap pos (some v) c =
      if (cap < sizes d ∨ sizes d ≤ i) ∧ GrowsAfter c sizes k then .ub else .ok (allocateMemory sizes v c) := by
  have e : ∀ (a : List α) d, (if a.length < sizes d then Res.ok (resize a (sizes d) v) else Res.ok (a.take (sizes d))) = Res.ok (resize a (sizes d) v) := by
    intro a d
    split
    · rfl
    · rename_i h; rw [resize, show sizes d - a.length = 0 by omega]; simp
  induction c with
  | nil => intro pos k d a _ h; simp at h
  | cons x r ih =>
    obtain ⟨d0, a0⟩ := x
    intro pos k d a hp hk
    rw [allocateOwn]
    simp only [e, Res.bind]
    cases k with
    | zero =>
      cases hk
      have g : GrowsAfter ((d0, a0) :: r) sizes 0 ↔ ∃ (q d : Nat) (a : List α), r[q]? = some (d, a) ∧ a.length < sizes d := by
        constructor
        · rintro ⟨q, d', a', h0, h1, h2⟩
          cases q with
          | zero => omega
          | succ q => exact ⟨q, d', a', h1, h2⟩
        · rintro ⟨q, d', a', h1, h2⟩
          exact ⟨q + 1, d', a', by omega, h1, h2⟩
      rw [show pos = p by omega]
      by_cases hb : cap < sizes d0 ∨ sizes d0 ≤ i
      · simp only [hb, true_and, if_true, own_none sizes p i cap v, g]
        by_cases hg : ∃ (q d : Nat) (a : List α), r[q]? = some (d, a) ∧ a.length < sizes d
        · simp only [hg, if_true]
        · simp only [hg, if_false, allocateMemory]
      · simp only [hb, and_false, false_and, if_false, own_some sizes p i cap v r (p + 1) (by omega), allocateMemory]
    | succ k =>
      have g : GrowsAfter ((d0, a0) :: r) sizes (k + 1) ↔ GrowsAfter r sizes k := by
        constructor
        · rintro ⟨q, d', a', h0, h1, h2⟩
          cases q with
          | zero => omega
          | succ q => exact ⟨q, d', a', by omega, h1, h2⟩
        · rintro ⟨q, d', a', h0, h1, h2⟩
          exact ⟨q + 1, d', a', by omega, h1, h2⟩
      simp only [show ¬pos = p by omega, false_and, if_false, ih (pos + 1) k d a (by omega) hk, g]
      by_cases hg : (cap < sizes d ∨ sizes d ≤ i) ∧ GrowsAfter r sizes k
      · simp only [hg, and_self, if_true]
      · simp only [hg, if_false, allocateMemory]

/-- C75. Allocation with the entry `i` of the array `p` of the container as the initial value. It does what it does with a copy of that
value, except when the array `p` is moved (its new size exceeds its capacity) or loses the entry, and a later array gets new entries: then
the behaviour is undefined. -/
theorem C75_own_value_partial (c : DataCont α) (m : Mesh V) (p i cap d : Nat) (a : List α) (v : α) (hp : c[p]? = some (d, a)) (hi : a[i]? = some v) :
    (c.allocateDataOwn m p i cap = .ub ↔ (cap < m.numElems d ∨ m.numElems d ≤ i) ∧ GrowsAfter c m.numElems p) ∧
    (¬((cap < m.numElems d ∨ m.numElems d ≤ i) ∧ GrowsAfter c m.numElems p) → c.allocateDataOwn m p i cap = .ok (c.allocateData m v)) := by
  have h0 : (c.byPos p).bind (·[i]?) = some v := by rw [byPos, hp]; exact hi
  have h1 : c.allocateDataOwn m p i cap =
      if (cap < m.numElems d ∨ m.numElems d ≤ i) ∧ GrowsAfter c m.numElems p then .ub else .ok (allocateMemory m.numElems v c) := by
    rw [allocateDataOwn, h0]
    exact own_at m.numElems p i cap v c 0 p d a (by omega) hp
  rw [h1]
  by_cases h : (cap < m.numElems d ∨ m.numElems d ≤ i) ∧ GrowsAfter c m.numElems p
  · simp [h]
  · simp only [h, if_false, not_false_eq_true, true_implies, iff_false]
    exact ⟨by simp, rfl⟩

/-- C75. A container with one array, or a value of the last array: always as with a copy. -/
theorem C75_last_array (c : DataCont α) (m : Mesh V) (i cap d : Nat) (a : List α) (v : α) (p : Nat) (hl : p + 1 = c.length)
    (hp : c[p]? = some (d, a)) (hi : a[i]? = some v) : c.allocateDataOwn m p i cap = .ok (c.allocateData m v) := by
  refine (C75_own_value_partial c m p i cap d a v hp hi).2 ?_
  rintro ⟨_, q, d', a', h1, h2, _⟩
  have := (List.getElem?_eq_some_iff.mp h2).1
  omega

/-- C75 is violated: two arrays for the cells and vertices, allocated for a smaller mesh; the first array grows beyond its capacity, and the
value for the second one is read from the released memory. -/
theorem C75_violated (m : Mesh V) (d d' : Nat) (h : 1 < m.numElems d) (h' : 1 < m.numElems d') (v : α) :
    DataCont.allocateDataOwn [(d, [v]), (d', [v])] m 0 0 1 = .ub :=
  (C75_own_value_partial _ m 0 0 1 d [v] v rfl rfl).1.mpr ⟨.inl h, 1, d', [v], by omega, rfl, h'⟩

/-- C75 is violated for a smaller mesh, too: the entry is destroyed by the first `resize`. -/
theorem C75_shrink_violated (m : Mesh V) (d d' : Nat) (h : m.numElems d = 1) (h' : 0 < m.numElems d') (v w : α) (cap : Nat) :
    DataCont.allocateDataOwn [(d, [v, w]), (d', [])] m 0 1 cap = .ub :=
  (C75_own_value_partial _ m 0 1 cap d [v, w] w rfl rfl).1.mpr ⟨.inr (by omega), 1, d', [], by omega, rfl, h'⟩

/-- A mesh with two vertices and one edge: with a capacity of one the reference dangles, with a capacity of two it does not. -/
example : DataCont.allocateDataOwn [(0, ["x"]), (1, [])] ({ dim := 2, vertices := [(), ()], edges := [{ a := 0, b := 1 }] } : Mesh Unit) 0 0 1 = .ub ∧
    DataCont.allocateDataOwn [(0, ["x"]), (1, [])] ({ dim := 2, vertices := [(), ()], edges := [{ a := 0, b := 1 }] } : Mesh Unit) 0 0 2 =
      .ok [(0, ["x", "x"]), (1, ["x"])] := by decide

end GTMesh.Props
