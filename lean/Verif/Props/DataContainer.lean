import Verif.Model.DataContainer
import Verif.Props.Meta
import Mathlib.Order.Nat
import Mathlib.Data.Nat.Find

/-! # C17: mesh data container -/

namespace GTMesh.Props
open GTMesh GTMesh.Spec DataCont

variable {α V : Type}

theorem resize_length (l : List α) (n : Nat) (v : α) : (resize l n v).length = n := by
  simp [resize]; omega

theorem resize_get (l : List α) (n : Nat) (v : α) (i : Nat) (h : i < n) :
    (resize l n v)[i]? = some (l[i]?.getD v) := by
  unfold resize
  rw [List.getElem?_append]
  split
  · rename_i hi
    simp at hi
    rw [List.getElem?_take_of_lt h]; rw [List.getElem?_eq_getElem (by omega)]; rfl
  · rename_i hi
    simp at hi
    rw [List.getElem?_replicate, if_pos (by simp; omega), List.getElem?_eq_none (by omega)]; rfl

theorem allocateMemory_get (sizes : Nat → Nat) (init : α) (c : DataCont α) (p : Nat) :
    (allocateMemory sizes init c)[p]? = c[p]?.map fun x => (x.1, resize x.2 (sizes x.1) init) := by
  induction c generalizing p with
  | nil => simp [allocateMemory]
  | cons x r ih => cases p <;> simp [allocateMemory, ih]

/-- C17. After `allocateData(mesh, init)`, whatever the container held before: the dimensions are unchanged,
each array has one entry per mesh element of its dimension, entries that existed keep their value and all
others have the initial value. -/
theorem C17_allocate (c : DataCont α) (m : Mesh V) (init : α) :
    (c.allocateData m init).dims = c.dims ∧
    ∀ (p d : Nat) (old : List α), c[p]? = some (d, old) → ∃ new : List α, (c.allocateData m init)[p]? = some (d, new) ∧
      new.length = m.numElems d ∧
      ∀ i, i < m.numElems d → new[i]? = some (if h : i < old.length then old[i] else init) := by
  constructor
  · apply List.ext_getElem?
    intro p
    simp only [dims, List.getElem?_map, allocateData, allocateMemory_get, Option.map_map]
    rfl
  · intro p d old h
    refine ⟨resize old (m.numElems d) init, ?_, resize_length _ _ _, fun i hi => ?_⟩
    · rw [allocateData, allocateMemory_get, h]; rfl
    · rw [resize_get _ _ _ _ hi]
      split
      · rename_i hl; simp [hl]
      · rename_i hl; rw [List.getElem?_eq_none (by omega)]; rfl

example : DataCont.allocateData [(0, [7, 8]), (2, [5, 6, 9]), (0, [])]
      ({ dim := 2, vertices := [0, 0, 0, 0], cells := [{}] } : Mesh Nat) 1
    = [(0, [7, 8, 1, 1]), (2, [5]), (0, [1, 1, 1, 1])] := by decide

/-- C17. A freshly constructed container holds the initial value everywhere. -/
theorem C17_construct (dims : List Nat) (m : Mesh V) (init : α) (p d : Nat) (h : dims[p]? = some d) :
    (DataCont.allocateData (dims.map fun d => (d, [])) m init).byPos p
      = some (List.replicate (m.numElems d) init) := by
  unfold byPos allocateData
  rw [allocateMemory_get, List.getElem?_map, h]
  simp [resize]

/-- C17, the version with one type per array: every array is resized for its dimension, keeps its old entries, and is filled with its
own initial value. -/
theorem C17_allocate_tuple (c : DataCont α) (m : Mesh V) (inits : List α) (hl : inits.length = c.length) :
    (DataCont.allocateMemoryT m.numElems inits c).dims = c.dims ∧
    ∀ (p d : Nat) (old : List α) (init : α), c[p]? = some (d, old) → inits[p]? = some init →
      ∃ new : List α, (DataCont.allocateMemoryT m.numElems inits c)[p]? = some (d, new) ∧ new.length = m.numElems d ∧
        ∀ i, i < m.numElems d → new[i]? = some (if h : i < old.length then old[i] else init) := by
  induction c generalizing inits with
  | nil =>
    cases inits with
    | nil => exact ⟨rfl, by simp⟩
    | cons v vs => simp at hl
  | cons x c ih =>
    obtain ⟨d0, a⟩ := x
    cases inits with
    | nil => simp at hl
    | cons v vs =>
      obtain ⟨h1, h2⟩ := ih vs (by simpa using hl)
      rw [allocateMemoryT]
      refine ⟨by simp only [dims, List.map_cons] at h1 ⊢; rw [h1], ?_⟩
      intro p d old init hp hv
      cases p with
      | zero =>
        simp only [List.getElem?_cons_zero, Option.some.injEq, Prod.mk.injEq] at hp hv
        obtain ⟨rfl, rfl⟩ := hp
        subst hv
        refine ⟨_, rfl, resize_length _ _ _, fun i hi => ?_⟩
        rw [resize_get _ _ _ _ hi]
        split <;> simp_all
      | succ p =>
        rw [List.getElem?_cons_succ] at hp hv ⊢
        exact h2 p d old init hp hv

example : DataCont.allocateMemoryT (Mesh.numElems ({ dim := 2, vertices := [0, 0, 0, 0], cells := [{}] } : Mesh Nat)) [1, 2, 3]
    [(0, [7, 8]), (2, [5, 6, 9]), (0, [])] = [(0, [7, 8, 1, 1]), (2, [5]), (0, [3, 3, 3, 3])] := by decide

/-- C17. Allocating again for a mesh of the same size changes nothing. -/
theorem C17_idempotent (c : DataCont α) (m : Mesh V) (init init' : α) :
    (c.allocateData m init).allocateData m init' = c.allocateData m init := by
  apply List.ext_getElem?
  intro p
  simp only [allocateData, allocateMemory_get, Option.map_map]
  cases c[p]? with
  | none => rfl
  | some x =>
    simp only [Option.map_some, Function.comp, Option.some.injEq, Prod.mk.injEq, true_and]
    have := resize_length x.2 (m.numElems x.1) init
    apply List.ext_getElem?
    intro i
    by_cases hi : i < m.numElems x.1
    · rw [resize_get _ _ _ _ hi, resize_get _ _ _ _ hi]; rfl
    · rw [List.getElem?_eq_none (by rw [resize_length]; omega), List.getElem?_eq_none (by rw [resize_length]; omega)]

/-- C17. `getDataByDim<d>` is the first array declared with the dimension `d`. -/
theorem C17_by_dim (c : DataCont α) (d : Nat) (a : List α) :
    c.byDim d = some a ↔
      ∃ p : Nat, c[p]? = some (d, a) ∧ ∀ q, q < p → ∀ b, c[q]? ≠ some (d, b) := by
  unfold byDim
  rw [Option.bind_eq_some_iff]
  constructor
  · rintro ⟨p, h1, h2⟩
    rw [C43_dimension_pos] at h1
    obtain ⟨⟨d', a'⟩, h3, h4⟩ := Option.map_eq_some_iff.mp h2
    simp at h4; subst h4
    have h5 := h1.1
    rw [dims, List.getElem?_map, h3] at h5
    simp at h5; subst h5
    refine ⟨p, h3, fun q hq b hb => h1.2 q hq ?_⟩
    rw [dims, List.getElem?_map, hb]; rfl
  · rintro ⟨p, h1, h2⟩
    refine ⟨p, ?_, by simp [byPos, h1]⟩
    rw [C43_dimension_pos]
    refine ⟨by rw [dims, List.getElem?_map, h1]; rfl, fun q hq hd => ?_⟩
    rw [dims, List.getElem?_map] at hd
    obtain ⟨⟨d', b⟩, h3, h4⟩ := Option.map_eq_some_iff.mp hd
    simp at h4; subst h4
    exact h2 q hq b h3

example : DataCont.byDim [(3, [1]), (2, [5, 6]), (2, [9])] 2 = some [5, 6] := by decide

/-- C17. Access by element: the entry of the first array of its dimension at the index of the element;
`at` throws out of range, `operator[]` is undefined behaviour there. -/
theorem C17_element_access (c : DataCont α) (d i : Nat) (a : List α) (h : c.byDim d = some a) :
    (∀ v, a[i]? = some v → c.atElem d i = some (.ok v) ∧ c.idxElem d i = some (.ok v)) ∧
    (a.length ≤ i → c.atElem d i = some (.throw .outOfRange) ∧ c.idxElem d i = some .ub) := by
  unfold atElem idxElem
  rw [h]
  refine ⟨fun v hv => by simp [hv], fun hi => ?_⟩
  simp [Res.at', Res.idx, List.getElem?_eq_none hi]

/-- C17. A write changes one entry of one array and nothing else. -/
theorem C17_write_isolated (c : DataCont α) (p i : Nat) (v : α) :
    (c.writePos p i v).dims = c.dims ∧
    (∀ q, q ≠ p → (c.writePos p i v)[q]? = c[q]?) ∧
    (∀ d a, c[p]? = some (d, a) → ∃ a', (c.writePos p i v)[p]? = some (d, a') ∧ a'.length = a.length ∧
      (i < a.length → a'[i]? = some v) ∧ ∀ j, j ≠ i → a'[j]? = a[j]?) := by
  refine ⟨?_, ?_, ?_⟩
  · apply List.ext_getElem?
    intro q
    simp only [dims, writePos, List.getElem?_map, List.getElem?_modify]
    cases c[q]? with
    | none => rfl
    | some x => by_cases h : p = q <;> simp [h]
  · intro q hq
    simp [writePos, List.getElem?_modify, Ne.symm hq]
  · intro d a h
    refine ⟨a.set i v, by simp [writePos, List.getElem?_modify, h], by simp, fun hi => by simp [hi], fun j hj => ?_⟩
    rw [List.getElem?_set_ne (Ne.symm hj)]

/-- C17. What is written through an element is read back through it, and no other element sees it. -/
theorem C17_read_after_write (c : DataCont α) (d i : Nat) (v : α) (a : List α) (h : c.byDim d = some a)
    (hi : i < a.length) :
    (c.writeElem d i v).atElem d i = some (.ok v) ∧
    ∀ d' j, (d', j) ≠ (d, i) → (c.writeElem d i v).atElem d' j = c.atElem d' j := by
  have hp : ∃ p, dimensionPos d 0 c.dims = some p ∧ c.byPos p = some a := by
    unfold byDim at h; exact Option.bind_eq_some_iff.mp h
  obtain ⟨p, h1, h2⟩ := hp
  obtain ⟨⟨d0, a0⟩, h3, h4⟩ := Option.map_eq_some_iff.mp h2
  simp at h4; subst h4
  have hdim := ((C43_dimension_pos _ _ _).mp h1).1
  rw [dims, List.getElem?_map, h3] at hdim
  simp at hdim; subst hdim
  have hw : c.writeElem d0 i v = c.writePos p i v := by unfold writeElem; rw [h1]
  obtain ⟨w1, w2, w3⟩ := C17_write_isolated c p i v
  obtain ⟨a', x1, x2, x3, x4⟩ := w3 d0 a0 h3
  rw [hw]
  have hby : (c.writePos p i v).byDim d0 = some a' := by
    unfold byDim; rw [w1, h1]; simp [byPos, x1]
  refine ⟨((C17_element_access _ _ _ _ hby).1 v (x3 hi)).1, ?_⟩
  intro d' j hne
  unfold atElem
  by_cases hd : d' = d0
  · subst hd
    have hj : j ≠ i := fun h => hne (by rw [h])
    rw [hby, h]
    simp only [Option.map_some, Res.at', x4 j hj]
  · have : (c.writePos p i v).byDim d' = c.byDim d' := by
      unfold byDim
      rw [w1]
      cases hq : dimensionPos d' 0 c.dims with
      | none => rfl
      | some q =>
        have hqp : q ≠ p := by
          rintro rfl
          have := ((C43_dimension_pos _ _ _).mp hq).1
          rw [((C43_dimension_pos _ _ _).mp h1).1] at this
          simp at this; exact hd this.symm
        simp [byPos, w2 q hqp]
    rw [this]

example : (DataCont.writeElem [(3, [1]), (2, [5, 6]), (2, [9])] 2 1 0) = [(3, [1]), (2, [5, 0]), (2, [9])] := by
  decide

/-- C17. Allocation after another container gives the same result as allocation for the mesh that container
was allocated for. -/
theorem C17_allocate_like {β : Type} (c : DataCont α) (o : DataCont β) (m : Mesh V) (init : α) (b : β)
    (hd : ∀ d ∈ c.dims, d ∈ o.dims) :
    DataCont.allocateLike init (o.allocateData m b) c = some (c.allocateData m init) := by
  have hby : ∀ d, d ∈ o.dims → ∃ a, (o.allocateData m b).byDim d = some a ∧ a.length = m.numElems d := by
    intro d hdo
    obtain ⟨p, hp1, hp2⟩ : ∃ p : Nat, o.dims[p]? = some d ∧ ∀ q : Nat, q < p → o.dims[q]? ≠ some d := by
      classical
      have hex : ∃ p, o.dims[p]? = some d := List.getElem?_of_mem hdo
      exact ⟨Nat.find hex, Nat.find_spec hex, fun q hq => Nat.find_min hex hq⟩
    have hpos : dimensionPos d 0 o.dims = some p := (C43_dimension_pos _ _ _).mpr ⟨hp1, hp2⟩
    obtain ⟨⟨d', a⟩, h3, h4⟩ := Option.map_eq_some_iff.mp (by rw [dims, List.getElem?_map] at hp1; exact hp1)
    simp at h4; subst h4
    obtain ⟨h5, h6⟩ := C17_allocate o m b
    obtain ⟨new, n1, n2, -⟩ := h6 p d' a h3
    refine ⟨new, ?_, n2⟩
    unfold byDim
    rw [h5, hpos]
    simp [byPos, n1]
  induction c with
  | nil => rfl
  | cons x r ih =>
    obtain ⟨d, a⟩ := x
    obtain ⟨a', h1, h2⟩ := hby d (hd d (by simp [dims]))
    rw [allocateLike, h1]
    simp only [Option.bind_some]
    rw [ih (fun e he => hd e (by simp only [dims, List.map_cons, List.mem_cons] at he ⊢; exact Or.inr he))]
    simp [allocateData, allocateMemory, h2]

end GTMesh.Props
