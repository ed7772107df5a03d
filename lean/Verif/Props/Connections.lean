import Verif.Proofs.Connections
import Verif.Props.Apply

/-! # C11, C12, C13: connections and neighborhoods -/

namespace GTMesh.Props
open GTMesh GTMesh.Spec Std'

variable {V : Type}

/-- Incidence does not depend on the direction in which it is read. -/
theorem incident_comm (m : Mesh V) (bd : Idx → List Idx) (S T : Nat) (s t : Idx) :
    Incident m bd S T s t ↔ Incident m bd T S t s := by
  unfold Incident
  rcases Nat.lt_trichotomy S T with h | h | h
  · rw [if_neg (by omega), if_pos (by omega)]
  · subst h
    simp only [Nat.le_refl, if_true, Nat.sub_self]
    constructor <;> (intro h; cases h; exact .refl _)
  · rw [if_pos (by omega), if_neg (by omega)]

/-- C11. On a valid mesh `MeshConnections<S,T,ORDER_ASCEND>` returns one list per element of dimension
`S`; the list of `s` is strictly increasing and has precisely the existing `T`-elements incident with `s`. -/
theorem C11_ascending (m : Mesh V) (bd : Idx → List Idx) (hv : ValidMesh m bd) (S T : Nat)
    (hS : S ≤ m.dim) (hT : T ≤ m.dim) :
    ∃ r, m.connectionsAsc S T = .ok r ∧ r.length = m.numElems S ∧
      ∀ s l, r[s]? = some l → StrictlyIncreasing l ∧
        ∀ t, t ∈ l ↔ (t < m.numElems T ∧ Incident m bd S T s t) := by
  obtain ⟨calls, hc, hm⟩ := C10_calls_are_incidence m bd hv S T hS hT
  by_cases h : S < T
  · unfold Mesh.connectionsAsc
    rw [if_pos h, hc]
    simp only [Res.bind]
    rw [scatter_ok _ _ _ (by intro p hp; simpa using ((hm p.1 p.2).mp hp).1)]
    refine ⟨_, rfl, by simp, ?_⟩
    intro s l hl
    rw [List.getElem?_mapIdx] at hl
    obtain ⟨b, hb, rfl⟩ := Option.map_eq_some_iff.mp hl
    rw [List.getElem?_replicate] at hb
    split at hb
    · rename_i hs
      cases hb
      refine ⟨insertAll_sorted _, fun t => ?_⟩
      have := @mem_insertAll ((calls.filter fun p => p.1 == s).map (·.2)) t
      unfold insertAll at this
      rw [this, List.mem_map]
      constructor
      · rintro ⟨⟨a, b⟩, h1, rfl⟩
        rw [List.mem_filter] at h1
        have h2 := h1.2
        simp at h2; subst h2
        exact ((hm _ _).mp h1.1).2
      · rintro ⟨h1, h2⟩
        exact ⟨(s, t), List.mem_filter.mpr ⟨(hm s t).mpr ⟨hs, h1, h2⟩, by simp⟩, rfl⟩
    · simp at hb
  · unfold Mesh.connectionsAsc
    rw [if_neg h]
    have hTS : T ≤ S := by omega
    rw [forEach_ok (f := fun i => insertAll (descend m bd T (S - T) i))
      (by
        intro i hi
        rw [List.mem_range] at hi
        rw [(C10_apply_one m bd hv S T hS hTS i hi).1]; rfl)]
    refine ⟨_, rfl, by simp, ?_⟩
    intro s l hl
    rw [List.getElem?_map] at hl
    obtain ⟨i, hi, rfl⟩ := Option.map_eq_some_iff.mp hl
    obtain ⟨hlt, he⟩ := List.getElem?_eq_some_iff.mp hi
    simp at he; subst he
    simp at hlt
    refine ⟨insertAll_sorted _, fun t => ?_⟩
    rw [mem_insertAll, (C10_apply_one m bd hv S T hS hTS s hlt).2]
    constructor
    · intro hi
      refine ⟨?_, hi⟩
      exact Mesh.descend_lt hv (by omega) (by rw [show T + (S - T) = S by omega]; exact hlt)
        (((C10_apply_one m bd hv S T hS hTS s hlt).2 t).mpr hi)
    · exact And.right

/-- C11. The connections in the two directions are transposes of each other. -/
theorem C11_transpose (m : Mesh V) (bd : Idx → List Idx) (hv : ValidMesh m bd) (S T : Nat)
    (hS : S ≤ m.dim) (hT : T ≤ m.dim) :
    ∃ r r', m.connectionsAsc S T = .ok r ∧ m.connectionsAsc T S = .ok r' ∧
      ∀ s t : Idx, (∃ l, r[s]? = some l ∧ t ∈ l) ↔ (∃ l, r'[t]? = some l ∧ s ∈ l) := by
  obtain ⟨r, h1, h2, h3⟩ := C11_ascending m bd hv S T hS hT
  obtain ⟨r', h1', h2', h3'⟩ := C11_ascending m bd hv T S hT hS
  refine ⟨r, r', h1, h1', fun s t => ?_⟩
  have key : ∀ {S T : Nat} {r r' : List (List Idx)} (_ : r.length = m.numElems S) (_ : r'.length = m.numElems T)
      (_ : ∀ s l, r[s]? = some l → StrictlyIncreasing l ∧
        ∀ t, t ∈ l ↔ (t < m.numElems T ∧ Incident m bd S T s t))
      (_ : ∀ s l, r'[s]? = some l → StrictlyIncreasing l ∧
        ∀ t, t ∈ l ↔ (t < m.numElems S ∧ Incident m bd T S s t)) (s t : Idx),
      (∃ l, r[s]? = some l ∧ t ∈ l) → (∃ l, r'[t]? = some l ∧ s ∈ l) := by
    intro S T r r' a1 a2 a3 a4 s t ⟨l, hl, ht⟩
    obtain ⟨b1, b2⟩ := ((a3 s l hl).2 t).mp ht
    have hlt : t < r'.length := by omega
    refine ⟨r'[t], by simp [hlt], ((a4 t r'[t] (by simp [hlt])).2 s).mpr ⟨?_, (incident_comm ..).mp b2⟩⟩
    have := (List.getElem?_eq_some_iff.mp hl).1; omega
  exact ⟨key h2 h2' h3 h3' s t, key h2' h2 h3' h3 t s⟩

example : ∃ r, twoTets.connectionsAsc 1 3 = .ok r ∧ r[1]? = some [0, 1] ∧ r[0]? = some [0] :=
  ⟨_, rfl, by decide, by decide⟩

/-- C12. `MeshConnections<S,T,ORDER_ORIGINAL>` returns one list per `S`-element: the `T`-elements for
which the functor of `MeshApply<S,T>` is called together with `s`, in the order of the first call. -/
theorem C12_original (m : Mesh V) (bd : Idx → List Idx) (hv : ValidMesh m bd) (S T : Nat)
    (hS : S ≤ m.dim) (hT : T ≤ m.dim) :
    ∃ calls r, m.apply S T = .ok calls ∧ m.connectionsOrig S T = .ok r ∧ r.length = m.numElems S ∧
      ∀ s l, r[s]? = some l →
        l = firstOcc ((calls.filter fun p => p.1 == s).map (·.2)) ∧ NoRepetition l ∧
        ∀ t, t ∈ l ↔ (t < m.numElems T ∧ Incident m bd S T s t) := by
  obtain ⟨calls, hc, hm⟩ := C10_calls_are_incidence m bd hv S T hS hT
  refine ⟨calls, (List.range (m.numElems S)).map fun s =>
    firstOcc ((calls.filter fun p => p.1 == s).map (·.2)), hc, ?_, by simp, ?_⟩
  · unfold Mesh.connectionsOrig
    rw [hc]
    simp only [Res.bind]
    rw [scatter_ok _ _ _ (by intro p hp; simpa using ((hm p.1 p.2).mp hp).1)]
    simp only []
    have e : (List.replicate (m.numElems S) ([] : List (Idx × Nat))).mapIdx (fun s b =>
        ((calls.filter fun p => p.1 == s).map (·.2)).foldl (fun b c => insertNumbered c b) b) =
        (List.range (m.numElems S)).map fun s =>
          ((calls.filter fun p => p.1 == s).map (·.2)).foldl (fun b c => insertNumbered c b) [] := by
      apply List.ext_getElem <;> simp
    rw [e]
    have : ∀ l : List Nat, forEach layout (l.map fun s =>
          ((calls.filter fun p => p.1 == s).map (·.2)).foldl (fun b c => insertNumbered c b) []) =
        .ok (l.map fun s => firstOcc ((calls.filter fun p => p.1 == s).map (·.2))) := by
      intro l
      induction l with
      | nil => rfl
      | cons x xs ih =>
        simp only [List.map_cons, forEach, layout_insertNumbered, Res.bind, ih]
    exact this _
  · intro s l hl
    rw [List.getElem?_map] at hl
    obtain ⟨i, hi, rfl⟩ := Option.map_eq_some_iff.mp hl
    obtain ⟨hlt, he⟩ := List.getElem?_eq_some_iff.mp hi
    simp at he; subst he
    simp at hlt
    refine ⟨rfl, firstOcc_noRep _, fun t => ?_⟩
    rw [mem_firstOcc, List.mem_map]
    constructor
    · rintro ⟨⟨a, b⟩, h1, rfl⟩
      rw [List.mem_filter] at h1
      have h2 := h1.2
      simp at h2; subst h2
      exact ((hm _ _).mp h1.1).2
    · rintro ⟨h1, h2⟩
      exact ⟨(s, t), List.mem_filter.mpr ⟨(hm s t).mpr ⟨hlt, h1, h2⟩, by simp⟩, rfl⟩

/-- C12. The two orders return the same elements for every start element. -/
theorem C12_same_members (m : Mesh V) (bd : Idx → List Idx) (hv : ValidMesh m bd) (S T : Nat)
    (hS : S ≤ m.dim) (hT : T ≤ m.dim) :
    ∃ r r', m.connectionsOrig S T = .ok r ∧ m.connectionsAsc S T = .ok r' ∧ r.length = r'.length ∧
      ∀ (s : Idx) l l', r[s]? = some l → r'[s]? = some l' → SameMembers l l' := by
  obtain ⟨_, r, -, h1, h2, h3⟩ := C12_original m bd hv S T hS hT
  obtain ⟨r', h1', h2', h3'⟩ := C11_ascending m bd hv S T hS hT
  exact ⟨r, r', h1, h1', by omega, fun s l l' hl hl' t => by rw [(h3 s l hl).2.2, (h3' s l' hl').2]⟩

example : ∃ r, twoTets.connectionsOrig 3 1 = .ok r ∧ r[0]? = some [0, 1, 2, 4, 3, 5] := ⟨_, rfl, by decide⟩

/-! ## C13 -/

/-- Two elements are neighbors: they share an element of the connecting dimension. -/
def Share (m : Mesh V) (bd : Idx → List Idx) (S C T : Nat) (s t : Idx) : Prop :=
  ∃ c, c < m.numElems C ∧ Incident m bd S C s c ∧ Incident m bd C T c t

private theorem visits_ok {m : Mesh V} {bd : Idx → List Idx} {S C T : Nat} {first second : List (List Idx)}
    (h1 : first.length = m.numElems S) (h2 : second.length = m.numElems C)
    (m1 : ∀ s l, first[s]? = some l → ∀ t, t ∈ l ↔ (t < m.numElems C ∧ Incident m bd S C s t))
    (m2 : ∀ s l, second[s]? = some l → ∀ t, t ∈ l ↔ (t < m.numElems T ∧ Incident m bd C T s t))
    (s : Idx) (hs : s < m.numElems S) :
    ∃ ns, Mesh.neighborVisits S T first second s = .ok ns ∧
      ∀ t, t ∈ ns ↔ (t < m.numElems T ∧ Share m bd S C T s t ∧ ¬ (S = T ∧ s = t)) := by
  have hs' : s < first.length := by omega
  have hf : first[s]? = some first[s] := by simp [hs']
  have hcs := m1 s first[s] hf
  have hin : ∀ c ∈ first[s], Res.at' second c = .ok (second[c]?.getD []) := by
    intro c hc
    have : c < second.length := by have := (hcs c).mp hc; omega
    simp [this]
  refine ⟨_, by
    unfold Mesh.neighborVisits
    rw [show Res.at' first s = .ok first[s] by simp [hs']]
    simp only [Res.bind]
    rw [forAll_ok hin], fun t => ?_⟩
  simp only [List.mem_filter, List.mem_flatMap]
  constructor
  · rintro ⟨⟨c, hc, ht⟩, hn⟩
    have hc2 := (hcs c).mp hc
    have hlt : c < second.length := by omega
    have hsec : second[c]? = some second[c] := by simp [hlt]
    rw [hsec] at ht
    have ht2 := (m2 c _ hsec t).mp ht
    refine ⟨ht2.1, ⟨c, hc2.1, hc2.2, ht2.2⟩, ?_⟩
    rintro ⟨rfl, rfl⟩; simp at hn
  · rintro ⟨ht, ⟨c, hc, i1, i2⟩, hn⟩
    have hlt : c < second.length := by omega
    have hsec : second[c]? = some second[c] := by simp [hlt]
    refine ⟨⟨c, (hcs c).mpr ⟨hc, i1⟩, ?_⟩, ?_⟩
    · rw [hsec]; exact (m2 c _ hsec t).mpr ⟨ht, i2⟩
    · simp only [Bool.not_eq_true', Bool.and_eq_false_iff, decide_eq_false_iff_not]
      by_cases hST : S = T
      · exact Or.inr fun h => hn ⟨hST, h⟩
      · exact Or.inl hST

/-- C13. `MeshNeighborhood<S,C,T>` (both orders) returns one list per `S`-element, without repetition,
with precisely the `T`-elements that share a `C`-element with `s` - except `s` itself when `S = T`; the
ascending variant is strictly increasing. -/
theorem C13_neighborhood (m : Mesh V) (bd : Idx → List Idx) (hv : ValidMesh m bd) (S C T : Nat)
    (hS : S ≤ m.dim) (hC : C ≤ m.dim) (hT : T ≤ m.dim) :
    (∃ r, m.neighborsAsc S C T = .ok r ∧ r.length = m.numElems S ∧
      ∀ s l, r[s]? = some l → StrictlyIncreasing l ∧
        ∀ t, t ∈ l ↔ (t < m.numElems T ∧ Share m bd S C T s t ∧ ¬ (S = T ∧ s = t))) ∧
    (∃ r, m.neighborsOrig S C T = .ok r ∧ r.length = m.numElems S ∧
      ∀ s l, r[s]? = some l → NoRepetition l ∧
        ∀ t, t ∈ l ↔ (t < m.numElems T ∧ Share m bd S C T s t ∧ ¬ (S = T ∧ s = t))) := by
  constructor
  · obtain ⟨f, f1, f2, f3⟩ := C11_ascending m bd hv S C hS hC
    obtain ⟨g, g1, g2, g3⟩ := C11_ascending m bd hv C T hC hT
    have hvis := fun s hs => visits_ok (m := m) (bd := bd) (S := S) (C := C) (T := T) f2 g2
      (fun s l h => (f3 s l h).2) (fun s l h => (g3 s l h).2) s hs
    choose! ns hns using hvis
    refine ⟨(List.range (m.numElems S)).map fun i => insertAll (ns i), ?_, by simp, ?_⟩
    · unfold Mesh.neighborsAsc
      rw [f1, g1]
      simp only [Res.bind]
      apply forEach_ok
      intro i hi
      rw [List.mem_range] at hi
      rw [(hns i hi).1]
    · intro s l hl
      rw [List.getElem?_map] at hl
      obtain ⟨i, hi, rfl⟩ := Option.map_eq_some_iff.mp hl
      obtain ⟨hlt, he⟩ := List.getElem?_eq_some_iff.mp hi
      simp at he; subst he
      simp at hlt
      exact ⟨insertAll_sorted _, fun t => by rw [mem_insertAll, (hns s hlt).2]⟩
  · obtain ⟨fc, f, -, f1, f2, f3⟩ := C12_original m bd hv S C hS hC
    obtain ⟨gc, g, -, g1, g2, g3⟩ := C12_original m bd hv C T hC hT
    have hvis := fun s hs => visits_ok (m := m) (bd := bd) (S := S) (C := C) (T := T) f2 g2
      (fun s l h => (f3 s l h).2.2) (fun s l h => (g3 s l h).2.2) s hs
    choose! ns hns using hvis
    refine ⟨(List.range (m.numElems S)).map fun i => firstOcc (ns i), ?_, by simp, ?_⟩
    · unfold Mesh.neighborsOrig
      rw [f1, g1]
      simp only [Res.bind]
      apply forEach_ok
      intro i hi
      rw [List.mem_range] at hi
      rw [(hns i hi).1]
      exact layout_insertNumbered _
    · intro s l hl
      rw [List.getElem?_map] at hl
      obtain ⟨i, hi, rfl⟩ := Option.map_eq_some_iff.mp hl
      obtain ⟨hlt, he⟩ := List.getElem?_eq_some_iff.mp hi
      simp at he; subst he
      simp at hlt
      exact ⟨firstOcc_noRep _, fun t => by rw [mem_firstOcc, (hns s hlt).2]⟩

/-- C13. For `S = T` the neighborhood is symmetric and no element is its own neighbor. -/
theorem C13_symmetric (m : Mesh V) (bd : Idx → List Idx) (hv : ValidMesh m bd) (S C : Nat)
    (hS : S ≤ m.dim) (hC : C ≤ m.dim) :
    ∃ r, m.neighborsAsc S C S = .ok r ∧
      (∀ (s : Idx) l, r[s]? = some l → s ∉ l) ∧
      (∀ s t : Idx, (∃ l, r[s]? = some l ∧ t ∈ l) → (∃ l, r[t]? = some l ∧ s ∈ l)) := by
  obtain ⟨⟨r, h1, h2, h3⟩, -⟩ := C13_neighborhood m bd hv S C S hS hC hS
  refine ⟨r, h1, ?_, ?_⟩
  · intro s l hl hs
    exact (((h3 s l hl).2 s).mp hs).2.2 ⟨rfl, rfl⟩
  · rintro s t ⟨l, hl, ht⟩
    obtain ⟨a, ⟨c, b1, b2, b3⟩, d⟩ := ((h3 s l hl).2 t).mp ht
    have hlt : t < r.length := by omega
    have hs : s < m.numElems S := by have := (List.getElem?_eq_some_iff.mp hl).1; omega
    refine ⟨r[t], by simp [hlt], ((h3 t _ (by simp [hlt])).2 s).mpr ⟨hs, ⟨c, b1, ?_, ?_⟩, ?_⟩⟩
    · exact (incident_comm ..).mp b3
    · exact (incident_comm ..).mp b2
    · rintro ⟨-, rfl⟩; exact d ⟨rfl, rfl⟩

example : ∃ r, twoTets.neighborsAsc 3 2 3 = .ok r ∧ r[0]? = some [1] ∧ r[1]? = some [0] :=
  ⟨_, rfl, by decide, by decide⟩

end GTMesh.Props
