import Verif.Proofs.Coloring
import Verif.Props.Connections

/-! # C14, C15, C16: coloring -/

namespace GTMesh.Props
open GTMesh GTMesh.Spec Std'

variable {V : Type}

/-- The coloring is proper: two different elements of dimension `S` that share an element of dimension
`C` have different colors. -/
def ProperColoring (m : Mesh V) (bd : Idx → List Idx) (S C : Nat) (colors : List Nat) : Prop :=
  ∀ (s t k : Nat), s < m.numElems S → t < m.numElems S → s ≠ t → Share m bd S C S s t →
    colors[s]? = some k → colors[t]? ≠ some k

/-- The visits made by the coloring of element `s`, whichever of the two loops is used. -/
private theorem greedy_setup (m : Mesh V) (bd : Idx → List Idx) (hv : ValidMesh m bd) (S C : Nat)
    (hS : S ≤ m.dim) (hC : C ≤ m.dim) :
    ∃ vs : Idx → List Idx,
      (∀ s, s < m.numElems S → ∀ c, c ∈ vs s ↔ (c < m.numElems C ∧ Incident m bd S C s c)) ∧
      ∃ colors, m.colorGreedy S C = .ok colors ∧ colors.length = m.numElems S ∧
        ∀ (t k : Nat), colors[t]? = some k → FirstFit vs colors t k := by
  by_cases h : C < S
  · have hvs : ∀ s, s < m.numElems S → ∀ c, c ∈ descend m bd C (S - C) s ↔
        (c < m.numElems C ∧ Incident m bd S C s c) := by
      intro s hs c
      have h1 := (C10_apply_one m bd hv S C hS (by omega) s hs).2 c
      rw [h1]
      constructor
      · intro hi
        exact ⟨Mesh.descend_lt hv (by omega) (by rw [show C + (S - C) = S by omega]; exact hs) (h1.mpr hi), hi⟩
      · exact And.right
    refine ⟨fun s => descend m bd C (S - C) s, hvs, ?_⟩
    unfold Mesh.colorGreedy
    rw [if_pos h]
    exact greedyColor_ok (fun i hi => ⟨(C10_apply_one m bd hv S C hS (by omega) i hi).1,
      fun c hc => ((hvs i hi c).mp hc).1⟩)
  · obtain ⟨r, r1, r2, r3⟩ := C11_ascending m bd hv S C hS hC
    have hr : ∀ s, s < m.numElems S → r[s]? = some (r[s]?.getD []) := by
      intro s hs; simp [show s < r.length by omega]
    refine ⟨fun s => r[s]?.getD [], fun s hs c => (r3 s _ (hr s hs)).2 c, ?_⟩
    unfold Mesh.colorGreedy
    rw [if_neg h, r1]
    exact greedyColor_ok (fun i hi => ⟨by simp [show i < r.length by omega],
      fun c hc => (((r3 i _ (hr i hi)).2 c).mp hc).1⟩)

private theorem share_iff {m : Mesh V} {bd : Idx → List Idx} {S C : Nat} {vs : Idx → List Idx}
    (h : ∀ s, s < m.numElems S → ∀ c, c ∈ vs s ↔ (c < m.numElems C ∧ Incident m bd S C s c))
    {s t : Idx} (hs : s < m.numElems S) (ht : t < m.numElems S) :
    Share m bd S C S s t ↔ Conflict vs s t := by
  constructor
  · rintro ⟨c, h1, h2, h3⟩
    exact ⟨c, (h s hs c).mpr ⟨h1, h2⟩, (h t ht c).mpr ⟨h1, (incident_comm ..).mp h3⟩⟩
  · rintro ⟨c, h1, h2⟩
    have a := (h s hs c).mp h1
    exact ⟨c, a.1, a.2, (incident_comm ..).mp ((h t ht c).mp h2).2⟩

private theorem share_comm {m : Mesh V} {bd : Idx → List Idx} {S C : Nat} {s t : Idx} :
    Share m bd S C S s t → Share m bd S C S t s := by
  rintro ⟨c, h1, h2, h3⟩
  exact ⟨c, h1, (incident_comm ..).mp h3, (incident_comm ..).mp h2⟩

/-- C15. First fit: on a valid mesh the greedy coloring gives every element a color; the color `k` of
element `s` is not used by any earlier element sharing a connecting element with `s`, and every smaller
color is. -/
theorem C15_first_fit (m : Mesh V) (bd : Idx → List Idx) (hv : ValidMesh m bd) (S C : Nat)
    (hS : S ≤ m.dim) (hC : C ≤ m.dim) :
    ∃ colors, m.colorGreedy S C = .ok colors ∧ colors.length = m.numElems S ∧
      ∀ (s k : Nat), colors[s]? = some k →
        (∀ t, t < s → Share m bd S C S t s → colors[t]? ≠ some k) ∧
        (∀ k', k' < k → ∃ t, t < s ∧ Share m bd S C S t s ∧ colors[t]? = some k') := by
  obtain ⟨vs, h1, colors, h2, h3, h4⟩ := greedy_setup m bd hv S C hS hC
  refine ⟨colors, h2, h3, fun s k hk => ?_⟩
  have hs : s < m.numElems S := by have := (List.getElem?_eq_some_iff.mp hk).1; omega
  obtain ⟨p, q⟩ := h4 s k hk
  refine ⟨fun t ht hsh => p t ht ((share_iff h1 (by omega) hs).mp hsh), fun k' hk' => ?_⟩
  obtain ⟨t, a, b, c⟩ := q k' hk'
  exact ⟨t, a, (share_iff h1 (by omega) hs).mpr b, c⟩

/-- C14. The greedy coloring is proper and total, however many colors are needed. -/
theorem C14_greedy_proper (m : Mesh V) (bd : Idx → List Idx) (hv : ValidMesh m bd) (S C : Nat)
    (hS : S ≤ m.dim) (hC : C ≤ m.dim) :
    ∃ colors, m.colorGreedy S C = .ok colors ∧ colors.length = m.numElems S ∧
      ProperColoring m bd S C colors := by
  obtain ⟨colors, h1, h2, h3⟩ := C15_first_fit m bd hv S C hS hC
  refine ⟨colors, h1, h2, fun s t k hs ht hne hsh hk hk' => ?_⟩
  rcases Nat.lt_or_gt_of_ne hne with h | h
  · exact (h3 t k hk').1 s h hsh hk
  · exact (h3 s k hk).1 t h (share_comm hsh) hk'

example : ∃ colors, twoTets.colorGreedy 1 0 = .ok colors ∧ colors = [0, 1, 2, 1, 2, 0, 3, 4, 5] :=
  ⟨_, by decide, rfl⟩

/-- A star of 20 edges around vertex 0, which needs more than the initial 16 colors. -/
def star : Mesh Nat where
  dim := 2
  vertices := List.range 21
  edges := (List.range 20).map fun i => { index := i, a := 0, b := i + 1 }

example : ValidMesh star (fun _ => []) ∧ star.colorGreedy 1 0 = .ok (List.range 20) :=
  ⟨validB_sound (by decide), by decide⟩

/-- C15. The color of an element is at most the number of its earlier neighbors in
`MeshNeighborhood<S,C,S>`; hence with at most `D` neighbors each, at most `D + 1` colors are used. -/
theorem C15_degree_bound (m : Mesh V) (bd : Idx → List Idx) (hv : ValidMesh m bd) (S C : Nat)
    (hS : S ≤ m.dim) (hC : C ≤ m.dim) :
    ∃ colors nb, m.colorGreedy S C = .ok colors ∧ m.neighborsAsc S C S = .ok nb ∧
      (∀ (s k : Nat) l, colors[s]? = some k → nb[s]? = some l →
        k ≤ (l.filter (fun t => decide (t < s))).length) ∧
      (∀ D, (∀ l ∈ nb, l.length ≤ D) → ∀ k ∈ colors, k < D + 1) := by
  obtain ⟨colors, h1, h2, h3⟩ := C15_first_fit m bd hv S C hS hC
  obtain ⟨⟨nb, n1, n2, n3⟩, -⟩ := C13_neighborhood m bd hv S C S hS hC hS
  have key : ∀ (s k : Nat) l, colors[s]? = some k → nb[s]? = some l →
        k ≤ (l.filter (fun t => decide (t < s))).length := by
    intro s k l hk hl
    have hs : s < m.numElems S := by have := (List.getElem?_eq_some_iff.mp hk).1; omega
    have hsub : List.range k ⊆ (l.filter (fun t => decide (t < s))).map (fun t => colors[t]?.getD 0) := by
      intro k' hk'
      obtain ⟨t, a, b, c⟩ := (h3 s k hk).2 k' (List.mem_range.mp hk')
      refine List.mem_map.mpr ⟨t, List.mem_filter.mpr ⟨((n3 s l hl).2 t).mpr ⟨by omega, share_comm b, ?_⟩, by simpa using a⟩, by simp [c]⟩
      rintro ⟨-, rfl⟩; omega
    have := (List.subperm_of_subset List.nodup_range hsub).length_le
    simpa using this
  refine ⟨colors, nb, h1, n1, key, ?_⟩
  intro D hD k hk
  obtain ⟨s, hs⟩ := List.getElem?_of_mem hk
  have hs' : s < nb.length := by have := (List.getElem?_eq_some_iff.mp hs).1; omega
  have h5 := key s k nb[s] hs (by simp [hs'])
  have h6 := hD nb[s] (List.getElem_mem hs')
  have h7 := List.length_filter_le (fun t => decide (t < s)) nb[s]
  omega

/-- C16. For every outcome of the random generator (`draw i n` is any number in `0..n`) the random coloring
of a mesh with at least one colored element is total and proper and uses no color above the largest
color of the greedy coloring. -/
theorem C16_random_proper (m : Mesh V) (bd : Idx → List Idx) (hv : ValidMesh m bd) (S C : Nat)
    (hS : S ≤ m.dim) (hC : C ≤ m.dim) (draw : Nat → Nat → Nat) (hdraw : ∀ i n, draw i n ≤ n)
    (hne : 0 < m.numElems S) :
    ∃ greedy colors, m.colorGreedy S C = .ok greedy ∧ m.colorRandom S C draw = .ok colors ∧
      colors.length = m.numElems S ∧ ProperColoring m bd S C colors ∧
      ∀ k ∈ colors, ∃ g ∈ greedy, k ≤ g := by
  obtain ⟨g, g1, g2, g3⟩ := C14_greedy_proper m bd hv S C hS hC
  obtain ⟨r, r1, r2, r3⟩ := C11_ascending m bd hv S C hS hC
  have hr : ∀ s, s < m.numElems S → r[s]? = some (r[s]?.getD []) := by
    intro s hs; simp [show s < r.length by omega]
  have h1 : ∀ s, s < m.numElems S → ∀ c, c ∈ r[s]?.getD [] ↔ (c < m.numElems C ∧ Incident m bd S C s c) :=
    fun s hs c => (r3 s _ (hr s hs)).2 c
  obtain ⟨mx, hmx⟩ : ∃ mx, g.max? = some mx := by
    cases hm : g.max? with
    | none => rw [List.max?_eq_none_iff] at hm; subst hm; simp at g2; omega
    | some a => exact ⟨a, rfl⟩
  obtain ⟨hm1, hm2⟩ := List.max?_eq_some_iff.mp hmx
  have hlt : ∀ (t k : Nat), g[t]? = some k → k < mx + 1 := by
    intro t k ht; have := hm2 k (List.mem_of_getElem? ht); omega
  have hconn : ∀ i, i < m.numElems S → r[i]? = some (r[i]?.getD []) ∧ ∀ c ∈ r[i]?.getD [], c < m.numElems C :=
    fun i hi => ⟨hr i hi, fun c hc => ((h1 i hi c).mp hc).1⟩
  obtain ⟨att, a1, a2, a3, a4⟩ := markLoop_ok (vs := fun i => r[i]?.getD []) (R := mx + 1) hconn g2 hlt
    (m.numElems S) 0 (List.replicate (m.numElems C) (List.replicate (mx + 1) false)) (by omega) (by simp)
    (by intro a ha; simp at ha; simp [ha.2]) (by intro t k c ht; omega)
  obtain ⟨res, b1, att', b2⟩ := recolorLoop_ok hdraw hconn (m.numElems S) 0 g att (by omega)
    ⟨g2, a2, a3, hlt, a4, by
      intro s t k hst hc hs ht
      have hs' : s < m.numElems S := by have := (List.getElem?_eq_some_iff.mp hs).1; omega
      have ht' : t < m.numElems S := by have := (List.getElem?_eq_some_iff.mp ht).1; omega
      exact g3 s t k hs' ht' hst ((share_iff h1 hs' ht').mpr hc) hs ht⟩
  refine ⟨g, res, g1, ?_, b2.len, ?_, ?_⟩
  · unfold Mesh.colorRandom
    rw [g1]
    simp only [Res.bind, hmx, r1]
    rw [List.range_eq_range', a1]
    exact b1
  · intro s t k hs ht hst hsh
    exact b2.proper s t k hst ((share_iff h1 hs ht).mp hsh)
  · intro k hk
    obtain ⟨t, ht⟩ := List.getElem?_of_mem hk
    exact ⟨mx, hm1, by have := b2.lt t k ht; omega⟩

example : 0 < twoTets.numElems 1 ∧ ∃ colors, twoTets.colorRandom 1 0 (fun i n => i % (n + 1)) = .ok colors
    ∧ colors.length = 9 := ⟨by decide, _, rfl, by decide⟩

/-- C16, failure: coloring a mesh without elements of the colored dimension dereferences the end iterator. -/
theorem C16_empty_is_ub (m : Mesh V) (bd : Idx → List Idx) (hv : ValidMesh m bd) (S C : Nat)
    (hS : S ≤ m.dim) (hC : C ≤ m.dim) (draw : Nat → Nat → Nat) (he : m.numElems S = 0) :
    m.colorRandom S C draw = .ub := by
  obtain ⟨g, g1, g2, g3⟩ := C14_greedy_proper m bd hv S C hS hC
  have : g = [] := List.length_eq_zero_iff.mp (by omega)
  subst this
  unfold Mesh.colorRandom
  rw [g1]; rfl

end GTMesh.Props
