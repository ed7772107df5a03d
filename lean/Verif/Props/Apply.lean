import Verif.Proofs.Apply

/-! # C09, C10: boundary walk and iteration over connected elements -/

namespace GTMesh.Props
open GTMesh GTMesh.Spec

variable {V : Type}

/-- Example mesh: two triangles `012` and `023` sharing the edge `02`. -/
def twoTriangles : Mesh Nat where
  dim := 2
  vertices := [0, 1, 2, 3]
  edges := [{ index := 0, a := 0, b := 1, conn := { left := 0, nextL := 1 } },
            { index := 1, a := 1, b := 2, conn := { left := 0, nextL := 2 } },
            { index := 2, a := 2, b := 0, conn := { left := 0, nextL := 0, right := 1, nextR := 3 } },
            { index := 3, a := 2, b := 3, conn := { left := 1, nextL := 4 } },
            { index := 4, a := 3, b := 0, conn := { left := 1, nextL := 2 } }]
  cells := [{ index := 0, bElem := 0 }, { index := 1, bElem := 2 }]

/-- Boundary edges of its cells. -/
def twoTrianglesBd : Idx → List Idx
  | 0 => [0, 1, 2]
  | _ => [2, 3, 4]

theorem twoTriangles_valid : ValidMesh twoTriangles twoTrianglesBd := validB_sound (by decide)

/-- Example mesh in 3D: two tetrahedra `0123` and `1234` sharing the face `123`. -/
def twoTets : Mesh Nat where
  dim := 3
  vertices := [0, 1, 2, 3, 4]
  edges := [{ index := 0, a := 0, b := 1 }, { index := 1, a := 1, b := 2 }, { index := 2, a := 2, b := 0 },
            { index := 3, a := 0, b := 3 }, { index := 4, a := 1, b := 3 }, { index := 5, a := 2, b := 3 },
            { index := 6, a := 1, b := 4 }, { index := 7, a := 2, b := 4 }, { index := 8, a := 3, b := 4 }]
  mids := [[{ index := 0, sub := [0, 1, 2], conn := { left := 0, nextL := 1 } },
            { index := 1, sub := [0, 4, 3], conn := { left := 0, nextL := 2 } },
            { index := 2, sub := [2, 3, 5], conn := { left := 0, nextL := 3 } },
            { index := 3, sub := [1, 5, 4], conn := { left := 0, nextL := 0, right := 1, nextR := 4 } },
            { index := 4, sub := [1, 7, 6], conn := { left := 1, nextL := 5 } },
            { index := 5, sub := [5, 8, 7], conn := { left := 1, nextL := 6 } },
            { index := 6, sub := [4, 6, 8], conn := { left := 1, nextL := 3 } }]]
  cells := [{ index := 0, bElem := 0 }, { index := 1, bElem := 3 }]

/-- Boundary faces of its cells. -/
def twoTetsBd : Idx → List Idx
  | 0 => [0, 1, 2, 3]
  | _ => [3, 4, 5, 6]

theorem twoTets_valid : ValidMesh twoTets twoTetsBd := validB_sound (by decide)

/-! ## C09 -/

/-- The boundary walk of a cell: iterating from the cell to its faces. -/
abbrev boundaryWalk (m : Mesh V) (cell : Idx) : Res (List Idx) := m.applyOne m.dim (m.dim - 1) cell

/-- C09. The walk of an existing cell returns the list `l` if and only if `l` is the closed chain of the
cell that begins with the cell's boundary element; in particular it visits each face of the chain
exactly once, in the order of the chain, whatever its length. -/
theorem C09_walk_iff_chain (m : Mesh V) (hd : 2 ≤ m.dim) (cell : Idx) (c : Cell)
    (hc : m.cells[cell]? = some c) (l : List Idx) :
    boundaryWalk m cell = .ok l ↔ ClosedChain m cell l ∧ l[0]? = some c.bElem := by
  have e : m.dim - (m.dim - 1) = 1 := by omega
  have hat : Res.at' m.cells cell = .ok c := by simp [hc]
  have hw : boundaryWalk m cell =
      m.cellLoop (fun f => .ok [f]) cell c.bElem (m.numFaces + 1) c.bElem := by
    unfold boundaryWalk Mesh.applyOne
    rw [e, Mesh.meshRun, if_pos (by omega), hat]
    rfl
  rw [hw]
  constructor
  · intro h
    obtain ⟨l', h1, h2, h3, h4⟩ := Mesh.cellLoop_ok_linked _ _ _ h
    have hne : l ≠ [] := by rw [h1]; simp
    have hlink : ∀ i (h : i < l.length),
        Linked m cell l[i] (l[(i + 1) % l.length]'(Nat.mod_lt _ (by omega))) := by
      intro i hi
      by_cases hlast : i + 1 = l.length
      · have hm : (i + 1) % l.length = 0 := by rw [hlast]; exact Nat.mod_self _
        have h5 := h3 hne
        rw [List.getLast_eq_getElem] at h5
        have h6 : l.length - 1 = i := by omega
        simp only [h6] at h5
        simp only [hm]
        have h7 : l[0]'(by omega) = c.bElem := by simp [h1]
        rw [h7]; exact h5
      · have hm : (i + 1) % l.length = i + 1 := Nat.mod_eq_of_lt (by omega)
        simp only [hm]
        exact h2 i (by omega)
    have h0 : l[0]'(List.length_pos_iff.mpr hne) = c.bElem := by simp [h1]
    have hnot0 : ∀ i (h : i < l.length), 0 < i → l[i] ≠ c.bElem := by
      intro i hi hpos
      apply h4
      obtain ⟨k, rfl⟩ : ∃ k, i = k + 1 := ⟨i - 1, by omega⟩
      subst h1
      simp
    have hfun : ∀ f g g', Linked m cell f g → Linked m cell f g' → g = g' := by
      rintro f g g' ⟨c1, ha, hb⟩ ⟨c2, ha', hb'⟩
      rw [ha] at ha'
      cases ha'
      rw [hb] at hb'
      exact Res.ok.inj hb'
    refine ⟨⟨hne, ?_, hlink⟩, ?_⟩
    · -- no repetition: a repetition would shift down to the start
      have key : ∀ k i j (hi : i < l.length) (hj : j < l.length), i < j → k = l.length - j →
          l[i] ≠ l[j] := by
        intro k
        induction k using Nat.strongRecOn with
        | _ k ih =>
          intro i j hi hj hij hk heq
          have hli := hlink i hi
          have hlj := hlink j hj
          rw [heq] at hli
          have hnx := hfun _ _ _ hli hlj
          have hmi : (i + 1) % l.length = i + 1 := Nat.mod_eq_of_lt (by omega)
          simp only [hmi] at hnx
          by_cases hlast : j + 1 = l.length
          · have hmj : (j + 1) % l.length = 0 := by rw [hlast]; exact Nat.mod_self _
            simp only [hmj, h0] at hnx
            exact hnot0 (i + 1) (by omega) (by omega) hnx
          · have hmj : (j + 1) % l.length = j + 1 := Nat.mod_eq_of_lt (by omega)
            simp only [hmj] at hnx
            exact ih (l.length - (j + 1)) (by omega) (i + 1) (j + 1) (by omega) (by omega) (by omega) rfl hnx
      exact List.pairwise_iff_getElem.mpr (fun i j hi hj hij => key _ i j hi hj hij rfl)
    · rw [h1]; rfl
  · rintro ⟨hch, h0⟩
    have hpos : 0 < l.length := List.length_pos_iff.mpr hch.1
    have := Mesh.cellLoop_chain (body := fun f => .ok [f]) (f := fun f => [f]) hch (fun _ _ => rfl) h0
      (m.numFaces + 1) 0 hpos (by have := Mesh.chain_length hd hch; omega)
    have hget : l[0] = c.bElem := by
      rw [List.getElem?_eq_getElem hpos] at h0; exact Option.some.inj h0
    rw [hget] at this
    simpa using this

example : twoTriangles.cells[1]? = some { index := 1, bElem := 2 }
    ∧ boundaryWalk twoTriangles 1 = .ok [2, 3, 4] := by decide

/-- C09. On any mesh whatsoever, a walk that has not ended after as many steps as there are faces (plus
one) never ends: no number of steps makes the loop return or throw. -/
theorem C09_divergence_is_real (m : Mesh V) (hd : 2 ≤ m.dim) (cell : Idx) (c : Cell)
    (hc : m.cells[cell]? = some c) (h : boundaryWalk m cell = .diverge) :
    ∀ n, m.cellLoop (fun f => .ok [f]) cell c.bElem n c.bElem = .diverge := by
  have e : m.dim - (m.dim - 1) = 1 := by omega
  have hat : Res.at' m.cells cell = .ok c := by simp [hc]
  have hw : boundaryWalk m cell =
      m.cellLoop (fun f => .ok [f]) cell c.bElem (m.numFaces + 1) c.bElem := by
    unfold boundaryWalk Mesh.applyOne
    rw [e, Mesh.meshRun, if_pos (by omega), hat]
    rfl
  rw [hw] at h
  exact Mesh.cellLoop_fuel_enough hd (by simp) h

/-- A mesh whose chain of cell 0 enters a loop that avoids the first face: 0 → 1 → 1 → … -/
def badChain : Mesh Nat where
  dim := 2
  edges := [{ index := 0, a := 0, b := 1, conn := { left := 0, nextL := 1 } },
            { index := 1, a := 1, b := 0, conn := { left := 0, nextL := 1 } }]
  cells := [{ index := 0, bElem := 0 }]

/-- C09. Such meshes exist: iterating over this cell never returns. -/
theorem C09_divergence_witness :
    ∀ n, badChain.cellLoop (fun f => .ok [f]) 0 0 n 0 = .diverge :=
  C09_divergence_is_real badChain (by decide) 0 { index := 0, bElem := 0 } rfl (by decide)

/-- C09. The same holds for the full iteration over a cell down to any lower dimension. -/
theorem C09_divergence_is_real_deep (m : Mesh V) (hd : 2 ≤ m.dim) (T : Nat) (hT : T < m.dim)
    (cell : Idx) (c : Cell) (hc : m.cells[cell]? = some c) (h : m.applyOne m.dim T cell = .diverge) :
    ∀ n, m.cellLoop (m.meshRun T (m.dim - T - 1)) cell c.bElem n c.bElem = .diverge := by
  have hat : Res.at' m.cells cell = .ok c := by simp [hc]
  obtain ⟨k, hk⟩ : ∃ k, m.dim - T = k + 1 := ⟨m.dim - T - 1, by omega⟩
  have hk' : m.dim - T - 1 = k := by omega
  unfold Mesh.applyOne at h
  rw [hk, Mesh.meshRun, if_pos (by omega), hat] at h
  rw [hk']
  exact Mesh.cellLoop_fuel_enough hd (Mesh.meshRun_ne_diverge m T k (by omega)) h

/-! ## C10 -/

/-- C10. On a valid mesh, `MeshApply<S,T>::apply` with `S > T` calls the functor precisely on the pairs
`(s, t)` obtained by descending from each `s`, once per chain of sub-elements, element by element. -/
theorem C10_apply_descending (m : Mesh V) (bd : Idx → List Idx) (hv : ValidMesh m bd) (S T : Nat)
    (hS : S ≤ m.dim) (hTS : T < S) :
    m.apply S T = .ok ((List.range (m.numElems S)).flatMap fun s =>
      (descend m bd T (S - T) s).map fun t => (s, t)) := by
  have e1 : max S T = S := by omega
  have e2 : min S T = T := by omega
  unfold Mesh.apply
  rw [e1, e2]
  apply forAll_ok
  intro i hi
  rw [List.mem_range] at hi
  rw [Mesh.meshRun_descend hv T (S - T) (by omega) i (by rw [show T + (S - T) = S by omega]; exact hi)]
  simp [hTS]

/-- C10. Exchanging the dimensions gives the same calls with the arguments exchanged: the first argument
is still the `S`-element and the second the `T`-element. -/
theorem C10_apply_transpose (m : Mesh V) (bd : Idx → List Idx) (hv : ValidMesh m bd) (S T : Nat)
    (hS : S ≤ m.dim) (hT : T ≤ m.dim) :
    ∃ calls, m.apply S T = .ok calls ∧ m.apply T S = .ok (calls.map fun p => (p.2, p.1)) := by
  rcases Nat.lt_trichotomy S T with h | h | h
  · have h1 := C10_apply_descending m bd hv T S hT h
    have e1 : max S T = T := by omega
    have e2 : min S T = S := by omega
    refine ⟨(List.range (m.numElems T)).flatMap fun s => (descend m bd S (T - S) s).map fun t => (t, s), ?_, ?_⟩
    · unfold Mesh.apply
      rw [e1, e2]
      apply forAll_ok
      intro i hi
      rw [List.mem_range] at hi
      rw [Mesh.meshRun_descend hv S (T - S) (by omega) i (by rw [show S + (T - S) = T by omega]; exact hi)]
      simp [show ¬ T < S by omega]
    · rw [h1, List.map_flatMap]
      simp [Function.comp_def]
  · subst h
    refine ⟨(List.range (m.numElems S)).map fun i => (i, i), ?_, ?_⟩
    all_goals
      unfold Mesh.apply
      rw [Nat.max_self, Nat.min_self, Nat.sub_self]
      have : ∀ i ∈ List.range (m.numElems S), ((m.meshRun S 0 i).bind fun ts =>
          (.ok (ts.map fun t => if S < S then (i, t) else (t, i)) : Res (List (Idx × Idx))))
          = .ok [(i, i)] := by
        intro i _; simp [Mesh.meshRun]
      rw [forAll_ok this]
      simp [List.flatMap_singleton', Function.comp_def, List.flatMap_def]
      try (induction List.range (m.numElems S) <;> simp_all)
  · have h1 := C10_apply_descending m bd hv S T hS h
    have e1 : max T S = S := by omega
    have e2 : min T S = T := by omega
    refine ⟨_, h1, ?_⟩
    unfold Mesh.apply
    rw [e1, e2]
    rw [List.map_flatMap]
    apply forAll_ok
    intro i hi
    rw [List.mem_range] at hi
    rw [Mesh.meshRun_descend hv T (S - T) (by omega) i (by rw [show T + (S - T) = S by omega]; exact hi)]
    simp [show ¬ S < T by omega, Function.comp_def]

/-- C10. Incidence: the functor is called with `(s, t)` for precisely the incident pairs of existing
elements, in both directions of iteration. -/
theorem C10_calls_are_incidence (m : Mesh V) (bd : Idx → List Idx) (hv : ValidMesh m bd) (S T : Nat)
    (hS : S ≤ m.dim) (hT : T ≤ m.dim) :
    ∃ calls, m.apply S T = .ok calls ∧
      ∀ s t, (s, t) ∈ calls ↔ (s < m.numElems S ∧ t < m.numElems T ∧ Incident m bd S T s t) := by
  rcases Nat.lt_trichotomy S T with h | h | h
  · obtain ⟨calls, h1, h2⟩ := C10_apply_transpose m bd hv S T hS hT
    refine ⟨calls, h1, ?_⟩
    rw [C10_apply_descending m bd hv T S hT h] at h2
    have h3 := Res.ok.inj h2
    intro s t
    have : (s, t) ∈ calls ↔ (t, s) ∈ calls.map fun p => (p.2, p.1) := by simp
    rw [this, ← h3]
    simp only [List.mem_flatMap, List.mem_range, List.mem_map, Prod.mk.injEq, Mesh.mem_descend,
      Incident, if_neg (show ¬ T ≤ S by omega)]
    constructor
    · rintro ⟨a, ha, b, hb, rfl, rfl⟩
      refine ⟨?_, ha, hb⟩
      exact Mesh.descend_lt hv (by omega) (by rw [show S + (T - S) = T by omega]; exact ha)
        (Mesh.mem_descend.mpr hb)
    · rintro ⟨_, hb, hc⟩; exact ⟨t, hb, s, hc, rfl, rfl⟩
  · subst h
    obtain ⟨calls, h1, -⟩ := C10_apply_transpose m bd hv S S hS hS
    refine ⟨calls, h1, ?_⟩
    unfold Mesh.apply at h1
    rw [Nat.max_self, Nat.min_self, Nat.sub_self] at h1
    have hf : ∀ i ∈ List.range (m.numElems S), ((m.meshRun S 0 i).bind fun ts =>
        (.ok (ts.map fun t => if S < S then (i, t) else (t, i)) : Res (List (Idx × Idx))))
        = .ok [(i, i)] := by
      intro i _; simp [Mesh.meshRun]
    rw [forAll_ok hf] at h1
    have h3 := Res.ok.inj h1
    intro s t
    rw [← h3]
    simp only [List.mem_flatMap, List.mem_range, List.mem_singleton, Prod.mk.injEq, Incident,
      Nat.le_refl, if_true, Nat.sub_self]
    constructor
    · rintro ⟨a, ha, rfl, rfl⟩; exact ⟨ha, ha, PartOf.refl _⟩
    · rintro ⟨ha, _, hc⟩; cases hc; exact ⟨s, ha, rfl, rfl⟩
  · refine ⟨_, C10_apply_descending m bd hv S T hS h, ?_⟩
    intro s t
    simp only [List.mem_flatMap, List.mem_range, List.mem_map, Prod.mk.injEq, Mesh.mem_descend,
      Incident, if_pos (show T ≤ S by omega)]
    constructor
    · rintro ⟨a, ha, b, hb, rfl, rfl⟩
      refine ⟨ha, ?_, hb⟩
      exact Mesh.descend_lt hv (by omega) (by rw [show T + (S - T) = S by omega]; exact ha)
        (Mesh.mem_descend.mpr hb)
    · rintro ⟨ha, _, hc⟩; exact ⟨s, ha, t, hc, rfl, rfl⟩

/-- C10. The single-element form agrees with the iteration over the whole mesh. -/
theorem C10_apply_one (m : Mesh V) (bd : Idx → List Idx) (hv : ValidMesh m bd) (S T : Nat)
    (hS : S ≤ m.dim) (hTS : T ≤ S) (s : Idx) (hs : s < m.numElems S) :
    m.applyOne S T s = .ok (descend m bd T (S - T) s)
    ∧ ∀ t, t ∈ descend m bd T (S - T) s ↔ Incident m bd S T s t := by
  refine ⟨?_, ?_⟩
  · unfold Mesh.applyOne
    exact Mesh.meshRun_descend hv T (S - T) (by omega) s (by rw [show T + (S - T) = S by omega]; exact hs)
  · intro t
    rw [Mesh.mem_descend, Incident, if_pos hTS]

example : twoTets.apply 3 0 = .ok ((List.range 2).flatMap fun s =>
    (descend twoTets twoTetsBd 0 3 s).map fun t => (s, t)) :=
  C10_apply_descending twoTets twoTetsBd twoTets_valid 3 0 (by decide) (by decide)

/-- C10, failure mode: an index out of range is reported by an exception, never by undefined behaviour;
the recursion never returns `ub` on any mesh. -/
theorem C10_no_ub (m : Mesh V) (S T : Nat) : m.apply S T ≠ .ub := by
  have hfa : ∀ {α β : Type} (body : α → Res (List β)) (l : List α), (∀ x, body x ≠ .ub) →
      Std'.forAll body l ≠ .ub := by
    intro α β body l h
    induction l with
    | nil => simp [Std'.forAll]
    | cons x xs ih =>
      have h1 := h x
      simp only [Std'.forAll]
      cases hb : body x <;> simp_all
      cases hf : Std'.forAll body xs <;> simp_all
  have hnext : ∀ cell f, m.nextFace cell f ≠ .ub := by
    intro cell f
    unfold Mesh.nextFace Mesh.faceConn Res.at' Conn.getNextBElem
    split
    · cases m.edges[f]? <;> simp; split <;> (try split) <;> (try split) <;> simp
    · cases (m.midElems (m.dim - 1))[f]? <;> simp; split <;> (try split) <;> (try split) <;> simp
  have hloop : ∀ {β : Type} (body : Idx → Res (List β)) (cell start : Idx), (∀ x, body x ≠ .ub) →
      ∀ n t, m.cellLoop body cell start n t ≠ .ub := by
    intro β body cell start hb n
    induction n with
    | zero => intro t; simp [Mesh.cellLoop]
    | succ n ih =>
      intro t
      rw [Mesh.cellLoop]
      have h1 := hb t
      have h2 := hnext cell t
      cases hb' : body t with
      | ok r =>
        simp only [Res.bind]
        cases hn : m.nextFace cell t with
        | ok nxt =>
          simp only
          split
          · simp
          · have := ih nxt
            cases hc : m.cellLoop body cell start n nxt <;> simp_all
        | throw e => simp
        | ub => exact absurd hn h2
        | diverge => simp
      | throw e => simp
      | ub => exact absurd hb' h1
      | diverge => simp
  have hrun : ∀ t k i, m.meshRun t k i ≠ .ub := by
    intro t k
    induction k with
    | zero => intro i; simp [Mesh.meshRun]
    | succ k ih =>
      intro i
      rw [Mesh.meshRun]
      split
      · cases ha : Res.at' m.cells i with
        | ok c => simp only [Res.bind]; exact hloop _ _ _ ih _ _
        | throw e => simp
        | ub => exact absurd ha (Mesh.at'_ne_ub _ _)
        | diverge => simp
      · split
        · cases ha : Res.at' m.edges i with
          | ok e =>
            simp only [Res.bind]
            have h2 := ih e.a
            have h3 := ih e.b
            cases h4 : m.meshRun t k e.a <;> cases h5 : m.meshRun t k e.b <;> simp_all
          | throw e => simp
          | ub => exact absurd ha (Mesh.at'_ne_ub _ _)
          | diverge => simp
        · cases ha : Res.at' (m.midElems (t + k + 1)) i with
          | ok e => simp only [Res.bind]; exact hfa _ _ ih
          | throw e => simp
          | ub => exact absurd ha (Mesh.at'_ne_ub _ _)
          | diverge => simp
  unfold Mesh.apply
  apply hfa
  intro i
  have := hrun (min S T) (max S T - min S T) i
  cases h : m.meshRun (min S T) (max S T - min S T) i <;> simp_all

end GTMesh.Props
