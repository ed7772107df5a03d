import Verif.Proofs.Renumber
import Verif.Props.Apply

/-!
# C72: the numbers of the elements do not matter (iteration, connections, neighbors)
-/

namespace GTMesh.Props
open GTMesh Spec Std'
variable {V α : Type} {ρ : Nat → Equiv.Perm Nat} {m m' : Mesh V}

/-! ## Renumbered meshes exist -/

theorem reorder_at (σ : Equiv.Perm Nat) (l : List α) (hf : ∀ i, l.length ≤ i → σ i = i) (i : Nat) : (reorder σ l)[σ i]? = l[i]? := by
  have key : ∀ n, n ≤ l.length → ((List.range n).filterMap fun j => l[σ.symm j]?).length = n ∧
      ∀ j, j < n → ((List.range n).filterMap fun j => l[σ.symm j]?)[j]? = l[σ.symm j]? := by
    intro n
    induction n with
    | zero => intro _; simp
    | succ n ih =>
      intro hn
      obtain ⟨h1, h2⟩ := ih (by omega)
      have hs : σ.symm n < l.length := by
        have := perm_lt hf (i := σ.symm n)
        rw [σ.apply_symm_apply] at this
        exact this.mp (by omega)
      have e : ((List.range (n + 1)).filterMap fun j => l[σ.symm j]?) =
          ((List.range n).filterMap fun j => l[σ.symm j]?) ++ [l[σ.symm n]] := by
        rw [List.range_succ, List.filterMap_append]
        simp [List.getElem?_eq_getElem hs]
      rw [e]
      refine ⟨by simp [h1], fun j hj => ?_⟩
      by_cases hjn : j < n
      · rw [List.getElem?_append_left (by omega), h2 j hjn]
      · have : j = n := by omega
        subst this
        rw [List.getElem?_append_right (by omega), h1, Nat.sub_self, List.getElem?_eq_getElem hs]
        rfl
  obtain ⟨k1, k2⟩ := key l.length le_rfl
  unfold reorder
  by_cases hi : i < l.length
  · rw [k2 _ ((perm_lt hf).mpr hi), σ.symm_apply_apply]
  · rw [hf i (by omega), List.getElem?_eq_none (by omega), List.getElem?_eq_none (by omega)]

/-- C72. Every choice of new numbers is met by a mesh. -/
theorem C72_exists (ρ : Nat → Equiv.Perm Nat) (m : Mesh V) (hd : 2 ≤ m.dim) (fits : ∀ d, d ≤ m.dim → m.numElems d ≤ BOUNDARY)
    (fixed : ∀ d i, d ≤ m.dim → m.numElems d ≤ i → ρ d i = i) : Renumbered ρ m (renumber ρ m) := by
  have fx : ∀ d, d ≤ m.dim → ∀ n, m.numElems d = n → ∀ i, n ≤ i → ρ d i = i := fun d h1 n h2 i h3 => fixed d i h1 (by omega)
  have n0 : m.numElems 0 = m.vertices.length := by unfold Mesh.numElems; rw [if_neg (by omega), if_pos rfl]
  have n1 : m.numElems 1 = m.edges.length := by unfold Mesh.numElems; rw [if_neg (by omega), if_neg (by omega), if_pos rfl]
  refine ⟨rfl, hd, fits, fixed, ?_, ?_, ?_, ?_, rfl⟩
  · intro v
    exact reorder_at _ _ (fx 0 (by omega) _ n0) v
  · intro e
    simp only [renumber, List.getElem?_map]
    rw [reorder_at _ _ (fx 1 (by omega) _ n1) e]
  · intro d i h1 h2
    have nd : m.numElems d = (m.midElems d).length := by
      unfold Mesh.numElems; rw [if_neg (by omega), if_neg (by omega), if_neg (by omega)]
    have e : (renumber ρ m).midElems d = (reorder (ρ d) (m.midElems d)).map (renameFace (ρ d) (ρ (d - 1)) (ρ m.dim) (ρ (m.dim - 1))) := by
      simp only [Mesh.midElems, renumber, List.getElem?_map, List.getElem?_zipIdx]
      cases m.mids[d - 2]? with
      | none => rfl
      | some l =>
        simp only [Option.map_some, Option.getD_some]
        rw [show 0 + (d - 2) + 2 = d by omega, show 0 + (d - 2) + 1 = d - 1 by omega]
    rw [e, List.getElem?_map, reorder_at _ _ (fx d (by omega) _ nd) i]
  · intro c
    simp only [renumber, List.getElem?_map]
    rw [reorder_at _ _ (fx m.dim le_rfl _ (by simp [Mesh.numElems])) c]

/-! ## Iteration -/

/-- C72. A renumbered mesh has as many elements, and it is valid when the mesh was; the boundary of a cell has the same faces in the same
order. -/
theorem C72_valid (h : Renumbered ρ m m') (bd : Idx → List Idx) (hv : ValidMesh m bd) :
    (∀ d, d ≤ m.dim → m'.numElems d = m.numElems d) ∧
      ∃ bd', ValidMesh m' bd' ∧ ∀ c, bd' (ρ m.dim c) = (bd c).map (ρ (m.dim - 1)) :=
  ⟨fun _ hd => h.numElems hd, h.boundaries bd, h.valid hv, h.boundaries_apply bd⟩

/-- C72. Iterating over the sub-elements of an element visits the same elements in the same order, or fails in the same way; no
condition on the mesh. -/
theorem C72_apply_one (h : Renumbered ρ m m') (S T : Nat) (hS : S ≤ m.dim) (hT : T ≤ S) (i : Idx) :
    m'.applyOne S T (ρ S i) = (m.applyOne S T i).bind fun ts => .ok (ts.map (ρ T)) := h.applyOne hS hT i

/-- C72. The boundary of a cell as an iteration over it visits it. -/
theorem C72_boundary (h : Renumbered ρ m m') (c : Idx) :
    boundaryWalk m' (ρ m.dim c) = (boundaryWalk m c).bind fun fs => .ok (fs.map (ρ (m.dim - 1))) := by
  have := h.applyOne (S := m.dim) (T := m.dim - 1) le_rfl (by omega) c
  unfold boundaryWalk
  rw [h.dim]
  exact this

/-! ## Connections and neighbors -/

/-- `t` is in entry `s` of the result. -/
def Listed (r : List (List Idx)) (s t : Idx) : Prop := ∃ l, r[s]? = some l ∧ t ∈ l

theorem listed_iff {S T : Nat} {r : List (List Idx)} {P : Idx → Idx → Prop} (hl : r.length = m.numElems S)
    (hr : ∀ (s : Idx) l, r[s]? = some l → ∀ t, t ∈ l ↔ (t < m.numElems T ∧ P s t)) (s t : Idx) :
    Listed r s t ↔ s < m.numElems S ∧ t < m.numElems T ∧ P s t := by
  constructor
  · rintro ⟨l, h1, h2⟩
    have := (hr s l h1 t).mp h2
    have hs : s < r.length := by
      by_contra hc
      rw [List.getElem?_eq_none (by omega)] at h1
      cases h1
    exact ⟨by omega, this⟩
  · rintro ⟨h1, h2⟩
    have : s < r.length := by omega
    exact ⟨r[s], List.getElem?_eq_getElem this, (hr s _ (List.getElem?_eq_getElem this) t).mpr h2⟩

/-- C72. The connections of a renumbered mesh are the same relation, in both orders: `ρ t` is listed for `ρ s` exactly if `t` is listed for `s`. -/
theorem C72_connections (h : Renumbered ρ m m') (bd : Idx → List Idx) (hv : ValidMesh m bd) (S T : Nat) (hS : S ≤ m.dim) (hT : T ≤ m.dim) :
    ∃ r r' o o', m.connectionsAsc S T = .ok r ∧ m'.connectionsAsc S T = .ok r' ∧ m.connectionsOrig S T = .ok o ∧
      m'.connectionsOrig S T = .ok o' ∧
      ∀ s t, (Listed r' (ρ S s) (ρ T t) ↔ Listed r s t) ∧ (Listed o' (ρ S s) (ρ T t) ↔ Listed o s t) := by
  obtain ⟨r, h1, h2, h3⟩ := C11_ascending m bd hv S T hS hT
  obtain ⟨_, o, -, g1, g2, g3⟩ := C12_original m bd hv S T hS hT
  obtain ⟨r', h1', h2', h3'⟩ := C11_ascending m' _ (h.valid hv) S T (h.dim ▸ hS) (h.dim ▸ hT)
  obtain ⟨_, o', -, g1', g2', g3'⟩ := C12_original m' _ (h.valid hv) S T (h.dim ▸ hS) (h.dim ▸ hT)
  refine ⟨r, r', o, o', h1, h1', g1, g1', fun s t => ?_⟩
  have a := perm_lt (fun i => h.fixed S i hS) (i := s)
  have b := perm_lt (fun i => h.fixed T i hT) (i := t)
  rw [listed_iff h2 (fun s l hl => (h3 s l hl).2), listed_iff g2 (fun s l hl => (g3 s l hl).2.2),
    listed_iff h2' (fun s l hl => (h3' s l hl).2), listed_iff g2' (fun s l hl => (g3' s l hl).2.2),
    h.numElems hS, h.numElems hT, a, b, h.incident bd hS hT]
  exact ⟨Iff.rfl, Iff.rfl⟩

theorem share_iff (h : Renumbered ρ m m') (bd : Idx → List Idx) {S C T : Nat} (hS : S ≤ m.dim) (hC : C ≤ m.dim) (hT : T ≤ m.dim) (s t : Idx) :
    Share m' (h.boundaries bd) S C T (ρ S s) (ρ T t) ↔ Share m bd S C T s t := by
  unfold Share
  constructor
  · rintro ⟨c, h1, h2, h3⟩
    obtain ⟨c, rfl⟩ : ∃ c0, ρ C c0 = c := ⟨(ρ C).symm c, by simp⟩
    rw [h.incident bd hS hC] at h2
    rw [h.incident bd hC hT] at h3
    rw [h.numElems hC, perm_lt (fun i => h.fixed C i hC)] at h1
    exact ⟨c, h1, h2, h3⟩
  · rintro ⟨c, h1, h2, h3⟩
    refine ⟨ρ C c, ?_, ?_, ?_⟩
    · rw [h.numElems hC, perm_lt (fun i => h.fixed C i hC)]; exact h1
    · rw [h.incident bd hS hC]; exact h2
    · rw [h.incident bd hC hT]; exact h3

/-- C72. The same for the neighbors. -/
theorem C72_neighbors (h : Renumbered ρ m m') (bd : Idx → List Idx) (hv : ValidMesh m bd) (S C T : Nat) (hS : S ≤ m.dim) (hC : C ≤ m.dim)
    (hT : T ≤ m.dim) :
    ∃ r r' o o', m.neighborsAsc S C T = .ok r ∧ m'.neighborsAsc S C T = .ok r' ∧ m.neighborsOrig S C T = .ok o ∧
      m'.neighborsOrig S C T = .ok o' ∧
      ∀ s t, (Listed r' (ρ S s) (ρ T t) ↔ Listed r s t) ∧ (Listed o' (ρ S s) (ρ T t) ↔ Listed o s t) := by
  obtain ⟨⟨r, h1, h2, h3⟩, ⟨o, g1, g2, g3⟩⟩ := C13_neighborhood m bd hv S C T hS hC hT
  obtain ⟨⟨r', h1', h2', h3'⟩, ⟨o', g1', g2', g3'⟩⟩ := C13_neighborhood m' _ (h.valid hv) S C T (h.dim ▸ hS) (h.dim ▸ hC) (h.dim ▸ hT)
  refine ⟨r, r', o, o', h1, h1', g1, g1', fun s t => ?_⟩
  have a := perm_lt (fun i => h.fixed S i hS) (i := s)
  have b := perm_lt (fun i => h.fixed T i hT) (i := t)
  have c : (S = T ∧ ρ S s = ρ T t) ↔ (S = T ∧ s = t) := by
    constructor
    · rintro ⟨rfl, k⟩; exact ⟨rfl, (ρ S).injective k⟩
    · rintro ⟨rfl, rfl⟩; exact ⟨rfl, rfl⟩
  rw [listed_iff h2 (fun s l hl => (h3 s l hl).2), listed_iff g2 (fun s l hl => (g3 s l hl).2),
    listed_iff h2' (fun s l hl => (h3' s l hl).2), listed_iff g2' (fun s l hl => (g3' s l hl).2),
    h.numElems hS, h.numElems hT, a, b, c, share_iff h bd hS hC hT]
  exact ⟨Iff.rfl, Iff.rfl⟩

end GTMesh.Props
