import Verif.Props.Distances
import Verif.Props.Mesh

/-! # C54: boundary cells do not change the distances -/

namespace GTMesh.Props
open GTMesh Spec Std' Vec Geo

/-- `mesh.setupBoundaryCells(); mesh.setupBoundaryCellsCenters();` as a user calls them. -/
def withBoundary {n : Nat} {F : Type} [Field F] (g : GMesh n F) : GMesh n F :=
  setupBoundaryCellsCenters { g with mesh := g.mesh.setupBoundaryCells }

/-- The faces of a mesh (the edges in 2D): index and connection. -/
def faceList {V : Type} (m : Mesh V) : List (Idx × Conn) :=
  if m.dim = 2 then m.edges.map fun e => (e.index, e.conn) else (m.midElems (m.dim - 1)).map fun f => (f.index, f.conn)

/-- A mesh without boundary cells, the faces of which carry their positions as indices and have on each side a cell or nothing; the numbers fit
in the index type. -/
structure OpenMesh {V : Type} (m : Mesh V) : Prop where
  dim : m.dim = 2 ∨ (3 ≤ m.dim ∧ m.dim - 3 < m.mids.length)
  none : m.bCells = []
  index : ∀ (i : Nat) p, (faceList m)[i]? = some p → p.1 = i
  left : ∀ p ∈ faceList m, p.2.left < m.cells.length ∨ p.2.left = INVALID
  right : ∀ p ∈ faceList m, p.2.right < m.cells.length ∨ p.2.right = INVALID
  cells_fit : m.cells.length ≤ BOUNDARY
  faces_fit : 2 * (faceList m).length < BOUNDARY

section
variable {n : Nat} {F V : Type}

theorem faceConn_list (m : Mesh V) (i : Idx) : m.faceConn i = (Res.at' (faceList m) i).bind fun p => .ok p.2 := by
  unfold Mesh.faceConn faceList
  by_cases h : m.dim = 2
  · rw [if_pos h, if_pos h, Res.at', Res.at', List.getElem?_map]
    cases m.edges[i]? <;> rfl
  · rw [if_neg h, if_neg h, Res.at', Res.at', List.getElem?_map]
    cases (m.midElems (m.dim - 1))[i]? <;> rfl

theorem numFaces_list {m : Mesh V} (h : m.dim = 2 ∨ 3 ≤ m.dim) : m.numFaces = (faceList m).length := by
  unfold Mesh.numFaces Mesh.numElems faceList
  rcases h with h | h
  · rw [if_pos h, h]
    simp
  · rw [if_neg (by omega), if_neg (by omega), if_neg (by omega), if_neg (by omega)]
    simp

theorem setup_faceList {m : Mesh V} (h : m.dim = 2 ∨ (3 ≤ m.dim ∧ m.dim - 3 < m.mids.length)) :
    m.setupBoundaryCells.bCells = (setupFaces m.bCells (faceList m)).1 ∧
    faceList m.setupBoundaryCells = (setupFaces m.bCells (faceList m)).2 ∧
    m.setupBoundaryCells.cells = m.cells ∧ m.setupBoundaryCells.dim = m.dim := by
  have hdim : m.setupBoundaryCells.dim = m.dim := by
    unfold Mesh.setupBoundaryCells
    split <;> rfl
  rcases h with h | ⟨h, h'⟩
  · obtain ⟨h1, h2, _, h4, _⟩ := C07_mesh_2d m h
    have e : faceList m = m.edges.map fun e => (e.index, e.conn) := by rw [faceList, if_pos h]
    refine ⟨by rw [e]; exact h1, ?_, h4, hdim⟩
    rw [e, ← h2, faceList, if_pos (by rw [hdim]; exact h)]
  · obtain ⟨h1, h2, _, _, h4, _⟩ := C07_mesh_3d m h h'
    have e : faceList m = (m.midElems (m.dim - 1)).map fun f => (f.index, f.conn) := by rw [faceList, if_neg (by omega)]
    refine ⟨by rw [e]; exact h1, ?_, h4, hdim⟩
    rw [e, ← h2, faceList, if_neg (by rw [hdim]; omega), hdim]

theorem missing_le (fs : List (Idx × Conn)) : missingSides fs ≤ 2 * fs.length := by
  induction fs with
  | nil => simp [missingSides]
  | cons p fs ih =>
    rw [missingSides_cons, List.length_cons]
    have : leftMissing p.2 + rightMissing p.2 ≤ 2 := by
      unfold leftMissing rightMissing
      split <;> split <;> omega
    omega

/-- The point on a side of a face of an open mesh. -/
def sidePoint (g : GMesh n F) (i s : Idx) : Vec n F := if s = INVALID then g.faceCenter i else g.cellCenter s

theorem pointOf_open {g : GMesh n F} (h : OpenMesh g.mesh) {i s : Idx} (hs : s < g.mesh.cells.length ∨ s = INVALID) :
    PointOf g i s (sidePoint g i s) := by
  have hfit := h.cells_fit
  unfold sidePoint
  rcases hs with hs | rfl
  · rw [if_neg (cell_ne_invalid (by omega))]
    exact .cell s hs (by omega)
  · rw [if_pos rfl]
    exact .missing h.none

variable [Field F]

/-- The points on the sides after boundary cells have been added. -/
theorem pointOf_closed {g : GMesh n F} (h : OpenMesh g.mesh) {i : Nat} {p q : Idx × Conn} (hp : (faceList g.mesh)[i]? = some p)
    (hq : (faceList (withBoundary g).mesh)[i]? = some q) :
    PointOf (withBoundary g) i q.2.left (sidePoint g i p.2.left) ∧ PointOf (withBoundary g) i q.2.right (sidePoint g i p.2.right) := by
  obtain ⟨e1, e2, e3, _⟩ := setup_faceList h.dim
  have hm : (withBoundary g).mesh = g.mesh.setupBoundaryCells := rfl
  rw [hm, e2] at hq
  have hfit := h.cells_fit
  have hroom : g.mesh.bCells.length + missingSides (faceList g.mesh) < BOUNDARY := by
    have := missing_le (faceList g.mesh)
    have := h.faces_fit
    rw [h.none]
    simp only [List.length_nil]
    omega
  obtain ⟨o1, o2⟩ := C07_own_cell g.mesh.bCells (faceList g.mesh) hroom i p q hp hq
  have hpm := List.mem_of_getElem? hp
  have hi : p.1 = i := h.index i p hp
  have hb : q.2.left = (if p.2.left = INVALID then makeBoundaryIndex (g.mesh.bCells.length + missingSides ((faceList g.mesh).take i)) else p.2.left) ∧
      q.2.right = (if p.2.right = INVALID then makeBoundaryIndex (g.mesh.bCells.length + missingSides ((faceList g.mesh).take i) + leftMissing p.2)
        else p.2.right) := by
    obtain ⟨_, hE⟩ := C07_effect g.mesh.bCells (faceList g.mesh)
    have := hE i (List.getElem?_eq_some_iff.mp hp).1 (List.getElem?_eq_some_iff.mp hq).1
    rw [(List.getElem?_eq_some_iff.mp hp).2, (List.getElem?_eq_some_iff.mp hq).2] at this
    exact ⟨this.2.2.2.1, this.2.2.2.2⟩
  have hle := missingSides_take_le (faceList g.mesh) i p hp
  have one : ∀ (s s' k : Idx), (s < g.mesh.cells.length ∨ s = INVALID) → (s' = if s = INVALID then makeBoundaryIndex k else s) →
      (s = INVALID → k < BOUNDARY) →
      (s = INVALID → ∃ c, (setupFaces g.mesh.bCells (faceList g.mesh)).1[extractBoundaryIndex s']? = some c ∧ c.index = s' ∧ c.bElem = p.1) →
      PointOf (withBoundary g) i s' (sidePoint g i s) := by
    intro s s' k hs hs' hk ho
    unfold sidePoint
    by_cases hinv : s = INVALID
    · rw [if_pos hinv] at hs' ⊢
      have hk := hk hinv
      have hs'' : s' = BOUNDARY + k := by rw [hs', makeBoundaryIndex, if_neg (by omega)]
      obtain ⟨c, c1, _, c3⟩ := ho hinv
      have hex : extractBoundaryIndex s' = k := by
        rw [hs'', extractBoundaryIndex, if_pos (Nat.le_add_right _ _)]; omega
      rw [hex] at c1
      have hcen : (withBoundary g).bCellCenter k = g.faceCenter i := by
        show ((g.mesh.setupBoundaryCells.bCells[k]?).map fun c => g.faceCenter c.bElem).getD 0 = _
        rw [e1, c1, Option.map_some, Option.getD_some, c3, hi]
      rw [hs'', ← hcen]
      exact .boundary k (by rw [hm, e1]; exact (List.getElem?_eq_some_iff.mp c1).1) hk
    · rw [if_neg hinv] at hs' ⊢
      have hs := hs.resolve_right hinv
      rw [hs']
      exact .cell (g := withBoundary g) s (by rw [hm, e3]; exact hs) (by omega)
  refine ⟨one p.2.left q.2.left _ (h.left p hpm) hb.1 ?_ o1, one p.2.right q.2.right _ (h.right p hpm) hb.2 ?_ o2⟩
  · intro hinv
    simp only [leftMissing, hinv, if_true] at hle
    omega
  · intro hinv
    simp only [rightMissing, hinv, if_true] at hle
    omega

theorem faceLists {g : GMesh n F} (h : OpenMesh g.mesh) : (withBoundary g).mesh.numFaces = g.mesh.numFaces ∧
    g.mesh.numFaces = (faceList g.mesh).length ∧ ∀ i, i < g.mesh.numFaces → ∃ p q, (faceList g.mesh)[i]? = some p ∧
      (faceList (withBoundary g).mesh)[i]? = some q ∧ g.mesh.faceConn i = .ok p.2 ∧ (withBoundary g).mesh.faceConn i = .ok q.2 := by
  obtain ⟨e1, e2, e3, e4⟩ := setup_faceList h.dim
  have hm : (withBoundary g).mesh = g.mesh.setupBoundaryCells := rfl
  have hd : g.mesh.dim = 2 ∨ 3 ≤ g.mesh.dim := h.dim.imp id (·.1)
  have n1 := numFaces_list hd
  have n2 := numFaces_list (m := (withBoundary g).mesh) (by rw [hm, e4]; exact hd)
  have hl : (faceList (withBoundary g).mesh).length = (faceList g.mesh).length := by rw [hm, e2, setupFaces_length]
  refine ⟨by rw [n1, n2, hl], n1, fun i hi => ?_⟩
  rw [n1] at hi
  have a := List.getElem?_eq_getElem hi
  have b := List.getElem?_eq_getElem (l := faceList (withBoundary g).mesh) (i := i) (by rw [hl]; exact hi)
  refine ⟨_, _, a, b, ?_, ?_⟩
  · rw [faceConn_list, Res.at'_eq_ok.mpr a]; rfl
  · rw [faceConn_list, Res.at'_eq_ok.mpr b]; rfl

/-- C54. `computeCellsDistance` gives the same distances with boundary cells (and their centers) and without them. -/
theorem C54_distances (g : GMesh n ℝ) (h : OpenMesh g.mesh) :
    ∃ ds, computeCellsDistance g = .ok ds ∧ computeCellsDistance (withBoundary g) = .ok ds ∧ ds.length = (faceList g.mesh).length := by
  obtain ⟨h1, h2, h3⟩ := faceLists h
  have : Nonempty Conn := ⟨{}⟩
  choose! p q hp hq hc hc' using h3
  have a := C41_distances g (fun i => sidePoint g i (p i).2.left) (fun i => sidePoint g i (p i).2.right) fun i hi =>
    ⟨_, hc i hi, pointOf_open h (h.left _ (List.mem_of_getElem? (hp i hi))), pointOf_open h (h.right _ (List.mem_of_getElem? (hp i hi)))⟩
  have b := C41_distances (withBoundary g) (fun i => sidePoint g i (p i).2.left) (fun i => sidePoint g i (p i).2.right) fun i hi =>
    ⟨_, hc' i (by omega), pointOf_closed h (hp i (by omega)) (hq i (by omega))⟩
  rw [h1] at b
  exact ⟨_, a, b, by simp [h2]⟩

theorem closed_nonempty {g : GMesh n F} (h : OpenMesh g.mesh) {p : Idx × Conn} (hp : p ∈ faceList g.mesh) (hl : p.2.left = INVALID) :
    (withBoundary g).mesh.bCells ≠ [] := by
  obtain ⟨i, hi⟩ := List.getElem?_of_mem hp
  obtain ⟨h1, h2, h3⟩ := faceLists h
  obtain ⟨p', q, a1, a2, _, _⟩ := h3 i (by rw [h2]; exact (List.getElem?_eq_some_iff.mp hi).1)
  rw [hi] at a1
  cases a1
  have := (pointOf_closed h hi a2).1
  obtain ⟨e1, e2, e3, _⟩ := setup_faceList h.dim
  intro hb
  rw [show (withBoundary g).mesh = g.mesh.setupBoundaryCells from rfl, e1] at hb
  obtain ⟨new, c1, c2, _⟩ := C07_numbering g.mesh.bCells (faceList g.mesh)
  rw [hb] at c1
  have hn := (List.append_eq_nil_iff.mp c1.symm).2
  rw [hn] at c2
  have := missingSides_take_le (faceList g.mesh) i p hi
  simp only [leftMissing, hl, if_true, List.length_nil] at this c2
  omega

/-- C54, differences. When every face has a left cell, `computeCellsCenterDifference` gives the same differences with boundary cells and without. -/
theorem C54_differences (g : GMesh n F) (h : OpenMesh g.mesh) (hl : ∀ p ∈ faceList g.mesh, p.2.left ≠ INVALID) :
    ∃ ds, computeCellsCenterDifference g = .ok ds ∧ computeCellsCenterDifference (withBoundary g) = .ok ds ∧
      ds.length = (faceList g.mesh).length := by
  obtain ⟨h1, h2, h3⟩ := faceLists h
  have : Nonempty Conn := ⟨{}⟩
  choose! p q hp hq hc hc' using h3
  have a := C41_differences g (fun i => sidePoint g i (p i).2.left) (fun i => sidePoint g i (p i).2.right) fun i hi =>
    ⟨_, hc i hi, pointOf_open h (h.left _ (List.mem_of_getElem? (hp i hi))), pointOf_open h (h.right _ (List.mem_of_getElem? (hp i hi))),
      .inl (hl _ (List.mem_of_getElem? (hp i hi)))⟩
  have b := C41_differences (withBoundary g) (fun i => sidePoint g i (p i).2.left) (fun i => sidePoint g i (p i).2.right) fun i hi => by
    refine ⟨_, hc' i (by omega), (pointOf_closed h (hp i (by omega)) (hq i (by omega))).1, (pointOf_closed h (hp i (by omega)) (hq i (by omega))).2, .inl ?_⟩
    have hP := (pointOf_closed h (hp i (by omega)) (hq i (by omega))).1
    obtain ⟨e1, e2, e3, _⟩ := setup_faceList h.dim
    obtain ⟨_, hE⟩ := C07_effect g.mesh.bCells (faceList g.mesh)
    have hq' := hq i (by omega)
    rw [show (withBoundary g).mesh = g.mesh.setupBoundaryCells from rfl, e2] at hq'
    have hp' := hp i (by omega)
    have := hE i (List.getElem?_eq_some_iff.mp hp').1 (List.getElem?_eq_some_iff.mp hq').1
    rw [(List.getElem?_eq_some_iff.mp hp').2, (List.getElem?_eq_some_iff.mp hq').2] at this
    rw [this.2.2.2.1, if_neg (hl _ (List.mem_of_getElem? hp'))]
    exact hl _ (List.mem_of_getElem? hp')
  rw [h1] at b
  exact ⟨_, a, b, by simp [h2]⟩

/-- C54 is violated for differences at a face without a left cell: adding the boundary cells changes the sign. -/
theorem C54_left_violated (g : GMesh n F) (h : OpenMesh g.mesh) (i : Nat) (p : Idx × Conn) (hp : (faceList g.mesh)[i]? = some p)
    (hl : p.2.left = INVALID) : ∃ c c' d, g.mesh.faceConn i = .ok c ∧ (withBoundary g).mesh.faceConn i = .ok c' ∧
      centerDifference g i c = .ok d ∧ centerDifference (withBoundary g) i c' = .ok (-d) := by
  obtain ⟨h1, h2, h3⟩ := faceLists h
  obtain ⟨p', q, a1, a2, a3, a4⟩ := h3 i (by rw [h2]; exact (List.getElem?_eq_some_iff.mp hp).1)
  rw [hp] at a1
  cases a1
  have hm := List.mem_of_getElem? hp
  refine ⟨_, _, sidePoint g i p.2.left - sidePoint g i p.2.right, a3, a4, ?_, ?_⟩
  · exact C41_left_missing g i p.2 _ _ (pointOf_open h (h.left _ hm)) (pointOf_open h (h.right _ hm)) hl h.none
  · rw [neg_sub]
    exact C41_difference _ i q.2 _ _ (pointOf_closed h hp a2).1 (pointOf_closed h hp a2).2 (.inr (closed_nonempty h hm hl))

/-- C38, C54. The center of the boundary cell on a missing side is the center of the face. -/
theorem C54_centers (g : GMesh n F) (h : OpenMesh g.mesh) (i : Nat) (p : Idx × Conn) (hp : (faceList g.mesh)[i]? = some p) :
    ∃ c', (withBoundary g).mesh.faceConn i = .ok c' ∧
      (p.2.left = INVALID → ∃ k, c'.left = BOUNDARY + k ∧ k < (withBoundary g).mesh.bCells.length ∧ (withBoundary g).bCellCenter k = g.faceCenter i) ∧
      (p.2.right = INVALID → ∃ k, c'.right = BOUNDARY + k ∧ k < (withBoundary g).mesh.bCells.length ∧ (withBoundary g).bCellCenter k = g.faceCenter i) := by
  obtain ⟨h1, h2, h3⟩ := faceLists h
  obtain ⟨p', q, a1, a2, a3, a4⟩ := h3 i (by rw [h2]; exact (List.getElem?_eq_some_iff.mp hp).1)
  rw [hp] at a1
  cases a1
  obtain ⟨e1, e2, e3, _⟩ := setup_faceList h.dim
  have hm : (withBoundary g).mesh = g.mesh.setupBoundaryCells := rfl
  have hq := a2
  rw [hm, e2] at hq
  have hroom : g.mesh.bCells.length + missingSides (faceList g.mesh) < BOUNDARY := by
    have := missing_le (faceList g.mesh)
    have := h.faces_fit
    rw [h.none]
    simp only [List.length_nil]
    omega
  obtain ⟨o1, o2⟩ := C07_own_cell g.mesh.bCells (faceList g.mesh) hroom i p q hp hq
  obtain ⟨_, hE⟩ := C07_effect g.mesh.bCells (faceList g.mesh)
  have hE := hE i (List.getElem?_eq_some_iff.mp hp).1 (List.getElem?_eq_some_iff.mp hq).1
  rw [(List.getElem?_eq_some_iff.mp hp).2, (List.getElem?_eq_some_iff.mp hq).2] at hE
  have hle := missingSides_take_le (faceList g.mesh) i p hp
  have one : ∀ (s' k : Idx), s' = makeBoundaryIndex k → k < BOUNDARY →
      (∃ c, (setupFaces g.mesh.bCells (faceList g.mesh)).1[extractBoundaryIndex s']? = some c ∧ c.index = s' ∧ c.bElem = p.1) →
      ∃ k, s' = BOUNDARY + k ∧ k < (withBoundary g).mesh.bCells.length ∧ (withBoundary g).bCellCenter k = g.faceCenter i := by
    rintro s' k hs' hk ⟨c, c1, _, c3⟩
    have hs'' : s' = BOUNDARY + k := by rw [hs', makeBoundaryIndex, if_neg (by omega)]
    have hex : extractBoundaryIndex s' = k := by
      rw [hs'', extractBoundaryIndex, if_pos (Nat.le_add_right _ _)]; omega
    rw [hex] at c1
    refine ⟨k, hs'', by rw [hm, e1]; exact (List.getElem?_eq_some_iff.mp c1).1, ?_⟩
    show ((g.mesh.setupBoundaryCells.bCells[k]?).map fun c => g.faceCenter c.bElem).getD 0 = _
    rw [e1, c1, Option.map_some, Option.getD_some, c3, h.index i p hp]
  refine ⟨_, a4, fun hl => one _ _ (by rw [hE.2.2.2.1, if_pos hl]) ?_ (o1 hl), fun hr => one _ _ (by rw [hE.2.2.2.2, if_pos hr]) ?_ (o2 hr)⟩
  · simp only [leftMissing, hl, if_true] at hle; omega
  · simp only [rightMissing, hr, if_true] at hle; omega

end

/-- The two tetrahedra. -/
theorem tetsC_open : OpenMesh tetsC.mesh where
  dim := .inr ⟨by decide, by decide⟩
  none := rfl
  index := by
    intro i p hp
    have hlt : i < 7 := (List.getElem?_eq_some_iff.mp hp).1
    have : ∀ i < 7, (faceList twoTets)[i]?.map (·.1) = some i := by decide
    have e : faceList tetsC.mesh = faceList twoTets := rfl
    rw [e] at hp
    have := this i hlt
    rw [hp] at this
    exact Option.some.inj this
  left := by
    show ∀ p ∈ faceList twoTets, p.2.left < 2 ∨ p.2.left = INVALID
    decide
  right := by
    show ∀ p ∈ faceList twoTets, p.2.right < 2 ∨ p.2.right = INVALID
    decide
  cells_fit := by show 2 ≤ BOUNDARY; decide
  faces_fit := by show 2 * 7 < BOUNDARY; decide

example : ∃ ds, computeCellsDistance tetsC = .ok ds ∧ computeCellsDistance (withBoundary tetsC) = .ok ds ∧ ds.length = 7 :=
  C54_distances tetsC tetsC_open

end GTMesh.Props
