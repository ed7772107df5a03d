import Verif.Model.Mesh
import Verif.Spec.Boundary

namespace GTMesh
open Spec

/-! ### Sub-element container -/

theorem SubCont.run_spec {R : Nat} (xs : List Idx) (s : SubCont R) (hlen : s.store.length = R)
    (hn : s.n ≤ R) :
    (s.run xs).1.store.length = R
    ∧ (s.run xs).1.n = min R (s.n + xs.length)
    ∧ (s.run xs).1.iterate = (s.iterate ++ xs).take R
    ∧ (s.run xs).2 = List.replicate (min xs.length (R - s.n)) none
        ++ List.replicate (xs.length - (R - s.n)) (some .runtimeError) := by
  induction xs generalizing s with
  | nil =>
    refine ⟨hlen, ?_, ?_, ?_⟩
    · simp [SubCont.run]; omega
    · simp [SubCont.run, SubCont.iterate, List.take_take, Nat.min_eq_right hn]
    · simp [SubCont.run]
  | cons x xs ih =>
    simp only [SubCont.run]
    by_cases h : s.n < R
    · have hadd : s.addSubelement x = ({ store := s.store.set s.n x, n := s.n + 1 }, none) := by
        unfold SubCont.addSubelement; simp [h, hlen]
      rw [hadd]
      simp only
      obtain ⟨h1, h2, h3, h4⟩ := ih { store := s.store.set s.n x, n := s.n + 1 } (by simp [hlen]) h
      refine ⟨h1, ?_, ?_, ?_⟩
      · rw [h2]; simp; omega
      · rw [h3]
        have : SubCont.iterate { store := s.store.set s.n x, n := s.n + 1 : SubCont R } = s.iterate ++ [x] := by
          unfold SubCont.iterate
          simp only
          apply List.ext_getElem
          · simp; omega
          · intro i h1 h2
            simp only [List.getElem_take, List.getElem_set, List.getElem_append, List.length_take]
            by_cases hi : i = s.n
            · subst hi; simp [hlen]; intro hh; omega
            · have : i < s.n := by simp at h2; omega
              have hl : i < min s.n s.store.length := by omega
              simp [hl]; intro hh; omega
        rw [this]; simp
      · rw [h4]
        simp only [List.length_cons]
        have e1 : min (xs.length + 1) (R - s.n) = min xs.length (R - (s.n + 1)) + 1 := by omega
        have e2 : xs.length + 1 - (R - s.n) = xs.length - (R - (s.n + 1)) := by omega
        rw [e1, e2, List.replicate_succ]
        rfl
    · have hadd : s.addSubelement x = (s, some .runtimeError) := by
        unfold SubCont.addSubelement; simp [h]
      rw [hadd]
      simp only
      obtain ⟨h1, h2, h3, h4⟩ := ih s hlen hn
      have hR : R - s.n = 0 := by omega
      refine ⟨h1, ?_, ?_, ?_⟩
      · rw [h2]; simp; omega
      · rw [h3]
        have hl : s.iterate.length = R := by simp [SubCont.iterate, hlen]; omega
        rw [List.take_append_of_le_length (by omega), List.take_append_of_le_length (by omega)]
      · rw [h4]; simp [hR, List.replicate_succ]

/-! ### Boundary cells -/

theorem INVALID_ne_boundary {k : Nat} (h : k < BOUNDARY - 1) : makeBoundaryIndex k ≠ INVALID := by
  unfold makeBoundaryIndex BOUNDARY INVALID at *
  split <;> omega

/-- What one face contributes. -/
def newCells (k : Nat) (idx : Idx) (c : Conn) : List Cell :=
  (if c.left = INVALID then [{ index := makeBoundaryIndex k, bElem := idx }] else [])
  ++ (if c.right = INVALID then [{ index := makeBoundaryIndex (k + leftMissing c), bElem := idx }] else [])

/-- The face after the setup when `k` boundary cells existed before. -/
def fixedConn (k : Nat) (c : Conn) : Conn :=
  { c with left := if c.left = INVALID then makeBoundaryIndex k else c.left,
           right := if c.right = INVALID then makeBoundaryIndex (k + leftMissing c) else c.right }

theorem setupFace_eq (bc : List Cell) (idx : Idx) (c : Conn) :
    setupFace bc idx c = (bc ++ newCells bc.length idx c, fixedConn bc.length c) := by
  unfold setupFace newCells fixedConn leftMissing isInvalidIndex Conn.setCellLeftIndex Conn.setCellRightIndex
  obtain ⟨l, r, nl, nr⟩ := c
  by_cases hl : l = INVALID <;> by_cases hr : r = INVALID <;> simp [hl, hr]

theorem newCells_length (k : Nat) (idx : Idx) (c : Conn) :
    (newCells k idx c).length = leftMissing c + rightMissing c := by
  unfold newCells leftMissing rightMissing
  by_cases hl : c.left = INVALID <;> by_cases hr : c.right = INVALID <;> simp [hl, hr]

theorem missingSides_cons (p : Idx × Conn) (fs : List (Idx × Conn)) :
    missingSides (p :: fs) = leftMissing p.2 + rightMissing p.2 + missingSides fs := by
  simp [missingSides]

theorem setupFaces_faces (fs : List (Idx × Conn)) (bc : List Cell) (i : Nat) :
    (setupFaces bc fs).2[i]? =
      (fs[i]?).map (fun p => (p.1, fixedConn (bc.length + missingSides (fs.take i)) p.2)) := by
  induction fs generalizing bc i with
  | nil => simp [setupFaces]
  | cons p fs ih =>
    obtain ⟨idx, c⟩ := p
    simp only [setupFaces, setupFace_eq]
    cases i with
    | zero => simp [missingSides]
    | succ i =>
      simp only [List.getElem?_cons_succ, ih, List.take_succ_cons, missingSides_cons,
        List.length_append, newCells_length]
      simp only [Nat.add_assoc]

theorem setupFaces_cells (fs : List (Idx × Conn)) (bc : List Cell) :
    ∃ new, (setupFaces bc fs).1 = bc ++ new ∧ new.length = missingSides fs
      ∧ ∀ k c, new[k]? = some c → c.index = makeBoundaryIndex (bc.length + k) := by
  induction fs generalizing bc with
  | nil => exact ⟨[], by simp [setupFaces], by simp [missingSides], by simp⟩
  | cons p fs ih =>
    obtain ⟨idx, c⟩ := p
    simp only [setupFaces, setupFace_eq]
    obtain ⟨new, h1, h2, h3⟩ := ih (bc ++ newCells bc.length idx c)
    refine ⟨newCells bc.length idx c ++ new, ?_, ?_, ?_⟩
    · rw [h1]; simp
    · simp [newCells_length, missingSides_cons, h2]
    · intro k d hk
      by_cases hlt : k < (newCells bc.length idx c).length
      · rw [List.getElem?_append_left hlt] at hk
        unfold newCells leftMissing at hk
        by_cases hl : c.left = INVALID <;> by_cases hr : c.right = INVALID <;>
          simp [hl, hr] at hk
        · match k, hk with
          | 0, hk => simp at hk; rw [← hk]; rfl
          | 1, hk => simp at hk; rw [← hk]
        · match k, hk with
          | 0, hk => simp at hk; rw [← hk]; rfl
        · match k, hk with
          | 0, hk => simp at hk; rw [← hk]; rfl
      · rw [List.getElem?_append_right (by omega)] at hk
        have := h3 _ _ hk
        rw [this, List.length_append]
        congr 1
        omega

/-- Which face owns the boundary cell at an absolute position. -/
theorem setupFaces_owner (fs : List (Idx × Conn)) (bc : List Cell) (i : Nat) (p : Idx × Conn)
    (hi : fs[i]? = some p) :
    (p.2.left = INVALID →
      (setupFaces bc fs).1[bc.length + missingSides (fs.take i)]? =
        some { index := makeBoundaryIndex (bc.length + missingSides (fs.take i)), bElem := p.1 })
    ∧ (p.2.right = INVALID →
      (setupFaces bc fs).1[bc.length + missingSides (fs.take i) + leftMissing p.2]? =
        some { index := makeBoundaryIndex (bc.length + missingSides (fs.take i) + leftMissing p.2),
               bElem := p.1 }) := by
  induction fs generalizing bc i with
  | nil => simp at hi
  | cons q fs ih =>
    obtain ⟨idx, c⟩ := q
    simp only [setupFaces, setupFace_eq]
    cases i with
    | zero =>
      simp at hi
      subst hi
      obtain ⟨new, h1, h2, h3⟩ := setupFaces_cells fs (bc ++ newCells bc.length idx c)
      rw [h1]
      simp only [List.take_zero, missingSides, List.map_nil, List.sum_nil, Nat.add_zero]
      constructor
      · intro hl
        simp [newCells, hl]
      · intro hr
        by_cases hl : c.left = INVALID
        · simp [newCells, hl, hr, leftMissing]
        · simp [newCells, hl, hr, leftMissing]
    | succ i =>
      simp only [List.getElem?_cons_succ] at hi
      have := ih (bc ++ newCells bc.length idx c) i hi
      simp only [List.length_append, newCells_length] at this
      simp only [List.take_succ_cons, missingSides_cons]
      simpa [Nat.add_assoc] using this

theorem fixedConn_ok {k : Nat} {c : Conn} (h : k + leftMissing c < BOUNDARY - 1) :
    (fixedConn k c).cellsOK = true := by
  have h0 : k < BOUNDARY - 1 := by omega
  have h1 := INVALID_ne_boundary h0
  have h2 := INVALID_ne_boundary h
  unfold fixedConn Conn.cellsOK
  by_cases hl : c.left = INVALID <;> by_cases hr : c.right = INVALID <;> simp [hl, hr, h1, h2]

theorem fixedConn_of_ok {k : Nat} {c : Conn} (h : c.cellsOK = true) : fixedConn k c = c := by
  simp only [Conn.cellsOK, Bool.and_eq_true, decide_eq_true_eq] at h
  unfold fixedConn
  simp [h.1, h.2]

theorem setupFaces_of_ok (fs : List (Idx × Conn)) (bc : List Cell)
    (h : ∀ p ∈ fs, p.2.cellsOK = true) : setupFaces bc fs = (bc, fs) := by
  induction fs generalizing bc with
  | nil => rfl
  | cons p fs ih =>
    obtain ⟨idx, c⟩ := p
    have hc := h (idx, c) (by simp)
    have hn : newCells bc.length idx c = [] := by
      simp only [Conn.cellsOK, Bool.and_eq_true, decide_eq_true_eq] at hc
      simp [newCells, hc.1, hc.2]
    simp only [setupFaces, setupFace_eq, hn, List.append_nil, fixedConn_of_ok hc]
    rw [ih bc (fun p hp => h p (by simp [hp]))]

theorem missingSides_take_le (fs : List (Idx × Conn)) (i : Nat) (p : Idx × Conn) (h : fs[i]? = some p) :
    missingSides (fs.take i) + leftMissing p.2 + rightMissing p.2 ≤ missingSides fs := by
  induction fs generalizing i with
  | nil => simp at h
  | cons q fs ih =>
    cases i with
    | zero => simp at h; subst h; simp [missingSides_cons, missingSides]
    | succ i =>
      simp only [List.getElem?_cons_succ] at h
      have := ih i h
      simp only [List.take_succ_cons, missingSides_cons]
      omega

theorem missingSides_take_mono (fs : List (Idx × Conn)) {i j : Nat} (hij : i < j) (p : Idx × Conn)
    (h : fs[i]? = some p) :
    missingSides (fs.take i) + leftMissing p.2 + rightMissing p.2 ≤ missingSides (fs.take j) := by
  have h2 := missingSides_take_le (fs.take j) i p (by rw [List.getElem?_take]; simp [hij, h])
  rw [List.take_take] at h2
  have : min i j = i := by omega
  rwa [this] at h2

theorem setupFaces_length (fs : List (Idx × Conn)) (bc : List Cell) :
    (setupFaces bc fs).2.length = fs.length := by
  induction fs generalizing bc with
  | nil => rfl
  | cons p fs ih => obtain ⟨i, c⟩ := p; simp [setupFaces, ih]

theorem midElems_set {V : Type} (m : Mesh V) (bc : List Cell) (l : List Face) (hd : 3 ≤ m.dim)
    (hm : m.dim - 3 < m.mids.length) :
    ({ m with bCells := bc, mids := m.mids.set (m.dim - 3) l } : Mesh V).midElems (m.dim - 1) = l := by
  have e : m.dim - 1 - 2 = m.dim - 3 := by omega
  simp [Mesh.midElems, e, hm]

theorem zip_conn (fs : List Face) (bc : List Cell) :
    let r := setupFaces bc (fs.map (fun f => (f.index, f.conn)))
    (List.zipWith (fun f p => { f with conn := p.2 }) fs r.2).map (fun f : Face => (f.index, f.conn)) = r.2
    ∧ (List.zipWith (fun f p => { f with conn := p.2 }) fs r.2).map (fun f : Face => f.sub)
        = fs.map (fun f => f.sub) := by
  have hfst := setupFaces_faces (fs.map (fun f => (f.index, f.conn))) bc
  constructor
  · apply List.ext_getElem?
    intro i
    rw [List.getElem?_map, List.getElem?_zipWith, hfst i, List.getElem?_map]
    cases fs[i]? <;> simp
  · apply List.ext_getElem?
    intro i
    rw [List.getElem?_map, List.getElem?_zipWith, hfst i, List.getElem?_map, List.getElem?_map]
    cases fs[i]? <;> simp

end GTMesh
