import Verif.Proofs.Mesh

/-! # C06–C08: sub-element containers, boundary cells, clear -/

namespace GTMesh.Props
open GTMesh GTMesh.Spec

/-- C06. For every reserve `R`, whatever the uninitialised array contains, and every history `xs` of
`addSubelement` calls: iteration yields exactly the first `R` offered indices in order, `size()` is
their number, precisely the calls after the `R`-th throw `runtime_error`. -/
theorem C06_bounded_list (R : Nat) (garbage : List Idx) (hg : garbage.length = R) (xs : List Idx) :
    let r := (SubCont.fresh (R := R) garbage).run xs
    r.1.iterate = xs.take R
    ∧ r.1.size = min R xs.length
    ∧ r.2 = List.replicate (min xs.length R) none
        ++ List.replicate (xs.length - R) (some .runtimeError) := by
  have := SubCont.run_spec xs (SubCont.fresh (R := R) garbage) hg (by simp [SubCont.fresh])
  obtain ⟨_, h2, h3, h4⟩ := this
  refine ⟨?_, ?_, ?_⟩
  · rw [h3]; simp [SubCont.fresh, SubCont.iterate]
  · unfold SubCont.size; rw [h2]; simp [SubCont.fresh]
  · rw [h4]; simp [SubCont.fresh]

/-- C06. Element access: `at(i)` returns the `i`-th accepted index for `i < size()`, and throws from the
reserve on. -/
theorem C06_at (R : Nat) (garbage : List Idx) (hg : garbage.length = R) (xs : List Idx) (i : Nat) :
    (∀ h : i < min R xs.length,
      ((SubCont.fresh (R := R) garbage).run xs).1.at' i = .ok (xs[i]'(by omega)))
    ∧ (R ≤ i → ((SubCont.fresh (R := R) garbage).run xs).1.at' i = .throw .outOfRange) := by
  obtain ⟨h1, h2, h3, -⟩ := SubCont.run_spec xs (SubCont.fresh (R := R) garbage) hg (by simp [SubCont.fresh])
  simp only [SubCont.fresh, Nat.zero_add] at h2
  constructor
  · intro h
    unfold SubCont.at'
    rw [Res.at'_eq_ok]
    have h4 := congrArg (fun l => l[i]?) h3
    simp only [SubCont.iterate, SubCont.fresh, List.take_zero, List.nil_append] at h4
    rw [List.getElem?_take, if_pos (by rw [h2]; omega)] at h4
    rw [List.getElem?_take, if_pos (by omega)] at h4
    rw [show (SubCont.fresh (R := R) garbage) = { store := garbage, n := 0 } from rfl, h4]
    exact List.getElem?_eq_getElem _
  · intro h
    unfold SubCont.at' Res.at'
    rw [List.getElem?_eq_none (by omega)]

/-- C06, a weakness: an access between `size()` and the reserve is not refused but returns whatever the
uninitialised array holds. -/
theorem C06_at_uninitialised : ∀ x : Idx,
    ((SubCont.fresh (R := 2) [x, x]).run [7]).1.at' 1 = .ok x := by
  intro x; simp [SubCont.run, SubCont.fresh, SubCont.addSubelement, SubCont.at', Res.at']

example : ([0, 0, 0] : List Idx).length = 3 := rfl

/-- C06. The reserve declared for a mesh of dimension `D`: the `k`-th number of the pack belongs to the
elements of dimension `D - 1 - k`; vertices, edges, cells and unlisted dimensions use dynamic
containers (reserve 0). -/
theorem C06_reserve (D : Nat) (rs : List Nat) :
    (∀ k, (h : k < rs.length) → 2 ≤ D - 1 - k → k + 1 < D → reserveOf D rs (D - 1 - k) = rs[k])
    ∧ reserveOf D rs 0 = 0 ∧ reserveOf D rs 1 = 0 ∧ reserveOf D rs D = 0
    ∧ (∀ d, d ≤ D → rs.length < D - d → reserveOf D rs d = 0) := by
  refine ⟨?_, by simp [reserveOf], by simp [reserveOf], by simp [reserveOf], ?_⟩
  · intro k h h2 h3
    unfold reserveOf
    have e : D - (D - 1 - k) - 1 = k := by omega
    have e2 : ¬ (D - 1 - k = D ∨ D - 1 - k = 1 ∨ D - 1 - k = 0 ∨ rs.length < D - (D - 1 - k)) := by omega
    rw [if_neg e2, e, List.getElem?_eq_getElem h]; rfl
  · intro d _ h; simp [reserveOf, h]

example : reserveOf 4 [6, 12] 3 = 6 ∧ reserveOf 4 [6, 12] 2 = 12 := by decide

/-! ## C07 -/

/-- C07. The exact effect of `setupBoundaryCells` on the faces (as long as the boundary cells can be
numbered): the `i`-th face keeps its index and its successor pointers and every side that had a cell;
a missing side receives the boundary index of the next free position, which is the old number of
boundary cells plus the number of sides missing before it. -/
theorem C07_effect (bc : List Cell) (fs : List (Idx × Conn)) :
    let fs' := (setupFaces bc fs).2
    fs'.length = fs.length
    ∧ ∀ i (h : i < fs.length) (h' : i < fs'.length),
        let k := bc.length + missingSides (fs.take i)
        fs'[i].1 = fs[i].1
        ∧ fs'[i].2.nextL = fs[i].2.nextL ∧ fs'[i].2.nextR = fs[i].2.nextR
        ∧ fs'[i].2.left = (if fs[i].2.left = INVALID then makeBoundaryIndex k else fs[i].2.left)
        ∧ fs'[i].2.right = (if fs[i].2.right = INVALID
            then makeBoundaryIndex (k + leftMissing fs[i].2) else fs[i].2.right) := by
  refine ⟨setupFaces_length fs bc, ?_⟩
  intro i h h'
  have := setupFaces_faces fs bc i
  rw [List.getElem?_eq_getElem h, List.getElem?_eq_getElem h'] at this
  simp only [Option.map_some, Option.some.injEq] at this
  simp [this, fixedConn]

/-- C07. The number of boundary cells grows by exactly the number of missing sides, old boundary cells
stay, and the boundary cell at position `k` carries the boundary index of `k`. -/
theorem C07_numbering (bc : List Cell) (fs : List (Idx × Conn)) :
    ∃ new, (setupFaces bc fs).1 = bc ++ new ∧ new.length = missingSides fs
      ∧ ∀ k c, new[k]? = some c → c.index = makeBoundaryIndex (bc.length + k) :=
  setupFaces_cells fs bc

/-- C07. After the call every face has two valid cells (as long as fewer than `2^63 - 1` boundary cells
exist). -/
theorem C07_all_sides (bc : List Cell) (fs : List (Idx × Conn))
    (hroom : bc.length + missingSides fs < BOUNDARY) :
    ∀ p ∈ (setupFaces bc fs).2, p.2.cellsOK = true := by
  intro p hp
  obtain ⟨i, hi, rfl⟩ := List.mem_iff_getElem.mp hp
  have h0 : i < fs.length := by rw [← setupFaces_length fs bc]; exact hi
  have h1 := setupFaces_faces fs bc i
  rw [List.getElem?_eq_getElem h0, List.getElem?_eq_getElem hi] at h1
  simp only [Option.map_some, Option.some.injEq] at h1
  rw [h1]
  have h2 := missingSides_take_le fs i fs[i] (List.getElem?_eq_getElem h0)
  by_cases hl : (fs[i]).2.left = INVALID
  · by_cases hr : (fs[i]).2.right = INVALID
    · apply fixedConn_ok
      simp only [leftMissing, rightMissing, hl, hr, if_true] at *
      omega
    · have hk : bc.length + missingSides (fs.take i) < BOUNDARY - 1 := by
        simp only [leftMissing, rightMissing, hl, hr, if_true, if_false] at *; omega
      have := INVALID_ne_boundary hk
      simp [fixedConn, Conn.cellsOK, hl, hr, this]
  · by_cases hr : (fs[i]).2.right = INVALID
    · apply fixedConn_ok
      simp only [leftMissing, rightMissing, hl, hr, if_true, if_false] at *
      omega
    · simp [fixedConn, Conn.cellsOK, hl, hr]

/-- C07. Each missing side is represented by its own boundary cell: looking up the boundary cell whose
index was stored in the face gives a cell that refers back to this face. -/
theorem C07_own_cell (bc : List Cell) (fs : List (Idx × Conn))
    (hroom : bc.length + missingSides fs < BOUNDARY)
    (i : Nat) (p q : Idx × Conn) (hp : fs[i]? = some p) (hq : (setupFaces bc fs).2[i]? = some q) :
    (p.2.left = INVALID →
      ∃ c, (setupFaces bc fs).1[extractBoundaryIndex q.2.left]? = some c
        ∧ c.index = q.2.left ∧ c.bElem = p.1)
    ∧ (p.2.right = INVALID →
      ∃ c, (setupFaces bc fs).1[extractBoundaryIndex q.2.right]? = some c
        ∧ c.index = q.2.right ∧ c.bElem = p.1) := by
  have h1 := setupFaces_faces fs bc i
  rw [hp, hq] at h1
  simp only [Option.map_some, Option.some.injEq] at h1
  have h2 := missingSides_take_le fs i p hp
  obtain ⟨ho1, ho2⟩ := setupFaces_owner fs bc i p hp
  have hex : ∀ k, k < BOUNDARY → extractBoundaryIndex (makeBoundaryIndex k) = k := by
    intro k hk
    unfold makeBoundaryIndex extractBoundaryIndex BOUNDARY at *
    simp only [show ¬ (9223372036854775808 ≤ k) by omega, if_false]
    rw [if_pos (by omega)]; omega
  subst h1
  constructor
  · intro hl
    have := ho1 hl
    refine ⟨{ index := makeBoundaryIndex (bc.length + missingSides (fs.take i)), bElem := p.1 }, ?_, ?_, rfl⟩
    · simp only [fixedConn, hl, if_true]
      rw [hex _ (by simp [leftMissing, hl] at h2; omega)]
      exact this
    · simp [fixedConn, hl]
  · intro hr
    have := ho2 hr
    refine ⟨{ index := makeBoundaryIndex (bc.length + missingSides (fs.take i) + leftMissing p.2), bElem := p.1 }, ?_, ?_, rfl⟩
    · simp only [fixedConn, hr, if_true]
      rw [hex _ (by simp [rightMissing, hr] at h2; omega)]
      exact this
    · simp [fixedConn, hr]

/-- C07. Two different missing sides never receive the same boundary cell. -/
theorem C07_distinct (bc : List Cell) (fs : List (Idx × Conn))
    (hroom : bc.length + missingSides fs < BOUNDARY)
    (i j : Nat) (p q p' q' : Idx × Conn) (hij : i < j)
    (hp : fs[i]? = some p) (hp' : (setupFaces bc fs).2[i]? = some p')
    (hq : fs[j]? = some q) (hq' : (setupFaces bc fs).2[j]? = some q') :
    (p.2.left = INVALID → q.2.left = INVALID → p'.2.left ≠ q'.2.left)
    ∧ (p.2.left = INVALID → q.2.right = INVALID → p'.2.left ≠ q'.2.right)
    ∧ (p.2.right = INVALID → q.2.left = INVALID → p'.2.right ≠ q'.2.left)
    ∧ (p.2.right = INVALID → q.2.right = INVALID → p'.2.right ≠ q'.2.right)
    ∧ (p.2.left = INVALID → p.2.right = INVALID → p'.2.left ≠ p'.2.right) := by
  have h1 := setupFaces_faces fs bc i
  rw [hp, hp'] at h1
  have h2 := setupFaces_faces fs bc j
  rw [hq, hq'] at h2
  simp only [Option.map_some, Option.some.injEq] at h1 h2
  have hm := missingSides_take_mono fs hij p hp
  have hj := missingSides_take_le fs j q hq
  subst h1 h2
  have hmk : ∀ a b, a < BOUNDARY → b < BOUNDARY → a ≠ b → makeBoundaryIndex a ≠ makeBoundaryIndex b := by
    intro a b ha hb hab
    unfold makeBoundaryIndex
    rw [if_neg (by omega), if_neg (by omega)]; omega
  simp only [fixedConn]
  refine ⟨?_, ?_, ?_, ?_, ?_⟩ <;> intro ha hb <;> simp only [ha, hb, if_true] <;> apply hmk <;>
    simp only [leftMissing, rightMissing, ha, hb, if_true] at * <;> (try split at hm) <;> (try split at hj) <;> (try split) <;> omega

/-- C07. A second call changes nothing. -/
theorem C07_idempotent (bc : List Cell) (fs : List (Idx × Conn))
    (hroom : bc.length + missingSides fs < BOUNDARY) :
    let r := setupFaces bc fs
    setupFaces r.1 r.2 = r :=
  setupFaces_of_ok _ _ (C07_all_sides bc fs hroom)

/-- C07. Faces that already have two cells are not touched. -/
theorem C07_interior (bc : List Cell) (fs : List (Idx × Conn)) (h : ∀ p ∈ fs, p.2.cellsOK = true) :
    setupFaces bc fs = (bc, fs) := setupFaces_of_ok fs bc h

example : ([] : List Cell).length + missingSides [(0, { left := 3 }), (1, {}), (2, { left := 1, right := 2 })]
    < BOUNDARY := by decide

/-- C07. The mesh-level call acts on the faces of the mesh (the edges in 2D) and on nothing else. -/
theorem C07_mesh_2d {V : Type} (m : Mesh V) (hd : m.dim = 2) :
    let r := setupFaces m.bCells (m.edges.map (fun e => (e.index, e.conn)))
    let m' := m.setupBoundaryCells
    m'.bCells = r.1 ∧ m'.edges.map (fun e => (e.index, e.conn)) = r.2
    ∧ m'.edges.map (fun e => (e.a, e.b)) = m.edges.map (fun e => (e.a, e.b))
    ∧ m'.cells = m.cells ∧ m'.vertices = m.vertices ∧ m'.mids = m.mids := by
  have hlen := setupFaces_length (m.edges.map (fun e => (e.index, e.conn))) m.bCells
  have hfst := setupFaces_faces (m.edges.map (fun e => (e.index, e.conn))) m.bCells
  simp only [Mesh.setupBoundaryCells, hd, if_true]
  refine ⟨trivial, ?_, ?_, trivial, trivial, trivial⟩
  · apply List.ext_getElem?
    intro i
    rw [List.getElem?_map, List.getElem?_zipWith, hfst i, List.getElem?_map]
    cases m.edges[i]? <;> simp
  · apply List.ext_getElem?
    intro i
    rw [List.getElem?_map, List.getElem?_zipWith, hfst i, List.getElem?_map, List.getElem?_map]
    cases m.edges[i]? <;> simp

/-- C07, 3D (and higher): only the connections of the `dim-1` elements and the boundary cells change. -/
theorem C07_mesh_3d {V : Type} (m : Mesh V) (hd : 3 ≤ m.dim) (hm : m.dim - 3 < m.mids.length) :
    let r := setupFaces m.bCells ((m.midElems (m.dim - 1)).map (fun f => (f.index, f.conn)))
    let m' := m.setupBoundaryCells
    m'.bCells = r.1 ∧ (m'.midElems (m.dim - 1)).map (fun f => (f.index, f.conn)) = r.2
    ∧ (m'.midElems (m.dim - 1)).map (·.sub) = (m.midElems (m.dim - 1)).map (·.sub)
    ∧ (∀ d, d ≠ m.dim - 1 → 2 ≤ d → m'.midElems d = m.midElems d)
    ∧ m'.cells = m.cells ∧ m'.vertices = m.vertices ∧ m'.edges = m.edges := by
  have h2 : m.dim ≠ 2 := by omega
  have hz := zip_conn (m.midElems (m.dim - 1)) m.bCells
  simp only [Mesh.setupBoundaryCells, h2, if_false]
  refine ⟨trivial, ?_, ?_, ?_, trivial, trivial, trivial⟩
  · rw [midElems_set m _ _ hd hm]; exact hz.1
  · rw [midElems_set m _ _ hd hm]; exact hz.2
  · intro d hne hd2
    unfold Mesh.midElems
    simp only [List.getElem?_set]
    rw [if_neg (by omega)]

example : ({ dim := 3, mids := [[{ index := 0 }]] } : Mesh Nat).dim - 3
    < ({ dim := 3, mids := [[{ index := 0 }]] } : Mesh Nat).mids.length := by decide

/-! ## C08 -/

/-- C08 (partial): `clear()` removes the elements of every dimension.  Missing for the full property:
the boundary cells are removed too; see `C08_boundary_cells_survive`. -/
theorem C08_clear_partial {V : Type} (m : Mesh V) (hd : 2 ≤ m.dim) (d : Nat) (_ : d ≤ m.dim) :
    m.clear.dim = m.dim ∧ m.clear.numElems d = 0 := by
  refine ⟨rfl, ?_⟩
  unfold Mesh.numElems Mesh.clear Mesh.midElems
  split
  · rfl
  · split
    · rfl
    · split
      · rfl
      · simp only [List.getElem?_map]
        cases m.mids[d - 2]? <;> simp

/-- C08 is violated: `clear()` never removes a boundary cell, so a mesh with boundary cells is not
empty after `clear()`. -/
theorem C08_boundary_cells_survive {V : Type} (m : Mesh V) : m.clear.bCells = m.bCells := rfl

/-- C08, witness: after set up, clear and loading one new boundary face, the boundary cell of the new
face is numbered 1 instead of 0. -/
theorem C08_witness :
    let m0 : Mesh Unit := { dim := 2, edges := [{ index := 0, conn := { left := 0 } }] }
    let m1 := m0.setupBoundaryCells.clear
    let m2 := { m1 with edges := [{ index := 0, conn := { left := 0 } }] }.setupBoundaryCells
    m1.bCells.length = 1 ∧ m2.bCells.length = 2
    ∧ m2.edges.map (fun e => extractBoundaryIndex e.conn.right) = [1]
    ∧ m0.setupBoundaryCells.edges.map (fun e => extractBoundaryIndex e.conn.right) = [0] := by
  decide

end GTMesh.Props
