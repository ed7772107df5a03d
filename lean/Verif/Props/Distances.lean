import Verif.Props.Normals

/-! # C41: distances and differences of cell centers; C42: orientation of edges -/

namespace GTMesh.Props
open GTMesh Spec Std' Vec Geo

/-! ## C41 -/

/-- The point on the side `s` of face `i`: the center of the cell; the center of the boundary cell, if the side refers to one; the center
of the face itself, if the side is missing in a mesh without boundary cells. -/
inductive PointOf {n : Nat} {F : Type} (g : GMesh n F) (i : Idx) : Idx → Vec n F → Prop where
  | cell (s : Idx) : s < g.mesh.cells.length → s < BOUNDARY → PointOf g i s (g.cellCenter s)
  | boundary (k : Idx) : k < g.mesh.bCells.length → k < BOUNDARY → PointOf g i (BOUNDARY + k) (g.bCellCenter k)
  | missing : g.mesh.bCells = [] → PointOf g i INVALID (g.faceCenter i)

/-- The connection with left and right exchanged. -/
def exchange (c : Conn) : Conn := { left := c.right, right := c.left, nextL := c.nextR, nextR := c.nextL }

section
variable {n : Nat} {F : Type}

theorem cell_ne_invalid {s : Nat} (h : s < BOUNDARY) : s ≠ INVALID := by
  rintro rfl
  exact absurd h (by decide +kernel)

theorem innerCenter_ok {g : GMesh n F} {s : Idx} (h : s < g.mesh.cells.length) : innerCenter g s = .ok (g.cellCenter s) := by
  have : Res.at' g.mesh.cells s = .ok g.mesh.cells[s] := Res.at'_eq_ok.mpr (List.getElem?_eq_getElem h)
  rw [innerCenter, this]; rfl

theorem sideCenter_ok {g : GMesh n F} {i s : Idx} {P : Vec n F} (hb : g.mesh.bCells ≠ []) (h : PointOf g i s P) : sideCenter g s = .ok P := by
  cases h with
  | cell _ h1 h2 =>
    have hbd : isBoundaryIndex s = false := by simp only [isBoundaryIndex, decide_eq_false_iff_not]; omega
    rw [sideCenter, hbd]
    exact innerCenter_ok h1
  | boundary k h1 h2 =>
    have hbd : isBoundaryIndex (BOUNDARY + k) = true := by simp [isBoundaryIndex]
    have he : extractBoundaryIndex (BOUNDARY + k) = k := by
      unfold extractBoundaryIndex; rw [if_pos (Nat.le_add_right _ _)]; omega
    have : Res.at' g.mesh.bCells k = .ok g.mesh.bCells[k] := Res.at'_eq_ok.mpr (List.getElem?_eq_getElem h1)
    rw [sideCenter, hbd, he, this]; rfl
  | missing h => exact absurd h hb

/-- Without boundary cells, a side with a point is a cell or is missing. -/
theorem PointOf.noBoundary {g : GMesh n F} {i s : Idx} {P : Vec n F} (hb : g.mesh.bCells = []) (h : PointOf g i s P) :
    (s < g.mesh.cells.length ∧ s ≠ INVALID ∧ P = g.cellCenter s) ∨ (s = INVALID ∧ P = g.faceCenter i) := by
  cases h with
  | cell _ h1 h2 => exact .inl ⟨h1, cell_ne_invalid h2, rfl⟩
  | boundary k h1 _ => rw [hb] at h1; simp at h1
  | missing _ => exact .inr ⟨rfl, rfl⟩

/-- C41. The distance of a face is the distance of the points on its two sides, for every pattern of cells, boundary cells and missing
sides. -/
theorem C41_distance (g : GMesh n ℝ) (i : Idx) (c : Conn) (L R : Vec n ℝ) (hL : PointOf g i c.left L) (hR : PointOf g i c.right R) :
    cellsDistance g i c = .ok (Vec.norm (L - R)) := by
  unfold cellsDistance
  by_cases hb : g.mesh.bCells = []
  · have he : g.mesh.bCells.isEmpty = true := by rw [hb]; rfl
    rw [if_pos he]
    rcases hL.noBoundary hb with ⟨l1, l2, rfl⟩ | ⟨l1, rfl⟩ <;> rcases hR.noBoundary hb with ⟨r1, r2, rfl⟩ | ⟨r1, rfl⟩
    · rw [if_pos ⟨l2, r2⟩, innerCenter_ok l1, innerCenter_ok r1]; simp only [Res.bind, sub_eq]
    · rw [if_neg (by simp [r1]), if_pos ⟨l2, r1⟩, innerCenter_ok l1]; simp only [Res.bind, sub_eq]
    · rw [if_neg (by simp [l1]), if_neg (by simp [l1]), if_pos ⟨l1, r2⟩, innerCenter_ok r1]
      simp only [Res.bind, sub_eq]; rw [norm_sub_comm]
    · rw [if_neg (by simp [l1]), if_neg (by simp [l1]), if_neg (by simp [r1]), sub_self, norm_zero]
  · have he : ¬ g.mesh.bCells.isEmpty = true := by rw [List.isEmpty_iff]; exact hb
    rw [if_neg he, sideCenter_ok hb hL, sideCenter_ok hb hR]
    simp only [Res.bind, sub_eq]

/-- C41. On the whole mesh: one distance for each face, never negative. -/
theorem C41_distances (g : GMesh n ℝ) (L R : Idx → Vec n ℝ)
    (h : ∀ i, i < g.mesh.numFaces → ∃ c, g.mesh.faceConn i = .ok c ∧ PointOf g i c.left (L i) ∧ PointOf g i c.right (R i)) :
    computeCellsDistance g = .ok ((List.range g.mesh.numFaces).map fun i => Vec.norm (L i - R i)) := by
  apply forEach_ok
  intro i hi
  obtain ⟨c, h1, h2, h3⟩ := h i (List.mem_range.mp hi)
  rw [h1]
  exact C41_distance g i c _ _ h2 h3

/-- C41. No distance is negative, on any mesh. -/
theorem C41_nonneg (g : GMesh n ℝ) (ds : List ℝ) (h : computeCellsDistance g = .ok ds) : ∀ d ∈ ds, 0 ≤ d := by
  refine forall₂_right ?_ (forEach_eq_ok h)
  intro i d hd
  beta_reduce at hd
  cases h1 : g.mesh.faceConn i <;> rw [h1] at hd <;> simp only [Res.bind, reduceCtorEq] at hd
  rename_i c
  have two : ∀ {x y : Res (Vec n ℝ)} {d : ℝ}, (x.bind fun L => y.bind fun R => Res.ok (Vec.norm (sub L R))) = .ok d → 0 ≤ d := by
    intro x y d h
    cases x <;> simp only [Res.bind, reduceCtorEq] at h
    cases y <;> simp only [reduceCtorEq] at h
    rw [← Res.ok.inj h]; exact norm_nonneg' _
  have one : ∀ {x : Res (Vec n ℝ)} {P : Vec n ℝ} {d : ℝ}, (x.bind fun L => Res.ok (Vec.norm (sub L P))) = .ok d → 0 ≤ d := by
    intro x P d h
    cases x <;> simp only [Res.bind, reduceCtorEq] at h
    rw [← Res.ok.inj h]; exact norm_nonneg' _
  unfold cellsDistance at hd
  split at hd
  · split at hd
    · exact two hd
    · split at hd
      · exact one hd
      · split at hd
        · exact one hd
        · rw [← Res.ok.inj hd]
  · exact two hd

theorem at_fail {α : Type} {l : List α} {i : Nat} : (∃ a, Res.at' l i = .ok a) ∨ Res.at' l i = .throw .outOfRange := by
  unfold Res.at'
  cases l[i]? with
  | none => right; rfl
  | some a => left; exact ⟨a, rfl⟩

theorem innerCenter_cases (g : GMesh n F) (s : Idx) : (∃ P, innerCenter g s = .ok P) ∨ innerCenter g s = .throw .outOfRange := by
  unfold innerCenter
  rcases at_fail (l := g.mesh.cells) (i := s) with ⟨a, h⟩ | h <;> rw [h]
  · exact .inl ⟨_, rfl⟩
  · exact .inr rfl

theorem sideCenter_cases (g : GMesh n F) (s : Idx) : (∃ P, sideCenter g s = .ok P) ∨ sideCenter g s = .throw .outOfRange := by
  unfold sideCenter
  split
  · rcases at_fail (l := g.mesh.bCells) (i := extractBoundaryIndex s) with ⟨a, h⟩ | h <;> rw [h]
    · exact .inl ⟨_, rfl⟩
    · exact .inr rfl
  · exact innerCenter_cases g s

theorem norm_swap {x y : Res (Vec n ℝ)} (hx : (∃ P, x = .ok P) ∨ x = .throw .outOfRange) (hy : (∃ P, y = .ok P) ∨ y = .throw .outOfRange) :
    (x.bind fun L => y.bind fun R => Res.ok (Vec.norm (sub L R))) = y.bind fun L => x.bind fun R => Res.ok (Vec.norm (sub L R)) := by
  rcases hx with ⟨P, rfl⟩ | rfl <;> rcases hy with ⟨Q, rfl⟩ | rfl <;> simp only [Res.bind]
  rw [sub_eq, sub_eq, norm_sub_comm]

/-- C41. The distance (or the exception) does not change when left and right are exchanged. -/
theorem C41_symmetric (g : GMesh n ℝ) (i : Idx) (c : Conn) : cellsDistance g i (exchange c) = cellsDistance g i c := by
  unfold cellsDistance exchange
  by_cases hb : g.mesh.bCells.isEmpty = true
  · rw [if_pos hb, if_pos hb]
    by_cases hl : c.left = INVALID <;> by_cases hr : c.right = INVALID
    · rw [if_neg (by simp [hr]), if_neg (by simp [hr]), if_neg (by simp [hl]), if_neg (by simp [hl]), if_neg (by simp [hl]), if_neg (by simp [hr])]
    · rw [if_neg (by simp [hl]), if_pos ⟨hr, hl⟩, if_neg (by simp [hl]), if_neg (by simp [hl]), if_pos ⟨hl, hr⟩]
    · rw [if_neg (by simp [hr]), if_neg (by simp [hr]), if_pos ⟨hr, hl⟩, if_neg (by simp [hr]), if_pos ⟨hl, hr⟩]
    · rw [if_pos ⟨hr, hl⟩, if_pos ⟨hl, hr⟩]
      exact norm_swap (innerCenter_cases g _) (innerCenter_cases g _)
  · rw [if_neg hb, if_neg hb]
    exact norm_swap (sideCenter_cases g _) (sideCenter_cases g _)

/-- C41. A missing side in a mesh with boundary cells is reported by an exception. -/
theorem C41_missing_throws (g : GMesh n ℝ) (i : Idx) (c : Conn) (hb : g.mesh.bCells ≠ []) (hs : g.mesh.bCells.length < BOUNDARY)
    (h : c.left = INVALID ∨ c.right = INVALID) : cellsDistance g i c = .throw .outOfRange := by
  have he : ¬ g.mesh.bCells.isEmpty = true := by rw [List.isEmpty_iff]; exact hb
  have hi : sideCenter g INVALID = .throw .outOfRange := by
    have hbd : isBoundaryIndex INVALID = true := by decide +kernel
    have hx : extractBoundaryIndex INVALID = BOUNDARY - 1 := by decide +kernel
    have hn : g.mesh.bCells[BOUNDARY - 1]? = none := List.getElem?_eq_none (by omega)
    rw [sideCenter, hbd, hx, Res.at', hn]; rfl
  unfold cellsDistance
  rw [if_neg he]
  rcases h with h | h
  · rw [h, hi]; rfl
  · rw [h]
    rcases sideCenter_cases g c.left with ⟨P, hP⟩ | hP
    · rw [hP, hi]; rfl
    · rw [hP]; rfl

variable [Field F]

/-- C41. The difference is the point on the right minus the point on the left, unless the left side is missing. -/
theorem C41_difference (g : GMesh n F) (i : Idx) (c : Conn) (L R : Vec n F) (hL : PointOf g i c.left L) (hR : PointOf g i c.right R)
    (h : c.left ≠ INVALID ∨ g.mesh.bCells ≠ []) : centerDifference g i c = .ok (R - L) := by
  unfold centerDifference
  have inv : ∀ s : Idx, isInvalidIndex s = true ↔ s = INVALID := by intro s; simp [isInvalidIndex]
  have inv' : ∀ s : Idx, isInvalidIndex s = false ↔ s ≠ INVALID := by intro s; simp [isInvalidIndex]
  by_cases hb : g.mesh.bCells = []
  · have he : g.mesh.bCells.isEmpty = true := by rw [hb]; rfl
    have hl : c.left ≠ INVALID := h.resolve_right fun h => h hb
    rw [if_pos he]
    rcases hL.noBoundary hb with ⟨l1, l2, rfl⟩ | ⟨l1, rfl⟩
    · rcases hR.noBoundary hb with ⟨r1, r2, rfl⟩ | ⟨r1, rfl⟩
      · rw [if_pos (by rw [(inv' _).mpr l2, (inv' _).mpr r2]; rfl), innerCenter_ok r1, innerCenter_ok l1]
        simp only [Res.bind, sub_eq]
      · rw [if_neg (by rw [(inv' _).mpr l2, (inv _).mpr r1]; decide), if_pos (by rw [(inv' _).mpr l2, (inv _).mpr r1]; rfl), innerCenter_ok l1]
        simp only [Res.bind, sub_eq]
    · exact absurd l1 hl
  · have he : ¬ g.mesh.bCells.isEmpty = true := by rw [List.isEmpty_iff]; exact hb
    rw [if_neg he, sideCenter_ok hb hL, sideCenter_ok hb hR]
    simp only [Res.bind, sub_eq]

/-- C41, a defect: when the left side is missing (in a mesh without boundary cells), the difference has the opposite sign — it goes from
the right cell to the face. -/
theorem C41_left_missing (g : GMesh n F) (i : Idx) (c : Conn) (L R : Vec n F) (hL : PointOf g i c.left L) (hR : PointOf g i c.right R)
    (hl : c.left = INVALID) (hb : g.mesh.bCells = []) : centerDifference g i c = .ok (L - R) := by
  unfold centerDifference
  have inv : ∀ s : Idx, isInvalidIndex s = true ↔ s = INVALID := by intro s; simp [isInvalidIndex]
  have inv' : ∀ s : Idx, isInvalidIndex s = false ↔ s ≠ INVALID := by intro s; simp [isInvalidIndex]
  have he : g.mesh.bCells.isEmpty = true := by rw [hb]; rfl
  rw [if_pos he]
  rcases hL.noBoundary hb with ⟨l1, l2, rfl⟩ | ⟨l1, rfl⟩
  · exact absurd hl l2
  · rcases hR.noBoundary hb with ⟨r1, r2, rfl⟩ | ⟨r1, rfl⟩
    · rw [if_neg (by rw [(inv _).mpr l1]; simp), if_neg (by rw [(inv _).mpr l1]; simp), if_pos (by rw [(inv _).mpr l1, (inv' _).mpr r2]; rfl),
        innerCenter_ok r1]
      simp only [Res.bind, sub_eq]
    · rw [if_neg (by rw [(inv _).mpr l1]; simp), if_neg (by rw [(inv _).mpr l1]; simp), if_neg (by rw [(inv _).mpr r1]; simp), sub_self]

/-- C41. Exchanging left and right changes the sign of the difference when both sides have a cell or boundary cell, but not
when a side is missing; there the difference always goes from the cell to the face. -/
theorem C41_antisymmetric_partial (g : GMesh n F) (i : Idx) (c : Conn) (L R : Vec n F) (hL : PointOf g i c.left L) (hR : PointOf g i c.right R) :
    ((c.left ≠ INVALID ∧ c.right ≠ INVALID) ∨ g.mesh.bCells ≠ [] →
      ∃ d, centerDifference g i c = .ok d ∧ centerDifference g i (exchange c) = .ok (-d)) ∧
    ((c.left = INVALID ∨ c.right = INVALID) ∧ g.mesh.bCells = [] → centerDifference g i (exchange c) = centerDifference g i c) := by
  constructor
  · intro h
    refine ⟨R - L, C41_difference g i c L R hL hR (h.imp (·.1) id), ?_⟩
    rw [C41_difference g i (exchange c) R L hR hL (h.imp (·.2) id), neg_sub]
  · rintro ⟨h, hb⟩
    by_cases hl : c.left = INVALID
    · rw [C41_left_missing g i c L R hL hR hl hb]
      by_cases hr : c.right = INVALID
      · rw [C41_left_missing g i (exchange c) R L hR hL hr hb]
        rcases hL.noBoundary hb with ⟨_, l2, _⟩ | ⟨_, rfl⟩
        · exact absurd hl l2
        · rcases hR.noBoundary hb with ⟨_, r2, _⟩ | ⟨_, rfl⟩
          · exact absurd hr r2
          · rfl
      · rw [C41_difference g i (exchange c) R L hR hL (.inl hr)]
    · have hr := h.resolve_left hl
      rw [C41_left_missing g i (exchange c) R L hR hL hr hb, C41_difference g i c L R hL hR (.inl hl)]

/-- C41. Both functions agree: the distance is the length of the difference. -/
theorem C41_length (g : GMesh n ℝ) (i : Idx) (c : Conn) (L R : Vec n ℝ) (hL : PointOf g i c.left L) (hR : PointOf g i c.right R) :
    ∃ d, centerDifference g i c = .ok d ∧ cellsDistance g i c = .ok (Vec.norm d) := by
  by_cases h : c.left ≠ INVALID ∨ g.mesh.bCells ≠ []
  · exact ⟨_, C41_difference g i c L R hL hR h, by rw [C41_distance g i c L R hL hR, norm_sub_comm]⟩
  · push Not at h
    exact ⟨_, C41_left_missing g i c L R hL hR h.1 h.2, C41_distance g i c L R hL hR⟩

/-- C41. On the whole mesh. -/
theorem C41_differences (g : GMesh n F) (L R : Idx → Vec n F)
    (h : ∀ i, i < g.mesh.numFaces → ∃ c, g.mesh.faceConn i = .ok c ∧ PointOf g i c.left (L i) ∧ PointOf g i c.right (R i) ∧
      (c.left ≠ INVALID ∨ g.mesh.bCells ≠ [])) :
    computeCellsCenterDifference g = .ok ((List.range g.mesh.numFaces).map fun i => R i - L i) := by
  apply forEach_ok
  intro i hi
  obtain ⟨c, h1, h2, h3, h4⟩ := h i (List.mem_range.mp hi)
  rw [h1]
  exact C41_difference g i c _ _ h2 h3 h4

end

/-- The two tetrahedra have one inner face, number 3; the other faces have no right cell. -/
example : computeCellsDistance tetsC = .ok ((List.range 7).map fun i =>
    Vec.norm (tetsC.cellCenter (if i < 4 then 0 else 1) - if i = 3 then tetsC.cellCenter 1 else tetsC.faceCenter i)) := by
  have hb : 2 < BOUNDARY := by decide +kernel
  have hn : tetsC.mesh.numFaces = 7 := rfl
  have := C41_distances tetsC (fun i => tetsC.cellCenter (if i < 4 then 0 else 1))
    (fun i => if i = 3 then tetsC.cellCenter 1 else tetsC.faceCenter i) (by
      intro i hi
      have hi : i < 7 := hi
      have c0 : ∀ i, PointOf tetsC i 0 (tetsC.cellCenter 0) := fun i => PointOf.cell 0 (by simp [tetsC, tets, twoTets]) (by omega)
      have c1 : ∀ i, PointOf tetsC i 1 (tetsC.cellCenter 1) := fun i => PointOf.cell 1 (by simp [tetsC, tets, twoTets]) (by omega)
      have cm : ∀ i, PointOf tetsC i INVALID (tetsC.faceCenter i) := fun i => PointOf.missing rfl
      interval_cases i
      · exact ⟨_, rfl, c0 _, cm _⟩
      · exact ⟨_, rfl, c0 _, cm _⟩
      · exact ⟨_, rfl, c0 _, cm _⟩
      · exact ⟨_, rfl, c0 _, c1 _⟩
      · exact ⟨_, rfl, c1 _, cm _⟩
      · exact ⟨_, rfl, c1 _, cm _⟩
      · exact ⟨_, rfl, c1 _, cm _⟩)
  rw [this, hn]

/-! ## C42 -/

/-- The vector turned by a right angle counterclockwise. -/
def quarterTurn (v : Vec 2 ℝ) : Vec 2 ℝ := ![-(v 1), v 0]

/-- `P` lies to the left of the directed line from `A` to `B`. -/
def LeftOf (P A B : Vec 2 ℝ) : Prop := 0 < dot (quarterTurn (B - A)) (P - A)

/-- The three points are on a line. -/
def Collinear3 (P A B : Vec 2 ℝ) : Prop := dot (quarterTurn (B - A)) (P - A) = 0

theorem leftOf_turn (P A B : Vec 2 ℝ) : dot (quarterTurn (B - A)) (P - A) = turn P A B := by
  rw [dot2, quarterTurn, turn]
  simp only [Pi.sub_apply, Matrix.cons_val_zero, Matrix.cons_val_one]
  ring

theorem edgeIsLeft2_iff (C A B : Vec 2 ℝ) : edgeIsLeft2 C A B = true ↔ 0 < turn C A B := by
  rw [edgeIsLeft2]
  simp only [decide_eq_true_eq, sub_eq, Pi.sub_apply]
  rfl

/-- C42. In 2D the test is true exactly when the center lies to the left of the directed edge. -/
theorem C42_left (C A B : Vec 2 ℝ) : edgeIsLeft2 C A B = true ↔ LeftOf C A B := by
  rw [edgeIsLeft2_iff, LeftOf, leftOf_turn]

/-- C42. Reversing the edge negates the test, except when the center is on the line of the edge; then both tests are false. -/
theorem C42_reversal (C A B : Vec 2 ℝ) :
    (¬ Collinear3 C A B → edgeIsLeft2 C B A = !edgeIsLeft2 C A B) ∧
    (Collinear3 C A B → edgeIsLeft2 C A B = false ∧ edgeIsLeft2 C B A = false) := by
  have hneg : turn C B A = - turn C A B := by rw [turn, turn]; ring
  have hf : ∀ A B, edgeIsLeft2 C A B = false ↔ ¬ 0 < turn C A B := by
    intro A B; rw [← Bool.not_eq_true, edgeIsLeft2_iff]
  constructor
  · intro h
    rw [Collinear3, leftOf_turn] at h
    rcases lt_or_gt_of_ne h with h | h
    · have h1 : edgeIsLeft2 C A B = false := (hf A B).mpr (by linarith)
      have h2 : edgeIsLeft2 C B A = true := (edgeIsLeft2_iff C B A).mpr (by rw [hneg]; linarith)
      rw [h1, h2]; rfl
    · have h1 : edgeIsLeft2 C A B = true := (edgeIsLeft2_iff C A B).mpr h
      have h2 : edgeIsLeft2 C B A = false := (hf B A).mpr (by rw [hneg]; linarith)
      rw [h1, h2]; rfl
  · intro h
    rw [Collinear3, leftOf_turn] at h
    exact ⟨(hf A B).mpr (by rw [h]; exact lt_irrefl 0), (hf B A).mpr (by rw [hneg, h, neg_zero]; exact lt_irrefl 0)⟩

/-- C42. The test does not change when everything is translated. -/
theorem C42_translation (t C A B : Vec 2 ℝ) : edgeIsLeft2 (C + t) (A + t) (B + t) = edgeIsLeft2 C A B := by
  have : turn (C + t) (A + t) (B + t) = turn C A B := by rw [turn, turn]; simp only [Pi.add_apply]; ring
  rw [Bool.eq_iff_iff, edgeIsLeft2_iff, edgeIsLeft2_iff, this]

/-- C42. On a valid mesh: the test of edge `e` for cell `i`. -/
theorem C42_mesh (g : GMesh 2 ℝ) (bd : Idx → List Idx) (hv : ValidMesh g.mesh bd) (i e : Nat) (hi : i < g.mesh.cells.length)
    (he : e < g.mesh.edges.length) :
    ∃ b, edgeIsLeft2At g i e = .ok b ∧ (b = true ↔ LeftOf (g.cellCenter i) (ends g.mesh e).1 (ends g.mesh e).2) := by
  have h1 : Res.at' g.mesh.edges e = .ok g.mesh.edges[e] := Res.at'_eq_ok.mpr (List.getElem?_eq_getElem he)
  have h2 : Res.at' g.mesh.cells i = .ok g.mesh.cells[i] := Res.at'_eq_ok.mpr (List.getElem?_eq_getElem hi)
  refine ⟨edgeIsLeft2 (g.cellCenter i) (ends g.mesh e).1 (ends g.mesh e).2, ?_, C42_left _ _ _⟩
  rw [edgeIsLeft2At, h1]
  simp only [Res.bind]
  rw [h2]
  simp only
  rw [ends_ok hv he]

example : edgeIsLeft2At squareG 0 0 = .ok true := by
  obtain ⟨b, h1, h2⟩ := C42_mesh squareG _ square_valid 0 0 (by simp [squareG, square, twoTriangles]) (by simp [squareG, square, twoTriangles])
  have : b = true := h2.mpr (by
    have e : ends squareG.mesh 0 = (squarePos 0, squarePos 1) := rfl
    rw [e, LeftOf, dot2, quarterTurn]
    simp [squarePos, squareG])
  rw [h1, this]

/-- C42. In 3D the test is true exactly when the edge turns counterclockwise around the center of the face, seen against the
normal. -/
theorem C42_left_3d (C A B ν : Vec 3 ℝ) : edgeIsLeft3 C A B ν = true ↔ 0 < dot ν (cross (A - C) (B - C)) := by
  rw [edgeIsLeft3]
  simp only [decide_eq_true_eq, sub_eq]
  have h := cross_apply (A - C) (B - C)
  have e : (List.finRange 3).foldl (fun res i => res + ((A - C) i * (B - C) (i + 1) * ν (i + 2) - (A - C) (i + 2) * (B - C) (i + 1) * ν i)) 0 =
      dot ν (cross (A - C) (B - C)) := by
    have hl : List.finRange 3 = [0, 1, 2] := rfl
    rw [hl, dot3, h.1, h.2.1, h.2.2]
    simp only [List.foldl_cons, List.foldl_nil, zero_add, show (0 : Fin 3) + 1 = 1 from rfl, show (0 : Fin 3) + 2 = 2 from rfl,
      show (1 : Fin 3) + 1 = 2 from rfl, show (1 : Fin 3) + 2 = 0 from rfl, show (2 : Fin 3) + 1 = 0 from rfl, show (2 : Fin 3) + 2 = 1 from rfl]
    ring
  rw [e]

/-- C42. The orientations of the edges of all faces of a 3D mesh: for each face the list of the tests of its edges with
the normal that `computeFaceNormals` gives to it. -/
theorem C42_orientations (g : GMesh 3 ℝ) (bd : Idx → List Idx) (hv : ValidMesh g.mesh bd) (h3 : g.mesh.dim = 3) (ns : List (Vec 3 ℝ))
    (hn : computeFaceNormals3 g = .ok ns) :
    ∃ bs, edgesOrientation g = .ok bs ∧ bs.length = (g.mesh.midElems 2).length ∧
      ∀ (i : Nat) f, (g.mesh.midElems 2)[i]? = some f → ∃ ν b, ns[i]? = some ν ∧ bs[i]? = some b ∧ b.length = f.sub.length ∧
        ∀ (j : Nat) e v, f.sub[j]? = some e → b[j]? = some v →
          (v = true ↔ 0 < dot ν (cross ((ends g.mesh e).1 - g.faceCenter i) ((ends g.mesh e).2 - g.faceCenter i))) := by
  have hlen : ns.length = (g.mesh.midElems 2).length := by
    have := (forEach_eq_ok hn).length_eq
    rw [List.length_range] at this
    exact this.symm
  have key : ∀ i, i < (g.mesh.midElems 2).length → ((Res.idx ns i).bind fun nf => faceOrientations g i nf) =
      .ok ((((g.mesh.midElems 2)[i]?.map (·.sub)).getD []).map fun e =>
        edgeIsLeft3 (g.faceCenter i) (ends g.mesh e).1 (ends g.mesh e).2 ((ns[i]?).getD 0)) := by
    intro i hi
    have hf := List.getElem?_eq_getElem hi
    have hns := List.getElem?_eq_getElem (show i < ns.length by omega)
    have h1 : Res.idx ns i = .ok (ns[i]'(by omega)) := Res.idx_eq_ok.mpr hns
    have h2 : Res.at' (g.mesh.midElems 2) i = .ok (g.mesh.midElems 2)[i] := Res.at'_eq_ok.mpr hf
    rw [h1]
    simp only [Res.bind]
    rw [faceOrientations, h2]
    simp only [Res.bind]
    rw [hf, hns]
    simp only [Option.map_some, Option.getD_some]
    apply forEach_ok
    intro e he
    have := ends_ok hv ((face_edges_lt hv h3 hf).2.1 e he)
    rw [this]
  refine ⟨(List.range (g.mesh.midElems 2).length).map fun i => (((g.mesh.midElems 2)[i]?.map (·.sub)).getD []).map fun e =>
    edgeIsLeft3 (g.faceCenter i) (ends g.mesh e).1 (ends g.mesh e).2 ((ns[i]?).getD 0), ?_, by simp, ?_⟩
  · rw [edgesOrientation, hn]
    simp only [Res.bind]
    apply forEach_ok
    intro i hi
    exact key i (List.mem_range.mp hi)
  · intro i f hf
    have hi := (List.getElem?_eq_some_iff.mp hf).1
    have hns := List.getElem?_eq_getElem (show i < ns.length by omega)
    refine ⟨_, _, hns, by rw [List.getElem?_map, List.getElem?_range hi]; rfl, by simp [hf], ?_⟩
    intro j e v he hv'
    rw [List.getElem?_map] at hv'
    rw [hf] at hv'
    simp only [Option.map_some, Option.getD_some, he, Option.some.injEq] at hv'
    rw [← hv', hns]
    simp only [Option.getD_some]
    exact C42_left_3d _ _ _ _

/-- C42. When the edges of a face form a polygon that goes around the center counterclockwise with respect to the normal, the test
tells which edges have the direction of the polygon. -/
theorem C42_polygon (C ν : Vec 3 ℝ) (ps : List (Vec 3 ℝ)) (hs : SeesAround C ν ps)
    (hnd : ∀ p ∈ sidesOf ps, cross (p.1 - C) (p.2 - C) ≠ 0) (p : Vec 3 ℝ × Vec 3 ℝ) (hp : p ∈ sidesOf ps) :
    edgeIsLeft3 C p.1 p.2 ν = true ∧ edgeIsLeft3 C p.2 p.1 ν = false := by
  obtain ⟨r, r1, r2⟩ := hs.2 p hp
  have hr : 0 < r := by
    rcases lt_or_eq_of_le r1 with h | h
    · exact h
    · exfalso; apply hnd p hp; rw [r2, ← h, zero_smul]
  have hνν : dot ν ν = 1 := by rw [← norm_sq, hs.1, mul_one]
  have h1 : dot ν (cross (p.1 - C) (p.2 - C)) = r := by rw [r2, dot_smul_right, hνν, mul_one]
  have h2 : dot ν (cross (p.2 - C) (p.1 - C)) = -r := by
    rw [cross_antisymm, show -cross (p.1 - C) (p.2 - C) = (-1 : ℝ) • cross (p.1 - C) (p.2 - C) by simp, dot_smul_right, h1]; ring
  refine ⟨(C42_left_3d _ _ _ _).mpr (by rw [h1]; exact hr), ?_⟩
  rw [← Bool.not_eq_true, C42_left_3d, h2]
  linarith

example : edgeIsLeft3 ![1 / 3, 1 / 3, 0] (tetPos 0) (tetPos 1) ![0, 0, 1] = true := by
  have hs : ∀ p ∈ sidesOf [tetPos 0, tetPos 1, tetPos 2], cross (p.1 - ![1 / 3, 1 / 3, 0]) (p.2 - ![1 / 3, 1 / 3, 0]) = (1 / 3 : ℝ) • ![0, 0, 1] := by
    intro p hp
    simp [sidesOf, List.rotate] at hp
    rcases hp with rfl | rfl | rfl <;> apply ext3 <;> simp [cross_apply, tetPos] <;> norm_num
  refine (C42_polygon ![1 / 3, 1 / 3, 0] ![0, 0, 1] [tetPos 0, tetPos 1, tetPos 2] ⟨by simp [norm_real, dot3], ?_⟩ ?_ (tetPos 0, tetPos 1) ?_).1
  · intro p hp; exact ⟨1 / 3, by norm_num, hs p hp⟩
  · intro p hp h
    rw [hs p hp] at h
    have := congrFun h 2
    simp at this
  · simp [sidesOf, List.rotate]

example : ∃ ns bs, computeFaceNormals3 tetsC = .ok ns ∧ edgesOrientation tetsC = .ok bs ∧ bs.length = 7 := by
  obtain ⟨ns, h1, _⟩ := C40_normals_3d tetsC _ tets_valid rfl tetsC_good
  obtain ⟨bs, h2, h3, _⟩ := C42_orientations tetsC _ tets_valid rfl ns h1
  exact ⟨ns, bs, h1, h2, h3⟩

end GTMesh.Props
