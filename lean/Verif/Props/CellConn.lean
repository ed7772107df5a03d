import Verif.Proofs.CellConn

/-! # C02–C05: the cells of a face and the successor pointers -/

namespace GTMesh.Props
open GTMesh GTMesh.Spec

/-- The face after a history of `setCellIndex` calls starting from a face without cells. -/
abbrev faceAfter (h : List Idx) : Conn := ({} : Conn).runCells h

/-- C02. After any history of `setCellIndex` calls on a fresh face: the left cell is the first valid
index offered, the right cell the second one (and invalid when there is none); the successor pointers
are untouched; both cells are reported as set exactly when two valid indices were offered. -/
theorem C02_first_two_cells (h : List Idx) :
    (faceAfter h).left = (validOnly h)[0]?.getD INVALID
    ∧ (faceAfter h).right = (validOnly h)[1]?.getD INVALID
    ∧ (faceAfter h).nextL = INVALID ∧ (faceAfter h).nextR = INVALID
    ∧ ((faceAfter h).cellsOK = true ↔ 2 ≤ (validOnly h).length) := by
  unfold faceAfter
  rw [runCells_spec]
  refine ⟨rfl, rfl, rfl, rfl, ?_⟩
  have hv : ∀ y ∈ validOnly h, y ≠ INVALID := by
    intro y hy; simpa [validOnly] using (List.mem_filter.mp hy).2
  generalize validOnly h = v at hv
  match v with
  | [] => simp [Conn.cellsOK]
  | [a] => simp [Conn.cellsOK]
  | a :: b :: t =>
    have h1 := hv a (by simp)
    have h2 := hv b (by simp)
    simp [Conn.cellsOK, h1, h2]

/-- C02. The next call of `setCellIndex` succeeds exactly when the index is valid and fewer than two
valid indices were offered before; a refused call changes nothing. -/
theorem C02_refusal (h : List Idx) (i : Idx) :
    (((faceAfter h).setCellIndex i).2 = true ↔ i ≠ INVALID ∧ (validOnly h).length < 2)
    ∧ (((faceAfter h).setCellIndex i).2 = false → ((faceAfter h).setCellIndex i).1 = faceAfter h) := by
  unfold faceAfter
  rw [runCells_spec]
  have hv : ∀ y ∈ validOnly h, y ≠ INVALID := by
    intro y hy; simpa [validOnly] using (List.mem_filter.mp hy).2
  generalize validOnly h = v at hv
  by_cases hi : i = INVALID
  · simp [Conn.setCellIndex, hi]
  · match v with
    | [] => simp [Conn.setCellIndex, hi]
    | [a] => simp [Conn.setCellIndex, hi, hv a (by simp)]
    | a :: b :: t => simp [Conn.setCellIndex, hi, hv a (by simp), hv b (by simp)]

example : validOnly [INVALID, 4, INVALID, 4, 7] = [4, 4, 7] := by decide

/-- C03. `getOtherCellIndex` in every state: it returns the opposite cell, and throws for an index that
is not one of the two cells and for the invalid index. -/
theorem C03_other_cell (c : Conn) :
    (c.left ≠ INVALID → c.left ≠ c.right → c.getOtherCellIndex c.left = .ok c.right)
    ∧ (c.right ≠ INVALID → c.getOtherCellIndex c.right = .ok c.left)
    ∧ (∀ i, i ≠ c.left → i ≠ c.right → c.getOtherCellIndex i = .throw .runtimeError)
    ∧ c.getOtherCellIndex INVALID = .throw .runtimeError := by
  refine ⟨?_, ?_, ?_, ?_⟩
  · intro h1 h2; simp [Conn.getOtherCellIndex, h1, h2]
  · intro h1; simp [Conn.getOtherCellIndex, h1]
  · intro i h1 h2; simp [Conn.getOtherCellIndex, h1, h2]
  · simp [Conn.getOtherCellIndex]

/-- C03. On a face with two valid cells, crossing the face twice returns to the start. -/
theorem C03_involution (c : Conn) (hok : c.cellsOK = true) (i j : Idx)
    (h : c.getOtherCellIndex i = .ok j) : c.getOtherCellIndex j = .ok i := by
  simp only [Conn.cellsOK, Bool.and_eq_true, decide_eq_true_eq] at hok
  unfold Conn.getOtherCellIndex at *
  obtain ⟨hr, hl⟩ := hok
  by_cases h0 : i = INVALID
  · simp [h0] at h
  · by_cases h1 : i = c.right
    · simp only [h0, h1, if_true] at h
      simp [hr] at h
      subst h
      by_cases h2 : c.left = c.right
      · simp [hl, h2, hr, h1]
      · simp [hl, h2, h1]
    · by_cases h2 : i = c.left
      · simp [h0, h1, h2, hl] at h
        by_cases h3 : c.left = c.right
        · exact absurd (h2.trans h3) h1
        · simp [h3] at h
          subst h; simp [hr, h2]
      · simp [h0, h1, h2] at h

/-- C03. Exchanging left and right exchanges the cells and does not change who is on the other side. -/
theorem C03_swap (c : Conn) (hne : c.left ≠ c.right) :
    c.swapCellsLR.left = c.right ∧ c.swapCellsLR.right = c.left
    ∧ ∀ i, c.swapCellsLR.getOtherCellIndex i = c.getOtherCellIndex i := by
  refine ⟨rfl, rfl, ?_⟩
  intro i
  unfold Conn.getOtherCellIndex Conn.swapCellsLR Conn.setCellRightIndex Conn.setCellLeftIndex
  by_cases h0 : i = INVALID
  · simp [h0]
  · by_cases h1 : i = c.left
    · have : ¬ i = c.right := fun h => hne (h1.symm.trans h)
      simp [h1, hne]
    · simp [h1]

example : ({ left := 3, right := 8 } : Conn).cellsOK = true ∧
    ({ left := 3, right := 8 } : Conn).getOtherCellIndex 3 = .ok 8 := by decide

/-- The face after a history of `setNextBElem(next, cell)` calls starting from a fresh face. -/
abbrev chainAfter (h : List (Idx × Idx)) : Conn := ({} : Conn).runNext h

/-- C04. After any history of `setNextBElem` calls on a fresh face, the cells of the face are the first
two distinct valid cells mentioned; `getNextBElem c` returns the successor of the last call for `c`
when `c` is one of them and throws otherwise. -/
theorem C04_successor_map (h : List (Idx × Idx)) :
    (chainAfter h).left = (registered h)[0]?.getD INVALID
    ∧ (chainAfter h).right = (registered h)[1]?.getD INVALID
    ∧ (∀ c ∈ registered h, ∃ n, lastFor h c = some n ∧ (chainAfter h).getNextBElem c = .ok n)
    ∧ (∀ c, c ∉ registered h → (chainAfter h).getNextBElem c = .throw .runtimeError) := by
  refine ⟨by unfold chainAfter; rw [runNext_spec], by unfold chainAfter; rw [runNext_spec], ?_, ?_⟩
  · intro c hc
    obtain ⟨n, hn⟩ := lastFor_isSome_of_registered hc
    refine ⟨n, hn, ?_⟩
    rw [getNext_runNext, if_pos hc, hn]
  · intro c hc
    rw [getNext_runNext, if_neg hc]

/-- C04. `setNextBElem` succeeds exactly for a valid cell that is already registered or for which there
is still room, and a refused call changes nothing. -/
theorem C04_refusal (h : List (Idx × Idx)) (next cell : Idx) :
    (((chainAfter h).setNextBElem next cell).2 = true ↔
      cell ≠ INVALID ∧ (cell ∈ registered h ∨ (registered h).length < 2))
    ∧ (((chainAfter h).setNextBElem next cell).2 = false →
        ((chainAfter h).setNextBElem next cell).1 = chainAfter h) := by
  unfold chainAfter
  rw [runNext_spec]
  have hne : ∀ c ∈ registered h, c ≠ INVALID := fun c hc => mem_registered_ne hc
  have hnr := registered_noRep h
  have hlen : (registered h).length ≤ 2 := by unfold registered; simp [List.length_take]; omega
  generalize registered h = r at *
  generalize lastFor h = lf at *
  by_cases hc : cell = INVALID
  · simp [Conn.setNextBElem, hc]
  · have hc' : ¬ INVALID = cell := fun h => hc h.symm
    match r with
    | [] => simp [Conn.setNextBElem, hc, hc', Conn.setCellLeftIndex]
    | [a] =>
      have ha := hne a (by simp)
      by_cases hac : a = cell
      · subst hac; simp [Conn.setNextBElem, ha]
      · have hca : ¬ cell = a := fun h => hac h.symm
        simp [Conn.setNextBElem, hc, hc', hac, hca, ha, Conn.setCellRightIndex]
    | [a, b] =>
      have ha := hne a (by simp)
      have hb := hne b (by simp)
      by_cases hac : a = cell
      · subst hac; simp [Conn.setNextBElem, ha]
      · have hca : ¬ cell = a := fun h => hac h.symm
        by_cases hbc : b = cell
        · subst hbc; simp [Conn.setNextBElem, hb, hac]
        · have hcb : ¬ cell = b := fun h => hbc h.symm
          simp [Conn.setNextBElem, hc, hac, hca, hbc, hcb, ha, hb]
    | a :: b :: d :: t => simp at hlen

/-- C04. In every state in which the two cells differ (however it was reached): after a successful
`setNextBElem next cell`, `getNextBElem cell` is `next`, and the answer for every other cell that was
registered before is unchanged. -/
theorem C04_get_after_set (c : Conn) (hne : c.left ≠ c.right ∨ c.left = INVALID) (next cell : Idx)
    (hs : (c.setNextBElem next cell).2 = true) :
    (c.setNextBElem next cell).1.getNextBElem cell = .ok next
    ∧ ∀ other n, other ≠ cell → c.getNextBElem other = .ok n →
        (c.setNextBElem next cell).1.getNextBElem other = .ok n := by
  obtain ⟨l, r, nl, nr⟩ := c
  simp only at hne
  unfold Conn.setNextBElem Conn.getNextBElem Conn.setNextBElemWRTCL Conn.setNextBElemWRTCR
    Conn.setCellLeftIndex Conn.setCellRightIndex at *
  simp only at *
  grind

example : registered [(5, 0), (6, 1), (7, 0), (9, 2)] = [0, 1]
    ∧ lastFor [(5, 0), (6, 1), (7, 0), (9, 2)] 0 = some 7 := by decide

/-- C05 is violated: exchanging the cells of a face does not exchange the successor pointers, so the
successor with respect to a cell changes. -/
theorem C05_swap_breaks_successors :
    ∃ c : Conn, c.left ≠ c.right ∧ c.cellsOK = true
      ∧ ∃ i, c.getNextBElem i = .ok 10 ∧ c.swapCellsLR.getNextBElem i = .ok 20 :=
  ⟨{ left := 1, right := 2, nextL := 10, nextR := 20 }, by decide, by decide, 1, by decide, by decide⟩

/-- C05, exact extent (partial): on a face with two different valid cells, the exchange preserves all
successors precisely when the two successors are equal; otherwise the two answers are exchanged. -/
theorem C05_swap_partial (c : Conn) (hok : c.cellsOK = true) (hne : c.left ≠ c.right) :
    ((∀ i, c.swapCellsLR.getNextBElem i = c.getNextBElem i) ↔ c.nextL = c.nextR)
    ∧ c.swapCellsLR.getNextBElem c.left = c.getNextBElem c.right
    ∧ c.swapCellsLR.getNextBElem c.right = c.getNextBElem c.left := by
  obtain ⟨l, r, nl, nr⟩ := c
  simp only [Conn.cellsOK, Bool.and_eq_true, decide_eq_true_eq] at hok
  simp only at hne
  unfold Conn.swapCellsLR Conn.getNextBElem Conn.setCellLeftIndex Conn.setCellRightIndex
  simp only
  obtain ⟨hr, hl⟩ := hok
  have hne' : ¬ r = l := fun h => hne h.symm
  refine ⟨⟨fun h => ?_, fun h i => ?_⟩, ?_, ?_⟩
  · have := h l
    simp [hl, hne] at this
    exact this.symm
  · subst h
    grind
  · simp [hl, hr]
  · simp [hl, hr, hne, hne']

example : ({ left := 1, right := 2, nextL := 10, nextR := 20 } : Conn).cellsOK = true
    ∧ (1 : Nat) ≠ 2 := by decide

end GTMesh.Props
