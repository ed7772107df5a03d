import Verif.Proofs.ConnOps
import Verif.Proofs.Trace
import Verif.Spec.Vtk

namespace GTMesh.Vtk
open Spec
variable {R : Type}

/-! ## Tokens -/

theorem readNumInto_congr {a b : List (VTok R)} (h : skipNl a = skipNl b) (prev : Option Nat) :
    readNumInto prev a = readNumInto prev b := by
  unfold readNumInto; rw [h]

theorem readNum_congr {a b : List (VTok R)} (h : skipNl a = skipNl b) : readNum a = readNum b :=
  readNumInto_congr h none

theorem readReal_congr [Zero R] {a b : List (VTok R)} (h : skipNl a = skipNl b) : readReal a = readReal b := by
  unfold readReal; rw [h]

theorem readWord_congr {a b : List (VTok R)} (h : skipNl a = skipNl b) (s : String) : readWord s a = readWord s b := by
  unfold readWord; rw [h]

@[simp] theorem skipNl_nl (ts : List (VTok R)) : skipNl (.nl :: ts) = skipNl ts := rfl
@[simp] theorem readNumInto_num (prev : Option Nat) (n : Nat) (ts : List (VTok R)) :
    readNumInto prev (.num n :: ts) = .ok (n, ts) := rfl
@[simp] theorem readNum_num (n : Nat) (ts : List (VTok R)) : readNum (.num n :: ts) = .ok (n, ts) := rfl

theorem readNums_map (l : List Nat) (rest : List (VTok R)) :
    readNums l.length (l.map .num ++ rest) = .ok (l, rest) := by
  induction l with
  | nil => rfl
  | cons x xs ih => simp [readNums, ih]

theorem ignoreLine_words (l : List String) (rest : List (VTok R)) :
    ignoreLine (l.map .word ++ .nl :: rest) = rest := by
  induction l with
  | nil => rfl
  | cons x xs ih => exact ih

theorem readPoints_spec [Zero R] : ∀ (l : List (R × R × R)) (ts rest : List (VTok R)),
    skipNl ts = skipNl ((l.flatMap fun p => [.real p.1, .real p.2.1, .real p.2.2, .nl]) ++ rest) →
    ∃ r, readPoints l.length ts = .ok (l, r) ∧ skipNl r = skipNl rest := by
  intro l
  induction l with
  | nil => intro ts rest h; exact ⟨ts, rfl, by simpa using h⟩
  | cons p l ih =>
    intro ts rest h
    obtain ⟨r, h1, h2⟩ := ih (.nl :: ((l.flatMap fun p => [.real p.1, .real p.2.1, .real p.2.2, .nl]) ++ rest)) rest
      (by simp)
    refine ⟨r, ?_, h2⟩
    simp only [List.length_cons, readPoints]
    rw [readReal_congr h]
    simp only [List.flatMap_cons, List.cons_append, List.nil_append]
    simp only [readReal, skipNl, Res.bind]
    rw [h1]

theorem readCodes_spec : ∀ (l : List Nat) (ts rest : List (VTok R)),
    skipNl ts = skipNl ((l.flatMap fun c => [.num c, .nl]) ++ rest) →
    ∃ r, readNums l.length ts = .ok (l, r) ∧ skipNl r = skipNl rest := by
  intro l
  induction l with
  | nil => intro ts rest h; exact ⟨ts, rfl, by simpa using h⟩
  | cons p l ih =>
    intro ts rest h
    obtain ⟨r, h1, h2⟩ := ih (.nl :: ((l.flatMap fun c => [.num c, .nl]) ++ rest)) rest (by simp)
    refine ⟨r, ?_, h2⟩
    simp only [List.length_cons, readNums]
    rw [readNumInto_congr h]
    simp only [List.flatMap_cons, List.cons_append, List.nil_append, readNumInto_num, Res.bind]
    rw [h1]

/-! ## Cells -/

/-- Later edges keep the end points of earlier ones. -/
def KeepsEnds (es es' : List Edge) : Prop :=
  ∀ (i : Nat) x, es[i]? = some x → ∃ y, es'[i]? = some y ∧ y.a = x.a ∧ y.b = x.b

theorem KeepsEnds.refl (es : List Edge) : KeepsEnds es es := fun _ x h => ⟨x, h, rfl, rfl⟩

theorem KeepsEnds.trans {a b c : List Edge} (h : KeepsEnds a b) (h' : KeepsEnds b c) : KeepsEnds a c := by
  intro i x hx
  obtain ⟨y, h1, h2, h3⟩ := h i x hx
  obtain ⟨z, g1, g2, g3⟩ := h' i y h1
  exact ⟨z, g1, g2.trans h2, g3.trans h3⟩

theorem KeepsEnds.length {a b : List Edge} (h : KeepsEnds a b) : a.length ≤ b.length := by
  rcases Nat.eq_zero_or_pos a.length with h0 | h0
  · omega
  · obtain ⟨y, h1, _⟩ := h (a.length - 1) a[a.length - 1] (by simp)
    have := (List.getElem?_eq_some_iff.mp h1).1
    omega

theorem keepsEnds_of_map {es es' : List Edge}
    (h : es'.map (fun e => (e.index, e.a, e.b)) = es.map (fun e => (e.index, e.a, e.b))) : KeepsEnds es es' := by
  intro i x hx
  have := congrArg (fun l => l[i]?) h
  simp only [List.getElem?_map, hx, Option.map_some] at this
  cases hh : es'[i]? with
  | none => simp [hh] at this
  | some y =>
    rw [hh] at this
    simp at this
    exact ⟨y, rfl, this.2.1, this.2.2⟩

/-- Connections of the edges. -/
abbrev edgeConnAt (es : List Edge) (i : Nat) : Conn := connAt Edge.conn es i

theorem findOrAddEdge_conn {d : Dict} {es : List Edge} {used} (h : TableInv d es used)
    (hleft : ∀ e ∈ es, e.conn.left ≠ INVALID) (iA iB : Idx) :
    (∀ j, edgeConnAt (findOrAddEdge d es iA iB).2.1 j = edgeConnAt es j) ∧
    ((findOrAddEdge d es iA iB).2.2.2 = true ↔
      (edgeConnAt (findOrAddEdge d es iA iB).2.1 (findOrAddEdge d es iA iB).2.2.1).left = INVALID) ∧
    (∀ j, j < (findOrAddEdge d es iA iB).2.1.length → j ≠ (findOrAddEdge d es iA iB).2.2.1 → j < es.length) := by
  unfold findOrAddEdge
  cases hf : d.find (edgeKey iA iB) with
  | none =>
    refine ⟨?_, ?_, ?_⟩
    · intro j
      simp only [edgeConnAt, connAt]
      rcases Nat.lt_trichotomy j es.length with hj | hj | hj
      · rw [List.getElem?_append_left hj]
      · subst hj; simp
      · rw [List.getElem?_eq_none (by simp; omega), List.getElem?_eq_none (by omega)]
    · simp [edgeConnAt, connAt]
    · intro j h1 h2
      simp at h1 h2
      omega
  | some i =>
    obtain ⟨e, he, _⟩ := (h.find _ i).mp hf
    refine ⟨fun j => rfl, ?_, ?_⟩
    · simp only [edgeConnAt, connAt, he, Option.map_some, Option.getD_some]
      have := hleft e (List.mem_of_getElem? he)
      constructor
      · intro h; simp at h
      · intro h; exact absurd h this
    · intro j h1 _; exact h1

theorem addCellEdges_spec (cell : Idx) (hcell : cell ≠ INVALID) (used : List (Idx × Idx)) :
    ∀ (ps : List (Idx × Idx)) (prev : Idx) (first : Option Idx) (d : Dict) (es : List Edge), TableInv d es used →
      (∀ p ∈ ps, p ∈ used) → (∀ e ∈ es, e.conn.left ≠ INVALID) → (prev = INVALID ∨ prev < es.length) →
      ∃ l d' es', addCellEdges cell prev first d es ps = .ok (first.or l.head?, d', es') ∧
        TableInv d' es' used ∧ KeepsEnds es es' ∧ l.length = ps.length ∧
        (∀ (j : Nat) u v, ps[j]? = some (u, v) → ∃ e, l[j]? = some e ∧ Joins es' e u v) ∧
        (∀ e ∈ es', e.conn.left ≠ INVALID) ∧ es'.length ≤ es.length + ps.length ∧
        (∀ i, edgeConnAt es' i = runOps (edgeConnAt es i) (opsOf i (cellOps cell prev first l))) := by
  intro ps
  induction ps with
  | nil =>
    intro prev first d es h _ hl _
    exact ⟨[], d, es, by simp [addCellEdges], h, KeepsEnds.refl _, rfl, by simp, hl, by simp, fun i => rfl⟩
  | cons p ps ih =>
    intro prev first d es h hu hleft hprev
    obtain ⟨iA, iB⟩ := p
    obtain ⟨h1, h2, h3, h4⟩ := findOrAddEdge_spec h iA iB (hu _ (by simp))
    obtain ⟨k1, k2, k3⟩ := findOrAddEdge_conn h hleft iA iB
    have hlen : es.length ≤ (findOrAddEdge d es iA iB).2.1.length ∧
        (findOrAddEdge d es iA iB).2.1.length ≤ es.length + 1 := by
      rcases h3 with h3 | ⟨e, h3⟩ <;> rw [h3] <;> simp
    have hke : KeepsEnds es (findOrAddEdge d es iA iB).2.1 := by
      rcases h3 with h3 | ⟨e, h3⟩
      · rw [h3]; exact KeepsEnds.refl _
      · rw [h3]
        intro i x hx
        exact ⟨x, by rw [List.getElem?_append_left (List.getElem?_eq_some_iff.mp hx).1]; exact hx, rfl, rfl⟩
    obtain ⟨es1, l1, l2, l3⟩ := linkFacet_spec (conn := Edge.conn) (wc := edgeConn)
      (key := fun e : Edge => (e.index, e.a, e.b)) (fun f x => rfl) (fun f x => rfl)
      (findOrAddEdge d es iA iB).2.1 cell prev (first.getD (findOrAddEdge d es iA iB).2.2.1)
      (findOrAddEdge d es iA iB).2.2.1 (findOrAddEdge d es iA iB).2.2.2 (decide (ps = [])) h4
      (by rcases hprev with hp | hp
          · exact Or.inl hp
          · right; omega) k2
    have hes1 : es1.length = (findOrAddEdge d es iA iB).2.1.length := by simpa using congrArg List.length l2
    have hleft1 : ∀ e ∈ es1, e.conn.left ≠ INVALID := by
      intro x hx
      obtain ⟨j, hj⟩ := List.getElem?_of_mem hx
      have hjl := (List.getElem?_eq_some_iff.mp hj).1
      have hc : x.conn = edgeConnAt es1 j := by simp [edgeConnAt, connAt, hj]
      rw [hc]
      simp only [edgeConnAt]
      rw [l3 j]
      by_cases hje : j = (findOrAddEdge d es iA iB).2.2.1
      · rw [hje]
        have : ∃ tl, opsOf (findOrAddEdge d es iA iB).2.2.1 (stepOps cell prev
            (first.getD (findOrAddEdge d es iA iB).2.2.1) (findOrAddEdge d es iA iB).2.2.1 (decide (ps = [])))
            = .attach cell :: tl := by
          simp [opsOf, stepOps]
        obtain ⟨tl, htl⟩ := this
        rw [htl]
        refine run_left_valid (cn := attach _ cell) ?_ tl
        unfold attach
        split
        · exact hcell
        · assumption
      · have hlt := k3 j (by omega) hje
        refine run_left_valid ?_ _
        have := k1 j
        simp only [edgeConnAt] at this
        rw [this, connAt_lt _ _ hlt]
        exact hleft _ (List.getElem_mem hlt)
    obtain ⟨l, d', es', g1, g2, g3, g4, g5, g6, g7, g8⟩ := ih (findOrAddEdge d es iA iB).2.2.1
      (some (first.getD (findOrAddEdge d es iA iB).2.2.1)) (findOrAddEdge d es iA iB).1 es1
      (h1.congr l2) (fun p hp => hu p (by simp [hp])) hleft1 (Or.inr (by rw [hes1]; exact h4))
    refine ⟨(findOrAddEdge d es iA iB).2.2.1 :: l, d', es', ?_, g2, (hke.trans (keepsEnds_of_map l2)).trans g3,
      by simp [g4], ?_, g6, by simp; omega, ?_⟩
    · simp only [addCellEdges]
      rw [l1]
      simp only [Res.bind]
      rw [g1]
      cases first <;> simp
    · intro j u v hj
      cases j with
      | zero =>
        simp only [List.getElem?_cons_zero, Option.some.injEq, Prod.mk.injEq] at hj
        obtain ⟨rfl, rfl⟩ := hj
        exact ⟨(findOrAddEdge d es iA iB).2.2.1, by simp, GTMesh.Joins.mono h2 ((keepsEnds_of_map l2).trans g3)⟩
      | succ j =>
        obtain ⟨e, he1, he2⟩ := g5 j u v (by simpa using hj)
        exact ⟨e, by simpa using he1, he2⟩
    · intro i
      rw [g8 i, cellOps, opsOf_append, runOps_append]
      simp only [edgeConnAt] at k1 ⊢
      rw [l3 i, k1 i]
      have hnil : decide (l = []) = decide (ps = []) := by
        cases l <;> cases ps <;> simp at g4 ⊢
      rw [hnil]

/-- All pairs of consecutive vertices. -/
def allPairs (polys : List (List Idx)) : List (Idx × Idx) := polys.flatMap consecutive

theorem EdgesOf.keeps {es es' : List Edge} {sub vs : List Idx} (h : EdgesOf es sub vs) (he : KeepsEnds es es') :
    EdgesOf es' sub vs := by
  refine ⟨h.1, fun j hj => ?_⟩
  obtain ⟨e, u, v, h1, h2, h3, h4⟩ := h.2 j hj
  exact ⟨e, u, v, h1, h2, h3, GTMesh.Joins.mono h4 he⟩

theorem loadCellList2_spec (used : List (Idx × Idx)) : ∀ (polys : List (List Idx)) (cs : List Cell) (k : Nat) (d : Dict)
    (es : List Edge) (ts rest : List (VTok R)), TableInv d es used → (∀ p ∈ allPairs polys, p ∈ used) →
    (∀ e ∈ es, e.conn.left ≠ INVALID) → k + polys.length ≤ INVALID → cs.length = polys.length →
    (∀ vs ∈ polys, vs ≠ []) → skipNl ts = skipNl (polys.flatMap lineTokens ++ rest) →
    ∃ ls d' es' cs' r, loadCellList2 cs k d es ts = .ok (cs', es', r) ∧ skipNl r = skipNl rest ∧
      TableInv d' es' used ∧ KeepsEnds es es' ∧ ls.length = polys.length ∧ cs'.length = polys.length ∧
      (∀ e ∈ es', e.conn.left ≠ INVALID) ∧ es'.length ≤ es.length + (polys.map List.length).sum ∧
      (∀ (c : Nat) vs, polys[c]? = some vs → ∃ l, ls[c]? = some l ∧ EdgesOf es' l vs ∧
        ∃ cl, cs'[c]? = some cl ∧ cl.index = k + c ∧ l[0]? = some cl.bElem) ∧
      (∀ i, edgeConnAt es' i = runOps (edgeConnAt es i) (opsOf i (allOps k ls))) := by
  intro polys
  induction polys with
  | nil =>
    intro cs k d es ts rest h _ hl _ hcs _ hts
    have : cs = [] := by simpa using hcs
    subst this
    exact ⟨[], d, es, [], ts, rfl, by simpa using hts, h, KeepsEnds.refl _, rfl, rfl, hl, by simp, by simp, fun i => rfl⟩
  | cons vs polys ih =>
    intro cs k d es ts rest h hu hleft hfit hcs hne hts
    cases cs with
    | nil => simp at hcs
    | cons c0 cs =>
    obtain ⟨l, d1, es1, g1, g2, g3, g4, g5, g6, g7, g8⟩ := addCellEdges_spec k (by simp at hfit; omega) used
      (consecutive vs) INVALID none d es h (fun p hp => hu p (by simp [allPairs]; exact Or.inl hp)) hleft (Or.inl rfl)
    rw [consecutive_length] at g4 g7
    have hEO : EdgesOf es1 l vs := by
      refine ⟨g4, fun j hj => ?_⟩
      obtain ⟨u, v, c1, c2, c3⟩ := consecutive_get vs j hj
      obtain ⟨e, c4, c5⟩ := g5 j u v c1
      exact ⟨e, u, v, c4, c2, c3, c5⟩
    obtain ⟨ls, d2, es2, cs2, r, e1, e2, e3, e4, e5, e6, e7, e8, e9, e10⟩ := ih cs (k + 1) d1 es1
      (.nl :: (polys.flatMap lineTokens ++ rest)) rest g2
      (fun p hp => hu p (by simp only [allPairs, List.flatMap_cons, List.mem_append]; exact Or.inr hp)) g6
      (by simp at hfit; omega) (by simpa using hcs) (fun v hv => hne v (by simp [hv])) (by simp)
    have hl0 : ∃ b, l.head? = some b := by
      cases l with
      | nil => simp at g4; exact absurd (List.eq_nil_of_length_eq_zero g4.symm) (hne vs (by simp))
      | cons x xs => exact ⟨x, rfl⟩
    obtain ⟨b, hb⟩ := hl0
    refine ⟨l :: ls, d2, es2, { index := k, bElem := b } :: cs2, r, ?_, e2, e3, g3.trans e4, by simp [e5], by simp [e6],
      e7, by simp; omega, ?_, ?_⟩
    · simp only [loadCellList2]
      rw [readNum_congr hts]
      simp only [List.flatMap_cons, lineTokens, List.cons_append, List.append_assoc, readNum_num, Res.bind]
      rw [readNums_map]
      simp only [Res.bind]
      rw [g1]
      simp only [Res.bind, List.nil_append]
      rw [e1]
      simp [hb]
    · intro c ws hc
      cases c with
      | zero =>
        simp only [List.getElem?_cons_zero, Option.some.injEq] at hc
        subst hc
        refine ⟨l, by simp, EdgesOf.keeps hEO e4, { index := k, bElem := b }, by simp, by simp, ?_⟩
        rw [← hb]; cases l <;> rfl
      | succ c =>
        obtain ⟨l', c1, c2, cl, c3, c4, c5⟩ := e9 c ws (by simpa using hc)
        exact ⟨l', by simpa using c1, c2, cl, by simpa using c3, by rw [c4]; omega, c5⟩
    · intro i
      rw [e10, g8, allOps, opsOf_append, runOps_append]

end GTMesh.Vtk
