import Verif.Props.Fpma

/-! # C57: FPMA texts that are cut off -/

namespace GTMesh.Fpma
open Spec
variable {R : Type}

/-- `q` is `l` without at least one token at the end. -/
def ProperPrefix {α : Type} (q l : List α) : Prop := ∃ t rest, l = q ++ t :: rest

theorem properPrefix_cons {α : Type} {q l : List α} {x : α} (h : ProperPrefix q (x :: l)) : q = [] ∨ ∃ q', q = x :: q' ∧ ProperPrefix q' l := by
  obtain ⟨t, rest, h⟩ := h
  cases q with
  | nil => exact .inl rfl
  | cons y q => simp only [List.cons_append, List.cons.injEq] at h; exact .inr ⟨q, by rw [h.1], t, rest, h.2⟩

theorem properPrefix_append {α : Type} {q l r : List α} (h : ProperPrefix q (l ++ r)) : ProperPrefix q l ∨ ∃ q', q = l ++ q' ∧ ProperPrefix q' r := by
  induction l generalizing q with
  | nil => exact .inr ⟨q, rfl, h⟩
  | cons x l ih =>
    rcases properPrefix_cons h with rfl | ⟨q', rfl, h'⟩
    · exact .inl ⟨x, l, rfl⟩
    · rcases ih h' with h1 | ⟨q'', rfl, h2⟩
      · left; obtain ⟨t, rest, rfl⟩ := h1; exact ⟨t, rest, rfl⟩
      · exact .inr ⟨q'', rfl, h2⟩

theorem not_properPrefix_nil {α : Type} {q : List α} (h : ProperPrefix q []) : False := by
  obtain ⟨t, rest, h⟩ := h
  cases q <;> simp at h

/-! ## What an accepted text looks like -/

theorem readPoints_inv : ∀ (n : Nat) (ts : List (Tok R)) l r, readPoints n ts = .ok (l, r) →
    l.length = n ∧ ts = (l.flatMap fun p => [.real p.1, .real p.2.1, .real p.2.2]) ++ r := by
  intro n
  induction n with
  | zero => intro ts l r h; simp only [readPoints, Res.ok.injEq, Prod.mk.injEq] at h; simp [← h.1, h.2]
  | succ n ih =>
    intro ts l r h
    match ts with
    | .real x :: .real y :: .real z :: ts =>
      simp only [readPoints, readReal, Res.bind] at h
      cases h1 : readPoints n ts <;> rw [h1] at h <;> simp only [reduceCtorEq, Res.ok.injEq, Prod.mk.injEq] at h
      rename_i q
      obtain ⟨a, b⟩ := ih ts q.1 q.2 h1
      obtain ⟨rfl, rfl⟩ := h
      refine ⟨by simp [a], ?_⟩
      rw [b]; simp
    | [] | [.real _] | [.real _, .real _] => simp [readPoints, readReal, Res.bind] at h
    | .num _ :: _ | .real _ :: .num _ :: _ | .real _ :: .real _ :: .num _ :: _ => simp [readPoints, readReal, Res.bind] at h

theorem readNums_inv : ∀ (n : Nat) (ts : List (Tok R)) l r, readNums n ts = .ok (l, r) →
    l.length = n ∧ ts = l.map .num ++ r := by
  intro n
  induction n with
  | zero => intro ts l r h; simp only [readNums, Res.ok.injEq, Prod.mk.injEq] at h; simp [← h.1, h.2]
  | succ n ih =>
    intro ts l r h
    match ts with
    | .num x :: ts =>
      simp only [readNums, readNum, Res.bind] at h
      cases h1 : readNums n ts <;> rw [h1] at h <;> simp only [reduceCtorEq, Res.ok.injEq, Prod.mk.injEq] at h
      rename_i q
      obtain ⟨a, b⟩ := ih ts q.1 q.2 h1
      obtain ⟨rfl, rfl⟩ := h
      exact ⟨by simp [a], by rw [b]; simp⟩
    | [] => simp [readNums, readNum, Res.bind] at h
    | .real _ :: _ => simp [readNums, readNum, Res.bind] at h

theorem readNumsZ_nil : ∀ (n : Nat), readNumsZ n ([] : List (Tok R)) = .ok (List.replicate n 0, [])
  | 0 => rfl
  | n + 1 => by simp [readNumsZ, readNumZ, readNumsZ_nil n, List.replicate_succ]

theorem readNumsZ_inv : ∀ (n : Nat) (ts : List (Tok R)) l r, readNumsZ n ts = .ok (l, r) → r ≠ [] →
    l.length = n ∧ ts = l.map .num ++ r := by
  intro n
  induction n with
  | zero => intro ts l r h _; simp only [readNumsZ, Res.ok.injEq, Prod.mk.injEq] at h; simp [← h.1, h.2]
  | succ n ih =>
    intro ts l r h hr
    match ts with
    | .num x :: ts =>
      simp only [readNumsZ, readNumZ, Res.bind] at h
      cases h1 : readNumsZ n ts <;> rw [h1] at h <;> simp only [reduceCtorEq, Res.ok.injEq, Prod.mk.injEq] at h
      rename_i q
      obtain ⟨rfl, rfl⟩ := h
      obtain ⟨a, b⟩ := ih ts q.1 q.2 h1 hr
      exact ⟨by simp [a], by rw [b]; simp⟩
    | [] =>
      rw [readNumsZ_nil] at h
      simp only [Res.ok.injEq, Prod.mk.injEq] at h
      exact absurd h.2.symm hr
    | .real _ :: _ => simp [readNumsZ, readNumZ, Res.bind] at h

theorem readNumsZ_cut : ∀ (l : List Nat) (q : List (Tok R)), ProperPrefix q (l.map .num) →
    ∃ l', readNumsZ l.length q = .ok (l', []) ∧ l'.length = l.length := by
  intro l
  induction l with
  | nil => intro q h; exact (not_properPrefix_nil h).elim
  | cons x l ih =>
    intro q h
    rcases properPrefix_cons h with rfl | ⟨q', rfl, h'⟩
    · exact ⟨_, readNumsZ_nil _, by simp⟩
    · obtain ⟨l', a, b⟩ := ih q' h'
      refine ⟨x :: l', ?_, by simp [b]⟩
      simp [readNumsZ, readNumZ, a]

theorem readNums_cut : ∀ (l : List Nat) (q : List (Tok R)), ProperPrefix q (l.map .num) → readNums l.length q = .ub := by
  intro l
  induction l with
  | nil => intro q h; exact (not_properPrefix_nil h).elim
  | cons x l ih =>
    intro q h
    rcases properPrefix_cons h with rfl | ⟨q', rfl, h'⟩
    · rfl
    · simp [readNums, readNum, ih q' h']

theorem readPoints_cut : ∀ (l : List (Point R)) (q : List (Tok R)),
    ProperPrefix q (l.flatMap fun p => [.real p.1, .real p.2.1, .real p.2.2]) → readPoints l.length q = .ub := by
  intro l
  induction l with
  | nil => intro q h; exact (not_properPrefix_nil h).elim
  | cons x l ih =>
    intro q h
    rw [List.flatMap_cons] at h
    rcases properPrefix_append h with h | ⟨q', rfl, h'⟩
    · rcases properPrefix_cons h with rfl | ⟨q1, rfl, h1⟩
      · rfl
      · rcases properPrefix_cons h1 with rfl | ⟨q2, rfl, h2⟩
        · rfl
        · rcases properPrefix_cons h2 with rfl | ⟨q3, rfl, h3⟩
          · rfl
          · exact (not_properPrefix_nil h3).elim
    · simp [readPoints, readReal, ih q' h']

/-- Whether the edges of a face fit does not depend on which vertices it has. -/
theorem addFaceEdges_fits (res : Nat) : ∀ (ps ps' : List (Idx × Idx)) (f f' : Face) (d d' : Dict) (es es' : List Edge) r,
    ps.length = ps'.length → f.sub.length = f'.sub.length →
    addFaceEdges res f d es ps = .ok r → ∃ r', addFaceEdges res f' d' es' ps' = .ok r' := by
  intro ps
  induction ps with
  | nil =>
    intro ps' f f' d d' es es' r hl _ _
    rw [List.length_eq_zero_iff.mp hl.symm]
    exact ⟨_, rfl⟩
  | cons p ps ih =>
    intro ps' f f' d d' es es' r hl hs h
    cases ps' with
    | nil => simp at hl
    | cons p' ps' =>
      simp only [addFaceEdges] at h ⊢
      by_cases c : 0 < res ∧ res ≤ f.sub.length
      · rw [if_pos c] at h; simp at h
      · rw [if_neg c] at h
        rw [if_neg (by rw [← hs]; exact c)]
        exact ih ps' _ _ _ _ _ _ r (by simpa using hl) (by simp [hs]) h

theorem consecutive_length (l : List Idx) : (consecutive l).length = l.length := by
  simp [consecutive]

theorem loadFaceList_inv (res : Nat) : ∀ (fs : List Face) (k : Nat) (d : Dict) (es : List Edge) (ts : List (Tok R)) a b r,
    loadFaceList res fs k d es ts = .ok (a, b, r) → r ≠ [] →
    ∃ L : List (List Idx), L.length = fs.length ∧ ts = L.flatMap listTokens ++ r ∧
      (∀ ext : List (Tok R), loadFaceList res fs k d es (L.flatMap listTokens ++ ext) = .ok (a, b, ext)) ∧
      ∀ q : List (Tok R), ProperPrefix q (L.flatMap listTokens) →
        loadFaceList res fs k d es q = .ub ∨ ∃ x y, loadFaceList res fs k d es q = .ok (x, y, []) := by
  intro fs
  induction fs with
  | nil =>
    intro k d es ts a b r h _
    simp only [loadFaceList, Res.ok.injEq, Prod.mk.injEq] at h
    exact ⟨[], rfl, by simp [h.2.2], fun ext => by simp [loadFaceList, h.1, h.2.1], fun q hq => (not_properPrefix_nil hq).elim⟩
  | cons f fs ih =>
    intro k d es ts a b r h hr
    simp only [loadFaceList] at h
    match ts with
    | [] => simp [readNum] at h
    | .real _ :: _ => simp [readNum] at h
    | .num n :: ts =>
      simp only [readNum, Res.bind] at h
      cases h2 : readNumsZ n ts <;> rw [h2] at h <;> simp only [reduceCtorEq] at h
      rename_i q
      cases h3 : addFaceEdges res { f with index := k } d es (consecutive q.1) <;> rw [h3] at h <;>
        simp only [reduceCtorEq] at h
      rename_i s
      cases h4 : loadFaceList res fs (k + 1) s.2.1 s.2.2 q.2 <;> rw [h4] at h <;> simp only [reduceCtorEq] at h
      rename_i t
      simp only [Res.ok.injEq, Prod.mk.injEq] at h
      obtain ⟨rfl, h⟩ := h
      obtain ⟨L, l1, l2, l0, l3⟩ := ih (k + 1) s.2.1 s.2.2 q.2 t.1 b r (by rw [h4]; simp [← h]) hr
      obtain ⟨n1, n2⟩ := readNumsZ_inv n ts q.1 q.2 h2 (by rw [l2]; simp [hr])
      have e : ∀ p' : List (Tok R), loadFaceList res (f :: fs) k d es (listTokens q.1 ++ p') =
          (loadFaceList res fs (k + 1) s.2.1 s.2.2 p').bind fun u => .ok (s.1 :: u.1, u.2) := by
        intro p'
        simp only [loadFaceList, listTokens, List.cons_append, readNum, Res.bind]
        rw [readNumsZ_map]
        simp only [h3]
      refine ⟨q.1 :: L, by simp [l1], ?_, fun ext => ?_, fun p hp => ?_⟩
      · rw [n2, l2, List.flatMap_cons, listTokens, n1]; simp
      · rw [List.flatMap_cons, List.append_assoc, e, l0 ext]
        rfl
      · rw [List.flatMap_cons] at hp
        rcases properPrefix_append hp with hp | ⟨p', rfl, hp'⟩
        · rcases properPrefix_cons hp with rfl | ⟨p', rfl, hp'⟩
          · left; simp [loadFaceList, readNum]
          · obtain ⟨l', c1, c2⟩ := readNumsZ_cut q.1 p' hp'
            obtain ⟨s', c3⟩ := addFaceEdges_fits res _ (consecutive l') _ { f with index := k } _ d _ es s
              (by simp [consecutive_length, c2]) rfl h3
            simp only [loadFaceList, readNum, Res.bind]
            rw [c1]
            simp only [c3]
            cases fs with
            | nil => right; exact ⟨_, _, rfl⟩
            | cons f' fs => left; simp [loadFaceList, readNum]
        · rw [e]
          rcases l3 p' hp' with h | ⟨x, y, h⟩
          · left; rw [h]; rfl
          · right; rw [h]; exact ⟨_, _, rfl⟩

theorem loadCellList_inv : ∀ (cs : List Cell) (k : Nat) (fs : List Face) (ts : List (Tok R)) a b r,
    loadCellList cs k fs ts = .ok (a, b, r) →
    ∃ L : List (List Idx), L.length = cs.length ∧ ts = L.flatMap listTokens ++ r ∧
      (∀ ext : List (Tok R), loadCellList cs k fs (L.flatMap listTokens ++ ext) = .ok (a, b, ext)) ∧
      ∀ q : List (Tok R), ProperPrefix q (L.flatMap listTokens) → loadCellList cs k fs q = .ub := by
  intro cs
  induction cs with
  | nil =>
    intro k fs ts a b r h
    simp only [loadCellList, Res.ok.injEq, Prod.mk.injEq] at h
    exact ⟨[], rfl, by simp [h.2.2], fun ext => by simp [loadCellList, h.1, h.2.1], fun q hq => (not_properPrefix_nil hq).elim⟩
  | cons c cs ih =>
    intro k fs ts a b r h
    simp only [loadCellList] at h
    match ts with
    | [] => simp [readNum] at h
    | .real _ :: _ => simp [readNum] at h
    | .num n :: ts =>
      simp only [readNum, Res.bind] at h
      cases h2 : readNums n ts <;> rw [h2] at h <;> simp only [reduceCtorEq] at h
      rename_i q
      cases h3 : linkFaces k (q.1.head?.getD c.bElem) INVALID q.1 fs <;> rw [h3] at h <;>
        simp only [reduceCtorEq] at h
      rename_i s
      cases h4 : loadCellList cs (k + 1) s q.2 <;> rw [h4] at h <;> simp only [reduceCtorEq] at h
      rename_i t
      simp only [Res.ok.injEq, Prod.mk.injEq] at h
      obtain ⟨rfl, h⟩ := h
      obtain ⟨L, l1, l2, l0, l3⟩ := ih (k + 1) s q.2 t.1 b r (by rw [h4]; simp [← h])
      obtain ⟨n1, n2⟩ := readNums_inv n ts q.1 q.2 h2
      refine ⟨q.1 :: L, by simp [l1], ?_, fun ext => ?_, fun p hp => ?_⟩
      · rw [n2, l2, List.flatMap_cons, listTokens, n1]; simp
      · rw [List.flatMap_cons, List.append_assoc]
        simp only [loadCellList, listTokens, List.cons_append, readNum, Res.bind]
        rw [readNums_map]
        simp only [h3]
        rw [l0 ext]
      · rw [List.flatMap_cons] at hp
        rcases properPrefix_append hp with hp | ⟨p', rfl, hp'⟩
        · rcases properPrefix_cons hp with rfl | ⟨p', rfl, hp'⟩
          · simp [loadCellList, readNum]
          · simp only [loadCellList, readNum, Res.bind]
            rw [readNums_cut q.1 p' hp']
        · simp only [loadCellList, listTokens, List.cons_append, readNum, Res.bind]
          rw [readNums_map]
          simp only [h3]
          rw [l3 p' hp']

/-- `C57_fpma_violated`, and what follows the tokens of the file is not looked at. -/
theorem accepted_text (res : Nat) (ts : List (Tok R)) (m m' : Mesh (Point R)) (h : load res ts m = .ok m') :
    ∃ (F : File R) (rest : List (Tok R)), ts = F.tokens ++ rest ∧ (∀ ext, load res (F.tokens ++ ext) m = .ok m') ∧
      ∀ q, ProperPrefix q F.tokens → load res q m = .ub := by
  unfold load at h
  cases h1 : loadVertices ts m <;> rw [h1] at h <;> simp only [Res.bind, reduceCtorEq] at h
  rename_i p
  cases h2 : loadFaces res p.2 p.1 <;> rw [h2] at h <;> simp only [reduceCtorEq] at h
  rename_i q
  cases h3 : loadCells q.2 q.1 <;> rw [h3] at h <;> simp only [reduceCtorEq] at h
  rename_i r
  have hq2 : q.2 ≠ [] := by
    intro e
    rw [e] at h3
    simp [loadCells, readNum] at h3
  -- the three sections
  obtain ⟨nv, ts1, rfl⟩ : ∃ n ts1, ts = .num n :: ts1 := by
    match ts with
    | .num n :: ts1 => exact ⟨n, ts1, rfl⟩
    | [] => simp [loadVertices, readNum] at h1
    | .real _ :: _ => simp [loadVertices, readNum] at h1
  simp only [loadVertices, readNum, Res.bind] at h1
  cases g1 : readPoints nv ts1 <;> rw [g1] at h1 <;> simp only [reduceCtorEq, Res.ok.injEq] at h1
  rename_i pts
  obtain ⟨v1, v2⟩ := readPoints_inv nv ts1 pts.1 pts.2 g1
  obtain ⟨nf, ts2, hp2⟩ : ∃ n ts1, p.2 = .num n :: ts1 := by
    match e : p.2 with
    | .num n :: ts1 => exact ⟨n, ts1, rfl⟩
    | [] => rw [e] at h2; simp [loadFaces, readNum] at h2
    | .real _ :: _ => rw [e] at h2; simp [loadFaces, readNum] at h2
  have h2' := h2
  rw [hp2] at h2
  simp only [loadFaces, readNum, Res.bind] at h2
  cases g2 : loadFaceList res (resize (p.1.midElems 2) nf {}) 0 [] p.1.edges ts2 <;> rw [g2] at h2 <;>
    simp only [reduceCtorEq, Res.ok.injEq] at h2
  rename_i fl
  have hfl : fl.2.2 = q.2 := by rw [← h2]
  obtain ⟨LF, f1, f2, f0, f3⟩ := loadFaceList_inv res _ _ _ _ _ fl.1 fl.2.1 fl.2.2 g2 (by rw [hfl]; exact hq2)
  obtain ⟨nc, ts3, hq3⟩ : ∃ n ts1, q.2 = .num n :: ts1 := by
    match e : q.2 with
    | .num n :: ts1 => exact ⟨n, ts1, rfl⟩
    | [] => exact absurd e hq2
    | .real _ :: _ => rw [e] at h3; simp [loadCells, readNum] at h3
  rw [hq3] at h3
  simp only [loadCells, readNum, Res.bind] at h3
  cases g3 : loadCellList (resize q.1.cells nc {}) 0 (q.1.midElems 2) ts3 <;> rw [g3] at h3 <;>
    simp only [reduceCtorEq, Res.ok.injEq] at h3
  rename_i cl
  obtain ⟨LC, c1, c2, c0, c3⟩ := loadCellList_inv _ _ _ _ cl.1 cl.2.1 cl.2.2 g3
  have e1 : pts.2 = .num nf :: ts2 := by rw [← hp2, ← h1]
  have e2 : nf = LF.length := by rw [f1]; simp [resize]; omega
  have e3 : nc = LC.length := by rw [c1]; simp [resize]; omega
  have hv : ∀ x2, loadVertices (.num pts.1.length :: ((pts.1.flatMap fun p => [.real p.1, .real p.2.1, .real p.2.2]) ++ x2)) m =
      .ok (p.1, x2) := by
    intro x2
    simp only [loadVertices, readNum, Res.bind]
    rw [readPoints_flatMap]
    simp only [← h1]
  have hf : ∀ x4, loadFaces res (.num LF.length :: (LF.flatMap listTokens ++ x4)) p.1 = .ok (q.1, x4) := by
    intro x4
    simp only [loadFaces, readNum, Res.bind]
    rw [← e2, f0 x4]
    simp only [← h2]
  refine ⟨⟨pts.1, LF, LC⟩, cl.2.2, ?_, fun ext => ?_, fun x hx => ?_⟩
  · rw [v2, e1, f2, hfl, hq3, c2, ← v1, e2, e3]
    simp [File.tokens]
  · have e : (⟨pts.1, LF, LC⟩ : File R).tokens ++ ext = .num pts.1.length :: ((pts.1.flatMap fun p => [.real p.1, .real p.2.1, .real p.2.2]) ++
        (.num LF.length :: (LF.flatMap listTokens ++ (.num LC.length :: (LC.flatMap listTokens ++ ext))))) := by
      simp [File.tokens]
    rw [e, load, hv]
    simp only [Res.bind]
    rw [hf]
    simp only [loadCells, readNum, Res.bind]
    have := c0 ext
    rw [← e3, this]
    simp only [← h, ← h3]
  · unfold load
    have hx' : ProperPrefix x (.num pts.1.length :: ((pts.1.flatMap fun p => [.real p.1, .real p.2.1, .real p.2.2]) ++
        (.num LF.length :: (LF.flatMap listTokens ++ (.num LC.length :: LC.flatMap listTokens))))) := by
      simpa [File.tokens] using hx
    rcases properPrefix_cons hx' with rfl | ⟨x1, rfl, hx1⟩
    · simp [loadVertices, readNum]
    · rcases properPrefix_append hx1 with hx1 | ⟨x2, rfl, hx2⟩
      · simp only [loadVertices, readNum, Res.bind]
        rw [readPoints_cut pts.1 x1 hx1]
      · rw [hv]
        simp only [Res.bind]
        rcases properPrefix_cons hx2 with rfl | ⟨x3, rfl, hx3⟩
        · simp [loadFaces, readNum]
        · rcases properPrefix_append hx3 with hx3 | ⟨x4, rfl, hx4⟩
          · have := f3 x3 hx3
            simp only [loadFaces, readNum, Res.bind]
            rw [← e2]
            rcases this with h | ⟨a, b, h⟩
            · rw [h]
            · rw [h]
              simp [loadCells, readNum]
          · rw [hf]
            simp only
            rcases properPrefix_cons hx4 with rfl | ⟨x5, rfl, hx5⟩
            · simp [loadCells, readNum]
            · simp only [loadCells, readNum, Res.bind]
              rw [← e3, c3 x5 hx5]

/-- C57, FPMA. Every text that is read without an error begins with the text of some FPMA file: the numbers of vertices, faces
and cells are followed by as many positions and lists of the announced lengths, and nothing else was used.
If any of these tokens is missing at the end of the text, the same call has undefined behaviour: the count or the face number that
is missing is used without having been set. In particular there is never an exception (the property is violated). -/
theorem C57_fpma_violated (res : Nat) (ts : List (Tok R)) (m m' : Mesh (Point R)) (h : load res ts m = .ok m') :
    ∃ (F : File R) (rest : List (Tok R)), ts = F.tokens ++ rest ∧ load res F.tokens m = .ok m' ∧
      ∀ q, ProperPrefix q F.tokens → load res q m = .ub := by
  obtain ⟨F, rest, h1, h2, h3⟩ := accepted_text res ts m m' h
  exact ⟨F, rest, h1, by simpa using h2 [], h3⟩

/-- The file of C18 without its last token. -/
example : ∃ F : File Int, load 0 F.tokens { dim := 3 } = load 0 exampleFile.tokens { dim := 3 } ∧
    ∀ q, ProperPrefix q F.tokens → load 0 q { dim := 3 } = .ub := by
  obtain ⟨m', h⟩ : ∃ m', load 0 exampleFile.tokens { dim := 3 } = .ok m' := ⟨_, rfl⟩
  obtain ⟨F, rest, _, h2, h3⟩ := C57_fpma_violated 0 exampleFile.tokens { dim := 3 } m' h
  exact ⟨F, by rw [h, h2], h3⟩
example : load 0 exampleFile.tokens.dropLast { dim := 3 } = .ub := by decide +kernel

end GTMesh.Fpma
