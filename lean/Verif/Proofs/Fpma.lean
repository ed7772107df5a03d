import Verif.Spec.Fpma
import Verif.Proofs.Chains

namespace GTMesh.Fpma
open Spec
variable {R : Type}

theorem readNums_map (l : List Nat) (rest : List (Tok R)) :
    readNums l.length (l.map .num ++ rest) = .ok (l, rest) := by
  induction l with
  | nil => rfl
  | cons x xs ih => simp [readNums, readNum, ih]

theorem readNumsZ_map (l : List Nat) (rest : List (Tok R)) :
    readNumsZ l.length (l.map .num ++ rest) = .ok (l, rest) := by
  induction l with
  | nil => rfl
  | cons x xs ih => simp [readNumsZ, readNumZ, ih]

theorem readPoints_flatMap (l : List (Point R)) (rest : List (Tok R)) :
    readPoints l.length ((l.flatMap fun p => [.real p.1, .real p.2.1, .real p.2.2]) ++ rest) = .ok (l, rest) := by
  induction l with
  | nil => rfl
  | cons x xs ih => simp [readPoints, readReal, ih]

/-- `es'` continues `es`. -/
def Extends (es es' : List Edge) : Prop := ∃ t, es' = es ++ t

theorem Extends.refl (es : List Edge) : Extends es es := ⟨[], by simp⟩

theorem Extends.trans {a b c : List Edge} (h : Extends a b) (h' : Extends b c) : Extends a c := by
  obtain ⟨t, rfl⟩ := h
  obtain ⟨u, rfl⟩ := h'
  exact ⟨t ++ u, by simp⟩

theorem Extends.get {a b : List Edge} (h : Extends a b) (i : Nat) (x : Edge) (hx : a[i]? = some x) :
    ∃ y, b[i]? = some y ∧ y.a = x.a ∧ y.b = x.b := by
  obtain ⟨t, rfl⟩ := h
  exact ⟨x, by rw [List.getElem?_append_left (List.getElem?_eq_some_iff.mp hx).1]; exact hx, rfl, rfl⟩

theorem addFaceEdges_spec (res : Nat) (used : List (Idx × Idx)) :
    ∀ (ps : List (Idx × Idx)) (f : Face) (d : Dict) (es : List Edge), TableInv d es used →
      (∀ p ∈ ps, p ∈ used) → (res = 0 ∨ f.sub.length + ps.length ≤ res) →
      ∃ d' es' idx, addFaceEdges res f d es ps = .ok ({ f with sub := f.sub ++ idx }, d', es') ∧
        TableInv d' es' used ∧ Extends es es' ∧ idx.length = ps.length ∧
        ∀ (j : Nat) u v, ps[j]? = some (u, v) → ∃ e, idx[j]? = some e ∧ Joins es' e u v := by
  intro ps
  induction ps with
  | nil =>
    intro f d es h _ _
    exact ⟨d, es, [], by simp [addFaceEdges], h, Extends.refl _, rfl, by simp⟩
  | cons p ps ih =>
    intro f d es h hu hres
    obtain ⟨iA, iB⟩ := p
    obtain ⟨h1, h2, h3, _⟩ := findOrAddEdge_spec h iA iB (hu _ (by simp))
    have hno : ¬ (0 < res ∧ res ≤ f.sub.length) := by
      rcases hres with h | h
      · omega
      · simp at h; omega
    obtain ⟨d', es', idx, g1, g2, g3, g4, g5⟩ := ih { f with sub := f.sub ++ [(findOrAddEdge d es iA iB).2.2.1] }
      (findOrAddEdge d es iA iB).1 (findOrAddEdge d es iA iB).2.1 h1 (fun p hp => hu p (by simp [hp]))
      (by rcases hres with h | h
          · exact Or.inl h
          · right; simp at h ⊢; omega)
    have hext : Extends es (findOrAddEdge d es iA iB).2.1 := by
      rcases h3 with h3 | ⟨e, h3⟩
      · exact ⟨[], by rw [h3]; simp⟩
      · exact ⟨[e], h3⟩
    refine ⟨d', es', (findOrAddEdge d es iA iB).2.2.1 :: idx, ?_, g2, hext.trans g3, by simp [g4], ?_⟩
    · simp only [addFaceEdges]
      rw [if_neg hno, g1]
      simp
    · intro j u v hj
      cases j with
      | zero =>
        simp only [List.getElem?_cons_zero, Option.some.injEq, Prod.mk.injEq] at hj
        obtain ⟨rfl, rfl⟩ := hj
        exact ⟨(findOrAddEdge d es iA iB).2.2.1, by simp, GTMesh.Joins.mono h2 g3.get⟩
      | succ j =>
        obtain ⟨e, he1, he2⟩ := g5 j u v (by simpa using hj)
        exact ⟨e, by simpa using he1, he2⟩

theorem EdgesOf.mono {es es' : List Edge} {sub vs : List Idx} (h : EdgesOf es sub vs) (he : Extends es es') :
    EdgesOf es' sub vs := by
  refine ⟨h.1, fun j hj => ?_⟩
  obtain ⟨e, u, v, h1, h2, h3, h4⟩ := h.2 j hj
  exact ⟨e, u, v, h1, h2, h3, GTMesh.Joins.mono h4 he.get⟩

/-- All pairs of consecutive vertices. -/
def allPairs (polys : List (List Idx)) : List (Idx × Idx) := polys.flatMap consecutive

theorem loadFaceList_spec (res : Nat) (used : List (Idx × Idx)) :
    ∀ (polys : List (List Idx)) (fs : List Face) (k : Nat) (d : Dict) (es : List Edge) (rest : List (Tok R)),
      TableInv d es used → (∀ p ∈ allPairs polys, p ∈ used) → (∀ l ∈ polys, res = 0 ∨ l.length ≤ res) →
      fs = List.replicate polys.length {} →
      ∃ d' es' fs', loadFaceList res fs k d es (polys.flatMap listTokens ++ rest) = .ok (fs', es', rest) ∧
        TableInv d' es' used ∧ Extends es es' ∧ fs'.length = polys.length ∧
        ∀ (i : Nat) vs, polys[i]? = some vs →
          ∃ f, fs'[i]? = some f ∧ f.index = k + i ∧ f.conn = {} ∧ EdgesOf es' f.sub vs := by
  intro polys
  induction polys with
  | nil =>
    intro fs k d es rest h _ _ hfs
    subst hfs
    exact ⟨d, es, [], rfl, h, Extends.refl _, rfl, by simp⟩
  | cons vs polys ih =>
    intro fs k d es rest h hu hres hfs
    subst hfs
    obtain ⟨d1, es1, idx, g1, g2, g3, g4, g5⟩ := addFaceEdges_spec res used (consecutive vs)
      { ({} : Face) with index := k } d es h (fun p hp => hu p (by simp [allPairs]; exact Or.inl hp))
      (by rw [consecutive_length]; simpa using hres vs (by simp))
    obtain ⟨d2, es2, fs2, e1, e2, e3, e4, e5⟩ := ih (List.replicate polys.length {}) (k + 1) d1 es1 rest g2
      (fun p hp => hu p (by
        simp only [allPairs, List.flatMap_cons, List.mem_append]; exact Or.inr hp))
      (fun l hl => hres l (by simp [hl])) rfl
    refine ⟨d2, es2, { ({} : Face) with index := k, sub := idx } :: fs2, ?_, e2, g3.trans e3, by simp [e4], ?_⟩
    rotate_left
    · intro i ws hi
      cases i with
      | zero =>
        simp only [List.getElem?_cons_zero, Option.some.injEq] at hi
        subst hi
        refine ⟨{ ({} : Face) with index := k, sub := idx }, by simp, by simp, rfl, ?_⟩
        refine EdgesOf.mono ⟨by simp [g4, consecutive_length], fun j hj => ?_⟩ e3
        obtain ⟨u, v, c1, c2, c3⟩ := consecutive_get vs j hj
        obtain ⟨e, c4, c5⟩ := g5 j u v c1
        exact ⟨e, u, v, by simpa using c4, c2, c3, c5⟩
      | succ i =>
        obtain ⟨f, c1, c2, c3, c4⟩ := e5 i ws (by simpa using hi)
        exact ⟨f, by simpa using c1, by rw [c2]; omega, c3, c4⟩
    · simp only [List.length_cons, List.replicate_succ, loadFaceList, List.flatMap_cons, listTokens,
        List.cons_append, List.append_assoc, readNum, Res.bind]
      rw [readNumsZ_map]
      simp only [Res.bind]
      rw [g1]
      simp only [Res.bind]
      rw [e1]
      simp

/-! ## Cells -/

/-- A sequence of `setNextBElem` calls on faces. -/
def applyCalls : List (Idx × Idx × Idx) → List Face → Res (List Face)
  | [], fs => .ok fs
  | (f, g, c) :: r, fs => (setNextAt fs f g c).bind (applyCalls r)

theorem applyCalls_append (a b : List (Idx × Idx × Idx)) (fs : List Face) :
    applyCalls (a ++ b) fs = (applyCalls a fs).bind (applyCalls b) := by
  induction a generalizing fs with
  | nil => simp [applyCalls]
  | cons p a ih =>
    obtain ⟨f, g, c⟩ := p
    simp only [List.cons_append, applyCalls]
    cases h : setNextAt fs f g c <;> simp [ih]

theorem applyCalls_ok : ∀ (calls : List (Idx × Idx × Idx)) (fs : List Face), (∀ p ∈ calls, p.1 < fs.length) →
    applyCalls calls fs = .ok (fs.mapIdx fun i f => { f with conn := f.conn.runNext (histOf i calls) }) := by
  intro calls
  induction calls with
  | nil =>
    intro fs _
    simp only [applyCalls]
    congr 1
    apply List.ext_getElem <;> simp [histOf, Conn.runNext]
  | cons p calls ih =>
    intro fs h
    obtain ⟨f, g, c⟩ := p
    have hf : f < fs.length := h (f, g, c) (by simp)
    simp only [applyCalls, setNextAt]
    rw [show Res.at' fs f = .ok fs[f] by simp [hf]]
    simp only [Res.bind]
    rw [ih _ (by intro q hq; simpa using h q (by simp [hq]))]
    congr 1
    apply List.ext_getElem
    · simp
    · intro i h1 h2
      simp only [List.getElem_mapIdx, List.getElem_set]
      by_cases hi : f = i
      · subst hi
        simp [histOf, Conn.runNext]
      · simp [hi, histOf]

theorem linkFaces_eq (cell first : Idx) : ∀ (rest : List Idx) (prev f : Idx) (fs : List Face),
    (∀ x ∈ f :: rest, x ≠ INVALID) →
    linkFaces cell first prev (f :: rest) fs =
      (if prev ≠ INVALID then setNextAt fs prev f cell else .ok fs).bind
        (applyCalls ((pairsFrom first (f :: rest)).map fun p => (p.1, p.2, cell))) := by
  intro rest
  induction rest with
  | nil =>
    intro prev f fs _
    simp only [linkFaces, pairsFrom, List.map_cons, List.map_nil, if_true]
    congr 1
  | cons g rest ih =>
    intro prev f fs h
    rw [linkFaces]
    simp only [pairsFrom, List.map_cons]
    congr 1
    funext fs1
    simp only [reduceCtorEq, if_false, Res.bind, applyCalls]
    rw [ih f g fs1 (fun x hx => h x (by simp [List.mem_cons] at hx ⊢; right; exact hx)),
      if_pos (h f (by simp))]
    rfl

theorem loadCellList_spec : ∀ (ls : List (List Idx)) (cs : List Cell) (k : Nat) (fs : List Face) (rest : List (Tok R)),
    (∀ l ∈ ls, l ≠ []) → (∀ l ∈ ls, ∀ f ∈ l, f < fs.length) → fs.length ≤ INVALID → cs.length = ls.length →
    ∃ cs', loadCellList cs k fs (ls.flatMap listTokens ++ rest) =
        .ok (cs', fs.mapIdx fun i f => { f with conn := f.conn.runNext (histOf i (chainCalls k ls)) }, rest) ∧
      cs'.length = ls.length ∧
      ∀ (i : Nat) l, ls[i]? = some l → ∃ c, cs'[i]? = some c ∧ c.index = k + i ∧ l[0]? = some c.bElem := by
  intro ls
  induction ls with
  | nil =>
    intro cs k fs rest _ _ _ hl
    have : cs = [] := by simpa using hl
    subst this
    refine ⟨[], ?_, rfl, by simp⟩
    simp only [List.flatMap_nil, List.nil_append, loadCellList]
    congr 2
    congr 1
    apply List.ext_getElem <;> simp [chainCalls, histOf, Conn.runNext]
  | cons l ls ih =>
    intro cs k fs rest hne hr hfit hl
    cases cs with
    | nil => simp at hl
    | cons c cs =>
      cases hl0 : l with
      | nil => exact absurd hl0 (hne l (by simp))
      | cons f0 fr =>
      have hrange : ∀ p ∈ (consecutive l).map (fun p => (p.1, p.2, k)), p.1 < fs.length := by
        intro p hp
        simp only [List.mem_map] at hp
        obtain ⟨q, hq, rfl⟩ := hp
        have : q.1 ∈ (consecutive l).map (·.1) := List.mem_map_of_mem hq
        rw [consecutive_map_fst] at this
        exact hr l (by simp) _ this
      have hlink : linkFaces k f0 INVALID l fs =
          .ok (fs.mapIdx fun i f => { f with conn := f.conn.runNext (histOf i ((consecutive l).map fun p => (p.1, p.2, k))) }) := by
        rw [hl0, linkFaces_eq k f0 fr INVALID f0 fs ?_, if_neg (by simp)]
        · simp only [Res.bind]
          rw [← consecutive_eq_pairsFrom, ← hl0]
          exact applyCalls_ok _ _ hrange
        · intro x hx
          have := hr l (by simp) x (hl0 ▸ hx)
          omega
      obtain ⟨cs', g1, g2, g3⟩ := ih cs (k + 1)
        (fs.mapIdx fun i f => { f with conn := f.conn.runNext (histOf i ((consecutive l).map fun p => (p.1, p.2, k))) })
        rest (fun l hl => hne l (by simp [hl])) (fun l hl f hf => by simpa using hr l (by simp [hl]) f hf)
        (by simpa using hfit) (by simpa using hl)
      refine ⟨{ index := k, bElem := f0 } :: cs', ?_, by simp [g2], ?_⟩
      · simp only [loadCellList, List.flatMap_cons, listTokens, List.cons_append, List.append_assoc, readNum, Res.bind]
        rw [← hl0, readNums_map]
        simp only [Res.bind]
        rw [show l.head?.getD c.bElem = f0 by rw [hl0]; rfl, hlink]
        simp only [Res.bind]
        rw [g1]
        simp only [Res.ok.injEq, Prod.mk.injEq, true_and, and_true]
        apply List.ext_getElem
        · simp
        · intro i h1 h2
          simp [chainCalls, histOf_append, Conn.runNext, List.foldl_append]
      · intro i l' hi
        cases i with
        | zero =>
          simp only [List.getElem?_cons_zero, Option.some.injEq] at hi
          subst hi
          exact ⟨{ index := k, bElem := f0 }, by simp, by simp, by simp⟩
        | succ i =>
          obtain ⟨c', c1, c2, c3⟩ := g3 i l' (by simpa using hi)
          exact ⟨c', by simpa using c1, by rw [c2]; omega, c3⟩

/-! ## Too many edges for the reserve -/

theorem addFaceEdges_throws (res : Nat) (h0 : 0 < res) : ∀ (ps : List (Idx × Idx)) (f : Face) (d : Dict)
    (es : List Edge), f.sub.length ≤ res → res < f.sub.length + ps.length →
      addFaceEdges res f d es ps = .throw .runtimeError := by
  intro ps
  induction ps with
  | nil => intro f d es h1 h2; simp at h2; omega
  | cons p ps ih =>
    intro f d es h1 h2
    obtain ⟨iA, iB⟩ := p
    simp only [addFaceEdges]
    split
    · rfl
    · exact ih _ _ _ (by simp; omega) (by simp at h2 ⊢; omega)

theorem loadFaceList_throws (res : Nat) (h0 : 0 < res) (used : List (Idx × Idx)) :
    ∀ (polys : List (List Idx)) (fs : List Face) (k : Nat) (d : Dict) (es : List Edge) (rest : List (Tok R)),
      TableInv d es used → (∀ p ∈ allPairs polys, p ∈ used) → (∃ l ∈ polys, res < l.length) →
      fs = List.replicate polys.length {} →
      loadFaceList res fs k d es (polys.flatMap listTokens ++ rest) = .throw .runtimeError := by
  intro polys
  induction polys with
  | nil => intro _ _ _ _ _ _ _ h; simp at h
  | cons vs polys ih =>
    intro fs k d es rest h hu hex hfs
    subst hfs
    simp only [List.length_cons, List.replicate_succ, loadFaceList, List.flatMap_cons, listTokens,
        List.cons_append, List.append_assoc, readNum, Res.bind]
    rw [readNumsZ_map]
    simp only [Res.bind]
    by_cases hv : res < vs.length
    · rw [addFaceEdges_throws res h0 _ _ _ _ (by simp) (by simpa [consecutive_length] using hv)]
    · obtain ⟨d1, es1, idx, g1, g2, g3, g4, g5⟩ := addFaceEdges_spec res used (consecutive vs)
        { ({} : Face) with index := k } d es h (fun p hp => hu p (by simp [allPairs]; exact Or.inl hp))
        (by right; simpa [consecutive_length] using hv)
      rw [g1]
      simp only [Res.bind]
      rw [ih _ (k + 1) d1 es1 rest g2 (fun p hp => hu p (by
          simp only [allPairs, List.flatMap_cons, List.mem_append]; exact Or.inr hp)) ?_ rfl]
      obtain ⟨l, hl, hlt⟩ := hex
      rcases List.mem_cons.mp hl with rfl | hl
      · exact absurd hlt hv
      · exact ⟨l, hl, hlt⟩

theorem mem_consecutive {vs : List Idx} {u v : Idx} (h : (u, v) ∈ consecutive vs) :
    ∃ (j : Nat), j < vs.length ∧ cyc vs j = some u ∧ cyc vs (j + 1) = some v := by
  obtain ⟨j, hj⟩ := List.getElem?_of_mem h
  have hl : j < vs.length := by
    have := (List.getElem?_eq_some_iff.mp hj).1
    simpa [consecutive_length] using this
  obtain ⟨u', v', h1, h2, h3⟩ := consecutive_get vs j hl
  rw [hj] at h1
  simp only [Option.some.injEq, Prod.mk.injEq] at h1
  obtain ⟨rfl, rfl⟩ := h1
  exact ⟨j, hl, h2, h3⟩

/-- Everything about loading into an empty mesh that does not need the lists of the cells to be proper ones. -/
theorem load_listed (F : File R) (hne : ∀ l ∈ F.cells, l ≠ []) (hrange : ∀ l ∈ F.cells, ∀ f ∈ l, f < F.faces.length)
    (hfit : F.faces.length ≤ INVALID) (res : Nat) (hres : ∀ l ∈ F.faces, res = 0 ∨ l.length ≤ res)
    (rest : List (Tok R)) :
    ∃ d m, load res (F.tokens ++ rest) { dim := 3 } = .ok m ∧ m.dim = 3 ∧ m.vertices = F.verts ∧
      TableInv d m.edges (allPairs F.faces) ∧
      (m.midElems 2).length = F.faces.length ∧
      (∀ (i : Nat) vs, F.faces[i]? = some vs →
        ∃ f, (m.midElems 2)[i]? = some f ∧ f.index = i ∧ EdgesOf m.edges f.sub vs ∧
          f.conn = ({} : Conn).runNext (histOf i (chainCalls 0 F.cells))) ∧
      m.cells.length = F.cells.length ∧
      (∀ (i : Nat) l, F.cells[i]? = some l → ∃ c, m.cells[i]? = some c ∧ c.index = i ∧ l[0]? = some c.bElem) := by
  obtain ⟨d, es, fs, f1, f2, f3, f4, f5⟩ := loadFaceList_spec (R := R) res (allPairs F.faces) F.faces
    (List.replicate F.faces.length {}) 0 [] []
    (.num F.cells.length :: F.cells.flatMap listTokens ++ rest)
    (TableInv.empty _) (fun p hp => hp) hres rfl
  obtain ⟨cs, c1, c2, c3⟩ := loadCellList_spec F.cells (List.replicate F.cells.length {}) 0 fs rest
    hne (by rw [f4]; exact hrange) (by rw [f4]; exact hfit) (by simp)
  refine ⟨d, { dim := 3, vertices := F.verts, edges := es, cells := cs, mids :=
      [fs.mapIdx fun i f => { f with conn := f.conn.runNext (histOf i (chainCalls 0 F.cells)) }] },
    ?_, rfl, rfl, f2, by simp [Mesh.midElems, f4], ?_, c2, ?_⟩
  · unfold load loadVertices File.tokens
    simp only [List.cons_append, readNum, Res.bind, List.append_assoc]
    rw [readPoints_flatMap]
    simp only [Res.bind, loadFaces, readNum, Mesh.midElems, List.getElem?_nil, Option.getD_none, resize,
      List.take_nil, List.nil_append, List.length_nil, Nat.sub_zero]
    rw [show (Tok.num F.cells.length :: (List.flatMap listTokens F.cells ++ rest))
      = (Tok.num F.cells.length :: List.flatMap listTokens F.cells ++ rest) from by simp, f1]
    simp only [Res.bind, loadCells, List.cons_append, readNum, Mesh.midElems, resize,
      List.take_nil, List.nil_append, List.length_nil, Nat.sub_zero, List.getElem?_cons_zero, Option.getD_some]
    rw [show ([fs][2 - 2]?.getD [] : List Face) = fs from rfl, c1]
  · intro i vs hi
    obtain ⟨f, g1, g2, g3, g4⟩ := f5 i vs hi
    refine ⟨{ f with conn := f.conn.runNext (histOf i (chainCalls 0 F.cells)) }, ?_, by simpa using g2, g4, ?_⟩
    · simp [Mesh.midElems, g1]
    · simp only [g3]
  · intro i l hi
    obtain ⟨c, g1, g2, g3⟩ := c3 i l hi
    exact ⟨c, g1, by simpa using g2, g3⟩

/-- Everything about loading into an empty mesh. -/
theorem load_spec (F : File R) (hF : F.WellFormed) (res : Nat) (hres : ∀ l ∈ F.faces, res = 0 ∨ l.length ≤ res)
    (rest : List (Tok R)) :
    ∃ d m, load res (F.tokens ++ rest) { dim := 3 } = .ok m ∧ m.dim = 3 ∧ m.vertices = F.verts ∧
      TableInv d m.edges (allPairs F.faces) ∧
      (m.midElems 2).length = F.faces.length ∧
      (∀ (i : Nat) vs, F.faces[i]? = some vs →
        ∃ f, (m.midElems 2)[i]? = some f ∧ f.index = i ∧ EdgesOf m.edges f.sub vs ∧
          f.conn = ({} : Conn).runNext (histOf i (chainCalls 0 F.cells))) ∧
      m.cells.length = F.cells.length ∧
      (∀ (i : Nat) l, F.cells[i]? = some l → ∃ c, m.cells[i]? = some c ∧ c.index = i ∧ l[0]? = some c.bElem) :=
  load_listed F hF.cells_ne hF.cells_range hF.faces_fit res hres rest

end GTMesh.Fpma
