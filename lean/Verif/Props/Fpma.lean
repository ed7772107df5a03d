import Verif.Proofs.Fpma
import Verif.Proofs.Trace
import Verif.Props.Connections

/-! # C18 – C21: the FPMA format -/

namespace GTMesh.Fpma
open Spec GTMesh.Props
variable {R : Type}

/-- Example file: the two tetrahedra 0123 and 1234. -/
def exampleFile : File Int where
  verts := [(0, 0, 0), (1, 0, 0), (0, 1, 0), (0, 0, 1), (1, 1, 1)]
  faces := [[0, 1, 2], [0, 1, 3], [1, 2, 3], [3, 2, 0], [1, 2, 4], [4, 2, 3], [1, 3, 4]]
  cells := [[0, 1, 2, 3], [2, 4, 5, 6]]

instance (F : File R) : Decidable (∀ f, (F.cells.filter fun l => decide (f ∈ l)).length ≤ 2) :=
  decidable_of_iff (∀ f ∈ F.cells.flatten, (F.cells.filter fun l => decide (f ∈ l)).length ≤ 2) (by
    constructor
    · intro h f
      by_cases hf : f ∈ F.cells.flatten
      · exact h f hf
      · have : F.cells.filter (fun l => decide (f ∈ l)) = [] := by
          rw [List.filter_eq_nil_iff]
          intro l hl hh
          exact hf (List.mem_flatten.mpr ⟨l, hl, by simpa using hh⟩)
        rw [this]; simp
    · exact fun h f _ => h f)

theorem exampleFile_wellFormed : exampleFile.WellFormed where
  cells_ne := by decide
  cells_nodup := by simp only [NoRepetition]; decide
  cells_range := by decide
  two := by decide
  cells_fit := by decide
  faces_fit := by decide

/-! ## C18 -/

/-- C18. Loading a well-formed file into an empty mesh, whatever follows the content in the stream, succeeds
when the faces fit in the reserve of the sub-element container (`res = 0`: dynamic container) and gives: the
positions of the file; edges numbered by position, no two of them joining the same two vertices, and each one
joining two consecutive vertices of some face; for each listed face, at the same position, a face whose
sub-elements are in order the edges joining its consecutive vertices (the last one closes the polygon); for each
listed cell, at the same position, a cell whose boundary walk yields the listed faces in the listed order. -/
theorem C18_load (F : File R) (hF : F.WellFormed) (res : Nat)
    (hres : ∀ vs ∈ F.faces, res = 0 ∨ vs.length ≤ res) (rest : List (Tok R)) :
    ∃ m, load res (F.tokens ++ rest) { dim := 3 } = .ok m ∧ m.dim = 3 ∧ m.vertices = F.verts ∧
      (∀ (i : Nat) e, m.edges[i]? = some e → e.index = i) ∧
      (∀ (i j : Nat) e e', m.edges[i]? = some e → m.edges[j]? = some e' → SamePair (e.a, e.b) (e'.a, e'.b) → i = j) ∧
      (∀ e ∈ m.edges, ∃ vs ∈ F.faces, ∃ (j : Nat), j < vs.length ∧ cyc vs j = some e.a ∧ cyc vs (j + 1) = some e.b) ∧
      (m.midElems 2).length = F.faces.length ∧
      (∀ (i : Nat) vs, F.faces[i]? = some vs →
        ∃ f, (m.midElems 2)[i]? = some f ∧ f.index = i ∧ EdgesOf m.edges f.sub vs) ∧
      m.cells.length = F.cells.length ∧
      (∀ (i : Nat) l, F.cells[i]? = some l →
        (∃ c, m.cells[i]? = some c ∧ c.index = i) ∧ boundaryWalk m i = .ok l) := by
  obtain ⟨d, m, h1, h2, h3, h4, h5, h6, h7, h8⟩ := load_spec F hF res hres rest
  refine ⟨m, h1, h2, h3, h4.index, fun i j e e' hi hj hs => h4.unique hi hj hs, ?_, h5, ?_, h7, ?_⟩
  · intro e he
    obtain ⟨i, hi⟩ := List.getElem?_of_mem he
    have := h4.origin i e hi
    obtain ⟨vs, hvs, hp⟩ := List.mem_flatMap.mp this
    obtain ⟨j, hj⟩ := mem_consecutive hp
    exact ⟨vs, hvs, j, hj⟩
  · intro i vs hi
    obtain ⟨f, g1, g2, g3, _⟩ := h6 i vs hi
    exact ⟨f, g1, g2, g3⟩
  · intro i l hi
    obtain ⟨c, c1, c2, c3⟩ := h8 i l hi
    refine ⟨⟨c, c1, c2⟩, ?_⟩
    rw [C09_walk_iff_chain m (by omega) i c c1]
    have hl : l ∈ F.cells := List.mem_of_getElem? hi
    refine ⟨⟨hF.cells_ne l hl, hF.cells_nodup l hl, ?_⟩, c3⟩
    intro j hj
    have hjf : l[j] < F.faces.length := hF.cells_range l hl _ (List.getElem_mem hj)
    obtain ⟨f, g1, _, _, g4⟩ := h6 l[j] F.faces[l[j]] (by simp [hjf])
    refine ⟨f.conn, ?_, ?_⟩
    · simp only [Mesh.faceConn, h2]
      rw [if_neg (by decide), show Res.at' (m.midElems (3 - 1)) l[j] = .ok f by simpa using g1]
      rfl
    · rw [g4]
      refine chainCalls_next hF.cells_nodup hF.cells_fit (hF.two _) hi hj ?_ ?_
      · simp [cyc, Nat.mod_eq_of_lt hj]
      · simp [cyc, Nat.mod_lt _ (Nat.lt_of_le_of_lt (Nat.zero_le j) hj)]

/-- C18. If moreover the vertex numbers of the faces exist, the loaded mesh is valid in the sense of
`Spec/Incidence.lean` with the listed faces as boundaries, so that the properties C10–C13 hold for it. -/
theorem C18_valid (F : File R) (hF : F.WellFormed) (res : Nat)
    (hres : ∀ vs ∈ F.faces, res = 0 ∨ vs.length ≤ res) (rest : List (Tok R))
    (hr : ∀ vs ∈ F.faces, ∀ v ∈ vs, v < F.verts.length) :
    ∃ m, load res (F.tokens ++ rest) { dim := 3 } = .ok m ∧ ValidMesh m fun i => (F.cells[i]?).getD [] := by
  obtain ⟨m, h1, h2, h3, h4, _, h5, h6, h7, h8, h9⟩ := C18_load F hF res hres rest
  refine ⟨m, h1, ⟨by omega, ?_, ?_⟩⟩
  · intro i c hc
    have hi : i < F.cells.length := by
      have := (List.getElem?_eq_some_iff.mp hc).1; omega
    obtain ⟨_, hw⟩ := h9 i F.cells[i] (by simp [hi])
    rw [C09_walk_iff_chain m (by omega) i c hc] at hw
    simpa [hi] using hw
  · intro d i hd1 hd3 hi s hs
    rw [h2] at hd3
    have : d = 1 ∨ d = 2 ∨ d = 3 := by omega
    rcases this with rfl | rfl | rfl
    · simp only [Mesh.numElems, h2] at hi ⊢
      rw [if_neg (by decide), if_neg (by decide), if_pos trivial] at hi
      rw [if_neg (by decide), if_pos (by decide), h3]
      simp only [directSubs, h2] at hs
      rw [if_neg (by decide), if_pos trivial, List.getElem?_eq_getElem hi] at hs
      obtain ⟨vs, hvs, j, hj, ha, hb⟩ := h5 _ (List.getElem_mem hi)
      have hm : ∀ (k : Nat) x, cyc vs k = some x → x < F.verts.length :=
        fun k x hx => hr vs hvs x (List.mem_of_getElem? hx)
      simp at hs
      rcases hs with rfl | rfl
      · exact hm _ _ ha
      · exact hm _ _ hb
    · simp only [Mesh.numElems, h2] at hi ⊢
      rw [if_neg (by decide), if_neg (by decide), if_neg (by decide)] at hi
      rw [if_neg (by decide), if_neg (by decide), if_pos (by decide)]
      simp only [directSubs, h2] at hs
      rw [if_neg (by decide), if_neg (by decide)] at hs
      obtain ⟨f, g1, _, g3⟩ := h7 i (F.faces[i]'(by omega)) (by simp)
      rw [g1] at hs
      simp only [Option.map_some, Option.getD_some] at hs
      obtain ⟨j, hj⟩ := List.getElem?_of_mem hs
      have hlt := (List.getElem?_eq_some_iff.mp hj).1
      obtain ⟨e, u, v, e1, _, _, ed, e4, _⟩ := g3.2 j (by rw [← g3.1]; exact hlt)
      rw [hj] at e1
      cases e1
      exact (List.getElem?_eq_some_iff.mp e4).1
    · simp only [Mesh.numElems, h2] at hi ⊢
      rw [if_pos trivial] at hi
      rw [if_neg (by decide), if_neg (by decide), if_neg (by decide), h6]
      simp only [directSubs, h2, if_true] at hs
      have hi' : i < F.cells.length := by omega
      rw [List.getElem?_eq_getElem hi'] at hs
      exact hF.cells_range _ (List.getElem_mem hi') s hs

/-- C18. A face with more edges than the static reserve of the mesh is refused with a `std::runtime_error`. -/
theorem C18_reserve (F : File R) (res : Nat) (h0 : 0 < res) (vs : List Idx) (hvs : vs ∈ F.faces)
    (hlong : res < vs.length) (rest : List (Tok R)) :
    load res (F.tokens ++ rest) { dim := 3 } = .throw .runtimeError := by
  unfold load loadVertices File.tokens
  simp only [List.cons_append, readNum, Res.bind, List.append_assoc]
  rw [readPoints_flatMap]
  simp only [Res.bind, loadFaces, readNum, Mesh.midElems, List.getElem?_nil, Option.getD_none, resize,
    List.take_nil, List.nil_append, List.length_nil, Nat.sub_zero]
  rw [loadFaceList_throws res h0 (allPairs F.faces) F.faces _ 0 [] [] _ (TableInv.empty _) (fun p hp => hp)
    ⟨vs, hvs, hlong⟩ rfl]

example : ∃ m, load 0 exampleFile.tokens { dim := 3 } = .ok m ∧ boundaryWalk m 1 = .ok [2, 4, 5, 6]
    ∧ m.edges.length = 9 := ⟨_, rfl, by decide, by decide⟩
example : ∃ m, load 3 (exampleFile.tokens ++ [.num 0]) { dim := 3 } = .ok m ∧
    ValidMesh m fun i => (exampleFile.cells[i]?).getD [] :=
  C18_valid exampleFile exampleFile_wellFormed 3 (by decide) _ (by decide)
example : load 2 exampleFile.tokens { dim := 3 } = .throw .runtimeError := by
  simpa using C18_reserve exampleFile 2 (by decide) [0, 1, 2] (by decide) (by decide) []

/-! ## C19 -/

theorem addFaceEdges_prefix (res : Nat) : ∀ (ps : List (Idx × Idx)) (f : Face) (d : Dict) (es : List Edge) r,
    addFaceEdges res f d es ps = .ok r → es <+: r.2.2 := by
  intro ps
  induction ps with
  | nil => intro f d es r h; simp only [addFaceEdges, Res.ok.injEq] at h; subst h; exact List.prefix_refl _
  | cons p ps ih =>
    intro f d es r h
    obtain ⟨iA, iB⟩ := p
    simp only [addFaceEdges] at h
    split at h
    · simp at h
    · refine List.IsPrefix.trans ?_ (ih _ _ _ _ h)
      unfold findOrAddEdge
      split
      · exact List.prefix_append _ _
      · exact List.prefix_refl _

theorem loadFaceList_prefix (res : Nat) : ∀ (fs : List Face) (k : Nat) (d : Dict) (es : List Edge)
    (ts : List (Tok R)) r, loadFaceList res fs k d es ts = .ok r → es <+: r.2.1 := by
  intro fs
  induction fs with
  | nil => intro k d es ts r h; simp only [loadFaceList, Res.ok.injEq] at h; subst h; exact List.prefix_refl _
  | cons f fs ih =>
    intro k d es ts r h
    simp only [loadFaceList] at h
    cases h1 : readNum ts <;> rw [h1] at h <;> simp only [Res.bind, reduceCtorEq] at h
    rename_i p
    cases h2 : readNumsZ p.1 p.2 <;> rw [h2] at h <;> simp only [reduceCtorEq] at h
    rename_i q
    cases h3 : addFaceEdges res { f with index := k } d es (consecutive q.1) <;> rw [h3] at h <;>
      simp only [reduceCtorEq] at h
    rename_i s
    cases h4 : loadFaceList res fs (k + 1) s.2.1 s.2.2 q.2 <;> rw [h4] at h <;> simp only [reduceCtorEq] at h
    rename_i t
    simp only [Res.ok.injEq] at h
    subst h
    exact (addFaceEdges_prefix res _ _ _ _ _ h3).trans (ih _ _ _ _ t h4)

/-- C19 is violated by the FPMA reader: the edges of the previous content always stay, in front of those of the
file. -/
theorem C19_fpma_keeps_edges (res : Nat) (ts : List (Tok R)) (m m' : Mesh (Point R))
    (h : load res ts m = .ok m') : m.edges <+: m'.edges := by
  unfold load at h
  cases h1 : loadVertices ts m <;> rw [h1] at h <;> simp only [Res.bind, reduceCtorEq] at h
  rename_i p
  cases h2 : loadFaces res p.2 p.1 <;> rw [h2] at h <;> simp only [reduceCtorEq] at h
  rename_i q
  cases h3 : loadCells q.2 q.1 <;> rw [h3] at h <;> simp only [reduceCtorEq] at h
  rename_i r
  simp only [Res.ok.injEq] at h
  subst h
  have e1 : p.1.edges = m.edges := by
    unfold loadVertices at h1
    cases g : readNum ts <;> rw [g] at h1 <;> simp only [Res.bind, reduceCtorEq] at h1
    rename_i x
    cases g' : readPoints x.1 x.2 <;> rw [g'] at h1 <;> simp only [reduceCtorEq, Res.ok.injEq] at h1
    rw [← h1]
  have e2 : p.1.edges <+: q.1.edges := by
    unfold loadFaces at h2
    cases g : readNum p.2 <;> rw [g] at h2 <;> simp only [Res.bind, reduceCtorEq] at h2
    rename_i x
    cases g' : loadFaceList res (resize (p.1.midElems 2) x.1 {}) 0 [] p.1.edges x.2 <;> rw [g'] at h2 <;>
      simp only [reduceCtorEq, Res.ok.injEq] at h2
    rw [← h2]
    exact loadFaceList_prefix res _ _ _ _ _ _ g'
  have e3 : r.1.edges = q.1.edges := by
    unfold loadCells at h3
    cases g : readNum q.2 <;> rw [g] at h3 <;> simp only [Res.bind, reduceCtorEq] at h3
    rename_i x
    cases g' : loadCellList (resize q.1.cells x.1 {}) 0 (q.1.midElems 2) x.2 <;> rw [g'] at h3 <;>
      simp only [reduceCtorEq, Res.ok.injEq] at h3
    rw [← h3]
  rw [e3, ← e1]
  exact e2

/-- C19 is violated by the FPMA reader: loading the same well-formed file twice into a mesh gives twice the
edges, and each face has twice as many sub-elements. -/
theorem C19_fpma_violated : ∃ m1 m2, load 0 exampleFile.tokens { dim := 3 } = .ok m1 ∧
    load 0 exampleFile.tokens m1 = .ok m2 ∧ m1.edges.length = 9 ∧ m2.edges.length = 18 ∧
    (m1.midElems 2).map (·.sub.length) = List.replicate 7 3 ∧
    (m2.midElems 2).map (·.sub.length) = List.replicate 7 6 :=
  ⟨_, _, rfl, rfl, by decide, by decide, by decide, by decide⟩

/-! ## C20 -/

/-- C20. For a face whose edges form a simple closed polygon, in any order and direction, `indexFace` returns
and the written vertices are that polygon, up to the start and the direction. -/
theorem C20_indexFace (edges : List Edge) (subs vs : List Idx) (h : IsPolygon edges subs vs) :
    ∃ q, indexFace edges subs = .ok q ∧ SameCycle q vs := by
  obtain ⟨n, V, E, _, h1, h2⟩ := indexFace_ring h
  exact ⟨_, h1, h2⟩

/-- C20. In particular each vertex of the polygon is written once, consecutive ones being joined by an edge of
the face. -/
theorem C20_vertices (edges : List Edge) (subs vs : List Idx) (h : IsPolygon edges subs vs) :
    ∃ q, indexFace edges subs = .ok q ∧ q.Perm vs ∧ NoRepetition q ∧
      ∃ es, es.Perm subs ∧ EdgesOf edges es q := by
  obtain ⟨n, V, E, hr, hq, hc⟩ := indexFace_ring h
  have hperm : ((List.range n).map V).Perm vs := by
    rcases hc with hc | hc
    · exact hc.perm
    · exact hc.perm.trans (List.reverse_perm _)
  refine ⟨_, hq, hperm, hperm.nodup_iff.mpr h.2.1, (List.range n).map E, ?_, ?_⟩
  · exact hr.perm
  · exact hr.edgesOf

/-- C20, counterpart: a pass over the edges that changes nothing is repeated forever. -/
theorem C20_stuck (edges : List Edge) (subs : List Idx) (start : Idx) (s : TraceState) (hs : start ≠ s.next)
    (h : tracePass edges subs s = .ok s) : ∀ n, traceLoop edges subs start n s = .diverge := by
  intro n
  induction n with
  | zero => rfl
  | succ n ih => rw [traceLoop, if_pos hs, h]; exact ih

/-- C20, counterpart: on an open face, for instance two edges 0-1 and 1-2, the writer never returns. -/
theorem C20_open_face_diverges :
    indexFace [{ a := 0, b := 1 }, { a := 1, b := 2 }] [0, 1] = .diverge ∧
    ∀ n, traceLoop [{ a := 0, b := 1 }, { a := 1, b := 2 }] [0, 1] 1 n { last := 0, next := 0, out := [1] } = .diverge :=
  ⟨by decide, C20_stuck _ _ _ _ (by decide) (by decide)⟩

/-- A quadrangle 5-7-6-9 whose edges are stored in disorder and with mixed directions. -/
def exampleQuad : List Edge := [{ a := 9, b := 5 }, { a := 6, b := 7 }, { a := 5, b := 7 }, { a := 6, b := 9 }]

theorem exampleQuad_polygon : IsPolygon exampleQuad [1, 3, 2, 0] [5, 7, 6, 9] := by
  refine ⟨by decide, by simp only [NoRepetition]; decide, by simp only [NoRepetition]; decide, [2, 1, 3, 0], by decide,
    rfl, ?_⟩
  intro j hj
  have : j = 0 ∨ j = 1 ∨ j = 2 ∨ j = 3 := by simp at hj; omega
  rcases this with rfl | rfl | rfl | rfl
  · exact ⟨2, 5, 7, by decide, by decide, by decide, _, rfl, by decide⟩
  · exact ⟨1, 7, 6, by decide, by decide, by decide, _, rfl, by decide⟩
  · exact ⟨3, 6, 9, by decide, by decide, by decide, _, rfl, by decide⟩
  · exact ⟨0, 9, 5, by decide, by decide, by decide, _, rfl, by decide⟩

example : indexFace exampleQuad [1, 3, 2, 0] = .ok [7, 6, 9, 5] := by decide

/-! ## C21 -/

theorem forEach_exists {α β : Type} {body : α → Res β} : ∀ {l : List α}, (∀ x ∈ l, ∃ y, body x = .ok y) →
    ∃ ys, Std'.forEach body l = .ok ys ∧ ys.length = l.length ∧
      ∀ (i : Nat) x, l[i]? = some x → ∃ y, ys[i]? = some y ∧ body x = .ok y := by
  intro l
  induction l with
  | nil => intro _; exact ⟨[], rfl, rfl, by simp⟩
  | cons x xs ih =>
    intro h
    obtain ⟨y, hy⟩ := h x (by simp)
    obtain ⟨ys, h1, h2, h3⟩ := ih fun x hx => h x (by simp [hx])
    refine ⟨y :: ys, by simp [Std'.forEach, hy, h1], by simp [h2], ?_⟩
    intro i z hz
    cases i with
    | zero => simp at hz; subst hz; exact ⟨y, by simp, hy⟩
    | succ i => simpa using h3 i z (by simpa using hz)

/-- The connections from cells to faces in original order are the boundaries. -/
theorem connectionsOrig_cells {V : Type} (m : Mesh V) (bd : Idx → List Idx) (hv : ValidMesh m bd) :
    m.connectionsOrig m.dim (m.dim - 1) = .ok ((List.range m.cells.length).map bd) := by
  have hd := hv.dim_ge
  obtain ⟨calls, r, h1, h2, h3, h4⟩ := C12_original m bd hv m.dim (m.dim - 1) (Nat.le_refl _) (by omega)
  have h5 := C10_apply_descending m bd hv m.dim (m.dim - 1) (Nat.le_refl _) (by omega)
  rw [h1] at h5
  have h5 := Res.ok.inj h5
  rw [h2]
  have hn : m.numElems m.dim = m.cells.length := by simp [Mesh.numElems]
  congr 1
  apply List.ext_getElem?
  intro i
  by_cases hi : i < m.cells.length
  · have hlt : i < r.length := by rw [h3, hn]; exact hi
    rw [List.getElem?_eq_getElem hlt]
    have e := (h4 i r[i] (by simp)).1
    rw [e, List.getElem?_map, List.getElem?_range hi]
    simp only [Option.map_some, Option.some.injEq]
    have key : (calls.filter fun p => p.1 == i).map (·.2) = bd i := by
      rw [h5, hn, List.filter_flatMap, List.map_flatMap]
      have : ∀ s, ((List.map (fun t => (s, t)) (descend m bd (m.dim - 1) (m.dim - (m.dim - 1)) s)).filter
          fun p : Nat × Nat => p.1 == i).map (·.2) = if s = i then bd i else [] := by
        intro s
        have e1 : descend m bd (m.dim - 1) (m.dim - (m.dim - 1)) s = bd s := by
          rw [show m.dim - (m.dim - 1) = 0 + 1 by omega, descend]
          simp only [descend, directSubs]
          rw [if_pos (by omega)]
          simp
        rw [e1, List.filter_map, List.map_map]
        by_cases hs : s = i
        · subst hs
          simp [Function.comp_def]
        · have : ((fun p : Nat × Nat => p.1 == i) ∘ fun t => (s, t)) = fun _ => false := by
            funext t; simp [hs]
          rw [this]; simp [hs]
      rw [List.flatMap_congr (fun s _ => this s)]
      clear e
      clear hlt
      clear h1 h2 h3 h4 h5 hn this
      generalize m.cells.length = n at hi
      induction n with
      | zero => omega
      | succ n ih =>
        rw [List.range_succ, List.flatMap_append]
        by_cases hin : i < n
        · rw [ih hin]
          simp [show n ≠ i by omega]
        · have : i = n := by omega
          subst this
          have hz : (List.range i).flatMap (fun s => if s = i then bd i else []) = [] := by
            rw [List.flatMap_eq_nil_iff]
            intro s hs
            rw [if_neg]
            have := List.mem_range.mp hs
            omega
          rw [hz]; simp
    rw [key]
    obtain ⟨c, hc⟩ : ∃ c, m.cells[i]? = some c := ⟨m.cells[i], by simp [hi]⟩
    exact firstOcc_of_noRep (hv.chain i c hc).1.2.1
  · rw [List.getElem?_eq_none (by rw [h3, hn]; omega), List.getElem?_eq_none (by simp; omega)]

/-- In a valid mesh a face belongs to at most two cells. -/
theorem two_cells {V : Type} {m : Mesh V} {bd : Idx → List Idx} (hv : ValidMesh m bd) (f : Idx) :
    (((List.range m.cells.length).map bd).filter fun l => decide (f ∈ l)).length ≤ 2 := by
  rw [List.filter_map, List.length_map]
  by_cases hf : ∃ c, m.faceConn f = .ok c
  · obtain ⟨cn, hcn⟩ := hf
    have hsub : (List.range m.cells.length).filter ((fun l => decide (f ∈ l)) ∘ bd) ⊆ [cn.left, cn.right] := by
      intro i hi
      simp only [List.mem_filter, List.mem_range, Function.comp, decide_eq_true_eq] at hi
      obtain ⟨hi, hmem⟩ := hi
      obtain ⟨⟨_, _, hl⟩, _⟩ := hv.chain i m.cells[i] (by simp [hi])
      obtain ⟨j, hj⟩ := List.getElem?_of_mem hmem
      obtain ⟨hj', hje⟩ := List.getElem?_eq_some_iff.mp hj
      obtain ⟨c, h1, h2⟩ := hl j hj'
      rw [hje, hcn] at h1
      cases h1
      unfold Conn.getNextBElem at h2
      split at h2
      · simp at h2
      · split at h2
        · simp [*]
        · split at h2
          · simp [*]
          · simp at h2
    exact (List.subperm_of_subset (List.nodup_range.filter _) hsub).length_le
  · have : (List.range m.cells.length).filter ((fun l => decide (f ∈ l)) ∘ bd) = [] := by
      rw [List.filter_eq_nil_iff]
      intro i hi hmem
      simp only [List.mem_range, Function.comp, decide_eq_true_eq] at hi hmem
      obtain ⟨⟨_, _, hl⟩, _⟩ := hv.chain i m.cells[i] (by simp [hi])
      obtain ⟨j, hj⟩ := List.getElem?_of_mem hmem
      obtain ⟨hj', hje⟩ := List.getElem?_eq_some_iff.mp hj
      obtain ⟨c, h1, h2⟩ := hl j hj'
      rw [hje] at h1
      exact hf ⟨c, h1⟩
    rw [this]; simp

/-- What `write` writes is a well formed file: the polygons of the faces up to start and direction, and the faces of the cells. -/
theorem written (m : Mesh (Point R)) (bd poly : Idx → List Idx) (hd : m.dim = 3) (hv : ValidMesh m bd)
    (hpoly : ∀ (i : Nat) f, (m.midElems 2)[i]? = some f → IsPolygon m.edges f.sub (poly i))
    (hc : m.cells.length ≤ INVALID) (hf : (m.midElems 2).length ≤ INVALID) :
    ∃ F : File R, write m = .ok (F.tokens ++ [.num 0]) ∧ F.WellFormed ∧ F.verts = m.vertices ∧ F.faces.length = (m.midElems 2).length ∧
      F.cells = (List.range m.cells.length).map bd ∧ ∀ (i : Nat) q, F.faces[i]? = some q → SameCycle q (poly i) := by
  have hfaces : m.numElems (m.dim - 1) = (m.midElems 2).length := by
    simp only [Mesh.numElems, hd]
    rw [if_neg (by decide), if_neg (by decide), if_neg (by decide)]
  obtain ⟨ys, y1, y2, y3⟩ := forEach_exists (body := fun f : Face => indexFace m.edges f.sub) (l := m.midElems 2)
    (by
      intro f hf
      obtain ⟨i, hi⟩ := List.getElem?_of_mem hf
      obtain ⟨q, hq, _⟩ := C20_indexFace _ _ _ (hpoly i f hi)
      exact ⟨q, hq⟩)
  have hchain : ∀ i, i < m.cells.length → ClosedChain m i (bd i) :=
    fun i hi => (hv.chain i m.cells[i] (by simp [hi])).1
  let F : File R := { verts := m.vertices, faces := ys, cells := (List.range m.cells.length).map bd }
  have hF : F.WellFormed := by
    refine ⟨?_, ?_, ?_, two_cells hv, by simpa [F] using hc, by simp only [F, y2]; exact hf⟩
    · intro l hl
      obtain ⟨i, hi, rfl⟩ := List.mem_map.mp hl
      exact (hchain i (List.mem_range.mp hi)).1
    · intro l hl
      obtain ⟨i, hi, rfl⟩ := List.mem_map.mp hl
      exact (hchain i (List.mem_range.mp hi)).2.1
    · intro l hl f hfl
      obtain ⟨i, hi, rfl⟩ := List.mem_map.mp hl
      have hi := List.mem_range.mp hi
      have := hv.range m.dim i (by omega) (Nat.le_refl _) (by simpa [Mesh.numElems] using hi) f
        (by simpa [directSubs] using hfl)
      rw [hfaces] at this
      simp only [F, y2]
      exact this
  refine ⟨F, ?_, hF, rfl, y2, rfl, ?_⟩
  · have hco := connectionsOrig_cells m bd hv
    rw [hd] at hco
    unfold write
    rw [y1]
    simp only [Res.bind]
    rw [hco]
    simp [F, File.tokens]
    rfl
  · intro i q hq
    have hi : i < ys.length := (List.getElem?_eq_some_iff.mp hq).1
    have hi' : i < (m.midElems 2).length := by omega
    obtain ⟨y, z1, z2⟩ := y3 i (m.midElems 2)[i] (by simp [hi'])
    obtain ⟨q', w1, w2⟩ := C20_indexFace _ _ _ (hpoly i (m.midElems 2)[i] (by simp [hi']))
    rw [z2] at w1
    cases w1
    have hq' : ys[i]? = some q := hq
    rw [z1] at hq'
    cases hq'
    exact w2

/-- C21. Writing a valid 3D mesh whose faces are simple closed polygons (`poly i` for face `i`) and reading the
result into an empty mesh gives the same positions, the same polygons up to start and direction, and the same
faces of each cell in the same order. -/
theorem C21_round_trip_partial (m : Mesh (Point R)) (bd poly : Idx → List Idx) (hd : m.dim = 3) (hv : ValidMesh m bd)
    (hpoly : ∀ (i : Nat) f, (m.midElems 2)[i]? = some f → IsPolygon m.edges f.sub (poly i))
    (hc : m.cells.length ≤ INVALID) (hf : (m.midElems 2).length ≤ INVALID) :
    ∃ ts m', write m = .ok ts ∧ load 0 ts { dim := 3 } = .ok m' ∧ m'.vertices = m.vertices ∧
      (m'.midElems 2).length = (m.midElems 2).length ∧
      (∀ (i : Nat) f, (m'.midElems 2)[i]? = some f →
        ∃ q, EdgesOf m'.edges f.sub q ∧ SameCycle q (poly i)) ∧
      m'.cells.length = m.cells.length ∧
      (∀ i, i < m.cells.length → boundaryWalk m' i = boundaryWalk m i ∧ boundaryWalk m i = .ok (bd i)) := by
  obtain ⟨F, f1, hF, f2, f3, f4, f5⟩ := written m bd poly hd hv hpoly hc hf
  obtain ⟨m', h1, h2, h3, _, _, _, h7, h8, h9, h10⟩ := C18_load F hF 0 (fun _ _ => Or.inl rfl) [.num 0]
  refine ⟨F.tokens ++ [.num 0], m', f1, h1, by rw [h3, f2], by rw [h7, f3], ?_, by rw [h9, f4]; simp, ?_⟩
  · intro i f hf
    have hi : i < F.faces.length := by
      have := (List.getElem?_eq_some_iff.mp hf).1
      rw [h7] at this; exact this
    obtain ⟨f', g1, _, g3⟩ := h8 i F.faces[i] (by simp [hi])
    rw [hf] at g1
    cases g1
    exact ⟨F.faces[i], g3, f5 i _ (by simp [hi])⟩
  · intro i hi
    have e : boundaryWalk m i = .ok (bd i) := by
      rw [C09_walk_iff_chain m (by omega) i m.cells[i] (by simp [hi])]
      exact hv.chain i m.cells[i] (by simp [hi])
    refine ⟨?_, e⟩
    rw [e, (h10 i (bd i) (by rw [f4]; simp [hi])).2]

/-- A mesh to which C21 applies: the one loaded from the example file. -/
example : ∃ m ts m', load 0 exampleFile.tokens { dim := 3 } = .ok m ∧ write m = .ok ts ∧
    load 0 ts { dim := 3 } = .ok m' ∧ boundaryWalk m' 1 = .ok [2, 4, 5, 6] ∧ ts ≠ exampleFile.tokens ++ [.num 0] :=
  ⟨_, _, _, rfl, rfl, rfl, by decide, by decide⟩

end GTMesh.Fpma
