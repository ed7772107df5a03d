import Verif.Props.CacheThrow3
import Verif.Props.SameExport

/-! # C29: an exception in between leaves a stored signature with another index -/

namespace GTMesh.Props
open GTMesh Std' Vtk
variable {I W T R V P S α : Type}

theorem session_three (M : Machine I W T) (w : W) (A B : I) (w1 w2 w3 : W) (t1 t2 t3 : List T) (e : Exc)
    (h1 : M.write none A w = .returned w1 t1) (h2 : M.write none B w1 = .threw e w2 t2) (h3 : M.write none A w2 = .returned w3 t3) :
    session M w [(A, none), (B, none), (A, none)] = [.returned t1, .threw e t2, .returned t3] := by
  simp only [session, h1, h2, h3]

theorem write_index (M : Machine I W T) (i : I) (w w1 : W) (t : List T) (h : M.last w ≠ M.hash i) (h1 : M.index i w = .ok w1)
    (h2 : M.text i w1 = .ok t) : M.write none i w = .returned (M.setLast (M.hash i) w1) t := by
  unfold Machine.write
  rw [if_pos h, h1]
  simp only [h2, toStream]

theorem write_stored (M : Machine I W T) (i : I) (w : W) (t : List T) (h : M.last w = M.hash i)
    (h2 : M.text i w = .ok t) : M.write none i w = .returned (M.setLast (M.hash i) w) t := by
  unfold Machine.write
  rw [if_neg (not_not.mpr h)]
  simp only [h2, toStream]

theorem write_throws (M : Machine I W T) (i : I) (w w1 : W) (e : Exc) (h : M.last w ≠ M.hash i) (h1 : M.index i w = .threw e w1) :
    M.write none i w = .threw e w1 [] := by
  unfold Machine.write
  rw [if_pos h, h1]

/-- C29 is violated in 2D. A mesh `A` is written, a mesh `B` without an index makes the writer throw, and `A` is written again. The last
text announces the cells of `A` and has the cells of `B`, up to the one without an index. -/
theorem C29_exception_2d_violated (zero : R) (H : Hasher (Point2 R)) (garbage : Nat) (A B : Input2 R) (t : List (VTok R)) (e : Exc)
    (hA : writeToStream2 zero A.mesh A.types = .ok t) (hB : indexMesh2 B.mesh = .throw e)
    (hg : garbage ≠ signature H [] A.mesh) (hAB : signature H [] B.mesh ≠ signature H [] A.mesh) :
    ∃ cells codesOfA, indexMesh2 A.mesh = .ok cells ∧ codes toVtk2 A.types = .ok codesOfA ∧
      session (machine2 zero H) { lastHash := garbage } [(A, none), (B, none), (A, none)] =
        [.returned t, .threw e [],
         .returned (pointsSection (A.mesh.vertices.map fun p => (p.1, p.2, zero)) ++
          (.word "CELLS" :: .num A.mesh.cells.length :: .num (totalNumbers cells) :: .nl ::
            (okPrefix (fun c : Cell => indexCell B.mesh.edges c.index c.bElem) B.mesh.cells).flatMap cellLine ++ [.nl]) ++
          typesSection A.mesh.cells.length codesOfA)] := by
  unfold writeToStream2 at hA
  cases h1 : indexMesh2 A.mesh <;> rw [h1] at hA <;> simp only [Res.bind, reduceCtorEq] at hA
  rename_i cv
  cases h2 : codes toVtk2 A.types <;> rw [h2] at hA <;> simp only [reduceCtorEq, Res.ok.injEq] at hA
  rename_i cs
  refine ⟨cv, cs, rfl, rfl, ?_⟩
  subst hA
  have htext : ∀ w : Writer2, textRan2 zero A.mesh A.types w =
      .ok (pointsSection (A.mesh.vertices.map fun p => (p.1, p.2, zero)) ++
          (.word "CELLS" :: .num A.mesh.cells.length :: .num w.total :: .nl :: w.cellVert.flatMap cellLine ++ [.nl]) ++
          typesSection A.mesh.cells.length cs) := by
    intro w
    simp [textRan2, typesRan_eq, h2, typesSection]
  have a1 := write_index (machine2 zero H) A ({ lastHash := garbage } : Writer2)
    { lastHash := garbage, cellVert := cv, total := totalNumbers cv } _ (by exact hg) (by simp only [machine2, indexRan2_eq, h1]) (htext _)
  have a2 := write_throws (machine2 zero H) B ({ lastHash := signature H [] A.mesh, cellVert := cv, total := totalNumbers cv } : Writer2)
    { lastHash := signature H [] A.mesh, total := totalNumbers cv, cellVert := (okPrefix (fun c : Cell => indexCell B.mesh.edges c.index c.bElem) B.mesh.cells) }
    e (by exact hAB.symm) (by simp only [machine2, indexRan2_eq, hB])
  have a3 := write_stored (machine2 zero H) A ({ lastHash := signature H [] A.mesh, total := totalNumbers cv, cellVert := (okPrefix (fun c : Cell => indexCell B.mesh.edges c.index c.bElem) B.mesh.cells) } : Writer2)
    _ rfl (htext _)
  exact session_three _ _ A B _ _ _ _ _ _ e a1 a2 a3

theorem each_append (f : S → α → Ran S) : ∀ (l l' : List α) (s : S), Ran.each f s (l ++ l') = (Ran.each f s l).bind fun s' => Ran.each f s' l' := by
  intro l l'
  induction l with
  | nil => intro s; rfl
  | cons a as ih =>
    intro s
    simp only [List.cons_append, Ran.each]
    cases f s a <;> simp [ih]

/-- C29 is violated in 3D. A mesh `A` is written, then another mesh `B` with a cell without a type, which makes the writer throw, and
`A` again. The last text has the points of `A`, those that were appended for `B`, and the cells of `B` up to the one without a type. -/
theorem C29_exception_3d_violated (H : Hasher (Point3 R)) (reserves : List Nat) (A B : Input3' R) (t : List (VTok R))
    (conn : List (List Idx)) (o : Idx → Bool) (hA : A.full (signature H reserves A.mesh) = .ok t)
    (h0 : signature H reserves A.mesh ≠ 0) (hAB : signature H reserves B.mesh ≠ signature H reserves A.mesh)
    (hc : B.mesh.connectionsAsc 3 0 = .ok conn) (ho : B.ori = .ok o) (first : List Cell) (c : Cell) (others : List Cell)
    (hcells : B.mesh.cells = first ++ c :: others) (htypes : B.types.length ≤ c.index) (s : IndexState (Point3 R))
    (hfirst : foldRes (indexCell3 o B.key B.cc B.fc B.mesh B.types) { w := {} } first = .ok s) (cs : List Nat)
    (hcodes : codes toVtk3 s.w.cellTypes = .ok cs) :
    ∃ total, session (machine3 H reserves) {} [(A, none), (B, none), (A, none)] =
        [.returned t, .threw .outOfRange [],
         .returned (pointsSection (A.mesh.vertices ++ s.w.appended) ++
          (.word "CELLS" :: .num s.w.cellVert.length :: .num total :: .nl :: s.w.cellVert.flatMap cellLine ++ [.nl]) ++
          typesSection s.w.cellTypes.length cs)] := by
  have hA' : ∃ w1, indexRan3 A.ori A.key A.cc A.fc A.mesh A.types {} = .ok w1 ∧ textRan3 A.mesh w1 = .ok t := by
    have k := (right3 H reserves A none {} (Ne.symm h0) (signature H reserves A.mesh)).1 t hA
    unfold Machine.write at k
    rw [if_pos (by exact Ne.symm h0)] at k
    simp only [machine3] at k
    cases hx : indexRan3 A.ori A.key A.cc A.fc A.mesh A.types {} <;> rw [hx] at k <;> simp only [seen, offered, reduceCtorEq] at k
    rename_i w1
    refine ⟨w1, rfl, ?_⟩
    cases ht : textRan3 A.mesh w1 <;> rw [ht] at k <;> simp only [toStream, Seen.returned.injEq, reduceCtorEq] at k
    rw [k]
  obtain ⟨w1, h1, h2⟩ := hA'
  have hB : ∀ w, indexRan3 B.ori B.key B.cc B.fc B.mesh B.types w =
      .threw .outOfRange { s.w with lastHash := w.lastHash, total := w.total } := by
    intro w
    unfold indexRan3
    rw [hc, ho]
    simp only [Ran.reads_ok]
    have e1 : ({ w := { lastHash := w.lastHash, total := w.total } } : IndexState (Point3 R)) =
      IndexState.sig w.lastHash w.total { w := {} } := rfl
    rw [hcells, each_append, e1, each_map _ _ (fun s c => indexCellRan3_sig o B.key B.cc B.fc B.mesh B.types s c w.lastHash w.total),
      (each_step_ok (indexCellRan3 o B.key B.cc B.fc B.mesh B.types) (indexCell3 o B.key B.cc B.fc B.mesh B.types)
      (fun s a s' => indexCellRan3_ok o B.key B.cc B.fc B.mesh B.types s a s') first { w := {} } s).mpr hfirst]
    have : ∀ s', indexCellRan3 o B.key B.cc B.fc B.mesh B.types s' c = .threw .outOfRange s' := by
      intro s'
      unfold indexCellRan3
      simp only [Res.at', List.getElem?_eq_none htypes, Ran.reads_throw]
    simp only [Ran.map, Ran.bind_ok, Ran.each, this, Ran.bind_threw]
    rfl
  refine ⟨w1.total, ?_⟩
  have e3 : ∀ w : Writer3 (Point3 R), w.cellTypes = s.w.cellTypes → w.cellVert = s.w.cellVert → w.appended = s.w.appended →
      textRan3 A.mesh w = .ok (pointsSection (A.mesh.vertices ++ s.w.appended) ++
          (.word "CELLS" :: .num s.w.cellVert.length :: .num w.total :: .nl :: s.w.cellVert.flatMap cellLine ++ [.nl]) ++
          typesSection s.w.cellTypes.length cs) := by
    intro w k1 k2 k3
    rw [textRan3_ok, k1, k2, k3, hcodes]
    rfl
  have a1 := write_index (machine3 H reserves) A ({} : Writer3 (Point3 R)) w1 _ (by exact Ne.symm h0) h1 h2
  have a2 := write_throws (machine3 H reserves) B ({ w1 with lastHash := signature H reserves A.mesh } : Writer3 (Point3 R))
    { s.w with lastHash := signature H reserves A.mesh, total := w1.total } _ (by exact hAB.symm) (hB _)
  have a3 := write_stored (machine3 H reserves) A ({ s.w with lastHash := signature H reserves A.mesh, total := w1.total } : Writer3 (Point3 R))
    _ rfl (e3 { s.w with lastHash := signature H reserves A.mesh, total := w1.total } rfl rfl rfl)
  exact session_three _ _ A B _ _ _ _ _ _ _ a1 a2 a3

theorem indexFaces_until (edges : List Edge) (f : Face) (others : List Face) (e0 e1 : Idx) (es : List Idx) (ed : Edge)
    (hsub : f.sub = e0 :: e1 :: es) (he0 : edges[e0]? = some ed) (hab : ed.a ≠ ed.b) (he1 : edges.length ≤ e1) :
    ∀ (first : List Face) (done before : List (List Idx)) (w : Fpma.FWriter),
      forEach (fun f : Face => Fpma.indexFace edges f.sub) first = .ok done →
      Fpma.indexFacesRan edges before.length (first ++ f :: others) { w with faceVert := before ++ (first ++ f :: others).map fun _ => [] } =
        .threw .outOfRange { w with faceVert := before ++ done ++ [ed.b] :: others.map fun _ => [] } := by
  intro first
  induction first with
  | nil =>
    intro done before w h
    cases h
    have : Fpma.indexFaceRan edges { w with faceVert := before ++ ([] ++ f :: others).map fun _ => [] } before.length f.sub =
        .threw .outOfRange { w with faceVert := before ++ [ed.b] :: others.map fun _ => [] } := by
      unfold Fpma.indexFaceRan
      have ht : Fpma.traceRan edges f.sub ed.b (2 * f.sub.length + 2) { last := e0, next := ed.a, out := [ed.b] } =
          .threw .outOfRange { last := e0, next := ed.a, out := [ed.b] } := by
        simp only [Fpma.traceRan]
        rw [if_pos (Ne.symm hab), hsub]
        simp [Ran.each, Ran.step, Fpma.traceStep, Res.at', he0, List.getElem?_eq_none he1]
      have h0 : Res.idx f.sub 0 = .ok e0 := by rw [hsub]; rfl
      rw [h0]
      simp only [Res.at', he0, Ran.reads_ok, ht]
      congr 2
      simp
    simp only [Fpma.indexFacesRan, List.nil_append] at this ⊢
    rw [this]
    simp
  | cons g gs ih =>
    intro done before w h
    simp only [forEach] at h
    rcases indexFaceRan_eq edges { w with faceVert := before ++ (g :: gs ++ f :: others).map fun _ => [] } before.length g.sub with
      ⟨s, h1, h2⟩ | ⟨x, fv, h1, h2⟩ | ⟨h1, h2⟩ | ⟨h1, h2⟩ <;> rw [h1] at h <;> simp only [Res.bind, reduceCtorEq] at h
    cases h3 : forEach (fun f : Face => Fpma.indexFace edges f.sub) gs <;> rw [h3] at h <;> simp only [Res.ok.injEq, reduceCtorEq] at h
    rename_i rest
    subst h
    simp only [List.cons_append, Fpma.indexFacesRan] at h2 ⊢
    rw [h2]
    have e1 : (before ++ List.map (fun _ => ([] : List Idx)) (g :: (gs ++ f :: others))).set before.length s =
        (before ++ [s]) ++ (gs ++ f :: others).map fun _ => [] := by simp
    have e2 : before.length + 1 = (before ++ [s]).length := by simp
    simp only [Ran.bind_ok]
    rw [e1, e2, ih rest (before ++ [s]) w h3]
    simp

/-- C29 is violated for FPMA. A mesh `A` is written, then a mesh with no fewer faces, one of which has a second edge that does not exist,
which makes the writer throw, and `A` again. The last text has the faces of `B` up to that one, of that one the first vertex, and
faces without vertices. -/
theorem C29_exception_fpma_violated (H : Hasher (GTMesh.Point R)) (reserves : List Nat) (garbage : Nat) (A B : Mesh (GTMesh.Point R))
    (hd : A.dim = 3) (t : List (GTMesh.Tok R)) (first : List Face) (f : Face) (others : List Face) (done : List (List Idx))
    (e0 e1 : Idx) (es : List Idx) (ed : Edge) (hA : Fpma.write A = .ok t)
    (hg : garbage ≠ signature H reserves A) (hAB : signature H reserves B ≠ signature H reserves A)
    (hf : B.midElems 2 = first ++ f :: others) (hfirst : forEach (fun f : Face => Fpma.indexFace B.edges f.sub) first = .ok done)
    (hsub : f.sub = e0 :: e1 :: es) (he0 : B.edges[e0]? = some ed) (hab : ed.a ≠ ed.b) (he1 : B.edges.length ≤ e1)
    (hl : (A.midElems 2).length ≤ (B.midElems 2).length) :
    ∃ cells, A.connectionsOrig 3 2 = .ok cells ∧
      session (machineF H reserves) { lastHash := garbage } [(A, none), (B, none), (A, none)] =
        [.returned t, .threw .outOfRange [],
         .returned (.num A.vertices.length :: (A.vertices.flatMap fun p => [.real p.1, .real p.2.1, .real p.2.2])
          ++ .num (A.midElems 2).length :: ((done ++ [ed.b] :: others.map fun _ => []).take (A.midElems 2).length).flatMap Fpma.line
          ++ .num A.cells.length :: cells.flatMap Fpma.line ++ [.num 0])] := by
  have h := rightF H reserves A hd none { lastHash := garbage } hg
  have k := h.1 t hA
  unfold Machine.write at k
  rw [if_pos (by exact hg)] at k
  simp only [machineF] at k
  rcases indexRanF_eq A { lastHash := garbage } with ⟨w1, k1, k2⟩ | ⟨x, w1, k1, k2, _⟩ | ⟨k1, k2⟩ | ⟨k1, k2⟩ <;> rw [k2] at k <;>
    simp only [seen, offered, reduceCtorEq] at k
  have ht : Fpma.textRanF A w1 = .ok t := by
    cases ht : Fpma.textRanF A w1 <;> rw [ht] at k <;> simp only [toStream, Seen.returned.injEq, reduceCtorEq] at k
    rw [k]
  have hw1 : A.connectionsOrig 3 2 = .ok w1.cellFace := by
    unfold Fpma.indexMeshF at k1
    cases g1 : forEach (fun f : Face => Fpma.indexFace A.edges f.sub) (A.midElems 2) <;> rw [g1] at k1 <;>
      simp only [Res.bind, reduceCtorEq] at k1
    cases g2 : A.connectionsOrig 3 2 <;> rw [g2] at k1 <;> simp only [reduceCtorEq, Res.ok.injEq] at k1
    rw [← k1]
  have hcl : A.cells.length = w1.cellFace.length := by
    rw [connectionsOrig_length hw1]; simp [Mesh.numElems, hd]
  have hB : ∀ w, Fpma.indexRanF B w = .threw .outOfRange { w with faceVert := done ++ [ed.b] :: others.map fun _ => [] } := by
    intro w
    unfold Fpma.indexRanF
    rw [hf]
    have := indexFaces_until B.edges f others e0 e1 es ed hsub he0 hab he1 first done [] w hfirst
    simp only [List.length_nil, List.nil_append] at this
    rw [this]
    rfl
  have hdl : done.length = first.length := forEach_length _ _ _ hfirst
  have e3 : Fpma.textRanF A { w1 with lastHash := signature H reserves A, faceVert := done ++ [ed.b] :: others.map fun _ => [] } =
      .ok (.num A.vertices.length :: (A.vertices.flatMap fun p => [.real p.1, .real p.2.1, .real p.2.2])
          ++ .num (A.midElems 2).length :: ((done ++ [ed.b] :: others.map fun _ => []).take (A.midElems 2).length).flatMap Fpma.line
          ++ .num A.cells.length :: w1.cellFace.flatMap Fpma.line ++ [.num 0]) := by
    rw [← res_ok_iff, textRanF_eq]
    simp only
    rw [forEach_at_range w1.cellFace hcl]
    have : forEach (fun i => Res.at' (done ++ [ed.b] :: others.map fun _ => []) i) (List.range (A.midElems 2).length) =
        .ok ((done ++ [ed.b] :: others.map fun _ => []).take (A.midElems 2).length) := by
      have hlen : ((done ++ [ed.b] :: others.map fun _ => []).take (A.midElems 2).length).length = (A.midElems 2).length := by
        rw [List.length_take]
        have : (done ++ [ed.b] :: others.map fun _ => ([] : List Idx)).length = (B.midElems 2).length := by
          rw [hf]; simp [hdl]
        omega
      have h2 := forEach_at_range ((done ++ [ed.b] :: others.map fun _ => []).take (A.midElems 2).length) hlen.symm
      rw [← h2]
      refine forEach_congr' fun i hi => ?_
      have := List.mem_range.mp hi
      simp only [Res.at', List.getElem?_take_of_lt this]
    rw [this]
    simp only [Res.bind]
  refine ⟨w1.cellFace, hw1, ?_⟩
  have a1 := write_index (machineF H reserves) A ({ lastHash := garbage } : Fpma.FWriter) w1 _ (by exact hg) k2 ht
  have a2 := write_throws (machineF H reserves) B ({ w1 with lastHash := signature H reserves A } : Fpma.FWriter)
    { w1 with lastHash := signature H reserves A, faceVert := done ++ [ed.b] :: others.map fun _ => [] } _ (by exact hAB.symm) (hB _)
  have a3 := write_stored (machineF H reserves) A
    ({ w1 with lastHash := signature H reserves A, faceVert := done ++ [ed.b] :: others.map fun _ => [] } : Fpma.FWriter) _ rfl e3
  exact session_three _ _ A B _ _ _ _ _ _ _ a1 a2 a3

/-! ## Concrete cases -/

/-- A hash function that adds up the numbers. -/
def sumHasher {V : Type} : Hasher V where
  idx i := i
  cells cs := cs.foldl (fun h c => 3 * h + c.bElem % 1000 + 1) 7
  faces _ fs := fs.length
  edges es := es.foldl (fun h e => h + 5 * e.a + e.b) 0
  vertices vs := vs.length

/-- Input `A`: a quadrangle and two triangles. Input `B`: the same mesh with a last cell without a boundary, which the writer refuses. -/
def inputA : Input2 Int := ⟨exampleVtk2, [201, 200, 200]⟩
def inputB : Input2 Int := ⟨{ exampleVtk2 with cells := exampleVtk2.cells.take 1 ++ [{ index := 1, bElem := INVALID }] }, [201, 200]⟩

/-- After the exception the file of `A` announces three cells and has one. -/
example : ∃ t t3, session (machine2 0 sumHasher) { lastHash := 0 } [(inputA, none), (inputB, none), (inputA, none)] =
      [.returned t, .threw .outOfRange [], .returned t3] ∧
    cellNumbers t = [6, 3, 13, 4, 0, 1, 2, 3, 3, 2, 1, 4, 3, 1, 5, 4] ∧ cellNumbers t3 = [6, 3, 13, 4, 0, 1, 2, 3] := by
  have hA : ∃ t, writeToStream2 0 inputA.mesh inputA.types = .ok t ∧
      cellNumbers t = [6, 3, 13, 4, 0, 1, 2, 3, 3, 2, 1, 4, 3, 1, 5, 4] := by
    cases h : writeToStream2 0 inputA.mesh inputA.types with
    | ok t =>
      refine ⟨t, rfl, ?_⟩
      have : ∀ t, writeToStream2 0 inputA.mesh inputA.types = .ok t → cellNumbers t = [6, 3, 13, 4, 0, 1, 2, 3, 3, 2, 1, 4, 3, 1, 5, 4] := by
        have : (writeToStream2 0 inputA.mesh inputA.types).bind (fun t => .ok (cellNumbers t)) =
          .ok [6, 3, 13, 4, 0, 1, 2, 3, 3, 2, 1, 4, 3, 1, 5, 4] := by decide +kernel
        intro t ht
        rw [ht] at this
        exact Res.ok.inj this
      exact this t h
    | throw e => exact absurd h (by revert e; intro e; cases e <;> decide +kernel)
    | ub => exact absurd h (by decide +kernel)
    | diverge => exact absurd h (by decide +kernel)
  obtain ⟨t, hA, ht⟩ := hA
  obtain ⟨cells, cs, h1, h2, h3⟩ := C29_exception_2d_violated 0 sumHasher 0 inputA inputB t .outOfRange hA (by decide +kernel)
    (by decide +kernel) (by decide +kernel)
  refine ⟨_, _, h3, ht, ?_⟩
  have e1 : indexMesh2 inputA.mesh = .ok [[0, 1, 2, 3], [2, 1, 4], [1, 5, 4]] := by decide +kernel
  have e2 : codes toVtk2 inputA.types = .ok [9, 5, 5] := by decide +kernel
  rw [e1] at h1
  rw [e2] at h2
  cases h1
  cases h2
  decide +kernel

/-- Another mesh: only the first cell. -/
def inputC : Input2 Int := ⟨{ exampleVtk2 with cells := exampleVtk2.cells.take 1 }, [201]⟩

/-- A sequence with a repetition, an exception and a return to the first mesh for which `C29_vtk2_exceptions_partial` holds. -/
example : Clean (fun i : Input2 Int => signature sumHasher [] i.mesh) (fun i => ∃ cv, indexMesh2 i.mesh = .ok cv)
    (fun a b => a.mesh.edges = b.mesh.edges ∧ a.mesh.cells = b.mesh.cells) 0 none [inputA, inputA, inputB, inputC, inputA] := by
  have nb : ¬∃ cv, indexMesh2 inputB.mesh = .ok cv := by
    rintro ⟨cv, h⟩
    rw [show indexMesh2 inputB.mesh = .throw .outOfRange by decide +kernel] at h
    cases h
  have d1 : signature sumHasher [] inputA.mesh ≠ 0 := by decide +kernel
  have d2 : signature sumHasher [] inputB.mesh ≠ signature sumHasher [] inputA.mesh := by decide +kernel
  have d3 : signature sumHasher [] inputC.mesh ≠ signature sumHasher [] inputA.mesh := by decide +kernel
  have ab : ∃ cv, indexMesh2 inputC.mesh = .ok cv := ⟨[[0, 1, 2, 3]], by decide +kernel⟩
  have aa : ∃ cv, indexMesh2 inputA.mesh = .ok cv := ⟨[[0, 1, 2, 3], [2, 1, 4], [1, 5, 4]], by decide +kernel⟩
  simp [Clean, d1, d2, d3, d3.symm, nb, ab, aa]

/-- The input of the 3D writer for `tetsA`, and `exampleMesh3` (a hexahedron and a wedge) with the type of its first cell only. -/
def input3A : Input3' Int := ⟨tetsA, [300, 300], .ok fun _ => false, exampleKey, fun _ => (0, 0, 0), fun _ => (0, 0, 0)⟩
def input3B : Input3' Int := ⟨exampleMesh3, [301], .ok fun _ => false, exampleKey, fun _ => (0, 0, 0), fun _ => (0, 0, 0)⟩

/-- The two tetrahedra are written, and after the exception the hexahedron instead, on the five points of the tetrahedra. -/
example : ∃ t t3, session (machine3 sumHasher []) {} [(input3A, none), (input3B, none), (input3A, none)] =
      [.returned t, .threw .outOfRange [], .returned t3] ∧ cellNumbers t = [5, 2, 10, 4, 0, 1, 2, 3, 4, 1, 2, 3, 4] ∧
      ∃ total, cellNumbers t3 = [5, 1, total, 8, 0, 1, 2, 3, 4, 5, 6, 7] := by
  have hA : ∃ t, input3A.full (signature sumHasher [] tetsA) = .ok t ∧ cellNumbers t = [5, 2, 10, 4, 0, 1, 2, 3, 4, 1, 2, 3, 4] := by
    have k : (input3A.full (signature sumHasher [] tetsA)).bind (fun t => .ok (cellNumbers t)) =
        .ok [5, 2, 10, 4, 0, 1, 2, 3, 4, 1, 2, 3, 4] := by decide +kernel
    cases h : input3A.full (signature sumHasher [] tetsA) <;> rw [h] at k <;> simp only [Res.bind, reduceCtorEq, Res.ok.injEq] at k
    exact ⟨_, rfl, k⟩
  obtain ⟨t, h1, h2⟩ := hA
  have hc : ∃ conn, exampleMesh3.connectionsAsc 3 0 = .ok conn := by
    have k : (exampleMesh3.connectionsAsc 3 0).isOk = true := by decide +kernel
    cases h : exampleMesh3.connectionsAsc 3 0 <;> rw [h] at k <;> simp only [Res.isOk, reduceCtorEq] at k
    exact ⟨_, rfl⟩
  obtain ⟨conn, hc⟩ := hc
  obtain ⟨total, h3⟩ := C29_exception_3d_violated sumHasher [] input3A input3B t conn (fun _ => false) h1 (by decide +kernel)
    (by decide +kernel) hc rfl [{ index := 0, bElem := 0 }] { index := 1, bElem := 5 } [] (by decide +kernel) (by decide +kernel)
    { w := { cellVert := [[0, 1, 2, 3, 4, 5, 6, 7]], cellTypes := [301] } } (by decide +kernel) [12] (by decide +kernel)
  exact ⟨t, _, h3, h2, total, rfl⟩

/-- The FPMA example, and the same with a second face whose second edge does not exist. -/
def fpmaB : Mesh (GTMesh.Point Int) :=
  { exampleFpma with mids := exampleFpma.mids.map fun fs => fs.take 1 ++ (fs.drop 1).map fun f => { f with sub := f.sub.take 1 ++ [1000] } }

/-- The numbers of an FPMA file without the coordinates. -/
def fpmaNumbers : List (GTMesh.Tok R) → List Nat
  | [] => []
  | .num n :: ts => n :: fpmaNumbers ts
  | .real _ :: ts => fpmaNumbers ts

/-- After the exception the file of `A` has the right first face, one vertex for the second face, and no more vertices. -/
example : ∃ t t3, session (machineF sumHasher []) { lastHash := 0 } [(exampleFpma, none), (fpmaB, none), (exampleFpma, none)] =
      [.returned t, .threw .outOfRange [], .returned t3] ∧
      (fpmaNumbers t).take 14 = [5, 7, 3, 1, 0, 2, 3, 1, 0, 3, 3, 2, 1, 3] ∧
      (fpmaNumbers t3).take 14 = [5, 7, 3, 1, 0, 2, 1, 1, 0, 0, 0, 0, 0, 2] := by
  have hA : ∃ t, Fpma.write exampleFpma = .ok t ∧ (fpmaNumbers t).take 14 = [5, 7, 3, 1, 0, 2, 3, 1, 0, 3, 3, 2, 1, 3] := by
    have k : (Fpma.write exampleFpma).bind (fun t => .ok ((fpmaNumbers t).take 14)) = .ok [5, 7, 3, 1, 0, 2, 3, 1, 0, 3, 3, 2, 1, 3] := by
      decide +kernel
    cases h : Fpma.write exampleFpma <;> rw [h] at k <;> simp only [Res.bind, reduceCtorEq, Res.ok.injEq] at k
    exact ⟨_, rfl, k⟩
  obtain ⟨t, hA, ht⟩ := hA
  obtain ⟨cells, h1, h2⟩ := C29_exception_fpma_violated sumHasher [] 0 exampleFpma fpmaB (by decide +kernel) t
    [{ index := 0, sub := [0, 1, 2], conn := { left := 0, nextL := 1 } }] { index := 1, sub := [0, 1000], conn := { left := 0, nextL := 2 } }
    ((fpmaB.midElems 2).drop 2) [[1, 0, 2]] 0 1000 [] { index := 0, a := 0, b := 1 } hA (by decide +kernel) (by decide +kernel)
    (by decide +kernel) (by decide +kernel) rfl (by decide +kernel) (by decide) (by decide +kernel) (by decide +kernel)
  refine ⟨t, _, h2, ht, ?_⟩
  have e1 : exampleFpma.connectionsOrig 3 2 = .ok [[0, 1, 2, 3], [2, 4, 5, 6]] := by decide +kernel
  rw [e1] at h1
  cases h1
  decide +kernel

end GTMesh.Props
