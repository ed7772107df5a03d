import Verif.Proofs.FailedLoad
import Verif.Proofs.FullFace
import Verif.Props.VtkAny
import Verif.Props.VtkRefuse
import Verif.Props.FpmaRefuse

/-! # C83: the mesh after a load that failed -/

namespace GTMesh.Vtk
open Spec GTMesh.Props
variable {R V : Type}

/-! ## Files of another kind -/

theorem loadFromStreamRun_header (conv : Nat → Option Nat) (loadV : List (VTok R) → Mesh V → Res (Mesh V × List (VTok R)))
    (loadC : List (VTok R) → Mesh V → Run (Mesh V) (Mesh V × List (VTok R)))
    (types : List Nat) (m : Mesh V) (l1 l2 ts : List (VTok R)) (h1 : IsLine l1) (h2 : IsLine l2) (h : (tokensOnly ts).take 3 ≠ keywords) :
    loadFromStreamRun conv loadV loadC (l1 ++ .nl :: (l2 ++ .nl :: ts)) types m = .throw .runtimeError m := by
  unfold loadFromStreamRun
  simp only [ignoreLine_line h1, ignoreLine_line h2]
  by_cases a1 : (readWord "" ts).1 = "ASCII"
  · rw [if_neg (by simpa using a1)]
    obtain ⟨us, b1, b2⟩ := (readWord_is (by decide) (by decide)).mp a1
    rw [a1]
    by_cases a2 : (readWord "ASCII" (readWord "" ts).2).1 = "DATASET"
    · rw [if_neg (by simpa using a2)]
      obtain ⟨us', c1, c2⟩ := (readWord_is (by decide) (by decide)).mp a2
      rw [b2] at c1
      rw [a2]
      by_cases a3 : (readWord "DATASET" (readWord "ASCII" (readWord "" ts).2).2).1 = "UNSTRUCTURED_GRID"
      · obtain ⟨us'', d1, d2⟩ := (readWord_is (by decide) (by decide)).mp a3
        rw [c2] at d1
        exfalso; apply h; rw [b1, c1, d1]; rfl
      · rw [if_pos (by simpa using a3)]
    · rw [if_pos (by simpa using a2)]
  · rw [if_pos (by simpa using a1)]

/-- C83, files of another kind: a text without the keywords of a VTK file is refused before the mesh is touched, by both readers. -/
theorem C83_keywords_partial [Zero R] (l1 l2 ts : List (VTok R)) (h1 : IsLine l1) (h2 : IsLine l2)
    (h : (tokensOnly ts).take 3 ≠ keywords) (res : Nat) (types : List Nat) (m : Mesh (Point2 R)) (m' : Mesh (Point3 R)) :
    load2Run (l1 ++ .nl :: (l2 ++ .nl :: ts)) types m = .throw .runtimeError m ∧
    load3Run res (l1 ++ .nl :: (l2 ++ .nl :: ts)) types m' = .throw .runtimeError m' :=
  ⟨loadFromStreamRun_header _ _ _ types m l1 l2 ts h1 h2 h, loadFromStreamRun_header _ _ _ types m' l1 l2 ts h1 h2 h⟩

/-! ## The next load -/

/-- C83, the next load in 2D: whatever a load that failed has left in the mesh, the next file gives what it would have given without it. -/
theorem C83_reload2_partial [Zero R] (ts : List (VTok R)) (types : List Nat) (m s : Mesh (Point2 R)) (e : Exc) (hd : m.dim = 2) (hm : m.mids = [])
    (h : load2Run ts types m = .throw e s) (ts' : List (VTok R)) (types' : List Nat) : load2 ts' types' s = load2 ts' types' m := by
  have hs : Same m s := by
    have hC : ∀ (ts : List (VTok R)) (n : Mesh (Point2 R)), Same m n →
        (∀ r, Run.lift n (loadCells2 ts n) = .ok r → Same m r.1) ∧ ∀ e s, Run.lift n (loadCells2 ts n) = .throw e s → Same m s := by
      refine fun ts n hn => ⟨fun r hr => ?_, fun e s hs => absurd (Run.lift_throw.mp hs).1 (loadCells2_nothrow _ _ _)⟩
      have hr := Run.lift_ok.mp hr
      unfold loadCells2 at hr
      cases g1 : readNum ts <;> rw [g1] at hr <;> simp only [Res.bind, reduceCtorEq] at hr
      rename_i p
      cases g2 : loadCellList2 (resize n.cells p.1 {}) 0 [] n.edges (ignoreLine p.2) <;> rw [g2] at hr <;> simp only [reduceCtorEq] at hr
      cases hr
      exact hn
    rcases loadFromStreamRun_left _ _ _ (Same m) hC ts types m (Same.clear m) (fun vs => Same.clear m) h with ⟨-, rfl⟩ | h
    · exact ⟨rfl, rfl, rfl⟩
    · exact h
  have hsm : s.mids = [] := List.length_eq_zero_iff.mp (by rw [hs.2.1, hm]; rfl)
  rw [C19_vtk2_partial ts' types' s (hs.1.trans hd) hsm, C19_vtk2_partial ts' types' m hd hm, hs.2.2]

/-- C83, the next load in 3D: whatever a load that failed has left in the mesh, the next file gives what it would have given without it. -/
theorem C83_reload3_partial [Zero R] (res : Nat) (ts : List (VTok R)) (types : List Nat) (m s : Mesh (Point3 R)) (e : Exc) (hd : m.dim = 3)
    (hm : m.mids.length = 1) (h : load3Run res ts types m = .throw e s) (res' : Nat) (ts' : List (VTok R)) (types' : List Nat) :
    load3 res' ts' types' s = load3 res' ts' types' m := by
  have hs : Same m s := by
    have hP : ∀ n : Mesh (Point3 R), Same m n → n.mids.length = 1 := fun n hn => hn.2.1.trans hm
    have tr : ∀ n k : Mesh (Point3 R), Same m n → Same n k → Same m k := fun n k a b =>
      ⟨b.1.trans a.1, b.2.1.trans a.2.1, b.2.2.trans a.2.2⟩
    rcases loadFromStreamRun_left _ _ _ (Same m) (fun ts n hn => ⟨fun r hr => tr _ _ hn ((loadCells3Run_same (hP n hn)).1 r hr),
      fun e s hs => tr _ _ hn ((loadCells3Run_same (hP n hn)).2 e s hs)⟩)
      ts types m (Same.clear m) (fun vs => Same.clear m) h with ⟨-, rfl⟩ | h
    · exact ⟨rfl, rfl, rfl⟩
    · exact h
  rw [C19_vtk3_partial res' ts' types' s (hs.1.trans hd) (hs.2.1.trans hm), C19_vtk3_partial res' ts' types' m hd hm, hs.2.2]

/-! ## 2D -/

/-- C83, 2D: when the load of a complete file fails, the mesh is the one of the file, as a file without the types that do not fit gives it. -/
theorem C83_vtk2_partial [Zero R] (F : File R) (rest : List (VTok R)) (types : List Nat) (m s : Mesh (Point2 R)) (e : Exc)
    (h : load2Run (F.tokens ++ rest) types m = .throw e s) :
    e = .outOfRange ∧ ∃ t, load2 ({ F with codes := [] }.tokens ++ rest) types m = .ok (s, t) := by
  obtain ⟨cs, es, h3, g⟩ := loadCellList2_tail F.cells (resize [] F.cells.length {}) 0 [] [] (DictIn.nil _) (by rw [resize_length])
  obtain ⟨r, h1, h2⟩ := g (F.cells.flatMap lineTokens ++ .nl :: typesTail F rest) (.nl :: typesTail F rest) rfl
  obtain ⟨r', k1, k2⟩ := g (F.cells.flatMap lineTokens ++ .nl :: typesTail { F with codes := [] } rest) (.nl :: typesTail { F with codes := [] } rest) rfl
  have a := (loadFromStreamRun_file fromVtk2 (fun p : R × R × R => (p.1, p.2.1)) (fun ts m => Run.lift m (loadCells2 ts m)) F rest types m).2
    { m.clear with vertices := F.verts.map fun p => (p.1, p.2.1), cells := cs, edges := es } r (by
      unfold loadCells2
      simp only [readNum_num, Res.bind, ignoreLine, Mesh.clear]
      rw [h1]
      rfl) h2
  unfold load2Run at h
  rw [a] at h
  obtain ⟨h, rfl⟩ := Run.lift_throw.mp h
  have b := (loadFromStream_any fromVtk2 (fun p : R × R × R => (p.1, p.2.1)) loadCells2 { F with codes := [] } rest types m).2
    { m.clear with vertices := F.verts.map fun p => (p.1, p.2.1), cells := cs, edges := es } r' (by
      unfold loadCells2
      simp only [readNum_num, Res.bind, ignoreLine, Mesh.clear]
      rw [k1]) k2
  have st := (storeTypes_any fromVtk2 F.codes 0 (resize types cs.length 0))
  refine ⟨?_, _, b⟩
  by_cases hs : ∃ t, storeTypes fromVtk2 0 F.codes (resize types cs.length 0) = .ok t
  · obtain ⟨t, ht⟩ := hs
    simp only at h
    rw [ht] at h
    cases h
  · have : storeTypes fromVtk2 0 F.codes (resize types cs.length 0) = .throw .outOfRange := by
      apply st.2
      by_contra hn
      push Not at hn
      exact hs (st.1 fun i c hc hl => by
        by_contra hne
        exact hne (hn i c hc hl))
    simp only at h
    rw [this] at h
    cases h
    rfl

/-! ## 3D -/

/-- C83, 3D, types: when the load of a complete file with known cells fails, the mesh is the one of the file, as a file without the types that do not fit
gives it. -/
theorem C83_vtk3_types_partial [Zero R] (F : File R) (hF : ∀ vs ∈ F.cells, vs.length = 4 ∨ vs.length = 5 ∨ vs.length = 6 ∨ vs.length = 8)
    (res : Nat) (hres : res = 0 ∨ 4 ≤ res) (rest : List (VTok R)) (types : List Nat) (m s : Mesh (Point3 R)) (e : Exc)
    (h : load3Run res (F.tokens ++ rest) types m = .throw e s) :
    e = .outOfRange ∧ ∃ t, load3 res ({ F with codes := [] }.tokens ++ rest) types m = .ok (s, t) := by
  obtain ⟨cs, es, fs, h3, g⟩ := loadCellList3_tail res hres F.cells (resize [] F.cells.length {}) 0 [] [] [] [] (DictIn.nil _) (DictIn.nil _)
    (by rw [resize_length]) hF
  obtain ⟨r, h1, h2⟩ := g (F.cells.flatMap lineTokens ++ .nl :: typesTail F rest) (.nl :: typesTail F rest) rfl
  obtain ⟨r', k1, k2⟩ := g (F.cells.flatMap lineTokens ++ .nl :: typesTail { F with codes := [] } rest) (.nl :: typesTail { F with codes := [] } rest) rfl
  have hm : ∀ vs : List (Point3 R), (Mesh.midElems { m.clear with vertices := vs } 2) = [] := by
    intro vs
    simp only [Mesh.midElems, Mesh.clear, List.getElem?_map]
    cases h : m.mids[2 - 2]? <;> rfl
  have a := (loadFromStreamRun_file fromVtk3 (id : R × R × R → R × R × R) (loadCells3Run res) F rest types m).2
    { m.clear with vertices := F.verts.map id, cells := cs, edges := es, mids := [fs] } r (by
      apply Run.eq_of_res_ok
      simp only [loadCells3Run, Run.res_bind, Run.res_lift, Run.res_within, loadCellList3Run_res, Run.res_ok]
      simp only [readNum_num, Res.bind, ignoreLine]
      rw [hm]
      simp only [Mesh.clear]
      rw [h1]) h2
  unfold load3Run at h
  rw [a] at h
  obtain ⟨h, rfl⟩ := Run.lift_throw.mp h
  have b := (loadFromStream_any fromVtk3 (id : R × R × R → R × R × R) (loadCells3 res) { F with codes := [] } rest types m).2
    { m.clear with vertices := F.verts.map id, cells := cs, edges := es, mids := [fs] } r' (by
      unfold loadCells3
      simp only [readNum_num, Res.bind, ignoreLine]
      rw [hm]
      simp only [Mesh.clear]
      rw [k1]) k2
  have st := (storeTypes_any fromVtk3 F.codes 0 (resize types cs.length 0))
  refine ⟨?_, _, b⟩
  by_cases hs : ∃ t, storeTypes fromVtk3 0 F.codes (resize types cs.length 0) = .ok t
  · obtain ⟨t, ht⟩ := hs
    simp only at h
    rw [ht] at h
    cases h
  · have : storeTypes fromVtk3 0 F.codes (resize types cs.length 0) = .throw .outOfRange := by
      apply st.2
      by_contra hn
      push Not at hn
      exact hs (st.1 fun i c hc hl => by
        by_contra hne
        exact hne (hn i c hc hl))
    simp only at h
    rw [this] at h
    cases h
    rfl

/-- C83, false of the code: a failed load does not keep the mesh. A complete 3D file with a cell of a number of vertices that is not known is refused, and the mesh
then has the vertices of the file and as many cells, of which the cell that is not known and all behind it have no boundary element. -/
theorem C83_unfinished_violated [Zero R] (F : File R) (n : Nat) (vs : List Idx) (hn : F.cells[n]? = some vs)
    (hvs : ¬ (vs.length = 4 ∨ vs.length = 5 ∨ vs.length = 6 ∨ vs.length = 8)) (types : List Nat) (m : Mesh (Point3 R)) :
    ∃ s, load3Run 0 F.tokens types m = .throw .outOfRange s ∧ s.vertices = F.verts ∧ s.cells.length = F.cells.length ∧
      ∀ (c : Nat), n ≤ c → c < F.cells.length → ∃ cl, s.cells[c]? = some cl ∧ cl.bElem = INVALID := by
  obtain ⟨u, u1, u2, u3⟩ := loadCellList3Run_unknown 0 (.inl rfl) F.cells (resize [] F.cells.length {}) 0 [] [] [] []
    (F.cells.flatMap lineTokens ++ .nl :: typesTail F []) (.nl :: typesTail F []) (DictIn.nil _) (DictIn.nil _) (by rw [resize_length]) rfl
    (fun c hc => by simp [resize] at hc; rw [hc.2]) n vs hn hvs
  have hm : (Mesh.midElems { m.clear with vertices := F.verts.map id } 2) = [] := by
    simp only [Mesh.midElems, Mesh.clear, List.getElem?_map]
    cases h : m.mids[2 - 2]? <;> rfl
  have a := (loadFromStreamRun_file fromVtk3 (id : R × R × R → R × R × R) (loadCells3Run 0) F [] types m).1 .outOfRange
    { m.clear with vertices := F.verts.map id, cells := u.1, edges := u.2.1, mids := [u.2.2] } (by
      unfold loadCells3Run
      simp only [readNum_num, Run.lift, Run.bind, ignoreLine]
      rw [hm]
      simp only [Mesh.clear]
      rw [u1]
      rfl)
  rw [List.append_nil] at a
  refine ⟨_, a, by simp, u2, fun c hc hl => ?_⟩
  have hl' : c < u.1.length := by rw [u2]; exact hl
  exact ⟨u.1[c], by simp [hl'], u3 c _ hc (by simp [hl'])⟩

/-- C83, false of the code: a mesh whose faces have no room for those of the first cell of the file (`reserve` of the faces 1 or 2, or 3 when the first cell
is a hexahedron or a pyramid) is left with the vertices and as many cells as the file has, all without a boundary element, and with one face that has a part of
its edges and no number. -/
theorem C83_full_vtk3_violated [Zero R] (F : File R) (res : Nat) (h0 : 0 < res) (vs : List Idx) (hc : F.cells[0]? = some vs)
    (hl : res < 3 ∨ (res = 3 ∧ (vs.length = 5 ∨ vs.length = 8)))
    (hvs : vs.length = 4 ∨ vs.length = 5 ∨ vs.length = 6 ∨ vs.length = 8) (types : List Nat) (m : Mesh (Point3 R)) :
    ∃ s f, load3Run res F.tokens types m = .throw .runtimeError s ∧ s.vertices = F.verts ∧ s.mids = [[f]] ∧ f.index = INVALID ∧ f.sub.length = res ∧
      s.cells.length = F.cells.length ∧ (∀ c ∈ s.cells, c.bElem = INVALID) ∧ ∃ c, s.cells[0]? = some c ∧ c.index = 0 :=
  load3Run_full F res h0 vs hc hl hvs types m

/-! ## the hypotheses are met -/

example (m : Mesh (Point3 Int)) : ∃ s f, load3Run 3 exampleFile3.tokens [] m = .throw .runtimeError s ∧ s.mids = [[f]] ∧ f.sub.length = 3 ∧
    s.cells.length = 2 := by
  obtain ⟨s, f, h1, -, h2, -, h3, h4, -⟩ := C83_full_vtk3_violated exampleFile3 3 (by decide) [0, 1, 2, 3, 4, 5, 6, 7] rfl
    (.inr ⟨rfl, .inr rfl⟩) (by decide) [] m
  exact ⟨s, f, h1, h2, h3, h4⟩

/-- a fourth type for three cells -/
def fourTypes : File Int := { exampleFile with codes := [9, 5, 5, 7] }

theorem fourTypes_refused : ∃ s, load2Run fourTypes.tokens [] { dim := 2 } = .throw .outOfRange s := by
  apply Run.eq_of_res_throw
  rw [load2Run_res]
  have h := C82_accepted2_partial fourTypes [] [] { dim := 2 }
  rw [List.append_nil] at h
  refine h.2 fun r hr => ?_
  have := (h.1.mp ⟨r, hr⟩) 3 7 rfl (by decide)
  revert this
  decide

example : ∃ s t, load2Run fourTypes.tokens [] { dim := 2 } = .throw .outOfRange s ∧ load2 ({ exampleFile with codes := [] } : File Int).tokens [] { dim := 2 } = .ok (s, t) := by
  obtain ⟨s, h⟩ := fourTypes_refused
  have := C83_vtk2_partial fourTypes [] [] { dim := 2 } s _ (by rw [List.append_nil]; exact h)
  rw [List.append_nil] at this
  obtain ⟨-, t, ht⟩ := this
  exact ⟨s, t, h, ht⟩

example : ∃ s, load2Run fourTypes.tokens [] { dim := 2 } = .throw .outOfRange s ∧
    ∀ t, load2 exampleFile.tokens t s = load2 exampleFile.tokens t { dim := 2 } := by
  obtain ⟨s, h⟩ := fourTypes_refused
  exact ⟨s, h, fun t => C83_reload2_partial _ _ _ _ _ rfl rfl h _ _⟩

/-- a hexahedron and a cell with seven vertices -/
def sevenFile : File Int := { exampleFile3 with cells := [[0, 1, 2, 3, 4, 5, 6, 7], [0, 1, 2, 3, 4, 5, 6], [6, 5, 4, 7, 8]], codes := [12, 14, 14] }

example (m : Mesh (Point3 Int)) : ∃ s, load3Run 0 sevenFile.tokens [] m = .throw .outOfRange s ∧ s.vertices = sevenFile.verts ∧ s.cells.length = 3 ∧
    ∃ cl, s.cells[2]? = some cl ∧ cl.bElem = INVALID := by
  obtain ⟨s, h1, h2, h3, h4⟩ := C83_unfinished_violated sevenFile 1 [0, 1, 2, 3, 4, 5, 6] rfl (by decide) [] m
  exact ⟨s, h1, h2, h3, h4 2 (by decide) (by decide)⟩

example (m : Mesh (Point3 Int)) (hd : m.dim = 3) (hm : m.mids.length = 1) : ∃ s, load3Run 0 sevenFile.tokens [] m = .throw .outOfRange s ∧
    load3 0 exampleFile3.tokens [] s = load3 0 exampleFile3.tokens [] m := by
  obtain ⟨s, h1, -⟩ := C83_unfinished_violated sevenFile 1 [0, 1, 2, 3, 4, 5, 6] rfl (by decide) [] m
  exact ⟨s, h1, C83_reload3_partial 0 _ _ _ _ _ hd hm h1 0 _ _⟩

/-- a type without a cell in 3D -/
def threeTypes3 : File Int := { exampleFile3 with codes := [12, 14, 10] }

example : ∃ s t, load3Run 0 threeTypes3.tokens [] { dim := 3, mids := [[]] } = .throw .outOfRange s ∧
    load3 0 ({ exampleFile3 with codes := [] } : File Int).tokens [] { dim := 3, mids := [[]] } = .ok (s, t) := by
  obtain ⟨s, h⟩ : ∃ s, load3Run 0 threeTypes3.tokens [] { dim := 3, mids := [[]] } = .throw .outOfRange s := by
    apply Run.eq_of_res_throw
    rw [load3Run_res]
    have h := C82_accepted3_partial threeTypes3 [] [] { dim := 3, mids := [[]] } 0 (.inl rfl)
    rw [List.append_nil] at h
    refine h.2 fun r hr => ?_
    have := (h.1.mp ⟨r, hr⟩).2 2 10 rfl (by decide)
    revert this
    decide
  have := C83_vtk3_types_partial threeTypes3 (by decide) 0 (.inl rfl) [] [] { dim := 3, mids := [[]] } s _ (by rw [List.append_nil]; exact h)
  rw [List.append_nil] at this
  obtain ⟨-, t, ht⟩ := this
  exact ⟨s, t, h, ht⟩

example (m : Mesh (Point3 Int)) : load3Run 0 [.word "x", .nl, .word "title", .nl, .word "BINARY"] [] m = .throw .runtimeError m :=
  (C83_keywords_partial [.word "x"] [.word "title"] [.word "BINARY"] (by simp [IsLine]) (by simp [IsLine]) (by decide) 0 [] { dim := 2 } m).2

end GTMesh.Vtk

/-! ## FPMA files -/

namespace GTMesh.Fpma
open Spec GTMesh.Props
variable {R : Type}

/-- C83, false of the code: a complete FPMA file that is refused because a cell lists a face that does not exist leaves its edges in the mesh, all edges of all its
faces. They are still there after any later load, in addition to the edges of that file. -/
theorem C83_fpma_violated (F : File R) (hbad : ∃ l ∈ F.cells, ∃ f ∈ l, F.faces.length ≤ f ∧ f ≠ INVALID) :
    ∃ s, loadRun 0 F.tokens { dim := 3 } = .throw .outOfRange s ∧
      (∀ (i : Nat) vs, F.faces[i]? = some vs → ∃ sub, EdgesOf s.edges sub vs) ∧
      ∀ ts m' m0', load 0 ts s = .ok m' → load 0 ts { dim := 3 } = .ok m0' →
        s.edges <+: m'.edges ∧ m'.edges.length = m0'.edges.length + s.edges.length := by
  obtain ⟨d, es, fs, f1, -, -, f4, f5⟩ := loadFaceList_spec (R := R) 0 (allPairs F.faces) F.faces
    (List.replicate F.faces.length {}) 0 [] []
    (.num F.cells.length :: F.cells.flatMap listTokens)
    (TableInv.empty _) (fun p hp => hp) (fun _ _ => .inl rfl) rfl
  obtain ⟨s, hs⟩ : ∃ s, loadRun 0 F.tokens { dim := 3 } = .throw .outOfRange s := by
    apply Run.eq_of_res_throw
    rw [loadRun_res]
    have := (C81_accepted_partial F 0 []).2 fun _ _ => .inl rfl
    rw [List.append_nil] at this
    refine this.2 fun m' hm' => ?_
    obtain ⟨l, hl, f, hf, h1, h2⟩ := hbad
    obtain ⟨i, hi⟩ := List.getElem?_of_mem hf
    rcases this.1.mp ⟨m', hm'⟩ l hl i f hi with h | h
    · omega
    · exact h2 h.1
  have he : s.edges = es := by
    have hv : loadVertices F.tokens ({ dim := 3 } : Mesh (Point R)) =
        .ok ({ dim := 3, vertices := F.verts }, .num F.faces.length :: (F.faces.flatMap listTokens ++ .num F.cells.length :: F.cells.flatMap listTokens)) := by
      unfold loadVertices File.tokens
      simp only [List.cons_append, readNum, Res.bind, List.append_assoc]
      rw [readPoints_flatMap]
    have hf : loadFacesRun 0 (.num F.faces.length :: (F.faces.flatMap listTokens ++ .num F.cells.length :: F.cells.flatMap listTokens))
        ({ dim := 3, vertices := F.verts } : Mesh (Point R)) =
        .ok ({ dim := 3, vertices := F.verts, edges := es, mids := [fs] }, .num F.cells.length :: F.cells.flatMap listTokens) := by
      apply Run.eq_of_res_ok
      simp only [loadFacesRun, Run.res_bind, Run.res_lift, Run.res_within, loadFaceListRun_res, Run.res_ok]
      simp only [readNum, Res.bind, Mesh.midElems, List.getElem?_nil, Option.getD_none, resize, List.take_nil, List.nil_append, List.length_nil,
        Nat.sub_zero]
      rw [f1]
    unfold loadRun at hs
    rw [hv] at hs
    simp only [Run.lift, Run.bind] at hs
    rw [hf] at hs
    simp only at hs
    rcases Run.bind_throw.mp hs with h | ⟨_, _, h⟩
    · unfold loadCellsRun at h
      rcases Run.bind_throw.mp h with h | ⟨p, -, h⟩
      · rw [← (Run.lift_throw.mp h).2]
      · rcases Run.bind_throw.mp h with h | ⟨_, _, h⟩
        · obtain ⟨u, -, rfl⟩ := Run.within_throw.mp h
          rfl
        · cases h
    · cases h
  refine ⟨s, hs, fun i vs hi => ?_, fun ts m' m0' h1 h2 => ⟨C19_fpma_keeps_edges 0 ts s m' h1, ?_⟩⟩
  · obtain ⟨f, -, -, -, g⟩ := f5 i vs hi
    exact ⟨f.sub, by rw [he]; exact g⟩
  · have := load_count ts s { dim := 3 } m' m0' h1 h2
    simpa using this

/-- C83, false of the code: a complete FPMA file that is refused because a polygon has more vertices than the faces of the mesh have room for leaves what was
read up to there: the vertices; the faces before, with all their edges; this one, with as many edges as it has room for; and all behind it, which are empty. The
edge that did not fit is in the mesh, too. -/
theorem C83_full_fpma_violated (F : File R) (res : Nat) (h0 : 0 < res) (n : Nat) (vs : List Idx) (hn : F.faces[n]? = some vs) (hl : res < vs.length)
    (hfirst : ∀ i < n, ∀ ws, F.faces[i]? = some ws → ws.length ≤ res) :
    ∃ s fs, loadRun res F.tokens { dim := 3 } = .throw .runtimeError s ∧ s.vertices = F.verts ∧ s.cells = [] ∧ s.mids = [fs] ∧
      fs.length = F.faces.length ∧
      (∀ i < n, ∀ ws, F.faces[i]? = some ws → ∃ f, fs[i]? = some f ∧ f.index = i ∧ EdgesOf s.edges f.sub ws) ∧
      (∃ f, fs[n]? = some f ∧ f.index = n ∧ f.sub.length = res ∧ ∀ j ≤ res, ∃ e u v, cyc vs j = some u ∧ cyc vs (j + 1) = some v ∧
        Joins s.edges e u v ∧ (j < res → f.sub[j]? = some e)) ∧
      ∀ i, n < i → i < F.faces.length → fs[i]? = some {} :=
  loadRun_full F res h0 n vs hn hl hfirst

/-- C83, false of the code: after a polygon did not fit, the mesh refuses every later file in which the face with the same number has a vertex at all, whatever
the polygons of that file are: the edges of the polygon that did not fit are still in the face, and it is full. -/
theorem C83_full_stays_violated (F : File R) (res : Nat) (h0 : 0 < res) (n : Nat) (vs : List Idx) (hn : F.faces[n]? = some vs) (hl : res < vs.length)
    (hfirst : ∀ i < n, ∀ ws, F.faces[i]? = some ws → ws.length ≤ res) :
    ∃ s, loadRun res F.tokens { dim := 3 } = .throw .runtimeError s ∧
      ∀ (F' : File R) vs', F'.faces[n]? = some vs' → vs' ≠ [] → ∀ rest, load res (F'.tokens ++ rest) s = .throw .runtimeError := by
  obtain ⟨s, fs, h1, -, -, h2, -, -, ⟨f, f1, -, f2, -⟩, -⟩ := loadRun_full F res h0 n vs hn hl hfirst
  exact ⟨s, h1, fun F' vs' h hne rest => load_fullFace F' res h0 rest s fs h2 n f f1 (by omega) vs' h
    (by have := List.length_pos_iff.mpr hne; omega)⟩

/-- the first face is a quadrilateral -/
def quadFirst : File Int := { exampleFile with faces := [[0, 1, 4, 2], [0, 1, 3], [1, 2, 3], [3, 2, 0], [1, 2, 4], [4, 2, 3], [1, 3, 4]] }

/-- A file of triangles is loaded into a mesh with room for triangles, but not behind one with a quadrilateral. -/
example : (∃ m', load 3 (exampleFile.tokens ++ []) { dim := 3 } = .ok m') ∧
    ∃ s, loadRun 3 quadFirst.tokens { dim := 3 } = .throw .runtimeError s ∧ load 3 (exampleFile.tokens ++ []) s = .throw .runtimeError := by
  constructor
  · refine ((C81_accepted_partial exampleFile 3 []).2 (by decide)).1.mpr fun l hl i f hi => .inl ?_
    have : ∀ l ∈ exampleFile.cells, ∀ f ∈ l, f < exampleFile.faces.length := by decide
    exact this l hl f (List.mem_of_getElem? hi)
  · obtain ⟨s, h1, h2⟩ := C83_full_stays_violated quadFirst 3 (by decide) 0 [0, 1, 4, 2] rfl (by decide) (fun i hi => absurd hi (Nat.not_lt_zero _))
    exact ⟨s, h1, h2 exampleFile [0, 1, 2] rfl (by decide) []⟩

/-- C19, false of the code: a mesh with a static reserve for the faces that holds the mesh of one file refuses another one, or the same one, if for some number the
polygons of the two files do not fit in one face together. Each of the files can be loaded into a fresh mesh. -/
theorem C19_fpma_reserve_violated (F F' : File R) (hF : F.WellFormed) (hF' : F'.WellFormed) (res : Nat) (hres : ∀ vs ∈ F.faces, vs.length ≤ res)
    (hres' : ∀ vs ∈ F'.faces, vs.length ≤ res) (n : Nat) (vs vs' : List Idx) (hn : F.faces[n]? = some vs) (hn' : F'.faces[n]? = some vs')
    (h : res < vs.length + vs'.length) :
    ∃ m m0', load res (F.tokens ++ []) { dim := 3 } = .ok m ∧ load res (F'.tokens ++ []) { dim := 3 } = .ok m0' ∧
      ∀ rest, load res (F'.tokens ++ rest) m = .throw .runtimeError := by
  obtain ⟨m0', k1, -⟩ := C18_load F' hF' res (fun v hv => .inr (hres' v hv)) []
  have h0 : 0 < res := by
    have := hres vs (List.mem_of_getElem? hn)
    have := hres' vs' (List.mem_of_getElem? hn')
    omega
  obtain ⟨m, h1, -, -, -, -, -, h2, h3, -⟩ := C18_load F hF res (fun v hv => .inr (hres v hv)) []
  obtain ⟨f, f1, -, f2, -⟩ := h3 n vs hn
  obtain ⟨fs, hm⟩ : ∃ fs, m.mids = [fs] := by
    unfold load at h1
    cases g1 : loadVertices (F.tokens ++ []) ({ dim := 3 } : Mesh (Point R)) <;> rw [g1] at h1 <;> simp only [Res.bind, reduceCtorEq] at h1
    rename_i p
    cases g2 : loadFaces res p.2 p.1 <;> rw [g2] at h1 <;> simp only [reduceCtorEq] at h1
    rename_i q
    unfold loadCells at h1
    cases g3 : readNum q.2 <;> rw [g3] at h1 <;> simp only [Res.bind, reduceCtorEq] at h1
    rename_i r
    cases g4 : loadCellList (resize q.1.cells r.1 {}) 0 (q.1.midElems 2) r.2 <;> rw [g4] at h1 <;> simp only [reduceCtorEq] at h1
    cases h1
    exact ⟨_, rfl⟩
  have hle := hres vs (List.mem_of_getElem? hn)
  refine ⟨m, m0', h1, k1, fun rest => load_fullFace F' res h0 rest m fs hm n f (by simpa [Mesh.midElems, hm] using f1) (by omega) vs' hn' (by omega)⟩

/-- The same file of triangles again, with room for five edges. -/
example : ∃ m, load 5 (exampleFile.tokens ++ []) { dim := 3 } = .ok m ∧ load 5 (exampleFile.tokens ++ []) m = .throw .runtimeError := by
  obtain ⟨m, -, h1, -, h2⟩ := C19_fpma_reserve_violated exampleFile exampleFile exampleFile_wellFormed exampleFile_wellFormed 5 (by decide) (by decide) 0
    [0, 1, 2] [0, 1, 2] rfl rfl (by decide)
  exact ⟨m, h1, h2 []⟩

example : ∃ s fs, loadRun 2 exampleFile.tokens { dim := 3 } = .throw .runtimeError s ∧ s.mids = [fs] ∧ fs.length = 7 ∧
    (∃ e, Joins s.edges e 2 0) ∧ fs[1]? = some ({} : Face) := by
  obtain ⟨s, fs, h1, -, -, h2, h3, -, ⟨f, -, -, -, h4⟩, h5⟩ :=
    C83_full_fpma_violated exampleFile 2 (by decide) 0 [0, 1, 2] rfl (by decide) (fun i hi => absurd hi (Nat.not_lt_zero _))
  obtain ⟨e, u, v, a, b, c, -⟩ := h4 2 (Nat.le_refl _)
  cases a
  cases b
  exact ⟨s, fs, h1, h2, h3, ⟨e, c⟩, h5 1 (by decide) (by decide)⟩

/-- the cell lists a face 9 of 7 -/
def farFace : File Int := { exampleFile with cells := [[0, 1, 2, 3], [2, 4, 5, 9]] }

example : ∃ s, loadRun 0 farFace.tokens { dim := 3 } = .throw .outOfRange s ∧ s.edges ≠ [] ∧
    ∀ m' m0', load 0 exampleFile.tokens s = .ok m' → load 0 exampleFile.tokens { dim := 3 } = .ok m0' → m'.edges.length ≠ m0'.edges.length := by
  obtain ⟨s, h1, h2, h3⟩ := C83_fpma_violated farFace ⟨[2, 4, 5, 9], by decide, 9, by decide, by decide, by decide⟩
  have hne : s.edges ≠ [] := by
    obtain ⟨sub, g⟩ := h2 0 [0, 1, 2] rfl
    obtain ⟨e, a, b, -, -, -, ed, e4, -⟩ := g.2 0 (by decide)
    intro h
    rw [h] at e4
    simp at e4
  refine ⟨s, h1, hne, fun m' m0' a b => ?_⟩
  have := (h3 _ m' m0' a b).2
  have := List.length_pos_iff.mpr hne
  omega

end GTMesh.Fpma
