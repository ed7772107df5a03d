import Verif.Model.Uninit
import Verif.Props.FailedLoad
import Verif.Props.FpmaRefuse
import Verif.Props.VtkAny

/-! # C86: the boundary elements of the cells of a loaded mesh -/

namespace GTMesh
open GTMesh.Spec GTMesh.Props

/-- The cells with the boundary elements that were read, `none` where nothing was read. -/
def fillCells : Nat → List Cell → List (Option Idx) → List Cell
  | k, c :: cs, o :: os => { index := k, bElem := o.getD c.bElem } :: fillCells (k + 1) cs os
  | _, _, _ => []

theorem fillCells_all : ∀ (k : Nat) (cs cs' : List Cell) (os : List (Option Idx)), cs.length = os.length → cs'.length = os.length →
    (∀ o ∈ os, o.isSome) → fillCells k cs os = fillCells k cs' os
  | _, [], [], [], _, _, _ => rfl
  | k, c :: cs, c' :: cs', o :: os, h1, h2, h => by
    obtain ⟨x, rfl⟩ := Option.isSome_iff_exists.mp (h o (by simp))
    rw [fillCells, fillCells, fillCells_all (k + 1) cs cs' os (by simpa using h1) (by simpa using h2) fun o ho => h o (by simp [ho])]
    rfl
  | _, [], _ :: _, [], _, h, _ => by simp at h
  | _, _ :: _, _, [], h, _, _ => by simp at h
  | _, [], _, _ :: _, h, _, _ => by simp at h
  | _, _ :: _, [], _ :: _, _, h, _ => by simp at h

theorem fillCells_get : ∀ (k : Nat) (cs : List Cell) (os : List (Option Idx)) (j : Nat) c, cs[j]? = some c → os[j]? = some none →
    (fillCells k cs os)[j]? = some { index := k + j, bElem := c.bElem }
  | _, [], _, _, _, h, _ => by simp at h
  | _, _ :: _, [], _, _, _, h => by simp at h
  | k, c :: cs, o :: os, 0, c', h, h' => by
    simp at h h'
    subst h h'
    rfl
  | k, c :: cs, o :: os, j + 1, c', h, h' => by
    simp only [List.getElem?_cons_succ] at h h'
    rw [fillCells, List.getElem?_cons_succ, fillCells_get (k + 1) cs os j c' h h']
    simp only [Option.some.injEq, Cell.mk.injEq, and_true]
    omega

theorem freshCells_length (junk : Nat → Idx) (cs : List Cell) (n : Nat) : (freshCells junk cs n).length = n := by
  simp [freshCells]; omega

theorem freshCells_get (junk : Nat → Idx) (n j : Nat) (h : j < n) : (freshCells junk [] n)[j]? = some { bElem := junk j } := by
  simp [freshCells, h]

theorem freshCells_default (cs : List Cell) (n : Nat) : freshCells (fun _ => INVALID) cs n = resize cs n {} := by
  unfold freshCells resize
  congr 1
  apply List.ext_getElem?
  intro i
  by_cases h : i < n - cs.length <;> simp [h]

theorem exists_cons {α : Type} {l : List α} {n : Nat} (h : l.length = n + 1) : ∃ a t, l = a :: t ∧ t.length = n := by
  cases l with
  | nil => simp at h
  | cons a t => exact ⟨a, t, rfl, by simpa using h⟩

/-! ## FPMA -/

namespace Fpma
variable {R : Type}

theorem loadJunk_default (res : Nat) (ts : List (Tok R)) (m : Mesh (Point R)) : loadJunk (fun _ => INVALID) res ts m = load res ts m := by
  simp only [loadJunk, load, loadCellsJunk, loadCells, freshCells_default]

theorem loadCellList_fill : ∀ (ls : List (List Idx)) (k : Nat) (fs : List Face) (rest : List (Tok R)),
    ∃ f : Res (List Face), ∀ cs : List Cell, cs.length = ls.length →
      loadCellList cs k fs (ls.flatMap listTokens ++ rest) = f.bind fun fs' => .ok (fillCells k cs (ls.map (·.head?)), fs', rest) := by
  intro ls
  induction ls with
  | nil =>
    intro k fs rest
    refine ⟨.ok fs, fun cs h => ?_⟩
    rw [List.length_eq_zero_iff.mp h]
    rfl
  | cons l ls ih =>
    intro k fs rest
    have hl : ∀ a b fs, linkFaces k (l.head?.getD a) INVALID l fs = linkFaces k (l.head?.getD b) INVALID l fs := by
      intro a b fs
      cases l <;> rfl
    have step : ∀ (c : Cell) (cs : List Cell), loadCellList (c :: cs) k fs ((l :: ls).flatMap listTokens ++ rest) =
        (linkFaces k (l.head?.getD 0) INVALID l fs).bind fun fs1 => (loadCellList cs (k + 1) fs1 (ls.flatMap listTokens ++ rest)).bind fun r =>
          .ok ({ index := k, bElem := l.head?.getD c.bElem } :: r.1, r.2) := by
      intro c cs
      rw [List.flatMap_cons, listTokens, loadCellList]
      simp only [List.cons_append, List.append_assoc, readNum, Res.bind]
      rw [readNums_map]
      simp only
      rw [hl c.bElem 0]
    cases g : linkFaces k (l.head?.getD 0) INVALID l fs with
    | ok fs1 =>
      obtain ⟨f, hf⟩ := ih (k + 1) fs1 rest
      refine ⟨f, fun cs h => ?_⟩
      obtain ⟨c, cs, rfl, h'⟩ := exists_cons h
      rw [step, g, Res.bind, hf cs h']
      cases f <;> rfl
    | throw e => exact ⟨.throw e, fun cs h => by obtain ⟨c, cs, rfl, h'⟩ := exists_cons h; rw [step, g]; rfl⟩
    | ub => exact ⟨.ub, fun cs h => by obtain ⟨c, cs, rfl, h'⟩ := exists_cons h; rw [step, g]; rfl⟩
    | diverge => exact ⟨.diverge, fun cs h => by obtain ⟨c, cs, rfl, h'⟩ := exists_cons h; rw [step, g]; rfl⟩

theorem loadFaceList_rest (res : Nat) : ∀ (polys : List (List Idx)) (fs : List Face) (k : Nat) (d : Dict) (es : List Edge) (rest : List (Tok R)),
    fs.length = polys.length → ∃ f : Res (List Face × List Edge),
      loadFaceList res fs k d es (polys.flatMap listTokens ++ rest) = f.bind fun r => .ok (r.1, r.2, rest) := by
  intro polys
  induction polys with
  | nil =>
    intro fs k d es rest h
    rw [List.length_eq_zero_iff.mp h]
    exact ⟨.ok ([], es), rfl⟩
  | cons l polys ih =>
    intro fs k d es rest h
    obtain ⟨f0, fs, rfl, h'⟩ := exists_cons h
    rw [List.flatMap_cons, listTokens, loadFaceList]
    simp only [List.cons_append, List.append_assoc, readNum, Res.bind]
    rw [readNumsZ_map]
    simp only
    cases g : addFaceEdges res { f0 with index := k } d es (consecutive l) with
    | ok r =>
      obtain ⟨f, hf⟩ := ih fs (k + 1) r.2.1 r.2.2 rest h'
      refine ⟨f.bind fun s => .ok (r.1 :: s.1, s.2), ?_⟩
      simp only
      rw [hf]
      cases f <;> rfl
    | throw e => exact ⟨.throw e, rfl⟩
    | ub => exact ⟨.ub, rfl⟩
    | diverge => exact ⟨.diverge, rfl⟩

/-- What a complete file gives, with any values of the members that are not initialised. -/
theorem loadJunk_file (F : File R) (res : Nat) (rest : List (Tok R)) (m : Mesh (Point R)) :
    ∃ f : Res (List Face × List Edge), ∀ junk, loadJunk junk res (F.tokens ++ rest) m = f.bind fun r =>
      .ok { m with vertices := F.verts, edges := r.2, mids := [r.1], cells := fillCells 0 (freshCells junk m.cells F.cells.length) (F.cells.map (·.head?)) } := by
  have hv : loadVertices (F.tokens ++ rest) m =
      .ok ({ m with vertices := F.verts }, .num F.faces.length :: (F.faces.flatMap listTokens ++ .num F.cells.length :: (F.cells.flatMap listTokens ++ rest))) := by
    unfold loadVertices File.tokens
    simp only [List.cons_append, readNum, Res.bind, List.append_assoc]
    rw [readPoints_flatMap]
  obtain ⟨f, hf⟩ := loadFaceList_rest res F.faces (resize (m.midElems 2) F.faces.length {}) 0 [] m.edges
    (.num F.cells.length :: (F.cells.flatMap listTokens ++ rest)) (by rw [resize_length])
  have hm : ∀ vs : List (Point R), (Mesh.midElems { m with vertices := vs } 2) = m.midElems 2 := fun _ => rfl
  cases f with
  | ok r =>
    obtain ⟨g, hg⟩ := loadCellList_fill F.cells 0 r.1 rest
    refine ⟨g.bind fun fs => .ok (fs, r.2), fun junk => ?_⟩
    unfold loadJunk
    rw [hv]
    simp only [Res.bind, loadFaces, readNum]
    rw [hm, hf]
    simp only [Res.bind, loadCellsJunk, readNum]
    rw [show (Mesh.midElems { m with vertices := F.verts, mids := [r.1], edges := r.2 } 2) = r.1 from rfl, hg _ (freshCells_length _ _ _)]
    cases g <;> rfl
  | throw e => exact ⟨.throw e, fun junk => by unfold loadJunk; rw [hv]; simp only [Res.bind, loadFaces, readNum]; rw [hm, hf]; rfl⟩
  | ub => exact ⟨.ub, fun junk => by unfold loadJunk; rw [hv]; simp only [Res.bind, loadFaces, readNum]; rw [hm, hf]; rfl⟩
  | diverge => exact ⟨.diverge, fun junk => by unfold loadJunk; rw [hv]; simp only [Res.bind, loadFaces, readNum]; rw [hm, hf]; rfl⟩

/-- C86, FPMA: a complete file in which every cell has a face gives the same result whatever the memory of the new cells contained. -/
theorem C86_fpma_partial (F : File R) (hF : ∀ l ∈ F.cells, l ≠ []) (res : Nat) (rest : List (Tok R)) (m : Mesh (Point R)) (junk : Nat → Idx) :
    loadJunk junk res (F.tokens ++ rest) m = load res (F.tokens ++ rest) m := by
  obtain ⟨f, h⟩ := loadJunk_file F res rest m
  rw [← loadJunk_default, h, h]
  congr 1
  funext r
  rw [fillCells_all 0 (freshCells junk m.cells F.cells.length) (freshCells (fun _ => INVALID) m.cells F.cells.length) (F.cells.map (·.head?))
    (by rw [freshCells_length]; simp) (by rw [freshCells_length]; simp)]
  intro o ho
  obtain ⟨l, hl, rfl⟩ := List.mem_map.mp ho
  have := hF l hl
  cases l <;> simp_all

/-- C86, false of the code: when a complete FPMA file with a cell without faces is accepted, the boundary element of that cell is whatever its memory contained. -/
theorem C86_fpma_violated (F : File R) (i : Nat) (hi : F.cells[i]? = some []) (res : Nat) (rest : List (Tok R)) (m m' : Mesh (Point R)) (hm : m.cells = [])
    (junk : Nat → Idx) (h : loadJunk junk res (F.tokens ++ rest) m = .ok m') : ∃ c, m'.cells[i]? = some c ∧ c.bElem = junk i := by
  obtain ⟨f, g⟩ := loadJunk_file F res rest m
  rw [g] at h
  have hl : i < F.cells.length := by
    by_contra hc
    rw [List.getElem?_eq_none (by omega)] at hi
    cases hi
  cases f <;> simp only [Res.bind, Res.ok.injEq, reduceCtorEq] at h
  subst h
  refine ⟨{ index := 0 + i, bElem := junk i }, ?_, rfl⟩
  simp only [hm]
  exact fillCells_get 0 _ _ i _ (freshCells_get junk _ i hl) (by simp [hi])

/-- the tetrahedron and the prism of the example file, with any values before -/
example (junk : Nat → Idx) : loadJunk junk 0 (exampleFile.tokens ++ []) { dim := 3 } = load 0 (exampleFile.tokens ++ []) { dim := 3 } :=
  C86_fpma_partial exampleFile (by decide) 0 [] _ junk

/-- a cell without faces between the others: the file is accepted, and two runs may give different meshes -/
def emptyCellFile : File Int := { exampleFile with cells := [[0, 1, 2, 3], [], [2, 4, 5, 6]] }

theorem emptyCellFile_accepted (junk : Nat → Idx) : ∃ m', loadJunk junk 0 (emptyCellFile.tokens ++ []) { dim := 3 } = .ok m' := by
  have := ((C81_accepted_partial emptyCellFile 0 []).2 (by decide)).1.mpr (fun l hl => (passes_iff l).mp ?_)
  · obtain ⟨f, h⟩ := loadJunk_file emptyCellFile 0 [] { dim := 3 }
    rw [← loadJunk_default, h] at this
    obtain ⟨m', this⟩ := this
    rw [h]
    cases f with
    | ok r => exact ⟨_, rfl⟩
    | throw e => cases this
    | ub => cases this
    | diverge => cases this
  · simp only [emptyCellFile, List.mem_cons, List.not_mem_nil, or_false] at hl
    rcases hl with rfl | rfl | rfl <;> simp [Passes, emptyCellFile, exampleFile]

example : ∃ m1 m2, loadJunk (fun _ => 0) 0 (emptyCellFile.tokens ++ []) { dim := 3 } = .ok m1 ∧ loadJunk (fun _ => 5) 0 (emptyCellFile.tokens ++ []) { dim := 3 } = .ok m2 ∧
    m1.cells[1]?.map (·.bElem) = some 0 ∧ m2.cells[1]?.map (·.bElem) = some 5 := by
  obtain ⟨m1, h1⟩ := emptyCellFile_accepted fun _ => 0
  obtain ⟨m2, h2⟩ := emptyCellFile_accepted fun _ => 5
  obtain ⟨c1, g1, e1⟩ := C86_fpma_violated emptyCellFile 1 rfl 0 [] { dim := 3 } m1 rfl _ h1
  obtain ⟨c2, g2, e2⟩ := C86_fpma_violated emptyCellFile 1 rfl 0 [] { dim := 3 } m2 rfl _ h2
  exact ⟨m1, m2, h1, h2, by rw [g1]; simpa using e1, by rw [g2]; simpa using e2⟩

end Fpma

/-! ## VTK -/

theorem bindOk {α β : Type} {x : Res α} {f : α → Res β} {b : β} (h : x.bind f = .ok b) : ∃ a, x = .ok a ∧ f a = .ok b := by
  cases x with
  | ok a => exact ⟨a, rfl, h⟩
  | throw e => cases h
  | ub => cases h
  | diverge => cases h

namespace Vtk
variable {R : Type}

theorem load2Junk_default [Zero R] (ts : List (VTok R)) (types : List Nat) (m : Mesh (Point2 R)) : load2Junk (fun _ => INVALID) ts types m = load2 ts types m := by
  unfold load2Junk load2
  congr 1
  funext ts m
  simp only [loadCells2Junk, loadCells2, freshCells_default]

theorem load3Junk_default [Zero R] (res : Nat) (ts : List (VTok R)) (types : List Nat) (m : Mesh (Point3 R)) :
    load3Junk (fun _ => INVALID) res ts types m = load3 res ts types m := by
  unfold load3Junk load3
  congr 1
  funext ts m
  simp only [loadCells3Junk, loadCells3, freshCells_default]

theorem addCellEdges_some (cell : Idx) : ∀ (ps : List (Idx × Idx)) (prev : Idx) (first : Option Idx) (d : Dict) (es : List Edge) r,
    addCellEdges cell prev first d es ps = .ok r → (first.isSome ∨ ps ≠ [] → r.1.isSome) ∧ (ps = [] → r.1 = first)
  | [], prev, first, d, es, r, h => by
    cases h
    exact ⟨fun h => by simpa using h, fun _ => rfl⟩
  | p :: ps, prev, first, d, es, r, h => by
    simp only [addCellEdges] at h
    obtain ⟨es1, -, h⟩ := bindOk h
    exact ⟨fun _ => (addCellEdges_some cell ps _ _ _ _ r h).1 (.inl rfl), fun h => by cases h⟩

theorem consecutive_eq_nil (vs : List Idx) : consecutive vs = [] ↔ vs = [] := by
  unfold consecutive
  rw [List.map_eq_nil_iff]
  cases vs <;> simp

theorem loadCellList2_fill : ∀ (polys : List (List Idx)) (k : Nat) (d : Dict) (es : List Edge), DictIn d es.length →
    ∃ es' os, os.length = polys.length ∧ (∀ j : Nat, os[j]? = some none ↔ polys[j]? = some []) ∧
    ∀ (cs : List Cell), cs.length = polys.length → ∀ ts rest : List (VTok R), skipNl ts = skipNl (polys.flatMap lineTokens ++ rest) →
    ∃ r, loadCellList2 cs k d es ts = .ok (fillCells k cs os, es', r) ∧ skipNl r = skipNl rest := by
  intro polys
  induction polys with
  | nil =>
    intro k d es _
    refine ⟨es, [], rfl, by simp, fun cs hcs ts rest hts => ⟨ts, ?_, by simpa using hts⟩⟩
    rw [List.length_eq_zero_iff.mp hcs]
    rfl
  | cons vs polys ih =>
    intro k d es h
    obtain ⟨p, g1, g2⟩ := addCellEdges_any k (consecutive vs) INVALID none d es h (.inl rfl)
    have hp := addCellEdges_some k _ _ _ _ _ p g1
    obtain ⟨es', os, o1, o2, o3⟩ := ih (k + 1) p.2.1 p.2.2 g2
    refine ⟨es', p.1 :: os, by simp [o1], ?_, ?_⟩
    · rintro (_ | j)
      · simp only [List.getElem?_cons_zero, Option.some.injEq]
        constructor
        · intro h
          by_contra hc
          have := hp.1 (.inr fun e => hc ((consecutive_eq_nil vs).mp e))
          rw [h] at this
          cases this
        · intro h
          exact hp.2 ((consecutive_eq_nil vs).mpr h)
      · simpa using o2 j
    · intro cs hcs ts rest hts
      obtain ⟨c, cs, rfl, hcs'⟩ := exists_cons hcs
      obtain ⟨r, e1, e2⟩ := o3 cs hcs' (.nl :: (polys.flatMap lineTokens ++ rest)) rest rfl
      refine ⟨r, ?_, e2⟩
      simp only [loadCellList2]
      rw [readNum_congr hts]
      simp only [List.flatMap_cons, lineTokens, List.cons_append, List.append_assoc, readNum_num, Res.bind]
      rw [readNums_map]
      simp only
      rw [g1]
      simp only [List.nil_append]
      rw [e1]
      rfl

/-- What a complete 2D file gives, with any values of the members that are not initialised. -/
theorem load2Junk_file [Zero R] (F : File R) (rest : List (VTok R)) (types : List Nat) (m : Mesh (Point2 R)) :
    ∃ es os, os.length = F.cells.length ∧ (∀ j : Nat, os[j]? = some none ↔ F.cells[j]? = some []) ∧ ∃ st : Res (List Nat), ∀ junk,
      load2Junk junk (F.tokens ++ rest) types m = st.bind fun t =>
        .ok ({ m.clear with vertices := F.verts.map fun p => (p.1, p.2.1), cells := fillCells 0 (freshCells junk [] F.cells.length) os, edges := es }, t) := by
  obtain ⟨es, os, o1, o2, o3⟩ := loadCellList2_fill (R := R) F.cells 0 [] [] (DictIn.nil _)
  refine ⟨es, os, o1, o2, storeTypes fromVtk2 0 F.codes (resize types F.cells.length 0), fun junk => ?_⟩
  obtain ⟨r, h1, h2⟩ := o3 (freshCells junk [] F.cells.length) (freshCells_length _ _ _) (F.cells.flatMap lineTokens ++ .nl :: typesTail F rest)
    (.nl :: typesTail F rest) rfl
  have h := (loadFromStream_any fromVtk2 (fun p : R × R × R => (p.1, p.2.1)) (loadCells2Junk junk) F rest types m).2
    { m.clear with vertices := F.verts.map fun p => (p.1, p.2.1), cells := fillCells 0 (freshCells junk [] F.cells.length) os, edges := es } r (by
      unfold loadCells2Junk
      simp only [readNum_num, Res.bind, ignoreLine, Mesh.clear]
      rw [h1]) h2
  have hl : (fillCells 0 (freshCells junk [] F.cells.length) os).length = F.cells.length := by
    have : ∀ (cs : List Cell) (os : List (Option Idx)) (k : Nat), cs.length = os.length → (fillCells k cs os).length = os.length := by
      intro cs
      induction cs with
      | nil => intro os k h; rw [List.length_eq_zero_iff.mp h.symm]; rfl
      | cons c cs ih =>
        intro os k h
        obtain ⟨o, os, rfl, h'⟩ := exists_cons h.symm
        simp only [fillCells, List.length_cons]
        rw [ih os (k + 1) h'.symm]
    rw [this _ _ _ (by rw [freshCells_length, o1]), o1]
  unfold load2Junk
  rw [h]
  simp only [hl]

/-- C86, VTK in 2D: a complete file in which every cell has a vertex gives the same result whatever the memory of the new cells contained. -/
theorem C86_vtk2_partial [Zero R] (F : File R) (hF : ∀ vs ∈ F.cells, vs ≠ []) (rest : List (VTok R)) (types : List Nat) (m : Mesh (Point2 R))
    (junk : Nat → Idx) : load2Junk junk (F.tokens ++ rest) types m = load2 (F.tokens ++ rest) types m := by
  obtain ⟨es, os, o1, o2, st, h⟩ := load2Junk_file F rest types m
  rw [← load2Junk_default, h, h]
  congr 1
  funext t
  rw [fillCells_all 0 (freshCells junk [] F.cells.length) (freshCells (fun _ => INVALID) [] F.cells.length) os
    (by rw [freshCells_length, o1]) (by rw [freshCells_length, o1])]
  intro o ho
  obtain ⟨j, hj⟩ := List.mem_iff_getElem?.mp ho
  cases o with
  | none => exact absurd rfl (hF _ (List.mem_of_getElem? ((o2 j).mp hj)))
  | some x => rfl

/-- C86, false of the code: when a complete 2D VTK file with a cell without vertices is accepted, the boundary element of that cell is whatever its memory
contained. -/
theorem C86_vtk2_violated [Zero R] (F : File R) (i : Nat) (hi : F.cells[i]? = some []) (rest : List (VTok R)) (types : List Nat) (m : Mesh (Point2 R))
    (junk : Nat → Idx) (m' : Mesh (Point2 R)) (t' : List Nat) (h : load2Junk junk (F.tokens ++ rest) types m = .ok (m', t')) :
    ∃ c, m'.cells[i]? = some c ∧ c.bElem = junk i := by
  obtain ⟨es, os, o1, o2, st, g⟩ := load2Junk_file F rest types m
  rw [g] at h
  have hl : i < F.cells.length := by
    by_contra hc
    rw [List.getElem?_eq_none (by omega)] at hi
    cases hi
  cases st <;> simp only [Res.bind, Res.ok.injEq, reduceCtorEq, Prod.mk.injEq] at h
  obtain ⟨h, -⟩ := h
  subst h
  exact ⟨{ index := 0 + i, bElem := junk i }, fillCells_get 0 _ _ i _ (freshCells_get junk _ i hl) ((o2 i).mpr hi), rfl⟩

theorem addCellFaces_some (res : Nat) (cell : Idx) (eidx : List Idx) : ∀ (fl : List (List Nat)) (prev : Idx) (first : Option Idx) (d : Dict) (fs : List Face) r,
    addCellFaces res cell eidx prev first d fs fl = .ok r → first.isSome ∨ fl ≠ [] → r.1.isSome
  | [], prev, first, d, es, r, h => by
    cases h
    exact fun h => by simpa using h
  | p :: ps, prev, first, d, es, r, h => by
    simp only [addCellFaces] at h
    obtain ⟨_, -, h⟩ := bindOk h
    obtain ⟨_, -, h⟩ := bindOk h
    obtain ⟨_, -, h⟩ := bindOk h
    exact fun _ => addCellFaces_some res cell eidx ps _ _ _ _ r h (.inl rfl)

theorem template_faces {n : Nat} {T : Template} (h : template n = some T) : T.faces ≠ [] := by
  unfold template at h
  split at h <;> simp only [Option.some.injEq, reduceCtorEq] at h <;> subst h <;> simp

/-- The loop over the cells of a 3D file gives every cell a boundary element. -/
theorem loadCellList3_junk (res : Nat) : ∀ (cs cs' : List Cell) (k : Nat) (de df : Dict) (es : List Edge) (fs : List Face) (ts : List (VTok R)),
    cs.length = cs'.length → loadCellList3 res cs k de df es fs ts = loadCellList3 res cs' k de df es fs ts
  | [], [], _, _, _, _, _, _, _ => rfl
  | c :: cs, c' :: cs', k, de, df, es, fs, ts, h => by
    simp only [loadCellList3]
    congr 1
    funext p
    congr 1
    funext q
    cases hT : template p.1 with
    | none => rfl
    | some T =>
      simp only
      congr 1
      funext r
      cases hs : addCellFaces res k r.1 INVALID none df fs T.faces with
      | ok s =>
        obtain ⟨x, hx⟩ := Option.isSome_iff_exists.mp (addCellFaces_some res k r.1 _ _ _ _ _ _ hs (.inr (template_faces hT)))
        simp only [Res.bind]
        rw [loadCellList3_junk res cs cs' (k + 1) r.2.1 s.2.1 r.2.2 s.2.2 q.2 (by simpa using h), hx]
        rfl
      | throw e => rfl
      | ub => rfl
      | diverge => rfl
  | [], _ :: _, _, _, _, _, _, _, h => by simp at h
  | _ :: _, [], _, _, _, _, _, _, h => by simp at h

/-- C86, VTK in 3D: any text gives the same result, whatever the memory of the new cells contained. -/
theorem C86_vtk3 [Zero R] (res : Nat) (ts : List (VTok R)) (types : List Nat) (m : Mesh (Point3 R)) (junk : Nat → Idx) :
    load3Junk junk res ts types m = load3 res ts types m := by
  rw [← load3Junk_default]
  unfold load3Junk
  congr 1
  funext ts m
  unfold loadCells3Junk
  congr 1
  funext p
  rw [loadCellList3_junk res _ (freshCells (fun _ => INVALID) m.cells p.1) _ _ _ _ _ _ (by rw [freshCells_length, freshCells_length])]

example (junk : Nat → Idx) : load2Junk junk (exampleFile.tokens ++ []) [] { dim := 2 } = load2 (exampleFile.tokens ++ []) [] { dim := 2 } :=
  C86_vtk2_partial exampleFile (by decide) [] [] _ junk

/-- the first cell of this file has no vertices: the file is accepted, and two runs may give different meshes -/
theorem oddFile_accepted (junk : Nat → Idx) : ∃ r, load2Junk junk (oddFile.tokens ++ []) [] { dim := 2 } = .ok r := by
  obtain ⟨r, hr⟩ := (C82_accepted2_partial oddFile [] [] { dim := 2 }).1.mpr oddFile_fit
  obtain ⟨es, os, -, -, st, h⟩ := load2Junk_file oddFile [] [] { dim := 2 }
  rw [← load2Junk_default, h] at hr
  rw [h]
  cases st with
  | ok t => exact ⟨_, rfl⟩
  | throw e => cases hr
  | ub => cases hr
  | diverge => cases hr

example : ∃ m1 m2, load2Junk (fun _ => 0) (oddFile.tokens ++ []) [] { dim := 2 } = .ok m1 ∧ load2Junk (fun _ => 3) (oddFile.tokens ++ []) [] { dim := 2 } = .ok m2 ∧
    m1.1.cells[0]?.map (·.bElem) = some 0 ∧ m2.1.cells[0]?.map (·.bElem) = some 3 := by
  obtain ⟨m1, h1⟩ := oddFile_accepted fun _ => 0
  obtain ⟨m2, h2⟩ := oddFile_accepted fun _ => 3
  obtain ⟨c1, g1, e1⟩ := C86_vtk2_violated oddFile 0 rfl [] [] { dim := 2 } _ m1.1 m1.2 h1
  obtain ⟨c2, g2, e2⟩ := C86_vtk2_violated oddFile 0 rfl [] [] { dim := 2 } _ m2.1 m2.2 h2
  exact ⟨m1, m2, h1, h2, by rw [g1]; simpa using e1, by rw [g2]; simpa using e2⟩

end Vtk
end GTMesh
