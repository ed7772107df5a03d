import Verif.Proofs.FpmaRefuse
import Verif.Props.Fpma

/-! # C81: FPMA files that do not describe a mesh -/

namespace GTMesh.Fpma
open Spec GTMesh.Props
variable {R : Type}

theorem passes_iff {n : Nat} : ∀ l : List Idx, Passes n l ↔ ∀ (i : Nat) f, l[i]? = some f → f < n ∨ (f = INVALID ∧ i + 1 < l.length) := by
  intro l
  induction l with
  | nil => simp [Passes]
  | cons f l ih =>
    cases l with
    | nil =>
      simp only [Passes]
      constructor
      · intro h i g hg
        cases i with
        | zero => simp at hg; subst hg; exact .inl h
        | succ i => simp at hg
      · intro h
        exact (h 0 f rfl).resolve_right (by simp)
    | cons g l =>
      simp only [Passes]
      rw [ih]
      constructor
      · rintro ⟨h1, h2⟩ i x hx
        cases i with
        | zero => simp at hx; subst hx; exact h1.imp_right fun h => ⟨h, by simp⟩
        | succ i =>
          rcases h2 i x (by simpa using hx) with h | ⟨h, h'⟩
          · exact .inl h
          · exact .inr ⟨h, by simp at h' ⊢; omega⟩
      · intro h
        refine ⟨(h 0 f rfl).imp_right (·.1), fun i x hx => ?_⟩
        rcases h (i + 1) x (by simpa using hx) with h | ⟨h, h'⟩
        · exact .inl h
        · exact .inr ⟨h, by simp at h' ⊢; omega⟩

/-- C81, which complete files are accepted, whatever their numbers are: those whose faces fit in the reserve of the mesh, and whose cells list faces that
exist; the one exception is the invalid index, which may be anywhere but at the end of a cell. A face with too many vertices is refused with a
`std::runtime_error`, a number of a face that does not exist with `std::out_of_range`. Nothing else is checked: not the numbers of the vertices, not the
repetition of a face in a cell, not how many cells a face has. -/
theorem C81_accepted_partial (F : File R) (res : Nat) (rest : List (Tok R)) :
    ((∃ vs ∈ F.faces, 0 < res ∧ res < vs.length) → load res (F.tokens ++ rest) { dim := 3 } = .throw .runtimeError) ∧
    ((∀ vs ∈ F.faces, res = 0 ∨ vs.length ≤ res) →
      ((∃ m', load res (F.tokens ++ rest) { dim := 3 } = .ok m') ↔
        ∀ l ∈ F.cells, ∀ (i : Nat) f, l[i]? = some f → f < F.faces.length ∨ (f = INVALID ∧ i + 1 < l.length)) ∧
      ((∀ m', load res (F.tokens ++ rest) { dim := 3 } ≠ .ok m') → load res (F.tokens ++ rest) { dim := 3 } = .throw .outOfRange)) := by
  refine ⟨fun ⟨vs, hvs, h0, hl⟩ => C18_reserve F res h0 vs hvs hl rest, fun hres => ?_⟩
  obtain ⟨d, es, fs, f1, -, -, f4, -⟩ := loadFaceList_spec (R := R) res (allPairs F.faces) F.faces
    (List.replicate F.faces.length {}) 0 [] []
    (.num F.cells.length :: F.cells.flatMap listTokens ++ rest)
    (TableInv.empty _) (fun p hp => hp) hres rfl
  have hload : load res (F.tokens ++ rest) { dim := 3 } =
      (loadCellList (List.replicate F.cells.length {}) 0 fs (F.cells.flatMap listTokens ++ rest)).bind fun q =>
        .ok { dim := 3, vertices := F.verts, edges := es, cells := q.1, mids := [q.2.1] } := by
    unfold load loadVertices File.tokens
    simp only [List.cons_append, readNum, Res.bind, List.append_assoc]
    rw [readPoints_flatMap]
    simp only [Res.bind, loadFaces, readNum, Mesh.midElems, List.getElem?_nil, Option.getD_none, resize,
      List.take_nil, List.nil_append, List.length_nil, Nat.sub_zero]
    rw [show (Tok.num F.cells.length :: (List.flatMap listTokens F.cells ++ rest))
      = (Tok.num F.cells.length :: List.flatMap listTokens F.cells ++ rest) from by simp, f1]
    simp only [Res.bind, loadCells, List.cons_append, readNum, Mesh.midElems, resize,
      List.take_nil, List.nil_append, List.length_nil, Nat.sub_zero]
    rw [show ([fs][2 - 2]?.getD [] : List Face) = fs from rfl]
    cases loadCellList (List.replicate F.cells.length {}) 0 fs (F.cells.flatMap listTokens ++ rest) <;> rfl
  obtain ⟨c1, c2⟩ := loadCellList_any F.cells (List.replicate F.cells.length {}) 0 fs rest (by simp)
  rw [f4] at c1 c2
  have hiff : (∀ l ∈ F.cells, ∀ (i : Nat) f, l[i]? = some f → f < F.faces.length ∨ (f = INVALID ∧ i + 1 < l.length)) ↔
      ∀ l ∈ F.cells, Passes F.faces.length l := forall₂_congr fun l _ => (passes_iff l).symm
  rw [hiff, hload]
  by_cases h : ∀ l ∈ F.cells, Passes F.faces.length l
  · obtain ⟨cs', fs', hc⟩ := c1 h
    rw [hc]
    exact ⟨⟨fun _ => h, fun _ => ⟨_, rfl⟩⟩, fun hn => absurd rfl (hn _)⟩
  · rw [c2 (by push Not at h; exact h)]
    refine ⟨⟨fun ⟨m', hm⟩ => ?_, fun h' => absurd h' h⟩, fun _ => rfl⟩
    cases hm

/-- C81, what is accepted: a file of which every cell lists some faces that exist is loaded, and then the walk along the boundary of each cell gives the
faces that the file lists for it if and only if no cell lists a face twice and no face is listed by more than two cells. -/
theorem C81_shown_partial (F : File R) (hne : ∀ l ∈ F.cells, l ≠ []) (hrange : ∀ l ∈ F.cells, ∀ f ∈ l, f < F.faces.length)
    (hfit : F.faces.length ≤ INVALID) (hcfit : F.cells.length ≤ INVALID) (res : Nat) (hres : ∀ vs ∈ F.faces, res = 0 ∨ vs.length ≤ res)
    (rest : List (Tok R)) :
    ∃ m', load res (F.tokens ++ rest) { dim := 3 } = .ok m' ∧
      ((∀ (c : Nat) l, F.cells[c]? = some l → boundaryWalk m' c = .ok l) ↔
        (∀ l ∈ F.cells, NoRepetition l) ∧ ∀ f, (F.cells.filter fun l => decide (f ∈ l)).length ≤ 2) := by
  obtain ⟨d, m', h1, h2, -, -, h5, h6, h7, h8⟩ := load_listed F hne hrange hfit res hres rest
  refine ⟨m', h1, ⟨fun hw => ?_, fun ⟨hn, h3⟩ => ?_⟩⟩
  · have hchain : ∀ (c : Nat) l, F.cells[c]? = some l → ClosedChain m' c l := by
      intro c l hl
      obtain ⟨cl, g1, -⟩ := h8 c l hl
      exact ((C09_walk_iff_chain m' (by omega) c cl g1 l).mp (hw c l hl)).1
    have hn : ∀ l ∈ F.cells, NoRepetition l := by
      intro l hl
      obtain ⟨c, hc⟩ := List.getElem?_of_mem hl
      exact (hchain c l hc).2.1
    refine ⟨hn, fun f => ?_⟩
    by_contra h
    obtain ⟨c, l, g1, g2, g3⟩ := getNext_third hn hcfit (Nat.not_le.mp h)
    obtain ⟨j, hj, rfl⟩ := List.mem_iff_getElem.mp g2
    obtain ⟨cn, k1, k2⟩ := (hchain c l g1).2.2 j hj
    have hlt := hrange l (List.mem_of_getElem? g1) _ (List.getElem_mem hj)
    obtain ⟨fa, e1, -, -, e2⟩ := h6 l[j] F.faces[l[j]] (by simp [hlt])
    simp only [Mesh.faceConn, h2] at k1
    rw [if_neg (by decide), show Res.at' (m'.midElems (3 - 1)) l[j] = .ok fa by simpa using e1] at k1
    cases k1
    rw [e2, g3] at k2
    cases k2
  · obtain ⟨m'', k1, -, -, -, -, -, -, -, -, k2⟩ := C18_load F ⟨hne, hn, hrange, h3, hcfit, hfit⟩ res hres rest
    rw [h1] at k1
    cases k1
    exact fun c l hl => (k2 c l hl).2

/-- C81, false of the code: a file in which a cell lists a face twice or a face is listed by three cells is loaded without an error, and the walk along
the boundary of some cell does not give the faces that the file lists. -/
theorem C81_not_a_mesh_violated (F : File R) (hne : ∀ l ∈ F.cells, l ≠ []) (hrange : ∀ l ∈ F.cells, ∀ f ∈ l, f < F.faces.length)
    (hfit : F.faces.length ≤ INVALID) (hcfit : F.cells.length ≤ INVALID)
    (hbad : (∃ l ∈ F.cells, ¬ NoRepetition l) ∨ ∃ f, 2 < (F.cells.filter fun l => decide (f ∈ l)).length) :
    ∃ m', load 0 F.tokens { dim := 3 } = .ok m' ∧ ∃ (c : Nat) (l : List Idx), F.cells[c]? = some l ∧ boundaryWalk m' c ≠ .ok l := by
  obtain ⟨m', h1, h2⟩ := C81_shown_partial F hne hrange hfit hcfit 0 (fun _ _ => .inl rfl) []
  rw [List.append_nil] at h1
  refine ⟨m', h1, ?_⟩
  by_contra h
  push Not at h
  obtain ⟨a, b⟩ := h2.mp h
  rcases hbad with ⟨l, hl, hn⟩ | ⟨f, hf⟩
  · exact hn (a l hl)
  · have := b f
    omega

/-- C81, false of the code: the numbers of the vertices are not checked. A file with well-formed cells and a face with a vertex that does not exist is loaded
without an error; an edge of the mesh leads to a vertex that is not there. -/
theorem C81_vertex_violated (F : File R) (hF : F.WellFormed) (vs : List Idx) (hvs : vs ∈ F.faces) (v : Idx) (hv : v ∈ vs) (hout : F.verts.length ≤ v) :
    ∃ m', load 0 F.tokens { dim := 3 } = .ok m' ∧
      ∃ e ∈ m'.edges, (e.a = v ∨ e.b = v) ∧ Res.at' m'.vertices v = .throw .outOfRange := by
  obtain ⟨m', h1, h2, h3, -, -, -, -, h4, -⟩ := C18_load F hF 0 (fun _ _ => .inl rfl) []
  rw [List.append_nil] at h1
  obtain ⟨i, hi⟩ := List.getElem?_of_mem hvs
  obtain ⟨f, -, -, g1, g2⟩ := h4 i vs hi
  obtain ⟨j, hj, rfl⟩ := List.mem_iff_getElem.mp hv
  obtain ⟨e, a, b, e1, e2, e3, ed, e4, e5⟩ := g2 j hj
  have ha : a = vs[j] := by
    rw [cyc, Nat.mod_eq_of_lt hj, List.getElem?_eq_getElem hj] at e2
    exact (Option.some.inj e2).symm
  refine ⟨m', h1, ed, List.mem_of_getElem? e4, ?_, ?_⟩
  · rcases e5 with h | h
    · exact .inl (by have := congrArg Prod.fst h; simpa [ha] using this)
    · exact .inr (by have := h.2; simpa [ha] using this)
  · unfold Res.at'
    rw [List.getElem?_eq_none (by rw [h3]; exact hout)]

/-! ## the hypotheses are met -/

/-- three cells share the face 0; the cell 3 lists the face 5 twice -/
def badFile : File Int := { exampleFile with cells := [[0, 1, 2, 3], [0, 4, 5], [6, 0], [5, 5]] }

example : ∃ m', load 0 badFile.tokens { dim := 3 } = .ok m' ∧
    ∃ (c : Nat) (l : List Idx), badFile.cells[c]? = some l ∧ boundaryWalk m' c ≠ .ok l :=
  C81_not_a_mesh_violated badFile (by decide) (by decide) (by decide) (by decide) (.inr ⟨0, by decide⟩)
example : ∃ m', load 0 badFile.tokens { dim := 3 } = .ok m' ∧
    ∃ (c : Nat) (l : List Idx), badFile.cells[c]? = some l ∧ boundaryWalk m' c ≠ .ok l :=
  C81_not_a_mesh_violated badFile (by decide) (by decide) (by decide) (by decide)
    (.inl ⟨[5, 5], by decide, by simp [NoRepetition]⟩)

/-- a cell with a face that does not exist -/
def farFile : File Int := { exampleFile with cells := [[0, 1, 2, 3], [2, 4, 7]] }
example : load 4 farFile.tokens { dim := 3 } = .throw .outOfRange := by
  have := (C81_accepted_partial farFile 4 []).2 (by decide)
  rw [List.append_nil] at this
  refine this.2 fun m' h => ?_
  rcases this.1.mp ⟨m', h⟩ [2, 4, 7] (by decide) 2 7 rfl with h | h
  · exact absurd h (by decide)
  · exact absurd h.2 (by decide)

/-- the invalid index within a cell is accepted -/
def holeFile : File Int := { exampleFile with cells := [[0, INVALID, 1, 2, 3], [2, 4, 5, 6]] }
example : ∃ m', load 0 holeFile.tokens { dim := 3 } = .ok m' := by
  have := ((C81_accepted_partial holeFile 0 []).2 (by decide)).1.mpr (fun l hl => (passes_iff l).mp ?_)
  · simpa using this
  · simp only [holeFile, List.mem_cons, List.not_mem_nil, or_false] at hl
    rcases hl with rfl | rfl <;> simp [Passes, holeFile, exampleFile]

/-- a face with a vertex that does not exist -/
def pointFile : File Int := { exampleFile with verts := [(0, 0, 0), (1, 0, 0), (0, 1, 0), (0, 0, 1)] }
example : ∃ m', load 0 pointFile.tokens { dim := 3 } = .ok m' ∧
    ∃ e ∈ m'.edges, (e.a = 4 ∨ e.b = 4) ∧ Res.at' m'.vertices 4 = .throw .outOfRange :=
  C81_vertex_violated pointFile { exampleFile_wellFormed with } [1, 2, 4] (by decide) 4 (by decide) (by decide)

end GTMesh.Fpma
