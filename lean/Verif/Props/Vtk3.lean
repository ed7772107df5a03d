import Verif.Proofs.Vtk3b
import Verif.Props.Vtk2

/-! # C24, C25, C26 and part of C19: the VTK format in 3D -/

namespace GTMesh.Vtk
open Spec GTMesh.Props
variable {R : Type}

/-! ## C25 -/

/-- Result of reading the cells of a 3D file. -/
theorem loadCells3_spec (F : File R) (hF : F.Solids) (res : Nat)
    (hres : ∀ vs ∈ F.cells, ∀ p ∈ facePolygons vs, res = 0 ∨ p.length ≤ res) (m0 : Mesh (Point3 R))
    (tail : List (VTok R)) :
    ∃ (ls : List (List Idx)) (de df : Dict) (es : List Edge) (fs : List Face) (cs : List Cell),
      TableInv de es (F.cells.flatMap cellPairs) ∧ FaceInv df fs ∧
      ls.length = F.cells.length ∧ cs.length = F.cells.length ∧
      (∃ r, loadCells3 res (.num F.cells.length :: .num F.total :: .nl ::
          (F.cells.flatMap lineTokens ++ .nl :: tail)) { m0.clear with vertices := F.verts }
          = .ok ({ m0.clear with vertices := F.verts, cells := cs, edges := es, mids := [fs] }, r) ∧
        skipNl r = skipNl tail) ∧
      (∀ (c : Nat) vs, F.cells[c]? = some vs → ∃ l, ls[c]? = some l ∧ FacesOf es fs l vs ∧
        ∃ cl, cs[c]? = some cl ∧ cl.index = c ∧ l[0]? = some cl.bElem) ∧
      (∀ l ∈ ls, NoRepetition l) ∧
      (∀ i, i < fs.length → ∃ l ∈ ls, i ∈ l) ∧
      (∀ (i : Nat) f, fs[i]? = some f → f.conn = connOf (histOf i (chainCalls 0 ls))) := by
  have hfit : F.cells.length ≤ INVALID := by have := hF.fit; omega
  obtain ⟨ls, de, df, es, fs, cs, r, h1, h2, h3, h3', h4, h4', h5, h6, h7, h8, h8', h9, h10, h11⟩ :=
    loadCellList3_spec res (F.cells.flatMap cellPairs) F.cells (resize [] F.cells.length {}) 0 [] [] [] []
      (F.cells.flatMap lineTokens ++ .nl   :: tail) _ (TableInv.empty _) FaceInv.empty
      (fun vs hvs p hp => List.mem_flatMap.mpr ⟨vs, hvs, hp⟩) (by simp)
      (by omega) (by rw [resize_length]) hF.known hF.nodup hres rfl
  have hfs : fs.length ≤ INVALID := by
    have := hF.fit; simp only [List.length_nil] at h8; omega
  have hget : ∀ l ∈ ls, ∃ vs, FacesOf es fs l vs ∧ NoRepetition l := by
    intro l hl
    obtain ⟨c, hc⟩ := List.getElem?_of_mem hl
    have hlt := (List.getElem?_eq_some_iff.mp hc).1
    have hvs : F.cells[c]? = some (F.cells[c]'(by omega)) := by simp
    obtain ⟨l', a1, a2, a3, _⟩ := h9 c _ hvs
    rw [hc] at a1; cases a1
    exact ⟨_, a2, a3⟩
  have hnr : ∀ l ∈ ls, NoRepetition l := fun l hl => by
    obtain ⟨_, _, h⟩ := hget l hl; exact h
  have hin : ∀ l ∈ ls, ∀ i ∈ l, i < fs.length := by
    intro l hl i hi
    obtain ⟨vs, a2, _⟩ := hget l hl
    obtain ⟨j, hj⟩ := List.getElem?_of_mem hi
    have hjl := (List.getElem?_eq_some_iff.mp hj).1
    obtain ⟨i', x, b1, b2, _⟩ := a2.2 j _ (List.getElem?_eq_getElem (by rw [← a2.1]; exact hjl))
    rw [hj] at b1; cases b1
    exact (List.getElem?_eq_some_iff.mp b2).1
  refine ⟨ls, de, df, es, fs, cs, h3, h3', h5, h6, ?_, ?_, hnr, ?_, ?_⟩
  · refine ⟨r, ?_, h2⟩
    unfold loadCells3
    have hm : (Mesh.midElems { m0.clear with vertices := F.verts } 2) = [] := by
      simp only [Mesh.midElems, Mesh.clear, List.getElem?_map]
      cases h : m0.mids[2 - 2]? <;> rfl
    simp only [readNum_num, Res.bind, ignoreLine]
    rw [hm]
    simp only [Mesh.clear]
    rw [h1]
  · intro c vs hc
    obtain ⟨l, a1, a2, _, cl, a3, a4, a5⟩ := h9 c vs hc
    exact ⟨l, a1, a2, cl, a3, by omega, a5⟩
  · intro i hi
    rcases h10 i hi with h | h
    · simp at h
    · exact h
  · intro i f hi
    have hilt := (List.getElem?_eq_some_iff.mp hi).1
    have h := h11 i
    have hc : faceConnAt fs i = f.conn := by simp [faceConnAt, connAt, hi]
    rw [hc, show faceConnAt [] i = {} by simp [faceConnAt, connAt],
      runOps_allOps hnr (by omega) (by omega) (fun l hl hm => by have := hin l hl _ hm; omega)] at h
    exact h

theorem SameSides.symm {p q : List Idx} (h : SameSides p q) : SameSides q p := fun u v => (h u v).symm

theorem SameSides.trans {p q r : List Idx} (h : SameSides p q) (h' : SameSides q r) : SameSides p r :=
  fun u v => (h u v).trans (h' u v)

theorem hasSide_map_ent (vs : List Idx) {p : List Nat} {a b : Nat} (h : HasSide p a b) : HasSide (p.map (ent vs)) (ent vs a) (ent vs b) := by
  have hc : ∀ (j : Nat), cyc (p.map (ent vs)) j = (cyc p j).map (ent vs) := by intro j; simp [cyc]
  obtain ⟨j, x, y, h1, h2, h3, h4⟩ := h
  exact ⟨j, ent vs x, ent vs y, by simpa using h1, by rw [hc, h2]; rfl, by rw [hc, h3]; rfl,
    samePair_ent (p := (x, y)) (q := (a, b)) h4⟩

/-- Each edge of a template is a side of a face of the cell. -/
theorem template_sides {n : Nat} (h : n = 4 ∨ n = 5 ∨ n = 6 ∨ n = 8) :
    ∀ T, template n = some T → ∀ q ∈ T.edges, ∃ p ∈ cellPolygons n, HasSide p q.1 q.2 := by
  rcases h with rfl | rfl | rfl | rfl
  all_goals
    intro T hT
    cases hT
    decide

/-- C25. Loading a file of tetrahedra, pyramids, wedges and hexahedra into a 3D mesh whose reserve is large enough
for their faces, whatever the mesh and the reader held before and whatever follows in the stream, succeeds and
gives: the points; edges and faces numbered by position; no two edges joining the same two vertices; each edge is a side of a face of some
cell of the file; the edges of
each face form a polygon which is a face of some cell, and two faces are equal when they have the same sides; each
face has the first and the last cell that has this face as left and right cell; for each cell of the file a cell at
the same position, with faces for the polygons of its kind in order, the first being its boundary element; when no
face of the cell belongs to more than two cells, its boundary walk yields exactly these faces in order; each cell
type is the native type of its code. -/
theorem C25_load [Zero R] (F : File R) (hF : F.Solids) (res : Nat)
    (hres : ∀ vs ∈ F.cells, ∀ p ∈ facePolygons vs, res = 0 ∨ p.length ≤ res)
    (hcodes : F.codes.length ≤ F.cells.length) (rest : List (VTok R))
    (types : List Nat) (m0 : Mesh (Point3 R)) (hd : m0.dim = 3) :
    ∃ m t, load3 res (F.tokens ++ rest) types m0 = .ok (m, t) ∧ m.dim = 3 ∧ m.vertices = F.verts ∧
      (∀ (i : Nat) e, m.edges[i]? = some e → e.index = i) ∧
      (∀ (i : Nat) f, (m.midElems 2)[i]? = some f → f.index = i) ∧
      (∀ (i j : Nat) e e', m.edges[i]? = some e → m.edges[j]? = some e' → SamePair (e.a, e.b) (e'.a, e'.b) → i = j) ∧
      (∀ (i j : Nat) f f' p p', (m.midElems 2)[i]? = some f → (m.midElems 2)[j]? = some f' →
        IsPolygon m.edges f.sub p → IsPolygon m.edges f'.sub p' → SameSides p p' → i = j) ∧
      (∀ f ∈ m.midElems 2, ∃ p, IsPolygon m.edges f.sub p ∧
        FirstAndLast (fun c => UsesFace F c p) f.conn.left f.conn.right) ∧
      (∀ e ∈ m.edges, ∃ vs ∈ F.cells, (e.a ∈ vs ∧ e.b ∈ vs) ∧ ∃ p ∈ facePolygons vs, HasSide p e.a e.b) ∧
      m.cells.length = F.cells.length ∧
      (∀ (c : Nat) vs, F.cells[c]? = some vs → ∃ cl l, m.cells[c]? = some cl ∧ cl.index = c ∧
        FacesOf m.edges (m.midElems 2) l vs ∧ NoRepetition l ∧ l[0]? = some cl.bElem ∧
        ((∀ p ∈ facePolygons vs, AtMostTwoFace F p) → boundaryWalk m c = .ok l)) ∧
      t.length = F.cells.length ∧
      (∀ (c : Nat) code ty, F.codes[c]? = some code → fromVtk3 code = some ty → t[c]? = some ty) := by
  obtain ⟨ls, de, df, es, fs, cs, h1, h1', h2, h3, h5, h6, h7, h7', h8⟩ := loadCells3_spec F hF res hres m0 (typesTail F rest)
  obtain ⟨t, g1, g2, g3⟩ := loadFromStream_spec fromVtk3 (id : R × R × R → R × R × R) (loadCells3 res) F rest types m0
    _ (by rw [List.map_id]; exact h5) h3 hcodes
  have hmid : Mesh.midElems { m0.clear with vertices := F.verts, cells := cs, edges := es, mids := [fs] } 2 = fs := rfl
  have huniq : ∀ (i j : Nat) e e', es[i]? = some e → es[j]? = some e' → SamePair (e.a, e.b) (e'.a, e'.b) → i = j :=
    fun i j e e' hi hj hs => h1.unique hi hj hs
  have huse : ∀ (i : Nat) f p, fs[i]? = some f → IsPolygon es f.sub p →
      ∀ c, UsesFace F c p ↔ ∃ l, ls[c]? = some l ∧ i ∈ l := by
    intro i f p hi hp c
    constructor
    · rintro ⟨vs, a1, q, a2, a3⟩
      obtain ⟨l, b1, b2, _⟩ := h6 c vs a1
      obtain ⟨j, hj⟩ := List.getElem?_of_mem a2
      obtain ⟨i', x, c1, c2, c3⟩ := b2.2 j q hj
      have := h1'.unique hi c2 ((perm_iff_sameSides huniq hp c3).mpr a3)
      subst this
      exact ⟨l, b1, List.mem_of_getElem? c1⟩
    · rintro ⟨l, a1, a2⟩
      have hlt := (List.getElem?_eq_some_iff.mp a1).1
      have hvs : F.cells[c]? = some (F.cells[c]'(by omega)) := by simp
      obtain ⟨l', b1, b2, _⟩ := h6 c _ hvs
      rw [a1] at b1; cases b1
      obtain ⟨j, hj⟩ := List.getElem?_of_mem a2
      have hjl := (List.getElem?_eq_some_iff.mp hj).1
      have hq := List.getElem?_eq_getElem (l := facePolygons F.cells[c]) (i := j) (by rw [← b2.1]; exact hjl)
      obtain ⟨i', x, c1, c2, c3⟩ := b2.2 j _ hq
      rw [hj] at c1; cases c1
      rw [hi] at c2; cases c2
      exact ⟨_, hvs, _, List.mem_of_getElem? hq, (perm_iff_sameSides huniq hp c3).mp (List.Perm.refl _)⟩
  refine ⟨_, t, g1, by simpa [Mesh.clear] using hd, rfl, h1.index, h1'.index, huniq, ?_, ?_, ?_, h3, ?_, g2, ?_⟩
  · intro i j f f' p p' hi hj hp hp' hs
    exact h1'.unique hi hj ((perm_iff_sameSides huniq hp hp').mpr hs)
  · intro f hf
    rw [hmid] at hf
    obtain ⟨i, hi⟩ := List.getElem?_of_mem hf
    obtain ⟨l, hl, hil⟩ := h7' i (List.getElem?_eq_some_iff.mp hi).1
    obtain ⟨c, hc⟩ := List.getElem?_of_mem hl
    have hlt := (List.getElem?_eq_some_iff.mp hc).1
    have hvs : F.cells[c]? = some (F.cells[c]'(by omega)) := by simp
    obtain ⟨l', b1, b2, _⟩ := h6 c _ hvs
    rw [hc] at b1; cases b1
    obtain ⟨j, hj⟩ := List.getElem?_of_mem hil
    have hjl := (List.getElem?_eq_some_iff.mp hj).1
    have hq := List.getElem?_eq_getElem (l := facePolygons F.cells[c]) (i := j) (by rw [← b2.1]; exact hjl)
    obtain ⟨i', x, c1, c2, c3⟩ := b2.2 j _ hq
    rw [hj] at c1; cases c1
    rw [hi] at c2; cases c2
    refine ⟨_, c3, ?_⟩
    rw [h8 i f hi]
    exact facet_first_last h7 i (huse i f _ hi c3) ⟨c, (huse i f _ hi c3 c).mpr ⟨l, hc, hil⟩⟩
  · intro e he
    obtain ⟨i, hi⟩ := List.getElem?_of_mem he
    have ho := h1.origin i e hi
    obtain ⟨vs, hvs, hp⟩ := List.mem_flatMap.mp ho
    refine ⟨vs, hvs, ?_⟩
    obtain ⟨T, hT, hTok⟩ := template_known (hF.known vs hvs)
    simp only [cellPairs, hT, Option.map_some, Option.getD_some, List.mem_map, Prod.mk.injEq] at hp
    obtain ⟨q, hq, ha, hb⟩ := hp
    have := hTok.ends q hq
    rw [← ha, ← hb]
    refine ⟨⟨List.mem_of_getElem? (ent_eq this.1), List.mem_of_getElem? (ent_eq this.2)⟩, ?_⟩
    obtain ⟨p, hp, hs⟩ := template_sides (hF.known vs hvs) T hT q hq
    exact ⟨_, List.mem_map.mpr ⟨p, hp, rfl⟩, hasSide_map_ent vs hs⟩
  · intro c vs hc
    obtain ⟨l, a1, a2, cl, a3, a4, a5⟩ := h6 c vs hc
    have hll : l ∈ ls := List.mem_of_getElem? a1
    refine ⟨cl, l, a3, a4, a2, h7 l hll, a5, fun htwo => ?_⟩
    rw [C09_walk_iff_chain _ (by simp [Mesh.clear, hd]) c cl a3]
    have hlne : l ≠ [] := by rintro rfl; simp at a5
    refine ⟨⟨hlne, h7 l hll, ?_⟩, a5⟩
    intro j hj
    have hq := List.getElem?_eq_getElem (l := facePolygons vs) (i := j) (by rw [← a2.1]; exact hj)
    obtain ⟨i', x, e1, e2, e3⟩ := a2.2 j _ hq
    rw [List.getElem?_eq_getElem hj] at e1
    cases e1
    refine ⟨x.conn, ?_, ?_⟩
    · simp only [Mesh.faceConn, Mesh.clear, hd]
      rw [if_neg (by decide)]
      show (Res.at' fs l[j]).bind _ = _
      rw [show Res.at' fs l[j] = .ok x by simpa using e2]
      rfl
    · rw [h8 _ x e2]
      exact facet_next h7 (by have := hF.fit; omega) a1 hj (huse _ x _ e2 e3)
        (htwo _ (List.mem_of_getElem? hq))
  · intro c code ty hc hty
    rw [g3 c, hc]
    simp [hty]

/-- C25. Two cells of a loaded mesh share the number of a face exactly when the two polygons have the same
sides. -/
theorem C25_shared [Zero R] (F : File R) (hF : F.Solids) (res : Nat)
    (hres : ∀ vs ∈ F.cells, ∀ p ∈ facePolygons vs, res = 0 ∨ p.length ≤ res)
    (hcodes : F.codes.length ≤ F.cells.length) (rest : List (VTok R))
    (types : List Nat) (m0 : Mesh (Point3 R)) (hd : m0.dim = 3) :
    ∃ m t, load3 res (F.tokens ++ rest) types m0 = .ok (m, t) ∧ ∃ bd : Idx → List Idx,
      ∀ (c c' : Nat) vs vs', F.cells[c]? = some vs → F.cells[c']? = some vs' →
        ∀ (j j' : Nat) p p', (facePolygons vs)[j]? = some p → (facePolygons vs')[j']? = some p' →
        ∃ i i', (bd c)[j]? = some i ∧ (bd c')[j']? = some i' ∧ (i = i' ↔ SameSides p p') := by
  obtain ⟨m, t, h1, _, _, _, _, h6, h7, _, _, _, h9, _⟩ := C25_load F hF res hres hcodes rest types m0 hd
  refine ⟨m, t, h1, ?_⟩
  have hbd : ∀ (c : Nat), ∃ l, ∀ vs, F.cells[c]? = some vs → FacesOf m.edges (m.midElems 2) l vs := by
    intro c
    cases hc : F.cells[c]? with
    | none => exact ⟨[], by simp⟩
    | some vs =>
      obtain ⟨_, l, _, _, h, _⟩ := h9 c vs hc
      exact ⟨l, fun vs' hv => by cases hv; exact h⟩
  choose bd hbd using hbd
  refine ⟨bd, fun c c' vs vs' hc hc' j j' p p' hp hp' => ?_⟩
  obtain ⟨i, x, a1, a2, a3⟩ := (hbd c vs hc).2 j p hp
  obtain ⟨i', x', b1, b2, b3⟩ := (hbd c' vs' hc').2 j' p' hp'
  refine ⟨i, i', a1, b1, ?_, fun hs => h7 i i' x x' p p' a2 b2 a3 b3 hs⟩
  rintro rfl
  rw [a2] at b2; cases b2
  exact (perm_iff_sameSides h6 a3 b3).mp (List.Perm.refl _)

/-- C25. If no face belongs to more than two cells and the vertex numbers exist, the loaded mesh is valid in the
sense of `Spec/Incidence.lean`, the boundary of a cell being its faces in the order of its kind. -/
theorem C25_valid [Zero R] (F : File R) (hF : F.Solids) (res : Nat)
    (hres : ∀ vs ∈ F.cells, ∀ p ∈ facePolygons vs, res = 0 ∨ p.length ≤ res)
    (hcodes : F.codes.length ≤ F.cells.length) (rest : List (VTok R))
    (types : List Nat) (m0 : Mesh (Point3 R)) (hd : m0.dim = 3)
    (htwo : ∀ vs ∈ F.cells, ∀ p ∈ facePolygons vs, AtMostTwoFace F p)
    (hr : ∀ vs ∈ F.cells, ∀ v ∈ vs, v < F.verts.length) :
    ∃ m t bd, load3 res (F.tokens ++ rest) types m0 = .ok (m, t) ∧ ValidMesh m bd ∧
      ∀ (c : Nat) vs, F.cells[c]? = some vs → FacesOf m.edges (m.midElems 2) (bd c) vs := by
  obtain ⟨m, t, h1, h2, h3, _, _, h6, h7, h8, h8', h10, h9, _⟩ := C25_load F hF res hres hcodes rest types m0 hd
  have hbd : ∀ (c : Nat), ∃ l, ∀ vs, F.cells[c]? = some vs → ∃ cl, m.cells[c]? = some cl ∧
      FacesOf m.edges (m.midElems 2) l vs ∧ boundaryWalk m c = .ok l := by
    intro c
    cases hc : F.cells[c]? with
    | none => exact ⟨[], by simp⟩
    | some vs =>
      obtain ⟨cl, l, a1, _, a3, _, _, a5⟩ := h9 c vs hc
      refine ⟨l, fun vs' hv => ?_⟩
      cases hv
      exact ⟨cl, a1, a3, a5 fun p hp => htwo vs (List.mem_of_getElem? hc) p hp⟩
  choose bd hbd using hbd
  refine ⟨m, t, bd, h1, ⟨by omega, ?_, ?_⟩, ?_⟩
  · intro i c hc
    have hi : i < F.cells.length := by
      have := (List.getElem?_eq_some_iff.mp hc).1; omega
    obtain ⟨cl, a1, _, a4⟩ := hbd i F.cells[i] (by simp [hi])
    rw [C09_walk_iff_chain m (by omega) i c hc] at a4
    exact a4
  · intro d i hd1 hd3 hi s hs
    rw [h2] at hd3
    have : d = 1 ∨ d = 2 ∨ d = 3 := by omega
    rcases this with rfl | rfl | rfl
    · simp only [Mesh.numElems, h2] at hi ⊢
      rw [if_neg (by decide), if_neg (by decide), if_pos trivial] at hi
      rw [if_neg (by decide), if_pos (by decide), h3]
      simp only [directSubs, h2] at hs
      rw [if_neg (by decide), if_pos trivial, List.getElem?_eq_getElem hi] at hs
      obtain ⟨vs, hvs, ⟨ha, hb⟩, _⟩ := h8' _ (List.getElem_mem hi)
      simp at hs
      rcases hs with rfl | rfl
      · exact hr vs hvs _ ha
      · exact hr vs hvs _ hb
    · simp only [Mesh.numElems, h2] at hi ⊢
      rw [if_neg (by decide), if_neg (by decide), if_neg (by decide)] at hi
      rw [if_neg (by decide), if_neg (by decide), if_pos (by decide)]
      simp only [directSubs, h2] at hs
      rw [if_neg (by decide), if_neg (by decide), List.getElem?_eq_getElem hi] at hs
      simp at hs
      obtain ⟨p, ⟨_, _, _, es, q1, q2⟩, _⟩ := h8 _ (List.getElem_mem hi)
      have hse := q1.mem_iff.mpr hs
      obtain ⟨j, hj⟩ := List.getElem?_of_mem hse
      have hlt := (List.getElem?_eq_some_iff.mp hj).1
      obtain ⟨e, u, v, e1, _, _, ed, e4, _⟩ := q2.2 j (by rw [← q2.1]; exact hlt)
      rw [hj] at e1
      cases e1
      exact (List.getElem?_eq_some_iff.mp e4).1
    · simp only [Mesh.numElems, h2] at hi ⊢
      rw [if_pos trivial] at hi
      rw [if_neg (by decide), if_neg (by decide), if_neg (by decide)]
      simp only [directSubs, h2, if_true] at hs
      obtain ⟨cl, _, a2, _⟩ := hbd i (F.cells[i]'(by omega)) (by simp)
      obtain ⟨j, hj⟩ := List.getElem?_of_mem hs
      have hlt := (List.getElem?_eq_some_iff.mp hj).1
      obtain ⟨e, x, e1, e2, _⟩ := a2.2 j _ (List.getElem?_eq_getElem (by rw [← a2.1]; exact hlt))
      rw [hj] at e1
      cases e1
      exact (List.getElem?_eq_some_iff.mp e2).1
  · intro c vs hc
    obtain ⟨cl, _, a2, _⟩ := hbd c vs hc
    exact a2

/-- C25. A file in which the first cell that is not a tetrahedron, pyramid, wedge or hexahedron has another number
of vertices is refused with `std::out_of_range`. -/
theorem C25_unknown [Zero R] (F : File R) (res : Nat) (good others : List (List Idx)) (bad : List Idx)
    (hcells : F.cells = good ++ bad :: others)
    (hgood : ({ F with cells := good } : File R).Solids)
    (hres : ∀ vs ∈ good, ∀ p ∈ facePolygons vs, res = 0 ∨ p.length ≤ res)
    (hbad : bad.length ≠ 4 ∧ bad.length ≠ 5 ∧ bad.length ≠ 6 ∧ bad.length ≠ 8) (rest : List (VTok R))
    (types : List Nat) (m0 : Mesh (Point3 R)) :
    load3 res (F.tokens ++ rest) types m0 = .throw .outOfRange := by
  have htb : template bad.length = none := by
    unfold template
    split <;> simp_all
  have hfit := hgood.fit
  simp only at hfit
  have h := loadCellList3_throws res (F.cells.flatMap cellPairs) bad
    (others.flatMap lineTokens ++ .nl :: typesTail F rest) htb good
    (resize [] F.cells.length {}) 0 [] [] [] []
    (F.cells.flatMap lineTokens ++ .nl :: typesTail F rest) (TableInv.empty _) FaceInv.empty
    (fun vs hvs p hp => List.mem_flatMap.mpr ⟨vs, by rw [hcells]; simp [hvs], hp⟩) (by simp)
    (by omega) (by rw [resize_length, hcells]; simp) hgood.known hgood.nodup hres (by rw [hcells]; simp)
  obtain ⟨r1, p1, p2⟩ := readPoints_spec F.verts
    ((F.verts.flatMap fun p => [.real p.1, .real p.2.1, .real p.2.2, .nl]) ++ .nl ::
      .word "CELLS" :: .num F.cells.length :: .num F.total :: .nl ::
      (F.cells.flatMap lineTokens ++ .nl :: typesTail F rest))
    _ rfl
  unfold load3 loadFromStream File.tokens
  simp only [List.append_assoc, List.cons_append, List.nil_append]
  rw [ignoreLine_words, ignoreLine_words]
  simp only [readWord_word, readWord, skipNl]
  rw [if_neg (by simp), if_neg (by simp), if_neg (by simp), if_pos trivial]
  unfold loadVertices
  simp only [readNum_num, Res.bind, ignoreLine]
  unfold typesTail at p1
  rw [p1]
  simp only
  rw [p2]
  simp only [skipNl]
  rw [if_pos trivial]
  unfold loadCells3
  have hm : (Mesh.midElems { m0.clear with vertices := F.verts.map id } 2) = [] := by
    simp only [Mesh.midElems, Mesh.clear, List.getElem?_map]
    cases h : m0.mids[2 - 2]? <;> rfl
  simp only [readNum_num, Res.bind, ignoreLine]
  rw [hm]
  simp only [Mesh.clear]
  rw [h]

/-- Example: a hexahedron and a pyramid on its face 4-5-6-7 (named from another vertex and in the other
direction). -/
def exampleFile3 : File Int where
  line1 := ["#", "vtk", "DataFile", "Version", "2.0"]
  line2 := ["my", "data"]
  precision := "double"
  verts := [(0, 0, 0), (1, 0, 0), (1, 1, 0), (0, 1, 0), (0, 0, 1), (1, 0, 1), (1, 1, 1), (0, 1, 1), (0, 0, 2)]
  total := 15
  cells := [[0, 1, 2, 3, 4, 5, 6, 7], [6, 5, 4, 7, 8]]
  codes := [12, 14]

theorem exampleFile3_solids : exampleFile3.Solids where
  known := by decide
  nodup := by simp only [NoRepetition]; decide
  fit := by decide

theorem exampleFile3_two (p : List Idx) : AtMostTwoFace exampleFile3 p := by
  rintro a b c ⟨_, ha, _⟩ ⟨_, hb, _⟩ ⟨_, hc, _⟩
  have ha := (List.getElem?_eq_some_iff.mp ha).1
  have hb := (List.getElem?_eq_some_iff.mp hb).1
  have hc := (List.getElem?_eq_some_iff.mp hc).1
  simp [exampleFile3] at ha hb hc
  omega

example : ∃ m t bd, load3 4 (exampleFile3.tokens ++ []) [] { dim := 3 } = .ok (m, t) ∧ ValidMesh m bd ∧
    ∀ (c : Nat) vs, exampleFile3.cells[c]? = some vs → FacesOf m.edges (m.midElems 2) (bd c) vs :=
  C25_valid exampleFile3 exampleFile3_solids 4 (by decide) (by decide) [] [] _ rfl
    (fun _ _ p _ => exampleFile3_two p) (by decide)

example : ∃ m, load3 4 exampleFile3.tokens [] { dim := 3 } = .ok (m, [301, 303]) ∧ m.edges.length = 16 ∧
    (m.midElems 2).length = 10 ∧ boundaryWalk m 0 = .ok [0, 1, 2, 3, 4, 5] ∧ boundaryWalk m 1 = .ok [5, 6, 7, 8, 9] ∧
    ((m.midElems 2)[5]?.map Face.conn).map (fun c => (c.left, c.right)) = some (0, 1) :=
  ⟨_, rfl, by decide, by decide, by decide, by decide, by decide⟩

/-- A reserve of three edges per face is too small for the quadrangles. -/
example : load3 3 exampleFile3.tokens [] { dim := 3 } = .throw .runtimeError := rfl

example : load3 4 ({ exampleFile3 with cells := [[0, 1, 2, 3], [0, 1, 2, 3, 4, 5, 6]] } : File Int).tokens [] { dim := 3 }
    = .throw .outOfRange := rfl

/-! ## C24 -/

/-- C24. Each template of the 3D reader: the edges join two different vertices of the cell and no two edges join
the same two; the edges of each face form a simple polygon; each edge belongs to exactly two faces; each vertex
belongs to an edge; Euler's formula holds; the templates exist exactly for 4, 5, 6 and 8 vertices. -/
theorem C24_templates (n : Nat) :
    ((template n).isSome ↔ n = 4 ∨ n = 5 ∨ n = 6 ∨ n = 8) ∧
    ∀ T, template n = some T →
      (∀ e ∈ T.edges, e.1 ≠ e.2 ∧ e.1 < n ∧ e.2 < n) ∧
      T.edges.Pairwise (fun e e' => ¬ SamePair e e') ∧
      (∀ f ∈ T.faces, ∃ p, IsPolygon (T.edges.map fun e => { a := e.1, b := e.2 }) f p) ∧
      (∀ x, x < T.edges.length → (T.faces.filter fun f => decide (x ∈ f)).length = 2) ∧
      (∀ v, v < n → ∃ e ∈ T.edges, v = e.1 ∨ v = e.2) ∧
      n + T.faces.length = T.edges.length + 2 := by
  by_cases h : n = 4 ∨ n = 5 ∨ n = 6 ∨ n = 8
  · obtain ⟨T, hT, hTok⟩ := template_known h
    refine ⟨by simp [hT, h], fun T' hT' => ?_⟩
    rw [hT] at hT'
    cases hT'
    have hpoly : ∀ f ∈ T.faces, ∃ p, IsPolygon (T.edges.map fun e => { a := e.1, b := e.2 }) f p := by
      intro f hf
      obtain ⟨k, hk⟩ := List.getElem?_of_mem hf
      have hkl := (List.getElem?_eq_some_iff.mp hk).1
      have hEF : EdgesFor (T.edges.map fun e => { a := e.1, b := e.2 }) T (List.range n) (List.range T.edges.length) := by
        refine ⟨by simp, fun j hj => ?_⟩
        refine ⟨{ a := T.edges[j].1, b := T.edges[j].2 }, by simp [ent, hj], ?_⟩
        have hends := hTok.ends _ (List.getElem_mem hj)
        rw [getElem!_pos T.edges j hj]
        simp only [ent, List.getElem?_range hends.1, List.getElem?_range hends.2, Option.getD_some]
        exact Or.inl rfl
      have h' := (hEF.polygon (k := k) (by simpa using hTok) List.nodup_range hkl).1
      have he : (T.faces[k]!).map (ent (List.range T.edges.length)) = f := by
        rw [getElem!_of hk]
        conv => rhs; rw [← List.map_id f]
        apply List.map_congr_left
        intro x hx
        simp [ent, List.getElem?_range (hTok.inRange f hf x hx)]
      rw [he] at h'
      exact ⟨_, h'⟩
    rcases h with rfl | rfl | rfl | rfl <;> (cases hT; refine ⟨by decide, by decide, hpoly, by decide, by decide, by decide⟩)
  · have hn : template n = none := by
      unfold template
      split <;> simp_all
    exact ⟨by simp [hn, h], by simp [hn]⟩

theorem hasSide_map {vs p : List Idx} (hn : vs.Nodup) (hp : ∀ x ∈ p, x < vs.length) {a b : Nat} (ha : a < vs.length)
    (hb : b < vs.length) : HasSide (p.map (ent vs)) (ent vs a) (ent vs b) ↔ HasSide p a b := by
  have hc : ∀ (j : Nat), cyc (p.map (ent vs)) j = (cyc p j).map (ent vs) := by intro j; simp [cyc]
  have hlt : ∀ (j : Nat) x, cyc p j = some x → x < vs.length := fun j x hx => hp x (List.mem_of_getElem? hx)
  constructor
  · rintro ⟨j, u, v, h1, h2, h3, h4⟩
    rw [hc] at h2 h3
    obtain ⟨x, hx, rfl⟩ := Option.map_eq_some_iff.mp h2
    obtain ⟨y, hy, rfl⟩ := Option.map_eq_some_iff.mp h3
    exact ⟨j, x, y, by simpa using h1, hx, hy,
      samePair_of_ent (p := (x, y)) (q := (a, b)) hn ⟨hlt _ _ hx, hlt _ _ hy⟩ ⟨ha, hb⟩ h4⟩
  · rintro ⟨j, x, y, h1, h2, h3, h4⟩
    exact ⟨j, ent vs x, ent vs y, by simpa using h1, by rw [hc, h2]; rfl, by rw [hc, h3]; rfl,
      samePair_ent (p := (x, y)) (q := (a, b)) h4⟩

theorem hasSide_map_ex {vs p : List Idx} (hp : ∀ x ∈ p, x < vs.length) {u v : Idx}
    (h : HasSide (p.map (ent vs)) u v) : ∃ a b, a < vs.length ∧ b < vs.length ∧ u = ent vs a ∧ v = ent vs b := by
  have hc : ∀ (j : Nat), cyc (p.map (ent vs)) j = (cyc p j).map (ent vs) := by intro j; simp [cyc]
  have hlt : ∀ (j : Nat) x, cyc p j = some x → x < vs.length := fun j x hx => hp x (List.mem_of_getElem? hx)
  obtain ⟨j, u', v', h1, h2, h3, h4⟩ := h
  rw [hc] at h2 h3
  obtain ⟨x, hx, rfl⟩ := Option.map_eq_some_iff.mp h2
  obtain ⟨y, hy, rfl⟩ := Option.map_eq_some_iff.mp h3
  rcases h4 with h4 | h4
  · simp only [Prod.mk.injEq] at h4
    exact ⟨x, y, hlt _ _ hx, hlt _ _ hy, h4.1.symm, h4.2.symm⟩
  · simp only at h4
    exact ⟨y, x, hlt _ _ hy, hlt _ _ hx, h4.2.symm, h4.1.symm⟩

/-- Each side of a face of a cell is a side of exactly one other face. -/
theorem cellPolygons_closed {n : Nat} (h : n = 4 ∨ n = 5 ∨ n = 6 ∨ n = 8) :
    (∀ p ∈ cellPolygons n, ∀ x ∈ p, x < n) ∧
    ∀ k < (cellPolygons n).length, ∀ a < n, ∀ b < n, HasSide ((cellPolygons n)[k]!) a b →
      ((List.range (cellPolygons n).length).filter
        fun k' => decide (k' ≠ k ∧ HasSide ((cellPolygons n)[k']!) a b)).length = 1 := by
  rcases h with rfl | rfl | rfl | rfl
  all_goals refine ⟨by decide, by decide⟩

/-- C24. A cell with faces `l` as the reader makes them (`FacesOf`, see `C25_load`) is bounded by a closed surface:
an edge that belongs to one of its faces belongs to exactly one other of them. -/
theorem C24_closed (es : List Edge) (fs : List Face) (l vs : List Idx)
    (hu : ∀ (i j : Nat) e e', es[i]? = some e → es[j]? = some e' → SamePair (e.a, e.b) (e'.a, e'.b) → i = j)
    (hk : vs.length = 4 ∨ vs.length = 5 ∨ vs.length = 6 ∨ vs.length = 8) (hn : NoRepetition vs)
    (h : FacesOf es fs l vs) (j : Nat) (i e : Idx) (f : Face) (hj : l[j]? = some i) (hf : fs[i]? = some f) (he : e ∈ f.sub) :
    ∃ (j' : Nat) (i' : Idx) (f' : Face), j' ≠ j ∧ l[j']? = some i' ∧ fs[i']? = some f' ∧ e ∈ f'.sub ∧
      ∀ (j'' : Nat) (i'' : Idx) (f'' : Face), j'' ≠ j → l[j'']? = some i'' → fs[i'']? = some f'' → e ∈ f''.sub → j'' = j' := by
  obtain ⟨hr, hcl⟩ := cellPolygons_closed hk
  have hlen : l.length = (cellPolygons vs.length).length := by rw [h.1]; simp [facePolygons]
  have hget : ∀ (j : Nat), j < l.length →
      (facePolygons vs)[j]? = some (((cellPolygons vs.length)[j]!).map (ent vs)) := by
    intro j hj
    have hj' : j < (cellPolygons vs.length).length := by omega
    simp [facePolygons, hj']
  have key : ∀ (j : Nat) i f, l[j]? = some i → fs[i]? = some f →
      IsPolygon es f.sub (((cellPolygons vs.length)[j]!).map (ent vs)) := by
    intro j i f hj hf
    obtain ⟨i', x, a1, a2, a3⟩ := h.2 j _ (hget j (List.getElem?_eq_some_iff.mp hj).1)
    rw [hj] at a1; cases a1
    rw [hf] at a2; cases a2
    exact a3
  have mem : ∀ {s p : List Idx}, IsPolygon es s p → ∀ {ed : Edge}, es[e]? = some ed → (e ∈ s ↔ HasSide p ed.a ed.b) := by
    rintro s p ⟨_, _, _, q, h1, h2⟩ ed hed
    rw [← h1.mem_iff]
    exact EdgesOf.mem_iff h2 hu hed
  have hjl : j < l.length := (List.getElem?_eq_some_iff.mp hj).1
  have hpj := key j i f hj hf
  obtain ⟨ed, hed⟩ : ∃ ed, es[e]? = some ed := by
    obtain ⟨_, _, _, q, h1, h2⟩ := hpj
    obtain ⟨k, hk⟩ := List.getElem?_of_mem (h1.mem_iff.mpr he)
    obtain ⟨e', u, v, b1, _, _, ed, b4, _⟩ := h2.2 k (by rw [← h2.1]; exact (List.getElem?_eq_some_iff.mp hk).1)
    rw [hk] at b1; cases b1
    exact ⟨ed, b4⟩
  have hside := (mem hpj hed).mp he
  have hrange : ∀ (j : Nat), j < l.length → ∀ x ∈ (cellPolygons vs.length)[j]!, x < vs.length := by
    intro j hj
    exact hr _ (mem_getElem! (by omega))
  obtain ⟨a, b, ha, hb, ea, eb⟩ := hasSide_map_ex (hrange j hjl) hside
  rw [ea, eb, hasSide_map hn (hrange j hjl) ha hb] at hside
  obtain ⟨j', hj'⟩ := List.length_eq_one_iff.mp (hcl j (by omega) a ha b hb hside)
  have hmem : ∀ k, k = j' ↔ (k < (cellPolygons vs.length).length ∧ k ≠ j ∧ HasSide ((cellPolygons vs.length)[k]!) a b) := by
    intro k
    rw [← List.mem_singleton, ← hj', List.mem_filter, List.mem_range, decide_eq_true_eq]
  obtain ⟨c1, c2, c3⟩ := (hmem j').mp rfl
  have c4 := fun k (h1 : k < (cellPolygons vs.length).length) (h2 : k ≠ j) h3 => (hmem k).mpr ⟨h1, h2, h3⟩
  have hj'l : j' < l.length := by omega
  obtain ⟨i', f', d1, d2, d3⟩ := h.2 j' _ (hget j' hj'l)
  refine ⟨j', i', f', c2, d1, d2, ?_, ?_⟩
  · rw [mem d3 hed, ea, eb, hasSide_map hn (hrange j' hj'l) ha hb]
    exact c3
  · intro j'' i'' f'' e1 e2 e3 e4
    have hj''l : j'' < l.length := (List.getElem?_eq_some_iff.mp e2).1
    rw [mem (key j'' i'' f'' e2 e3) hed, ea, eb, hasSide_map hn (hrange j'' hj''l) ha hb] at e4
    exact c4 j'' (by omega) e1 e4

example : ∃ m t, load3 0 exampleFile3.tokens [] { dim := 3 } = .ok (m, t) ∧
    ∃ l, FacesOf m.edges (m.midElems 2) l [6, 5, 4, 7, 8] := by
  obtain ⟨m, t, h1, _, _, _, _, _, _, _, _, _, h9, _⟩ := C25_load exampleFile3 exampleFile3_solids 0 (by decide) (by decide)
    [] [] { dim := 3 } rfl
  rw [List.append_nil] at h1
  obtain ⟨_, l, _, _, h, _⟩ := h9 1 [6, 5, 4, 7, 8] rfl
  exact ⟨m, t, h1, l, h⟩

/-! ## C19 -/

theorem loadCells3_withB {V : Type} (res : Nat) (ts : List (VTok R)) (b : List Cell) (m : Mesh V) :
    loadCells3 res ts (withB b m) = (loadCells3 res ts m).bind fun r => .ok (withB b r.1, r.2) := by
  unfold loadCells3
  cases readNum ts with
  | ok p =>
    simp only [Res.bind]
    have h1 : (withB b m).cells = m.cells := rfl
    have h2 : (withB b m).edges = m.edges := rfl
    have h3 : (withB b m).midElems 2 = m.midElems 2 := rfl
    rw [h1, h2, h3]
    cases loadCellList3 res (resize m.cells p.1 {}) 0 [] [] m.edges (m.midElems 2) (ignoreLine p.2) <;> rfl
  | _ => rfl

/-- C19 for the 3D VTK reader, up to the boundary cells: whatever the mesh held before, the result is the one
for an empty mesh, except that the boundary cells of the previous content stay. -/
theorem C19_vtk3_partial [Zero R] (res : Nat) (ts : List (VTok R)) (types : List Nat) (m0 : Mesh (Point3 R)) (hd : m0.dim = 3)
    (hmid : m0.mids.length = 1) :
    load3 res ts types m0 =
      (load3 res ts types { dim := 3, mids := [[]] }).bind fun r => .ok ({ r.1 with bCells := m0.bCells }, r.2) := by
  have h := loadFromStream_withB fromVtk3 (loadVertices (id : R × R × R → R × R × R)) (loadCells3 res)
    (loadVertices_withB _) (loadCells3_withB res) ts types m0.bCells { dim := 3, mids := [[]] }
  have e : load3 res ts types m0 = load3 res ts types (withB m0.bCells { dim := 3, mids := [[]] }) := by
    obtain ⟨x, hx⟩ := List.length_eq_one_iff.mp hmid
    have : m0.clear = (withB m0.bCells { dim := 3, mids := [[]] }).clear := by
      simp [Mesh.clear, withB, hx, hd]
    unfold load3 loadFromStream
    rw [this]
  rw [e]
  exact h

/-- C19 is violated by the 3D VTK reader in the same way as by the 2D one. -/
theorem C19_vtk3_violated : ∃ m1 m2 t, load3 0 exampleFile3.tokens [] { dim := 3, mids := [[]] } = .ok (m1, t) ∧
    m1.bCells = [] ∧ load3 0 exampleFile3.tokens [] m1.setupBoundaryCells = .ok (m2, t) ∧ m2.bCells.length = 9 :=
  ⟨_, _, _, rfl, rfl, rfl, by decide⟩

/-! ## C26 -/

/-- C26. A type written by the 2D (3D) writer is read back by the 2D (3D) reader; the codes are those of the
VTK format (3 line, 5 triangle, 9 quadrangle, 7 polygon; 10 tetrahedron, 12 hexahedron, 13 wedge, 14 pyramid). -/
theorem C26_codes (t c : Nat) :
    (toVtk2 t = some c → fromVtk2 c = some t) ∧ (toVtk3 t = some c → fromVtk3 c = some t) := by
  refine ⟨fromVtk2_toVtk2, fun h => ?_⟩
  unfold toVtk3 at h
  split at h <;> cases h <;> rfl

/-- C26. Conversely everything the readers can produce can be written again; the codes for axis-aligned cells
(8 and 11) come back as those of the general ones (9 and 12). -/
theorem C26_read_write (c t : Nat) :
    (fromVtk2 c = some t → toVtk2 t = some c ∨ (c = 8 ∧ toVtk2 t = some 9)) ∧
    (fromVtk3 c = some t → toVtk3 t = some c ∨ (c = 11 ∧ toVtk3 t = some 12)) := by
  constructor
  · intro h
    unfold fromVtk2 at h
    split at h <;> cases h <;> simp [toVtk2]
  · intro h
    unfold fromVtk3 at h
    split at h <;> cases h <;> simp [toVtk3]

/-- C26. A native type without code makes the writers throw `std::out_of_range`. -/
theorem C26_write_unknown (conv : Nat → Option Nat) (types : List Nat) (h : ∃ t ∈ types, conv t = none) :
    codes conv types = .throw .outOfRange := by
  unfold codes
  induction types with
  | nil => simp at h
  | cons x xs ih =>
    cases hx : conv x with
    | none => simp [Std'.forEach, hx, Res.bind]
    | some c =>
      obtain ⟨t, ht, hn⟩ := h
      rcases List.mem_cons.mp ht with rfl | ht
      · rw [hx] at hn; cases hn
      · simp only [Std'.forEach, hx, Res.bind]
        rw [ih ⟨t, ht, hn⟩]

/-- C26 is violated by the readers: a file with an unknown code is accepted (`C22_load` and `C25_load` hold
whatever the codes are); the type of the cell is what the reader object held before, or 0. -/
theorem C26_unknown_violated [Zero R] (F : File R) (hF : F.Solids) (res : Nat)
    (hres : ∀ vs ∈ F.cells, ∀ p ∈ facePolygons vs, res = 0 ∨ p.length ≤ res)
    (hcodes : F.codes.length ≤ F.cells.length) (types : List Nat) (m0 : Mesh (Point3 R))
    (c code : Nat) (hc : F.codes[c]? = some code) (hun : fromVtk3 code = none) :
    ∃ m t, load3 res (F.tokens ++ []) types m0 = .ok (m, t) ∧ t[c]? = some ((types[c]?).getD 0) := by
  obtain ⟨ls, de, df, es, fs, cs, h1, h1', h2, h3, h5, _⟩ := loadCells3_spec F hF res hres m0 (typesTail F [])
  obtain ⟨t, g1, g2, g3⟩ := loadFromStream_spec fromVtk3 (id : R × R × R → R × R × R) (loadCells3 res) F [] types m0
    _ (by rw [List.map_id]; exact h5) h3 hcodes
  refine ⟨_, t, g1, ?_⟩
  have hlt := (List.getElem?_eq_some_iff.mp hc).1
  rw [g3 c, hc]
  have := resize_get types F.cells.length 0 c (by omega)
  simp only [Option.bind_some, hun, Option.none_or]
  exact this

example : ∃ m, load3 0 ({ exampleFile3 with codes := [12, 77] } : File Int).tokens [] { dim := 3 } = .ok (m, [301, 0]) :=
  ⟨_, rfl⟩

end GTMesh.Vtk
