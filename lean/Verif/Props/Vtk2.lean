import Verif.Proofs.Vtk2b
import Verif.Proofs.Vtk2w
import Verif.Props.Fpma

/-! # C22, C23 and part of C19: the VTK format in 2D -/

namespace GTMesh.Vtk
open Spec GTMesh.Props GTMesh.Fpma
variable {R : Type}

/-! ## C22 -/

/-- Result of reading the cells of a 2D file. -/
theorem loadCells2_spec (F : File R) (hF : F.Polygons) (m0 : Mesh (Point2 R))
    (tail : List (VTok R)) :
    ∃ (ls : List (List Idx)) (d : Dict) (es : List Edge) (cs : List Cell), TableInv d es (allPairs F.cells) ∧
      ls.length = F.cells.length ∧ cs.length = F.cells.length ∧ es.length ≤ INVALID ∧
      (∃ r, loadCells2 (.num F.cells.length :: .num F.total :: .nl ::
          (F.cells.flatMap lineTokens ++ .nl :: tail)) { m0.clear with vertices := F.verts.map fun p => (p.1, p.2.1) }
          = .ok ({ m0.clear with vertices := F.verts.map fun p => (p.1, p.2.1), cells := cs, edges := es }, r) ∧
        skipNl r = skipNl tail) ∧
      (∀ (c : Nat) vs, F.cells[c]? = some vs → ∃ l, ls[c]? = some l ∧ EdgesOf es l vs ∧
        ∃ cl, cs[c]? = some cl ∧ cl.index = c ∧ l[0]? = some cl.bElem) ∧
      (∀ l ∈ ls, NoRepetition l) ∧
      (∀ (i : Nat) e, es[i]? = some e → e.conn = connOf (histOf i (chainCalls 0 ls))) := by
  have hne : ∀ vs ∈ F.cells, vs ≠ [] := by
    intro vs hvs h; have := hF.three vs hvs; rw [h] at this; simp at this
  obtain ⟨ls, d, es, cs, r, h1, h2, h3, h4, h5, h6, h7, h8, h9, h10⟩ :=
    loadCellList2_spec (allPairs F.cells) F.cells (resize [] F.cells.length {}) 0 [] []
      (F.cells.flatMap lineTokens ++ .nl   :: tail) _ (TableInv.empty _) (fun p hp => hp) (by simp)
      (by have := hF.fit; omega) (by rw [resize_length]) hne rfl
  have hes : es.length ≤ INVALID := by
    have := hF.edges_fit; simp only [List.length_nil] at h8; omega
  have hnr : ∀ l ∈ ls, NoRepetition l := by
    intro l hl
    obtain ⟨c, hc⟩ := List.getElem?_of_mem hl
    have hlt := (List.getElem?_eq_some_iff.mp hc).1
    have hvs : F.cells[c]? = some (F.cells[c]'(by omega)) := by simp
    obtain ⟨l', a1, a2, _⟩ := h9 c _ hvs
    rw [hc] at a1; cases a1
    exact EdgesOf.nodup a2 (hF.nodup _ (List.mem_of_getElem? hvs)) (hF.three _ (List.mem_of_getElem? hvs))
  have hin : ∀ l ∈ ls, ∀ i ∈ l, i < es.length := by
    intro l hl i hi
    obtain ⟨c, hc⟩ := List.getElem?_of_mem hl
    have hlt := (List.getElem?_eq_some_iff.mp hc).1
    have hvs : F.cells[c]? = some (F.cells[c]'(by omega)) := by simp
    obtain ⟨l', a1, a2, _⟩ := h9 c _ hvs
    rw [hc] at a1; cases a1
    obtain ⟨j, hj⟩ := List.getElem?_of_mem hi
    have hjl := (List.getElem?_eq_some_iff.mp hj).1
    obtain ⟨e, u, v, e1, _, _, ed, e4, _⟩ := a2.2 j (by rw [← a2.1]; exact hjl)
    rw [hj] at e1; cases e1
    exact (List.getElem?_eq_some_iff.mp e4).1
  refine ⟨ls, d, es, cs, h3, h5, h6, hes, ?_, ?_, hnr, ?_⟩
  · refine ⟨r, ?_, h2⟩
    unfold loadCells2
    simp only [readNum_num, Res.bind, ignoreLine, Mesh.clear]
    rw [h1]
  · intro c vs hc
    obtain ⟨l, a1, a2, cl, a3, a4, a5⟩ := h9 c vs hc
    exact ⟨l, a1, a2, cl, a3, by omega, a5⟩
  · intro i e hi
    have hilt := (List.getElem?_eq_some_iff.mp hi).1
    have h := h10 i
    have hc : edgeConnAt es i = e.conn := by simp [edgeConnAt, connAt, hi]
    rw [hc, show edgeConnAt [] i = {} by simp [edgeConnAt, connAt],
      opsOf_allOps i (by omega) ls 0 hnr (fun l hl hm => by have := hin l hl _ hm; omega)] at h
    rw [h]
    obtain ⟨p1, p2⟩ := histOf_increasing i ls 0 hnr
    apply run_hist
    · exact p1.imp fun h => Nat.ne_of_lt h
    · intro p hp hpi
      obtain ⟨c, l, q1, _, q3⟩ := (p2 p.2).mp (List.mem_map_of_mem hp)
      have := (List.getElem?_eq_some_iff.mp q1).1
      have := hF.fit
      omega

/-- C22. Loading a file whose cells are simple polygons into a 2D mesh, whatever the mesh and the reader held
before and whatever follows in the stream, succeeds and gives: the points without their third coordinate; edges
numbered by position, no two of them joining the same two vertices, and each one being a side of a cell; for
each edge the first and the last cell that has it as a side, as left and right cell; for each cell of the file
a cell at the same position whose boundary starts with the edge of its first side; when no side of the cell
belongs to more than two cells, its boundary walk yields exactly its sides in the order of the file; each cell
type is the native type of its code. -/
theorem C22_load [Zero R] (F : File R) (hF : F.Polygons) (hcodes : F.codes.length ≤ F.cells.length) (rest : List (VTok R))
    (types : List Nat) (m0 : Mesh (Point2 R)) (hd : m0.dim = 2) :
    ∃ m t, load2 (F.tokens ++ rest) types m0 = .ok (m, t) ∧ m.dim = 2 ∧
      m.vertices = F.verts.map (fun p => (p.1, p.2.1)) ∧
      (∀ (i : Nat) e, m.edges[i]? = some e → e.index = i) ∧
      (∀ (i j : Nat) e e', m.edges[i]? = some e → m.edges[j]? = some e' → SamePair (e.a, e.b) (e'.a, e'.b) → i = j) ∧
      (∀ e ∈ m.edges, FirstAndLast (fun c => Uses F c e.a e.b) e.conn.left e.conn.right) ∧
      m.cells.length = F.cells.length ∧
      (∀ (c : Nat) vs, F.cells[c]? = some vs → ∃ cl l, m.cells[c]? = some cl ∧ cl.index = c ∧
        EdgesOf m.edges l vs ∧ l[0]? = some cl.bElem ∧
        ((∀ u v, HasSide vs u v → AtMostTwo F u v) → boundaryWalk m c = .ok l)) ∧
      t.length = F.cells.length ∧
      (∀ (c : Nat) code ty, F.codes[c]? = some code → fromVtk2 code = some ty → t[c]? = some ty) := by
  obtain ⟨ls, d, es, cs, h1, h2, h3, h4, h5, h6, h7, h8⟩ := loadCells2_spec F hF m0 (typesTail F rest)
  obtain ⟨t, g1, g2, g3⟩ := loadFromStream_spec fromVtk2 (fun p : R × R × R => (p.1, p.2.1)) loadCells2 F rest types m0
    _ h5 h3 hcodes
  have huniq : ∀ (i j : Nat) e e', es[i]? = some e → es[j]? = some e' → SamePair (e.a, e.b) (e'.a, e'.b) → i = j :=
    fun i j e e' hi hj hs => h1.unique hi hj hs
  have huse : ∀ (i : Nat) e, es[i]? = some e → ∀ c, c ∈ (histOf i (chainCalls 0 ls)).map (·.2) ↔ Uses F c e.a e.b := by
    intro i e hi c
    rw [(histOf_increasing i ls 0 h7).2 c]
    constructor
    · rintro ⟨k, l, a1, a2, a3⟩
      have hk := (List.getElem?_eq_some_iff.mp a1).1
      have hck : c = k := by omega
      subst hck
      obtain ⟨l', b1, b2, _⟩ := h6 c (F.cells[c]'(by omega)) (by simp)
      rw [a1] at b1; cases b1
      exact ⟨_, by simp, (EdgesOf.mem_iff b2 huniq hi).mp a2⟩
    · rintro ⟨vs, a1, a2⟩
      obtain ⟨l, b1, b2, _⟩ := h6 c vs a1
      exact ⟨c, l, b1, (EdgesOf.mem_iff b2 huniq hi).mpr a2, by omega⟩
  refine ⟨_, t, g1, by simpa [Mesh.clear] using hd, rfl, h1.index, huniq, ?_, h3, ?_, g2, ?_⟩
  · intro e he
    obtain ⟨i, hi⟩ := List.getElem?_of_mem he
    simp only at hi
    have hu := huse i e hi
    have hinc := (histOf_increasing i ls 0 h7).1
    have hne : histOf i (chainCalls 0 ls) ≠ [] := by
      intro hnil
      have ho := h1.origin i e hi
      obtain ⟨vs, hvs, hp⟩ := List.mem_flatMap.mp ho
      obtain ⟨j, hj, ha, hb⟩ := mem_consecutive hp
      obtain ⟨c, hc⟩ := List.getElem?_of_mem hvs
      have := (hu c).mpr ⟨vs, hc, j, e.a, e.b, hj, ha, hb, Or.inl rfl⟩
      rw [hnil] at this
      simp at this
    obtain ⟨c, a1, a2, a3, a4⟩ := connOf_sides hinc hne
    rw [h8 i e hi, a2]
    refine ⟨(hu c).mp a1, fun c' hc' => a3 c' ((hu c').mpr hc'), ?_⟩
    rcases a4 with ⟨b1, b2⟩ | ⟨r, b1, b2, b3, b4⟩
    · left
      refine ⟨b2, fun c' hc' => ?_⟩
      have hm := (hu c').mpr hc'
      obtain ⟨q, hq⟩ := List.length_eq_one_iff.mp b1
      rw [hq] at hm a1
      simp at hm a1
      rw [hm, a1]
    · right
      rw [b3]
      exact ⟨b2, (hu r).mp b1, fun c' hc' => b4 c' ((hu c').mpr hc')⟩
  · intro c vs hc
    obtain ⟨l, a1, a2, cl, a3, a4, a5⟩ := h6 c vs hc
    refine ⟨cl, l, a3, a4, a2, a5, fun htwo => ?_⟩
    rw [C09_walk_iff_chain _ (by simp [Mesh.clear, hd]) c cl a3]
    have hvs := List.mem_of_getElem? hc
    have hll : l ∈ ls := List.mem_of_getElem? a1
    have hlne : l ≠ [] := by rintro rfl; simp at a5
    refine ⟨⟨hlne, h7 l hll, ?_⟩, a5⟩
    intro j hj
    obtain ⟨e, u, v, e1, e2, e3, ed, e4, e5⟩ := a2.2 j (by rw [← a2.1]; exact hj)
    rw [List.getElem?_eq_getElem hj] at e1
    cases e1
    refine ⟨ed.conn, ?_, ?_⟩
    · simp only [Mesh.faceConn, Mesh.clear, hd]
      rw [if_pos trivial, show Res.at' es l[j] = .ok ed by simpa using e4]
      rfl
    · rw [h8 _ ed e4]
      have hu := huse _ ed e4
      have hinc := (histOf_increasing l[j] ls 0 h7).1
      have hclt : c < ls.length := (List.getElem?_eq_some_iff.mp a1).1
      have hfit := hF.fit
      apply connOf_next
      · exact hinc.imp fun h => Nat.ne_of_lt h
      · intro p hp hpi
        obtain ⟨k, l', q1, _, q3⟩ := ((histOf_increasing l[j] ls 0 h7).2 p.2).mp (List.mem_map_of_mem hp)
        have := (List.getElem?_eq_some_iff.mp q1).1
        omega
      · have hside : HasSide vs ed.a ed.b := ⟨j, u, v, by rw [← a2.1]; exact hj, e2, e3, SamePair.symm e5⟩
        have h2' := htwo _ _ hside
        rcases Nat.lt_or_ge 2 (histOf l[j] (chainCalls 0 ls)).length with hgt | hle
        · exfalso
          generalize hL : (histOf l[j] (chainCalls 0 ls)).map (·.2) = L at hu hinc
          have hlen : 2 < L.length := by rw [← hL]; simpa using hgt
          have hp := List.pairwise_iff_getElem.mp hinc
          have h01 := hp 0 1 (by omega) (by omega) (by omega)
          have h12 := hp 1 2 (by omega) (by omega) (by omega)
          have := h2' L[0] L[1] L[2] ((hu _).mp (List.getElem_mem _)) ((hu _).mp (List.getElem_mem _))
            ((hu _).mp (List.getElem_mem _))
          omega
        · exact hle
      · have hf := histOf_filter l[j] ls 0 c l a1
        rw [Nat.zero_add, consecutive_filter (h7 l hll) hj (f := l[j])
          (g := l[(j + 1) % l.length]'(Nat.mod_lt _ (by omega))) (by simp [cyc, Nat.mod_eq_of_lt hj])
          (by simp [cyc, Nat.mod_lt _ (Nat.lt_of_le_of_lt (Nat.zero_le j) hj)])] at hf
        have : (l[(j + 1) % l.length]'(Nat.mod_lt _ (by omega)), c) ∈
            (histOf l[j] (chainCalls 0 ls)).filter (fun p => decide (p.2 = c)) := by
          rw [hf]; simp
        exact List.mem_of_mem_filter this
  · intro c code ty hc hty
    rw [g3 c, hc]
    simp [hty]

/-- C22. If moreover no side belongs to more than two cells and the vertex numbers exist, the loaded mesh is
valid in the sense of `Spec/Incidence.lean`, the boundary of each cell being its sides in the order of the
file; hence the properties C10–C13 hold for it. -/
theorem C22_valid [Zero R] (F : File R) (hF : F.Polygons) (hcodes : F.codes.length ≤ F.cells.length) (rest : List (VTok R))
    (types : List Nat) (m0 : Mesh (Point2 R)) (hd : m0.dim = 2) (htwo : ∀ u v, AtMostTwo F u v)
    (hr : ∀ vs ∈ F.cells, ∀ v ∈ vs, v < F.verts.length) :
    ∃ m t bd, load2 (F.tokens ++ rest) types m0 = .ok (m, t) ∧ ValidMesh m bd ∧
      ∀ (c : Nat) vs, F.cells[c]? = some vs → EdgesOf m.edges (bd c) vs := by
  obtain ⟨m, t, h1, h2, h3, h4, h5, h6, h7, h8, _⟩ := C22_load F hF hcodes rest types m0 hd
  have hbd : ∀ (c : Nat), ∃ l, ∀ vs, F.cells[c]? = some vs → ∃ cl, m.cells[c]? = some cl ∧ EdgesOf m.edges l vs ∧
      l[0]? = some cl.bElem ∧ boundaryWalk m c = .ok l := by
    intro c
    cases hc : F.cells[c]? with
    | none => exact ⟨[], by simp⟩
    | some vs =>
      obtain ⟨cl, l, a1, _, a3, a4, a5⟩ := h8 c vs hc
      refine ⟨l, fun vs' hv => ?_⟩
      cases hv
      exact ⟨cl, a1, a3, a4, a5 fun u v _ => htwo u v⟩
  choose bd hbd using hbd
  refine ⟨m, t, bd, h1, ⟨by omega, ?_, ?_⟩, ?_⟩
  · intro i c hc
    have hi : i < F.cells.length := by
      have := (List.getElem?_eq_some_iff.mp hc).1; omega
    obtain ⟨cl, a1, _, _, a4⟩ := hbd i F.cells[i] (by simp [hi])
    rw [C09_walk_iff_chain m (by omega) i c hc] at a4
    exact a4
  · intro d i hd1 hd3 hi s hs
    rw [h2] at hd3
    have : d = 1 ∨ d = 2 := by omega
    rcases this with rfl | rfl
    · simp only [Mesh.numElems, h2] at hi ⊢
      rw [if_neg (by decide), if_neg (by decide), if_pos trivial] at hi
      rw [if_neg (by decide), if_pos (by decide), h3, List.length_map]
      simp only [directSubs, h2] at hs
      rw [if_neg (by decide), if_pos trivial, List.getElem?_eq_getElem hi] at hs
      obtain ⟨⟨vs, hvs, j, a, b, hj, ha, hb, hp⟩, _⟩ := h6 _ (List.getElem_mem hi)
      have hm : ∀ (k : Nat) x, cyc vs k = some x → x < F.verts.length :=
        fun k x hx => hr vs (List.mem_of_getElem? hvs) x (List.mem_of_getElem? hx)
      have h1 := hm _ _ ha
      have h2 := hm _ _ hb
      simp at hs
      rcases hp with hp | hp
      · simp only [Prod.mk.injEq] at hp
        rcases hs with rfl | rfl
        · rw [← hp.1]; exact h1
        · rw [← hp.2]; exact h2
      · simp only at hp
        rcases hs with rfl | rfl
        · rw [← hp.2]; exact h2
        · rw [← hp.1]; exact h1
    · simp only [Mesh.numElems, h2] at hi ⊢
      rw [if_pos trivial] at hi
      rw [if_neg (by decide), if_neg (by decide), if_pos (by decide)]
      simp only [directSubs, h2, if_true] at hs
      obtain ⟨cl, _, a2, _, _⟩ := hbd i (F.cells[i]'(by omega)) (by simp)
      obtain ⟨j, hj⟩ := List.getElem?_of_mem hs
      have hlt := (List.getElem?_eq_some_iff.mp hj).1
      obtain ⟨e, u, v, e1, _, _, ed, e4, _⟩ := a2.2 j (by rw [← a2.1]; exact hlt)
      rw [hj] at e1
      cases e1
      exact (List.getElem?_eq_some_iff.mp e4).1
  · intro c vs hc
    obtain ⟨cl, _, a2, _⟩ := hbd c vs hc
    exact a2

/-- Example: a quadrangle and two triangles; the quadrangle and the first triangle share the side 1-2. -/
def exampleFile : File Int where
  line1 := ["#", "vtk", "DataFile", "Version", "2.0"]
  line2 := ["my", "data"]
  precision := "double"
  verts := [(0, 0, 0), (1, 0, 0), (1, 1, 0), (0, 1, 0), (2, 1, 0), (3, 0, 0)]
  total := 13
  cells := [[0, 1, 2, 3], [2, 1, 4], [1, 5, 4]]
  codes := [9, 5, 5]

theorem exampleFile_polygons : exampleFile.Polygons where
  nodup := by simp only [NoRepetition]; decide
  three := by decide
  fit := by decide
  edges_fit := by decide

instance (vs : List Idx) (u v : Idx) : Decidable (HasSide vs u v) :=
  decidable_of_iff (∃ j, j < vs.length ∧ ∃ a ∈ vs, ∃ b ∈ vs, cyc vs j = some a ∧ cyc vs (j + 1) = some b ∧
      SamePair (a, b) (u, v)) (by
    constructor
    · rintro ⟨j, h1, a, _, b, _, h2, h3, h4⟩; exact ⟨j, a, b, h1, h2, h3, h4⟩
    · rintro ⟨j, a, b, h1, h2, h3, h4⟩
      exact ⟨j, h1, a, List.mem_of_getElem? h2, b, List.mem_of_getElem? h3, h2, h3, h4⟩)

theorem exampleFile_two : ∀ u v, AtMostTwo exampleFile u v := by
  intro u v a b c ⟨vs, ha, hsa⟩ ⟨vs', hb, hsb⟩ ⟨vs'', hc, hsc⟩
  have h3 : ∀ (i : Nat) ws, exampleFile.cells[i]? = some ws → i = 0 ∨ i = 1 ∨ i = 2 := by
    intro i ws hi
    have := (List.getElem?_eq_some_iff.mp hi).1
    simp [exampleFile] at this
    omega
  have hno : ¬ (HasSide [0, 1, 2, 3] u v ∧ HasSide [1, 5, 4] u v) := by
    rintro ⟨h1, h2⟩
    have key : ∀ p ∈ [(0, 1), (1, 2), (2, 3), (3, 0)], ∀ q ∈ [(1, 5), (5, 4), (4, 1)],
      ¬ SamePair (p : Idx × Idx) q := by decide
    have all : ∀ (ws : List Idx), HasSide ws u v → ∃ p ∈ consecutive ws, SamePair p (u, v) := by
      rintro ws ⟨j, x, y, hj, hx, hy, hs⟩
      obtain ⟨x', y', g1, g2, g3⟩ := consecutive_get ws j hj
      rw [hx] at g2; rw [hy] at g3; cases g2; cases g3
      exact ⟨(x, y), List.mem_of_getElem? g1, hs⟩
    obtain ⟨p, hp, hp'⟩ := all _ h1
    obtain ⟨q, hq, hq'⟩ := all _ h2
    exact key p hp q hq (SamePair.trans hp' (SamePair.symm hq'))
  have e0 : ∀ ws, exampleFile.cells[0]? = some ws → ws = [0, 1, 2, 3] := by
    intro ws h; simp [exampleFile] at h; exact h.symm
  have e2 : ∀ ws, exampleFile.cells[2]? = some ws → ws = [1, 5, 4] := by
    intro ws h; simp [exampleFile] at h; exact h.symm
  rcases h3 a vs ha with rfl | rfl | rfl <;> rcases h3 b vs' hb with rfl | rfl | rfl <;>
    rcases h3 c vs'' hc with rfl | rfl | rfl <;> simp <;> exfalso <;> apply hno <;> first
    | exact ⟨e0 _ ha ▸ hsa, e2 _ hb ▸ hsb⟩ | exact ⟨e0 _ ha ▸ hsa, e2 _ hc ▸ hsc⟩ | exact ⟨e0 _ hb ▸ hsb, e2 _ ha ▸ hsa⟩
    | exact ⟨e0 _ hb ▸ hsb, e2 _ hc ▸ hsc⟩ | exact ⟨e0 _ hc ▸ hsc, e2 _ ha ▸ hsa⟩ | exact ⟨e0 _ hc ▸ hsc, e2 _ hb ▸ hsb⟩

example : ∃ m, load2 exampleFile.tokens [] { dim := 2 } = .ok (m, [201, 200, 200]) ∧ m.edges.length = 8 ∧
    boundaryWalk m 0 = .ok [0, 1, 2, 3] ∧ boundaryWalk m 1 = .ok [1, 4, 5] := ⟨_, rfl, by decide, by decide, by decide⟩

/-- C22, counterpart: when three cells have a common side, the middle one loses its place and the walk along
its boundary throws. -/
theorem C22_three_cells : ∃ (F : File Int) (m : Mesh (Point2 Int)) (t : List Nat), F.Polygons ∧
    load2 F.tokens [] { dim := 2 } = .ok (m, t) ∧ boundaryWalk m 1 = .throw .runtimeError := by
  refine ⟨{ exampleFile with cells := [[0, 1, 2], [0, 1, 3], [0, 1, 4]] }, _, _, ⟨?_, by decide, by decide, by decide⟩,
    rfl, by decide⟩
  simp only [NoRepetition]; decide

/-! ## C19 -/

/-- The mesh with other boundary cells. -/
def withB {V : Type} (b : List Cell) (m : Mesh V) : Mesh V := { m with bCells := b }

theorem step {α β γ δ : Type} {A' : Res β} {A : Res α} {w : α → β} {k' : β → Res γ} {k : α → Res δ} {w' : δ → γ}
    (h : A' = A.bind fun r => .ok (w r)) (hk : ∀ p, k' (w p) = (k p).bind fun r => .ok (w' r)) :
    A'.bind k' = (A.bind k).bind fun r => .ok (w' r) := by
  subst h
  cases A with
  | ok p => exact hk p
  | _ => rfl

theorem step' {α γ δ : Type} {A : Res α} {k' : α → Res γ} {k : α → Res δ} {w' : δ → γ}
    (hk : ∀ p, k' p = (k p).bind fun r => .ok (w' r)) : A.bind k' = (A.bind k).bind fun r => .ok (w' r) := by
  cases A with
  | ok p => exact hk p
  | _ => rfl

theorem loadFromStream_withB {V : Type} (conv : Nat → Option Nat)
    (loadV loadC : List (VTok R) → Mesh V → Res (Mesh V × List (VTok R)))
    (hV : ∀ ts b m, loadV ts (withB b m) = (loadV ts m).bind fun r => .ok (withB b r.1, r.2))
    (hC : ∀ ts b m, loadC ts (withB b m) = (loadC ts m).bind fun r => .ok (withB b r.1, r.2))
    (ts : List (VTok R)) (types : List Nat) (b : List Cell) (m : Mesh V) :
    loadFromStream conv loadV loadC ts types (withB b m) =
      (loadFromStream conv loadV loadC ts types m).bind fun r => .ok (withB b r.1, r.2) := by
  have hcl : (withB b m).clear = withB b m.clear := rfl
  unfold loadFromStream
  rw [hcl]
  dsimp only
  split
  · rfl
  split
  · rfl
  split
  · rfl
  have h1 : ∀ (c : Prop) [Decidable c] (x : List (VTok R)) (mm : Mesh V), (if c then loadV x (withB b mm) else .ok (withB b mm, x)) =
      (if c then loadV x mm else .ok (mm, x)).bind fun r => .ok (withB b r.1, r.2) := by
    intro c _ x mm; split
    · exact hV _ _ _
    · rfl
  have h2 : ∀ (c : Prop) [Decidable c] (x : List (VTok R)) (mm : Mesh V), (if c then loadC x (withB b mm) else .ok (withB b mm, x)) =
      (if c then loadC x mm else .ok (mm, x)).bind fun r => .ok (withB b r.1, r.2) := by
    intro c _ x mm; split
    · exact hC _ _ _
    · rfl
  refine step (h1 _ _ _) fun p => ?_
  refine step (h2 _ _ _) fun q => ?_
  dsimp only
  have hq : (withB b q.1).cells = q.1.cells := rfl
  rw [hq]
  refine step' fun t => rfl

theorem loadVertices_withB [Zero R] {V : Type} (proj : R × R × R → V) (ts : List (VTok R)) (b : List Cell) (m : Mesh V) :
    loadVertices proj ts (withB b m) = (loadVertices proj ts m).bind fun r => .ok (withB b r.1, r.2) := by
  unfold loadVertices
  cases readNum ts with
  | ok p =>
    simp only [Res.bind]
    cases readPoints p.1 (ignoreLine p.2) <;> rfl
  | _ => rfl

theorem loadCells2_withB {V : Type} (ts : List (VTok R)) (b : List Cell) (m : Mesh V) :
    loadCells2 ts (withB b m) = (loadCells2 ts m).bind fun r => .ok (withB b r.1, r.2) := by
  unfold loadCells2
  cases readNum ts with
  | ok p =>
    simp only [Res.bind]
    have h1 : (withB b m).cells = m.cells := rfl
    have h2 : (withB b m).edges = m.edges := rfl
    rw [h1, h2]
    cases loadCellList2 (resize m.cells p.1 {}) 0 [] m.edges (ignoreLine p.2) <;> rfl
  | _ => rfl

/-- C19 for the 2D VTK reader, up to the boundary cells: whatever the mesh held before, the result is the one
for an empty mesh, except that the boundary cells of the previous content stay. -/
theorem C19_vtk2_partial [Zero R] (ts : List (VTok R)) (types : List Nat) (m0 : Mesh (Point2 R)) (hd : m0.dim = 2)
    (hmid : m0.mids = []) :
    load2 ts types m0 = (load2 ts types { dim := 2 }).bind fun r => .ok ({ r.1 with bCells := m0.bCells }, r.2) := by
  have h := loadFromStream_withB fromVtk2 (loadVertices fun p : R × R × R => (p.1, p.2.1)) loadCells2
    (loadVertices_withB _) loadCells2_withB ts types m0.bCells { dim := 2 }
  have e : load2 ts types m0 = load2 ts types (withB m0.bCells { dim := 2 }) := by
    have : m0.clear = (withB m0.bCells { dim := 2 }).clear := by
      simp [Mesh.clear, withB, hmid, hd]
    unfold load2 loadFromStream
    rw [this]
  rw [e]
  exact h

/-- C19 is violated by the 2D VTK reader: boundary cells set up for a previous file stay when the same file is
loaded again. -/
theorem C19_vtk2_violated : ∃ m1 m2 t, load2 exampleFile.tokens [] { dim := 2 } = .ok (m1, t) ∧ m1.bCells = [] ∧
    load2 exampleFile.tokens [] m1.setupBoundaryCells = .ok (m2, t) ∧ m2.bCells.length = 6 :=
  ⟨_, _, _, rfl, rfl, rfl, by decide⟩

/-- C19. The cell types kept by a reader object survive too: a code without a native type leaves the type of the
previous file. -/
theorem C19_types_survive : ∃ (ts1 ts2 : List (VTok Int)) (m1 m2 : Mesh (Point2 Int)) (t1 t2 t2' : List Nat),
    load2 ts1 [] { dim := 2 } = .ok (m1, t1) ∧ load2 ts2 t1 m1 = .ok (m2, t2) ∧
    load2 ts2 [] { dim := 2 } = .ok (m2, t2') ∧ t2 ≠ t2' :=
  ⟨exampleFile.tokens, { exampleFile with codes := [9, 77, 5] }.tokens, _, _, _, _, _, rfl, rfl, rfl, by decide⟩

/-! ## C23 -/

theorem chainNext_of_chain {V : Type} {m : Mesh V} (hd : m.dim = 2) {cell : Idx} {l : List Idx}
    (h : ClosedChain m cell l) : ChainNext m.edges cell l := by
  obtain ⟨hne, hn, hl⟩ := h
  have hpos : 0 < l.length := List.length_pos_of_ne_nil hne
  intro s t ht
  have hlt : s % l.length < l.length := Nat.mod_lt _ hpos
  obtain ⟨c, h1, h2⟩ := hl (s % l.length) hlt
  rw [List.getElem?_eq_getElem hlt] at ht
  have ht := Option.some.inj ht
  subst ht
  simp only [Mesh.faceConn, hd, if_true] at h1
  cases he : m.edges[l[s % l.length]]? with
  | none => simp [Res.at', he, Res.bind] at h1
  | some e =>
    simp [Res.at', he, Res.bind] at h1
    subst h1
    refine ⟨e, _, rfl, ?_, h2⟩
    rw [List.getElem?_eq_getElem (Nat.mod_lt _ hpos)]
    congr 1
    congr 1
    rw [Nat.mod_add_mod]

/-- C23. For a cell of a 2D mesh whose boundary walk yields edges that form a simple closed polygon, in any order
and direction of the edges, `indexCell` returns the vertices of the polygon, up to the start and the direction. -/
theorem C23_indexCell {V : Type} (m : Mesh V) (hd : m.dim = 2) (c : Nat) (cl : Cell) (hc : m.cells[c]? = some cl)
    (l vs : List Idx) (hw : boundaryWalk m c = .ok l) (hp : IsPolygon m.edges l vs) :
    ∃ q, indexCell m.edges c cl.bElem = .ok q ∧ SameCycle q vs := by
  rw [C09_walk_iff_chain m (by omega) c cl hc] at hw
  obtain ⟨n, V, E, _, h2, h3⟩ := indexCell_polygon (chainNext_of_chain hd hw.1) hp hw.2
  exact ⟨_, h2, h3⟩

/-- C23. In particular each vertex of the polygon is written once and consecutive ones are joined by an edge of
the boundary of the cell. -/
theorem C23_vertices {V : Type} (m : Mesh V) (hd : m.dim = 2) (c : Nat) (cl : Cell) (hc : m.cells[c]? = some cl)
    (l vs : List Idx) (hw : boundaryWalk m c = .ok l) (hp : IsPolygon m.edges l vs) :
    ∃ q, indexCell m.edges c cl.bElem = .ok q ∧ SameCycle q vs ∧ NoRepetition q ∧ q.length = vs.length ∧
      ∃ es, es.Perm l ∧ EdgesOf m.edges es q := by
  rw [C09_walk_iff_chain m (by omega) c cl hc] at hw
  obtain ⟨n, V, E, h1, h2, h3⟩ := indexCell_polygon (chainNext_of_chain hd hw.1) hp hw.2
  have hperm : ((List.range n).map V).Perm vs := by
    rcases h3 with hc | hc
    · exact hc.perm
    · exact hc.perm.trans (List.reverse_perm _)
  exact ⟨_, h2, h3, hperm.nodup_iff.mpr hp.2.1, hperm.length_eq, _, h1.perm, h1.edgesOf⟩

theorem foldl_total (ls : List (List Idx)) (t : Nat) :
    ls.foldl (fun t verts => t + (verts.length + 1)) t = t + (ls.map fun l => l.length + 1).sum := by
  induction ls generalizing t with
  | nil => simp
  | cons l ls ih => simp [ih]; omega

theorem codes_ok (conv : Nat → Option Nat) (types : List Nat) (h : ∀ t ∈ types, ∃ c, conv t = some c) :
    ∃ cs, codes conv types = .ok cs ∧ cs.length = types.length ∧
      ∀ (i : Nat) t, types[i]? = some t → ∃ c, cs[i]? = some c ∧ conv t = some c := by
  obtain ⟨ys, h1, h2, h3⟩ := forEach_exists
    (body := fun t => match conv t with | some c => Res.ok c | none => .throw .outOfRange) (l := types) (by
      intro t ht
      obtain ⟨c, hc⟩ := h t ht
      exact ⟨c, by simp [hc]⟩)
  refine ⟨ys, h1, h2, fun i t ht => ?_⟩
  obtain ⟨y, y1, y2⟩ := h3 i t ht
  refine ⟨y, y1, ?_⟩
  cases hc : conv t <;> simp [hc] at y2
  rw [y2]

theorem next_side {cn : Conn} {c g : Idx} (h : cn.getNextBElem c = .ok g) : c = cn.left ∨ c = cn.right := by
  unfold Conn.getNextBElem at h
  split at h
  · simp at h
  · split at h
    · right; rename_i h'; exact h'
    · split at h
      · left; rename_i h'; exact h'
      · simp at h

/-- A code written for a type is read as this type. -/
theorem fromVtk2_toVtk2 {t c : Nat} (h : toVtk2 t = some c) : fromVtk2 c = some t := by
  unfold toVtk2 at h
  split at h <;> cases h <;> rfl

/-- What `writeToStream2` writes is a file of polygons: those of the cells up to start and direction. -/
theorem written2 [Zero R] (zero : R) (m : Mesh (Point2 R)) (types : List Nat) (bd poly : Idx → List Idx) (title : List String)
    (hd : m.dim = 2) (hv : ValidMesh m bd) (hidx : ∀ (c : Nat) cl, m.cells[c]? = some cl → cl.index = c)
    (hpoly : ∀ c, c < m.cells.length → IsPolygon m.edges (bd c) (poly c) ∧ 3 ≤ (poly c).length)
    (huniq : ∀ (i j : Nat) e e', m.edges[i]? = some e → m.edges[j]? = some e' →
      SamePair (e.a, e.b) (e'.a, e'.b) → i = j)
    (hcf : m.cells.length ≤ INVALID) (hef : ((List.range m.cells.length).map fun c => (poly c).length).sum ≤ INVALID)
    (htl : types.length = m.cells.length) (htypes : ∀ t ∈ types, ∃ c, toVtk2 t = some c) :
    ∃ ts, ∃ F : File R, writeToStream2 zero m types = .ok ts ∧ header title ++ ts = F.tokens ∧ F.Polygons ∧ (∀ u v, AtMostTwo F u v) ∧
      (∀ vs ∈ F.cells, ∀ v ∈ vs, v < F.verts.length) ∧ F.verts = m.vertices.map (fun p => (p.1, p.2, zero)) ∧
      F.cells.length = m.cells.length ∧ F.codes.length = m.cells.length ∧
      (∀ (c : Nat) t, types[c]? = some t → ∃ code, F.codes[c]? = some code ∧ toVtk2 t = some code) ∧
      ∀ (c : Nat) q, F.cells[c]? = some q → SameCycle q (poly c) := by
  have hchain : ∀ c, c < m.cells.length → ClosedChain m c (bd c) ∧ (bd c)[0]? = some (m.cells[c]?.getD {}).bElem := by
    intro c hc
    have := hv.chain c m.cells[c] (by simp [hc])
    simpa [hc] using this
  have hwalk : ∀ (c : Nat) (hc : c < m.cells.length), ∃ q, indexCell m.edges c m.cells[c].bElem = .ok q ∧
      SameCycle q (poly c) ∧ NoRepetition q ∧ q.length = (poly c).length ∧
      ∃ es, es.Perm (bd c) ∧ EdgesOf m.edges es q := by
    intro c hc
    exact C23_vertices m hd c m.cells[c] (by simp) (bd c) (poly c)
      ((C09_walk_iff_chain m (by omega) c m.cells[c] (by simp) _).mpr (hv.chain c _ (by simp))) (hpoly c hc).1
  obtain ⟨ys, y1, y2, y3⟩ := forEach_exists (body := fun c : Cell => indexCell m.edges c.index c.bElem) (l := m.cells)
    (by
      intro cl hcl
      obtain ⟨c, hc⟩ := List.getElem?_of_mem hcl
      obtain ⟨hlt, hce⟩ := List.getElem?_eq_some_iff.mp hc
      obtain ⟨q, hq, _⟩ := hwalk c hlt
      rw [hidx c cl hc, ← hce]
      exact ⟨q, hq⟩)
  have hys : ∀ (c : Nat) q, ys[c]? = some q → c < m.cells.length ∧ SameCycle q (poly c) ∧ NoRepetition q ∧
      q.length = (poly c).length ∧ ∃ es, es.Perm (bd c) ∧ EdgesOf m.edges es q := by
    intro c q hq
    have hlt : c < m.cells.length := by
      have := (List.getElem?_eq_some_iff.mp hq).1; omega
    obtain ⟨y, z1, z2⟩ := y3 c m.cells[c] (by simp [hlt])
    rw [hq] at z1
    cases z1
    obtain ⟨q', w1, w2⟩ := hwalk c hlt
    rw [hidx c m.cells[c] (by simp), w1] at z2
    cases z2
    exact ⟨hlt, w2⟩
  obtain ⟨cs, k1, k2, k3⟩ := codes_ok toVtk2 types htypes
  let F : File R := ⟨["#", "vtk", "DataFile", "Version", "2.0"], title, "double",
    m.vertices.map (fun p => (p.1, p.2, zero)), totalNumbers ys, ys, cs⟩
  have hlens : ys.map List.length = (List.range m.cells.length).map fun c => (poly c).length := by
    apply List.ext_getElem
    · simp [y2]
    · intro i h1 h2
      simp only [List.length_map] at h1
      simp only [List.getElem_map, List.getElem_range]
      exact (hys i ys[i] (by simp)).2.2.2.1
  have hF : F.Polygons := by
    refine ⟨?_, ?_, by simp only [F, y2]; exact hcf, ?_⟩
    · intro q hq
      obtain ⟨c, hc⟩ := List.getElem?_of_mem hq
      exact (hys c q hc).2.2.1
    · intro q hq
      obtain ⟨c, hc⟩ := List.getElem?_of_mem hq
      obtain ⟨a1, _, _, a4, _⟩ := hys c q hc
      rw [a4]; exact (hpoly c a1).2
    · simp only [F, hlens]; exact hef
  have hedge : ∀ (a : Nat) u v, Uses F a u v → ∃ i ∈ bd a, a < m.cells.length ∧ Joins m.edges i u v := by
    rintro a u v ⟨q, hq, j, x, y, hj, hx, hy, hs⟩
    obtain ⟨a1, _, _, _, es, a5, a6⟩ := hys a q hq
    obtain ⟨i, x', y', b1, b2, b3, ed, b4, b5⟩ := a6.2 j hj
    rw [hx] at b2; rw [hy] at b3; cases b2; cases b3
    exact ⟨i, a5.mem_iff.mp (List.mem_of_getElem? b1), a1, ed, b4, SamePair.trans b5 hs⟩
  have hside : ∀ (a : Nat) i e, i ∈ bd a → a < m.cells.length → m.edges[i]? = some e →
      a = e.conn.left ∨ a = e.conn.right := by
    intro a i e hi ha he
    obtain ⟨p, hp⟩ := List.getElem?_of_mem hi
    have hpl := (List.getElem?_eq_some_iff.mp hp).1
    obtain ⟨e', t', c1, _, c3⟩ := chainNext_of_chain hd (hchain a ha).1 p i (by rw [Nat.mod_eq_of_lt hpl]; exact hp)
    rw [he] at c1
    cases c1
    exact next_side c3
  have htwo : ∀ u v, AtMostTwo F u v := by
    intro u v a b c ha hb hc
    obtain ⟨i, i1, i2, e, i3, i4⟩ := hedge a u v ha
    obtain ⟨j, j1, j2, e', j3, j4⟩ := hedge b u v hb
    obtain ⟨k, l1, l2, e'', l3, l4⟩ := hedge c u v hc
    have hij := huniq i j e e' i3 j3 (SamePair.trans i4 (SamePair.symm j4))
    have hik := huniq i k e e'' i3 l3 (SamePair.trans i4 (SamePair.symm l4))
    subst hij hik
    rw [i3] at j3 l3
    cases j3; cases l3
    have h1 := hside a i e i1 i2 i3
    have h2 := hside b i e j1 j2 i3
    have h3 := hside c i e l1 l2 i3
    omega
  refine ⟨pointsSection (m.vertices.map fun p => (p.1, p.2, zero)) ++ cellsSection m.cells.length ys
    ++ typesSection m.cells.length cs, F, ?_, ?_, hF, htwo, ?_, rfl, y2, by simp [F, k2, htl], k3, fun c q hq => (hys c q hq).2.1⟩
  · unfold writeToStream2 indexMesh2
    rw [y1]
    simp only [Res.bind]
    rw [k1]
  · simp [header, pointsSection, cellsSection, typesSection, File.tokens, F, y2, k2, htl]
    rfl
  · intro q hq v hvq
    obtain ⟨c, hc⟩ := List.getElem?_of_mem hq
    obtain ⟨a1, _, _, _, es, a5, a6⟩ := hys c q hc
    obtain ⟨j, hj⟩ := List.getElem?_of_mem hvq
    have hjl := (List.getElem?_eq_some_iff.mp hj).1
    obtain ⟨i, x, y, b1, b2, _, ed, b4, b5⟩ := a6.2 j hjl
    rw [cyc, Nat.mod_eq_of_lt hjl, hj] at b2
    cases b2
    have hi : i < m.numElems 1 := by
      unfold Mesh.numElems
      rw [if_neg (by omega), if_neg (by decide), if_pos rfl]
      exact (List.getElem?_eq_some_iff.mp b4).1
    have hr := hv.range 1 i (by omega) (by omega) hi
    have hds : directSubs m bd 1 i = [ed.a, ed.b] := by
      unfold directSubs; rw [if_neg (by omega), if_pos rfl, b4]; rfl
    rw [hds] at hr
    have hn : m.numElems (1 - 1) = m.vertices.length := by
      unfold Mesh.numElems; rw [if_neg (by omega), if_pos rfl]
    rw [hn] at hr
    have : v = ed.a ∨ v = ed.b := by
      unfold SamePair at b5
      simp only [Prod.mk.injEq] at b5
      omega
    simp only [F, List.length_map]
    rcases this with rfl | rfl
    · exact hr _ (by simp)
    · exact hr _ (by simp)

/-- C23, round trip. Writing (header and content) a valid 2D mesh whose cells are simple polygons with at least
three vertices (`poly c` for cell `c`), no two edges joining the same two vertices, with a known type for each
cell, and reading the result into any 2D mesh, gives the same points, the same polygons up to start and
direction, as boundaries of the cells in the same order, and the same cell types. -/
theorem C23_round_trip [Zero R] (zero : R) (m : Mesh (Point2 R)) (types : List Nat) (bd poly : Idx → List Idx) (title : List String)
    (hd : m.dim = 2) (hv : ValidMesh m bd) (hidx : ∀ (c : Nat) cl, m.cells[c]? = some cl → cl.index = c)
    (hpoly : ∀ c, c < m.cells.length → IsPolygon m.edges (bd c) (poly c) ∧ 3 ≤ (poly c).length)
    (huniq : ∀ (i j : Nat) e e', m.edges[i]? = some e → m.edges[j]? = some e' →
      SamePair (e.a, e.b) (e'.a, e'.b) → i = j)
    (hcf : m.cells.length ≤ INVALID) (hef : ((List.range m.cells.length).map fun c => (poly c).length).sum ≤ INVALID)
    (htl : types.length = m.cells.length) (htypes : ∀ t ∈ types, ∃ c, toVtk2 t = some c)
    (types0 : List Nat) (m0 : Mesh (Point2 R)) (hd0 : m0.dim = 2) :
    ∃ ts m', writeToStream2 zero m types = .ok ts ∧ load2 (header title ++ ts) types0 m0 = .ok (m', types) ∧
      m'.vertices = m.vertices ∧ m'.cells.length = m.cells.length ∧
      ∀ c, c < m.cells.length → ∃ l q, boundaryWalk m' c = .ok l ∧ EdgesOf m'.edges l q ∧ SameCycle q (poly c) := by
  obtain ⟨ts, F, f1, f2, hF, htwo, _, f3, f4, f5, k3, f6⟩ := written2 zero m types bd poly title hd hv hidx hpoly huniq hcf hef htl htypes
  obtain ⟨m', t, h1, h2, h3, _, _, _, h7, h8, h9, h10⟩ := C22_load F hF (by omega) [] types0 m0 hd0
  rw [List.append_nil, ← f2] at h1
  have ht : t = types := by
    apply List.ext_getElem?
    intro c
    rcases Nat.lt_or_ge c types.length with hlt | hge
    · obtain ⟨code, c1, c2⟩ := k3 c types[c] (by simp [hlt])
      rw [h10 c code types[c] c1 (fromVtk2_toVtk2 c2)]
      simp [hlt]
    · rw [List.getElem?_eq_none hge, List.getElem?_eq_none (by rw [h9]; omega)]
  subst ht
  refine ⟨ts, m', f1, h1, ?_, by rw [h7, f4], ?_⟩
  · rw [h3, f3]
    simp only [List.map_map]
    have : ((fun p : R × R × R => (p.1, p.2.1)) ∘ fun p : Point2 R => (p.1, p.2, zero)) = id := rfl
    rw [this]
    exact List.map_id _
  · intro c hc
    have hq : F.cells[c]? = some (F.cells[c]'(by omega)) := by simp [f4, hc]
    obtain ⟨cl, l, _, _, a3, _, a5⟩ := h8 c _ hq
    exact ⟨l, _, a5 fun u v _ => htwo u v, a3, f6 c _ hq⟩

theorem toVtk2_of_fromVtk2 {t c : Nat} (h : fromVtk2 c = some t) : ∃ c', toVtk2 t = some c' := by
  unfold fromVtk2 at h
  split at h <;> cases h <;> exact ⟨_, rfl⟩

/-- C23 for what the reader produces: reading a file of simple polygons, no side belonging to more than two of
them, with existing vertices and known type codes, writing the mesh with the types that were read and reading the
result again gives the polygons of the file, up to start and direction, and the same types. -/
theorem C23_reader [Zero R] (zero : R) (F : File R) (hF : F.Polygons) (hcodes : F.codes.length = F.cells.length)
    (hknown : ∀ code ∈ F.codes, ∃ t, fromVtk2 code = some t) (htwo : ∀ u v, AtMostTwo F u v)
    (hr : ∀ vs ∈ F.cells, ∀ v ∈ vs, v < F.verts.length) (title : List String) :
    ∃ m t ts m', load2 F.tokens [] { dim := 2 } = .ok (m, t) ∧ writeToStream2 zero m t = .ok ts ∧
      load2 (header title ++ ts) [] { dim := 2 } = .ok (m', t) ∧ m'.vertices = m.vertices ∧
      m'.cells.length = F.cells.length ∧
      ∀ (c : Nat) vs, F.cells[c]? = some vs →
        ∃ l q, boundaryWalk m' c = .ok l ∧ EdgesOf m'.edges l q ∧ SameCycle q vs := by
  obtain ⟨m, t, bd, h1, h2, h3⟩ := C22_valid F hF (by omega) [] [] { dim := 2 } rfl htwo hr
  rw [List.append_nil] at h1
  obtain ⟨m1, t1, g1, g2, g3, g4, g5, g6, g7, g8, g9, g10⟩ := C22_load F hF (by omega) [] [] { dim := 2 } rfl
  rw [List.append_nil, h1] at g1
  cases g1
  have hsome : ∀ (c : Nat), c < m.cells.length → F.cells[c]? = some ((F.cells[c]?).getD []) := by
    intro c hc
    rw [g7] at hc
    simp [hc]
  have hbd : ∀ c, c < m.cells.length → NoRepetition (bd c) := by
    intro c hc
    exact (h2.chain c m.cells[c] (by simp)).1.2.1
  obtain ⟨ts, m', w1, w2, w3, w4, w5⟩ := C23_round_trip zero m t bd (fun c => (F.cells[c]?).getD []) title g2 h2
    (by
      intro c cl hc
      have hlt := (List.getElem?_eq_some_iff.mp hc).1
      obtain ⟨cl', l, a1, a2, _⟩ := g8 c _ (hsome c hlt)
      rw [hc] at a1
      cases a1
      exact a2)
    (by
      intro c hc
      have hm := List.mem_of_getElem? (hsome c hc)
      have h3' := hF.three _ hm
      refine ⟨⟨?_, hF.nodup _ hm, hbd c hc, bd c, List.Perm.refl _, h3 c _ (hsome c hc)⟩, h3'⟩
      intro hnil
      rw [hnil] at h3'
      simp at h3')
    g5 (by rw [g7]; exact hF.fit)
    (by
      have : ((List.range m.cells.length).map fun c => ((F.cells[c]?).getD []).length) = F.cells.map List.length := by
        apply List.ext_getElem
        · simp [g7]
        · intro i a1 a2
          simp only [List.length_map] at a2
          simp [a2]
      rw [this]
      exact hF.edges_fit)
    (by rw [g9, g7])
    (by
      intro ty hty
      obtain ⟨c, hc⟩ := List.getElem?_of_mem hty
      have hlt := (List.getElem?_eq_some_iff.mp hc).1
      rw [g9, ← hcodes] at hlt
      obtain ⟨ty', hk⟩ := hknown F.codes[c] (List.getElem_mem hlt)
      have := g10 c _ ty' (by simp [hlt]) hk
      rw [hc] at this
      cases this
      exact toVtk2_of_fromVtk2 hk)
    [] { dim := 2 } rfl
  refine ⟨m, t, ts, m', h1, w1, w2, w3, by rw [w4, g7], ?_⟩
  intro c vs hc
  have hlt : c < m.cells.length := by
    rw [g7]; exact (List.getElem?_eq_some_iff.mp hc).1
  obtain ⟨l, q, a1, a2, a3⟩ := w5 c hlt
  refine ⟨l, q, a1, a2, ?_⟩
  simpa [hc] using a3

example : ∃ m t ts m', load2 exampleFile.tokens [] { dim := 2 } = .ok (m, t) ∧ writeToStream2 0 m t = .ok ts ∧
    load2 (header ["my", "mesh"] ++ ts) [] { dim := 2 } = .ok (m', t) ∧ m'.vertices = m.vertices ∧
      m'.cells.length = 3 ∧
      ∀ (c : Nat) vs, exampleFile.cells[c]? = some vs →
        ∃ l q, boundaryWalk m' c = .ok l ∧ EdgesOf m'.edges l q ∧ SameCycle q vs :=
  C23_reader 0 exampleFile exampleFile_polygons rfl
    (by intro c hc; simp [exampleFile] at hc; rcases hc with rfl | rfl <;> exact ⟨_, rfl⟩) exampleFile_two (by decide) _

/-- The triangle 2-1-4 of the example, whose first edge belongs to the quadrangle first, is written from vertex 2
on: `indexCell` starts at the second end of the edge. -/
example : ∃ m t, load2 exampleFile.tokens [] { dim := 2 } = .ok (m, t) ∧ indexCell m.edges 1 1 = .ok [2, 1, 4] :=
  ⟨_, _, rfl, by decide⟩

end GTMesh.Vtk
