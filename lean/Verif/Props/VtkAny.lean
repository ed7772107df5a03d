import Verif.Proofs.VtkAny
import Verif.Proofs.Solid
import Verif.Props.Vtk2
import Verif.Props.Vtk3

/-! # C82: VTK files that do not describe a mesh -/

namespace GTMesh.Vtk
open Spec GTMesh.Props
variable {R : Type}

/-- The types of the file that the reader stores belong to cells of the file. -/
def TypesFit (conv : Nat → Option Nat) (F : File R) : Prop := ∀ (i : Nat) c, F.codes[i]? = some c → F.cells.length ≤ i → conv c = none

theorem store_iff (conv : Nat → Option Nat) (F : File R) (types : List Nat) {V : Type} (m : Mesh V) (hm : m.cells.length = F.cells.length) :
    (TypesFit conv F → ∃ t, ((storeTypes conv 0 F.codes (resize types m.cells.length 0)).bind fun t => Res.ok (m, t)) = .ok (m, t)) ∧
    (¬ TypesFit conv F → ((storeTypes conv 0 F.codes (resize types m.cells.length 0)).bind fun t => Res.ok (m, t)) = .throw .outOfRange) := by
  obtain ⟨s1, s2⟩ := storeTypes_any conv F.codes 0 (resize types m.cells.length 0)
  rw [resize_length, hm] at s1 s2
  rw [hm]
  constructor
  · intro h
    obtain ⟨t, ht⟩ := s1 fun i c hc hl => h i c hc (by omega)
    exact ⟨t, by rw [ht]; rfl⟩
  · intro h
    unfold TypesFit at h
    push Not at h
    obtain ⟨i, c, h1, h2, h3⟩ := h
    rw [s2 ⟨i, c, h1, by omega, h3⟩]
    rfl

/-- C82, which complete 2D files are accepted, whatever their numbers are: all of them, but for those with the type of a cell that does not exist, which are
refused with `std::out_of_range`. The numbers of the vertices, the number of vertices of a cell, repeated vertices and sides with more than two cells are not
checked. -/
theorem C82_accepted2_partial [Zero R] (F : File R) (rest : List (VTok R)) (types : List Nat) (m0 : Mesh (Point2 R)) :
    ((∃ r, load2 (F.tokens ++ rest) types m0 = .ok r) ↔ TypesFit fromVtk2 F) ∧
    ((∀ r, load2 (F.tokens ++ rest) types m0 ≠ .ok r) → load2 (F.tokens ++ rest) types m0 = .throw .outOfRange) := by
  obtain ⟨cs, es, r, h1, h2, h3⟩ := loadCellList2_any F.cells (resize [] F.cells.length {}) 0 [] []
      (F.cells.flatMap lineTokens ++ .nl :: typesTail F rest) (.nl :: typesTail F rest) (DictIn.nil _) (by rw [resize_length]) rfl
  have h := (loadFromStream_any fromVtk2 (fun p : R × R × R => (p.1, p.2.1)) loadCells2 F rest types m0).2
    { m0.clear with vertices := F.verts.map fun p => (p.1, p.2.1), cells := cs, edges := es } r (by
      unfold loadCells2
      simp only [readNum_num, Res.bind, ignoreLine, Mesh.clear]
      rw [h1]) h2
  obtain ⟨a, b⟩ := store_iff fromVtk2 F types
    { m0.clear with vertices := F.verts.map fun p => (p.1, p.2.1), cells := cs, edges := es } h3
  unfold load2
  rw [h]
  by_cases ht : TypesFit fromVtk2 F
  · obtain ⟨t, e⟩ := a ht
    rw [e]
    exact ⟨⟨fun _ => ht, fun _ => ⟨_, rfl⟩⟩, fun hn => absurd rfl (hn _)⟩
  · rw [b ht]
    exact ⟨⟨fun ⟨_, e⟩ => (by cases e), fun h' => absurd h' ht⟩, fun _ => rfl⟩

/-- C82, which complete 3D files are accepted by a mesh that can hold faces of four vertices: those with 4, 5, 6 or 8 vertices in each cell and no type of a cell
that does not exist. The others are refused with `std::out_of_range`. The numbers of the vertices, repeated vertices, faces with more than two cells and whether the
type of a cell agrees with its vertices are not checked. -/
theorem C82_accepted3_partial [Zero R] (F : File R) (rest : List (VTok R)) (types : List Nat) (m0 : Mesh (Point3 R)) (res : Nat)
    (hres : res = 0 ∨ 4 ≤ res) :
    ((∃ r, load3 res (F.tokens ++ rest) types m0 = .ok r) ↔
      (∀ vs ∈ F.cells, vs.length = 4 ∨ vs.length = 5 ∨ vs.length = 6 ∨ vs.length = 8) ∧ TypesFit fromVtk3 F) ∧
    ((∀ r, load3 res (F.tokens ++ rest) types m0 ≠ .ok r) → load3 res (F.tokens ++ rest) types m0 = .throw .outOfRange) := by
  obtain ⟨g1, g2⟩ := loadCellList3_any res hres F.cells (resize [] F.cells.length {}) 0 [] [] [] []
      (F.cells.flatMap lineTokens ++ .nl :: typesTail F rest) (.nl :: typesTail F rest) (DictIn.nil _) (DictIn.nil _) (by rw [resize_length]) rfl
  obtain ⟨a1, a2⟩ := loadFromStream_any fromVtk3 (id : R × R × R → R × R × R) (loadCells3 res) F rest types m0
  have hm : (Mesh.midElems { m0.clear with vertices := F.verts.map id } 2) = [] := by
    simp only [Mesh.midElems, Mesh.clear, List.getElem?_map]
    cases h : m0.mids[2 - 2]? <;> rfl
  unfold load3
  by_cases hk : ∀ vs ∈ F.cells, vs.length = 4 ∨ vs.length = 5 ∨ vs.length = 6 ∨ vs.length = 8
  · obtain ⟨cs, es, fs, r, h1, h2, h3⟩ := g1 hk
    have h := a2 { m0.clear with vertices := F.verts.map id, cells := cs, edges := es, mids := [fs] } r (by
      unfold loadCells3
      simp only [readNum_num, Res.bind, ignoreLine]
      rw [hm]
      simp only [Mesh.clear]
      rw [h1]) h2
    obtain ⟨a, b⟩ := store_iff fromVtk3 F types { m0.clear with vertices := F.verts.map id, cells := cs, edges := es, mids := [fs] } h3
    rw [h]
    by_cases ht : TypesFit fromVtk3 F
    · obtain ⟨t, e⟩ := a ht
      rw [e]
      exact ⟨⟨fun _ => ⟨hk, ht⟩, fun _ => ⟨_, rfl⟩⟩, fun hn => absurd rfl (hn _)⟩
    · rw [b ht]
      exact ⟨⟨fun ⟨_, e⟩ => (by cases e), fun h' => absurd h'.2 ht⟩, fun _ => rfl⟩
  · have h := a1 .outOfRange (by
      unfold loadCells3
      simp only [readNum_num, Res.bind, ignoreLine]
      rw [hm]
      simp only [Mesh.clear]
      rw [g2 (by push Not at hk ⊢; exact hk)])
    rw [h]
    exact ⟨⟨fun ⟨_, e⟩ => (by cases e), fun h' => absurd h'.1 hk⟩, fun _ => rfl⟩

/-! ## What is accepted -/

/-- A cell between the first and the last of the cells of a facet is not registered. -/
theorem middle_unregistered {p : Nat → Prop} {cn : Conn} (h : FirstAndLast p cn.left cn.right) {a b c : Nat} (ha : p a) (hb : p b) (hc : p c)
    (hab : a < b) (hbc : b < c) (g : Idx) : cn.getNextBElem b ≠ .ok g := by
  intro hg
  obtain ⟨h1, h2, h3⟩ := h
  have := h2 a ha
  rcases next_side hg with h | h
  · omega
  · rcases h3 with ⟨-, h4⟩ | ⟨-, -, h4⟩
    · have := h4 a ha; have := h4 b hb; omega
    · have := h4 c hc; omega

theorem three_ordered {p : Nat → Prop} (h : ¬ ∀ a b c, p a → p b → p c → a = b ∨ b = c ∨ a = c) : ∃ a b c, p a ∧ p b ∧ p c ∧ a < b ∧ b < c := by
  push Not at h
  obtain ⟨a, b, c, ha, hb, hc, h1, h2, h3⟩ := h
  rcases Nat.lt_or_gt_of_ne h1 with h1 | h1 <;> rcases Nat.lt_or_gt_of_ne h2 with h2 | h2 <;> rcases Nat.lt_or_gt_of_ne h3 with h3 | h3
  · exact ⟨a, b, c, ha, hb, hc, h1, h2⟩
  · omega
  · exact ⟨a, c, b, ha, hc, hb, h3, h2⟩
  · exact ⟨c, a, b, hc, ha, hb, h3, h1⟩
  · exact ⟨b, a, c, hb, ha, hc, h1, h3⟩
  · exact ⟨b, c, a, hb, hc, ha, h2, h3⟩
  · omega
  · exact ⟨c, b, a, hc, hb, ha, h2, h1⟩

/-- C82, what is accepted in 2D: a file of polygons is loaded, and then the walk along the boundary of each cell gives the sides of its polygon if and only if no side
belongs to more than two cells. -/
theorem C82_shown2_partial [Zero R] (F : File R) (hF : F.Polygons) (hcodes : F.codes.length ≤ F.cells.length) (rest : List (VTok R))
    (types : List Nat) (m0 : Mesh (Point2 R)) (hd : m0.dim = 2) :
    ∃ m t, load2 (F.tokens ++ rest) types m0 = .ok (m, t) ∧
      ((∀ (c : Nat) vs, F.cells[c]? = some vs → ∃ l, EdgesOf m.edges l vs ∧ boundaryWalk m c = .ok l) ↔ ∀ u v, AtMostTwo F u v) := by
  obtain ⟨m, t, h1, h2, -, -, -, h6, -, h8, -⟩ := C22_load F hF hcodes rest types m0 hd
  refine ⟨m, t, h1, fun hw u v => ?_, fun htwo c vs hc => ?_⟩
  · by_contra hn
    obtain ⟨a, b, c, ha, hb, hc, hab, hbc⟩ := three_ordered hn
    obtain ⟨vs, v1, j, x, y, v2, v3, v4, v5⟩ := hb
    obtain ⟨l, l1, l2⟩ := hw b vs v1
    obtain ⟨cl, -, c1, -⟩ := h8 b vs v1
    rw [C09_walk_iff_chain m (by omega) b cl c1] at l2
    obtain ⟨e, x', y', e1, e2, e3, ed, e4, e5⟩ := l1.2 j v2
    rw [v3] at e2; cases e2
    rw [v4] at e3; cases e3
    have hjl : j < l.length := (List.getElem?_eq_some_iff.mp e1).1
    obtain ⟨cn, k1, k2⟩ := l2.1.2.2 j hjl
    rw [List.getElem?_eq_getElem hjl] at e1
    cases e1
    simp only [Mesh.faceConn, h2] at k1
    rw [if_pos trivial, show Res.at' m.edges l[j] = .ok ed by simpa using e4] at k1
    cases k1
    have hs : SamePair (ed.a, ed.b) (u, v) := SamePair.trans e5 v5
    have hU : ∀ d, Uses F d u v → Uses F d ed.a ed.b := fun d ⟨ws, w1, i, p, q, w2, w3, w4, w5⟩ => ⟨ws, w1, i, p, q, w2, w3, w4, SamePair.trans w5 (SamePair.symm hs)⟩
    exact middle_unregistered (h6 ed (List.mem_of_getElem? e4)) (hU a ha) ⟨vs, v1, j, x, y, v2, v3, v4, SamePair.symm e5⟩ (hU c hc) hab hbc _ k2
  · obtain ⟨cl, l, -, -, l1, -, l2⟩ := h8 c vs hc
    exact ⟨l, l1, l2 fun u v _ => htwo u v⟩

/-- C82, what is accepted in 3D: a file of solids is loaded, and then the walk along the boundary of each cell gives its faces if and only if no face belongs to more
than two cells. -/
theorem C82_shown3_partial [Zero R] (F : File R) (hF : F.Solids) (res : Nat)
    (hres : ∀ vs ∈ F.cells, ∀ p ∈ facePolygons vs, res = 0 ∨ p.length ≤ res) (hcodes : F.codes.length ≤ F.cells.length) (rest : List (VTok R))
    (types : List Nat) (m0 : Mesh (Point3 R)) (hd : m0.dim = 3) :
    ∃ m t, load3 res (F.tokens ++ rest) types m0 = .ok (m, t) ∧
      ((∀ (c : Nat) vs, F.cells[c]? = some vs → ∃ l, FacesOf m.edges (m.midElems 2) l vs ∧ boundaryWalk m c = .ok l) ↔
        ∀ vs ∈ F.cells, ∀ p ∈ facePolygons vs, AtMostTwoFace F p) := by
  obtain ⟨m, t, h1, h2, -, -, -, h5, h6, h7, -, -, h9, -⟩ := C25_load F hF res hres hcodes rest types m0 hd
  refine ⟨m, t, h1, fun hw vs0 hvs0 p0 hp0 => ?_, fun htwo c vs hc => ?_⟩
  · by_contra hn
    obtain ⟨a, b, c, ha, hb, hc, hab, hbc⟩ := three_ordered hn
    obtain ⟨vs, v1, q, v2, v3⟩ := hb
    obtain ⟨l, l1, l2⟩ := hw b vs v1
    obtain ⟨cl, -, c1, -⟩ := h9 b vs v1
    rw [C09_walk_iff_chain m (by omega) b cl c1] at l2
    obtain ⟨j, hj⟩ := List.getElem?_of_mem v2
    obtain ⟨i, x, e1, e2, e3⟩ := l1.2 j q hj
    have hjl : j < l.length := (List.getElem?_eq_some_iff.mp e1).1
    obtain ⟨cn, k1, k2⟩ := l2.1.2.2 j hjl
    rw [List.getElem?_eq_getElem hjl] at e1
    cases e1
    simp only [Mesh.faceConn, h2] at k1
    rw [if_neg (by decide), show Res.at' (m.midElems (3 - 1)) l[j] = .ok x by simpa using e2] at k1
    cases k1
    obtain ⟨r, r1, r2⟩ := h7 x (List.mem_of_getElem? e2)
    have hqr : SameSides q r := (perm_iff_sameSides h5 e3 r1).mp (List.Perm.refl _)
    have hU : ∀ d, UsesFace F d p0 → UsesFace F d r := fun d ⟨ws, w1, s, w2, w3⟩ =>
      ⟨ws, w1, s, w2, fun u v => (hqr u v).symm.trans ((v3 u v).symm.trans (w3 u v))⟩
    exact middle_unregistered r2 (hU a ha) ⟨vs, v1, q, v2, fun u v => (hqr u v).symm⟩ (hU c hc) hab hbc _ k2
  · obtain ⟨cl, l, -, -, l1, -, -, l2⟩ := h9 c vs hc
    exact ⟨l, l1, l2 fun p hp => htwo vs (List.mem_of_getElem? hc) p hp⟩

/-! ## Cells that share a side or a face with two others -/

/-- C82, false of the code: a 2D file in which three polygons have the same side is loaded without an error, and the walk along the boundary of some cell does not
give the sides of its polygon. -/
theorem C82_three2_violated [Zero R] (F : File R) (hF : F.Polygons) (hcodes : F.codes.length ≤ F.cells.length) (a b c : Nat) (u v : Idx)
    (ha : Uses F a u v) (hb : Uses F b u v) (hc : Uses F c u v) (hne : a ≠ b ∧ b ≠ c ∧ a ≠ c) :
    ∃ m t, load2 F.tokens [] { dim := 2 } = .ok (m, t) ∧
      ∃ (d : Nat) (vs : List Idx), F.cells[d]? = some vs ∧ ∀ l, EdgesOf m.edges l vs → boundaryWalk m d ≠ .ok l := by
  obtain ⟨m, t, h1, h2⟩ := C82_shown2_partial F hF hcodes [] [] { dim := 2 } rfl
  rw [List.append_nil] at h1
  refine ⟨m, t, h1, ?_⟩
  by_contra h
  push Not at h
  rcases h2.mp h u v a b c ha hb hc with h | h | h
  · exact hne.1 h
  · exact hne.2.1 h
  · exact hne.2.2 h

/-- C82, false of the code: a 3D file in which three solids have the same face is loaded without an error, and the walk along the boundary of some cell does not
give the faces of its solid. -/
theorem C82_three3_violated [Zero R] (F : File R) (hF : F.Solids) (hcodes : F.codes.length ≤ F.cells.length) (a b c : Nat) (vs p : List Idx)
    (hvs : vs ∈ F.cells) (hp : p ∈ facePolygons vs) (ha : UsesFace F a p) (hb : UsesFace F b p) (hc : UsesFace F c p) (hne : a ≠ b ∧ b ≠ c ∧ a ≠ c) :
    ∃ m t, load3 0 F.tokens [] { dim := 3 } = .ok (m, t) ∧
      ∃ (d : Nat) (ws : List Idx), F.cells[d]? = some ws ∧ ∀ l, FacesOf m.edges (m.midElems 2) l ws → boundaryWalk m d ≠ .ok l := by
  obtain ⟨m, t, h1, h2⟩ := C82_shown3_partial F hF 0 (fun _ _ _ _ => .inl rfl) hcodes [] [] { dim := 3 } rfl
  rw [List.append_nil] at h1
  refine ⟨m, t, h1, ?_⟩
  by_contra h
  push Not at h
  rcases h2.mp h vs hvs p hp a b c ha hb hc with h | h | h
  · exact hne.1 h
  · exact hne.2.1 h
  · exact hne.2.2 h

/-- C82, false of the code: the numbers of the vertices are not checked. A 2D file of polygons with a vertex that does not exist is loaded without an error, and an edge
of the mesh leads to a vertex that is not there. -/
theorem C82_vertex_violated [Zero R] (F : File R) (hF : F.Polygons) (hcodes : F.codes.length ≤ F.cells.length) (vs : List Idx) (hvs : vs ∈ F.cells)
    (v : Idx) (hv : v ∈ vs) (hout : F.verts.length ≤ v) :
    ∃ m t, load2 F.tokens [] { dim := 2 } = .ok (m, t) ∧
      ∃ e ∈ m.edges, (e.a = v ∨ e.b = v) ∧ Res.at' m.vertices v = .throw .outOfRange := by
  obtain ⟨m, t, h1, h2, h3, -, -, -, -, h8, -⟩ := C22_load F hF hcodes [] [] { dim := 2 } rfl
  rw [List.append_nil] at h1
  obtain ⟨c, hc⟩ := List.getElem?_of_mem hvs
  obtain ⟨cl, l, -, -, l1, -⟩ := h8 c vs hc
  obtain ⟨j, hj, rfl⟩ := List.mem_iff_getElem.mp hv
  obtain ⟨e, a, b, e1, e2, e3, ed, e4, e5⟩ := l1.2 j hj
  have ha : a = vs[j] := by
    rw [cyc, Nat.mod_eq_of_lt hj, List.getElem?_eq_getElem hj] at e2
    exact (Option.some.inj e2).symm
  refine ⟨m, t, h1, ed, List.mem_of_getElem? e4, ?_, ?_⟩
  · rcases e5 with h | h
    · exact .inl (by have := congrArg Prod.fst h; simpa [ha] using this)
    · exact .inr (by have := h.2; simpa [ha] using this)
  · unfold Res.at'
    rw [List.getElem?_eq_none (by rw [h3]; simpa using hout)]

/-! ## the hypotheses are met -/

/-- the side 0-1 belongs to three triangles; the vertex 9 does not exist -/
def badFile2 : File Int := { exampleFile with cells := [[0, 1, 2], [3, 1, 0], [0, 1, 9]], codes := [5, 5] }

theorem badFile2_polygons : badFile2.Polygons where
  nodup := by simp only [NoRepetition]; decide
  three := by decide
  fit := by decide
  edges_fit := by decide

example : ∃ m t, load2 badFile2.tokens [] { dim := 2 } = .ok (m, t) ∧
    ∃ (d : Nat) (vs : List Idx), badFile2.cells[d]? = some vs ∧ ∀ l, EdgesOf m.edges l vs → boundaryWalk m d ≠ .ok l :=
  C82_three2_violated badFile2 badFile2_polygons (by decide) 0 1 2 0 1
    ⟨_, rfl, 0, 0, 1, by decide, rfl, rfl, .inl rfl⟩ ⟨_, rfl, 1, 1, 0, by decide, rfl, rfl, .inr ⟨rfl, rfl⟩⟩ ⟨_, rfl, 0, 0, 1, by decide, rfl, rfl, .inl rfl⟩
    (by decide)
example : ∃ m t, load2 badFile2.tokens [] { dim := 2 } = .ok (m, t) ∧
    ∃ e ∈ m.edges, (e.a = 9 ∨ e.b = 9) ∧ Res.at' m.vertices 9 = .throw .outOfRange :=
  C82_vertex_violated badFile2 badFile2_polygons (by decide) [0, 1, 9] (by decide) 9 (by decide) (by decide)

/-- cells without vertices, with one vertex, with a vertex twice -/
def oddFile : File Int := { exampleFile with cells := [[], [7], [0, 1, 0, 1], [0, 0]], codes := [5, 5, 77, 9, 77] }
theorem oddFile_fit : TypesFit fromVtk2 oddFile := by
  intro i c hc hi
  have := (List.getElem?_eq_some_iff.mp hc).1
  simp [oddFile] at this hi
  obtain rfl : i = 4 := by omega
  cases hc
  rfl
example : ∃ r, load2 oddFile.tokens [] { dim := 2 } = .ok r := by
  simpa using (C82_accepted2_partial oddFile [] [] { dim := 2 }).1.mpr oddFile_fit

/-- three tetrahedra on the face 0-1-2, the last one with a vertex that does not exist, all of them called hexahedra -/
def badFile3 : File Int := { exampleFile3 with cells := [[0, 1, 2, 3], [4, 2, 0, 1], [1, 0, 2, 5]], codes := [12, 12, 12] }

theorem badFile3_solids : badFile3.Solids where
  known := by decide
  nodup := by simp only [NoRepetition]; decide
  fit := by decide

example : ∃ r, load3 4 badFile3.tokens [] { dim := 3 } = .ok r := by
  have h : TypesFit fromVtk3 badFile3 := by
    intro i c hc hi
    have := (List.getElem?_eq_some_iff.mp hc).1
    simp [badFile3] at this hi
    omega
  simpa using (C82_accepted3_partial badFile3 [] [] { dim := 3 } 4 (by decide)).1.mpr ⟨by decide, h⟩

example : ∃ m t, load3 0 badFile3.tokens [] { dim := 3 } = .ok (m, t) ∧
    ∃ (d : Nat) (ws : List Idx), badFile3.cells[d]? = some ws ∧ ∀ l, FacesOf m.edges (m.midElems 2) l ws → boundaryWalk m d ≠ .ok l :=
  C82_three3_violated badFile3 badFile3_solids (by decide) 0 1 2 [0, 1, 2, 3] [0, 1, 2] (by decide) (by decide)
    ⟨_, rfl, [0, 1, 2], by decide, fun _ _ => Iff.rfl⟩
    ⟨_, rfl, [2, 0, 1], by decide, (SameCycle.sameSides (.inl (by decide)) : SameSides [0, 1, 2] [2, 0, 1])⟩
    ⟨_, rfl, [1, 0, 2], by decide, (SameCycle.sameSides (.inr (by decide)) : SameSides [0, 1, 2] [1, 0, 2])⟩ (by decide)

/-- a cell with seven vertices -/
example : load3 0 ({ badFile3 with cells := [[0, 1, 2, 3], [0, 1, 2, 3, 4, 5, 6]] } : File Int).tokens [] { dim := 3 } = .throw .outOfRange := by
  have h := C82_accepted3_partial ({ badFile3 with cells := [[0, 1, 2, 3], [0, 1, 2, 3, 4, 5, 6]] } : File Int) [] [] { dim := 3 } 0 (.inl rfl)
  rw [List.append_nil] at h
  refine h.2 fun r hr => ?_
  have := (h.1.mp ⟨r, hr⟩).1 [0, 1, 2, 3, 4, 5, 6] (by simp)
  revert this
  decide

end GTMesh.Vtk
