import Verif.Proofs.Solid5

/-! # C51: writing a 3D mesh in the VTK format and reading it back -/

namespace GTMesh.Vtk
open Spec Std' GTMesh.Props
variable {R V P : Type}

/-- Entry `k` of the joined blocks belongs to the block named by entry `k` of the origins. -/
theorem flatten_origin {α : Type} (p : Nat → Nat) : ∀ (bs : List (List α)) (st : Nat),
    (∀ (i : Nat) b, bs[i]? = some b → b.length = p (st + i)) →
    ∀ (k o : Nat), ((List.range' st bs.length).flatMap fun i => List.replicate (p i) i)[k]? = some o →
      ∃ (b : List α) (j : Nat) (x : α), st ≤ o ∧ bs[o - st]? = some b ∧ b[j]? = some x ∧ bs.flatten[k]? = some x := by
  intro bs
  induction bs with
  | nil => intro st _ k o h; simp at h
  | cons b bs ih =>
    intro st hl k o h
    rw [List.length_cons, List.range'_succ, List.flatMap_cons] at h
    have h0 := hl 0 b rfl
    rw [Nat.add_zero] at h0
    rcases Nat.lt_or_ge k (p st) with hk | hk
    · rw [List.getElem?_append_left (by simpa using hk), List.getElem?_replicate, if_pos hk] at h
      cases h
      refine ⟨b, k, b[k]'(by omega), Nat.le_refl _, by simp, by simp, ?_⟩
      rw [List.flatten_cons, List.getElem?_append_left (by omega)]
      simp
    · rw [List.getElem?_append_right (by simpa using hk), List.length_replicate] at h
      obtain ⟨b', j, x, h1, h2, h3, h4⟩ := ih (st + 1) (fun i b hb => by
        have := hl (i + 1) b (by simpa using hb); rw [this]; congr 1; omega) _ _ h
      refine ⟨b', j, x, by omega, ?_, h3, ?_⟩
      · rw [show o - st = o - (st + 1) + 1 by omega]
        simpa using h2
      · rw [List.flatten_cons, List.getElem?_append_right (by omega), h0]
        exact h4

theorem origins_lt {p : Idx → Nat} {n k o : Nat} (h : (origins p n)[k]? = some o) : o < n := by
  obtain ⟨i, hi, hr⟩ := List.mem_flatMap.mp (List.mem_of_getElem? h)
  rw [List.eq_of_mem_replicate hr]
  exact List.mem_range.mp hi

/-- The rows written for a mesh: internal form. -/
theorem rows_written (ori : Idx → Bool) (key : P → List Char) (cc fc : Idx → P) (m : Mesh V) (bd vert : Idx → List Idx)
    (types : List Nat) (w0 w : Writer3 P) (hd : m.dim = 3) (hv : ValidMesh m bd) (hn : Numbered m)
    (htl : types.length = m.cells.length)
    (hsol : ∀ (i : Nat) t, types[i]? = some t → isSplit types i = false → IsSolid m (bd i) (vert i) t)
    (h : indexMesh3 ori key cc fc m types w0 = .ok w) :
    w.cellVert.length = (origins (pieces m bd types) m.cells.length).length ∧ w.cellTypes.length = w.cellVert.length ∧
    (∀ (k : Nat) o, (origins (pieces m bd types) m.cells.length)[k]? = some o →
      w.cellTypes[k]? = if isSplit types o then some 300 else types[o]?) ∧
    ∀ (k : Nat) o, (origins (pieces m bd types) m.cells.length)[k]? = some o → ∃ vs, w.cellVert[k]? = some vs ∧
      (isSplit types o = false → SameSolid vs (vert o) ∧ NoRepetition vs ∧ ∀ x ∈ vs, x ∈ vert o) ∧
      (isSplit types o = true → (∀ f ∈ bd o, edgesOfFace m f ≠ []) → ∃ f ∈ bd o, ∃ e ∈ edgesOfFace m f, ∃ pf pc q q',
        vs = [endA m.edges e, endB m.edges e, m.vertices.length + pf, m.vertices.length + pc] ∧
        w.appended[pf]? = some q ∧ key q = key (fc f) ∧ w.appended[pc]? = some q' ∧ key q' = key (cc o)) := by
  obtain ⟨blocks, pt, h1, h2, h3, h4, h5, h6, h7, _, h9, _⟩ := export_full ori key cc fc m bd types w0 w hd hv hn h
  have hlen : w.cellVert.length = (origins (pieces m bd types) m.cells.length).length := by
    rw [h2, List.length_flatten, origins, List.length_flatMap]
    congr 1
    apply List.ext_getElem
    · simp [h1]
    · intro i g1 g2
      simp only [List.length_map] at g1
      simp [h3 i blocks[i] (by simp [g1])]
  refine ⟨hlen, h6, h7, fun k o ho => ?_⟩
  have holt := origins_lt ho
  unfold origins at ho
  rw [← h1, List.range_eq_range'] at ho
  obtain ⟨b, j, x, _, g2, g3, g4⟩ := flatten_origin (pieces m bd types) blocks 0 (fun i b hb => by
    rw [Nat.zero_add]; exact h3 i b hb) k o ho
  rw [Nat.sub_zero] at g2
  refine ⟨x, by rw [h2]; exact g4, fun hs => ?_, fun hs hne => ?_⟩
  · obtain ⟨c, vs, c1, rfl, c3⟩ := h9 o b g2 hs
    have hx : x = vs := by
      cases j with
      | zero => simpa using g3.symm
      | succ j => simp at g3
    subst hx
    have ht : types[o]? = some (types[o]'(by omega)) := by simp
    obtain ⟨vs', d1, d2⟩ := knownVerts_solid ori hd hv c1 (hn.cells o c c1) ht (hsol o _ ht hs)
    rw [c3] at d1
    cases d1
    exact d2
  · rw [h4 o b g2 hs] at g3
    obtain ⟨f, hf, hx⟩ := List.mem_flatMap.mp (List.mem_of_getElem? g3)
    obtain ⟨e, he, rfl⟩ := List.mem_map.mp hx
    obtain ⟨a1, q, a2, a3⟩ := h5 o holt hs hne (fc f) (Or.inr ⟨f, hf, rfl⟩)
    obtain ⟨b1, q', b2, b3⟩ := h5 o holt hs hne (cc o) (Or.inl rfl)
    refine ⟨f, hf, e, he, pt (fc f) - m.vertices.length, pt (cc o) - m.vertices.length, q, q', ?_, a2, a3, b2, b3⟩
    rw [Nat.add_sub_cancel' a1, Nat.add_sub_cancel' b1]

/-- C51, writing. The writer succeeds on a valid mesh with a type for each cell, where each cell of type tetrahedron, pyramid,
wedge or hexahedron is bounded by the faces of such a solid with the vertices `vert i`; and for such a cell it exports one cell
with these vertices, in an order that describes the same solid. This holds for any order of the faces of a cell and of the edges
of a face, any direction of the edges, and any orientations `ori`. -/
theorem C51_vertices (ori : Idx → Bool) (key : P → List Char) (cc fc : Idx → P) (m : Mesh V) (bd vert : Idx → List Idx)
    (types : List Nat) (w0 : Writer3 P) (hd : m.dim = 3) (hv : ValidMesh m bd) (hn : Numbered m)
    (htl : types.length = m.cells.length)
    (hsol : ∀ (i : Nat) t, types[i]? = some t → isSplit types i = false → IsSolid m (bd i) (vert i) t) :
    ∃ w, indexMesh3 ori key cc fc m types w0 = .ok w ∧
      ∀ (k : Nat) o, (origins (pieces m bd types) m.cells.length)[k]? = some o → isSplit types o = false →
        ∃ vs, w.cellVert[k]? = some vs ∧ w.cellTypes[k]? = types[o]? ∧ SameSolid vs (vert o) ∧ NoRepetition vs ∧
          ∀ x ∈ vs, x ∈ vert o := by
  obtain ⟨w, hw⟩ := indexMesh3_total ori key cc fc m bd vert types w0 hd hv hn htl hsol
  refine ⟨w, hw, fun k o ho hs => ?_⟩
  obtain ⟨_, _, h3, h4⟩ := rows_written ori key cc fc m bd vert types w0 w hd hv hn htl hsol hw
  obtain ⟨vs, g1, g2, _⟩ := h4 k o ho
  refine ⟨vs, g1, ?_, g2 hs⟩
  rw [h3 k o ho, hs]
  rfl

theorem toVtk3_known {t : Nat} (h : t = 300 ∨ t = 301 ∨ t = 302 ∨ t = 303) : ∃ c, toVtk3 t = some c ∧ fromVtk3 c = some t := by
  rcases h with rfl | rfl | rfl | rfl <;> exact ⟨_, rfl, rfl⟩

/-- The file written after indexing. -/
theorem file_written (ori : Idx → Bool) (key : Point3 R → List Char) (cc fc : Idx → Point3 R) (hash : Nat)
    (m : Mesh (Point3 R)) (types : List Nat) (w0 w : Writer3 (Point3 R)) (hhash : w0.lastHash ≠ hash)
    (h : indexMesh3 ori key cc fc m types w0 = .ok w) (hl : w.cellTypes.length = w.cellVert.length)
    (hk : ∀ t ∈ w.cellTypes, t = 300 ∨ t = 301 ∨ t = 302 ∨ t = 303) (title : List String) :
    ∃ (ts : List (VTok R)) (F : File R), writeToStream3 ori key cc fc hash m types w0 = .ok ({ w with lastHash := hash }, ts) ∧
      header title ++ ts = F.tokens ∧ F.verts = m.vertices ++ w.appended ∧ F.cells = w.cellVert ∧
      F.codes.length = F.cells.length ∧
      ∀ (c : Nat) t, w.cellTypes[c]? = some t → ∃ code, F.codes[c]? = some code ∧ fromVtk3 code = some t := by
  obtain ⟨cs, k1, k2, k3⟩ := codes_ok toVtk3 w.cellTypes (fun t ht => by
    obtain ⟨c, hc, _⟩ := toVtk3_known (hk t ht); exact ⟨c, hc⟩)
  refine ⟨pointsSection (m.vertices ++ w.appended) ++
    (.word "CELLS" :: .num w.cellVert.length :: .num w.total :: .nl :: w.cellVert.flatMap cellLine ++ [.nl]) ++
    typesSection w.cellTypes.length cs, ⟨["#", "vtk", "DataFile", "Version", "2.0"], title, "double", m.vertices ++ w.appended, w.total, w.cellVert, cs⟩,
    ?_, ?_, rfl, rfl, by simp [k2, hl], ?_⟩
  · unfold writeToStream3
    rw [if_pos hhash, h]
    simp only [Res.bind]
    rw [k1]
  · simp [header, pointsSection, typesSection, File.tokens, k2, hl]
    rfl
  · intro c t hc
    obtain ⟨code, c1, c2⟩ := k3 c t hc
    obtain ⟨code', d1, d2⟩ := toVtk3_known (hk t (List.mem_of_getElem? hc))
    rw [c2] at d1
    cases d1
    exact ⟨code, c1, d2⟩

theorem endA_lt {m : Mesh V} {bd : Idx → List Idx} (hd : m.dim = 3) (hv : ValidMesh m bd) {e : Idx} (he : e < m.edges.length) :
    endA m.edges e < m.vertices.length ∧ endB m.edges e < m.vertices.length := by
  have h := hv.range 1 e (by omega) (by omega) (by simpa [Mesh.numElems, hd] using he)
  have h0 : m.numElems 0 = m.vertices.length := by simp [Mesh.numElems, hd]
  have hs : directSubs m bd 1 e = [m.edges[e].a, m.edges[e].b] := by simp [directSubs, hd, he]
  rw [hs] at h
  simp only [Nat.sub_self, h0] at h
  simp only [endA, endB, List.getElem?_eq_getElem he, Option.map_some, Option.getD_some]
  exact ⟨h _ (by simp), h _ (by simp)⟩

theorem edgesOfFace_range {m : Mesh V} {bd : Idx → List Idx} (hd : m.dim = 3) (hv : ValidMesh m bd) {o f e : Idx}
    (ho : o < m.cells.length) (hf : f ∈ bd o) (he : e ∈ edgesOfFace m f) : e < m.edges.length :=
  edgesOfFace_lt hd hv (bd_lt hd hv ho f hf) e (by rw [faceAt_sub]; exact he)

/-- The rows written for a mesh are vertices of tetrahedra, pyramids, wedges and hexahedra. -/
theorem rows_solids {key : P → List Char} {cc fc : Idx → P} {m : Mesh V} {bd vert : Idx → List Idx} {types : List Nat}
    {w : Writer3 P} (hd : m.dim = 3) (hv : ValidMesh m bd) (htl : types.length = m.cells.length)
    (hsol : ∀ (i : Nat) t, types[i]? = some t → isSplit types i = false → IsSolid m (bd i) (vert i) t)
    (hne : ∀ o, o < m.cells.length → isSplit types o = true → ∀ f ∈ bd o,
      edgesOfFace m f ≠ [] ∧ key (fc f) ≠ key (cc o) ∧ ∀ e ∈ edgesOfFace m f, endA m.edges e ≠ endB m.edges e)
    (hrow : ∀ (k : Nat) o, (origins (pieces m bd types) m.cells.length)[k]? = some o → ∃ vs, w.cellVert[k]? = some vs ∧
      (isSplit types o = false → SameSolid vs (vert o) ∧ NoRepetition vs ∧ ∀ x ∈ vs, x ∈ vert o) ∧
      (isSplit types o = true → (∀ f ∈ bd o, edgesOfFace m f ≠ []) → ∃ f ∈ bd o, ∃ e ∈ edgesOfFace m f, ∃ pf pc q q',
        vs = [endA m.edges e, endB m.edges e, m.vertices.length + pf, m.vertices.length + pc] ∧
        w.appended[pf]? = some q ∧ key q = key (fc f) ∧ w.appended[pc]? = some q' ∧ key q' = key (cc o)))
    (hlen : w.cellVert.length = (origins (pieces m bd types) m.cells.length).length) :
    (∀ vs ∈ w.cellVert, vs.length = 4 ∨ vs.length = 5 ∨ vs.length = 6 ∨ vs.length = 8) ∧ ∀ vs ∈ w.cellVert, NoRepetition vs := by
  have key' : ∀ vs ∈ w.cellVert, (vs.length = 4 ∨ vs.length = 5 ∨ vs.length = 6 ∨ vs.length = 8) ∧ NoRepetition vs := by
    intro vs hvs
    obtain ⟨k, hk⟩ := List.getElem?_of_mem hvs
    have hkl := (List.getElem?_eq_some_iff.mp hk).1
    rw [hlen] at hkl
    have ho := List.getElem?_eq_getElem hkl
    have holt := origins_lt ho
    obtain ⟨vs', g1, g2, g3⟩ := hrow k _ ho
    generalize (origins (pieces m bd types) m.cells.length)[k] = o at *
    rw [hk] at g1
    cases g1
    cases hs : isSplit types o with
    | false =>
      obtain ⟨a1, a2, _⟩ := g2 hs
      have := vertexCount_known (hsol o (types[o]'(by omega)) (by simp) hs).count
      rw [a1.1]
      exact ⟨this, a2⟩
    | true =>
      obtain ⟨f, hf, e, he, pf, pc, q, q', rfl, b2, b3, b4, b5⟩ := g3 hs fun f hf => (hne o holt hs f hf).1
      obtain ⟨_, c2, c3⟩ := hne o holt hs f hf
      have hlt := endA_lt hd hv (edgesOfFace_range hd hv holt hf he)
      have hpp : pf ≠ pc := by
        rintro rfl
        rw [b2] at b4
        cases b4
        exact c2 (by rw [← b3, ← b5])
      have := c3 e he
      refine ⟨Or.inl rfl, ?_⟩
      show List.Nodup _
      simp only [List.nodup_cons, List.mem_cons, List.not_mem_nil, or_false, not_false_eq_true, List.nodup_nil, and_true]
      omega
  exact ⟨fun vs h => (key' vs h).1, fun vs h => (key' vs h).2⟩

/-- The file written for a valid mesh holds tetrahedra, pyramids, wedges and hexahedra. -/
theorem written_file (ori : Idx → Bool) (key : Point3 R → List Char) (cc fc : Idx → Point3 R) (hash : Nat)
    (m : Mesh (Point3 R)) (bd vert : Idx → List Idx) (types : List Nat) (w0 : Writer3 (Point3 R)) (hhash : w0.lastHash ≠ hash)
    (hd : m.dim = 3) (hv : ValidMesh m bd) (hn : Numbered m) (htl : types.length = m.cells.length)
    (hsol : ∀ (i : Nat) t, types[i]? = some t → isSplit types i = false → IsSolid m (bd i) (vert i) t)
    (hne : ∀ o, o < m.cells.length → isSplit types o = true → ∀ f ∈ bd o,
      edgesOfFace m f ≠ [] ∧ key (fc f) ≠ key (cc o) ∧ ∀ e ∈ edgesOfFace m f, endA m.edges e ≠ endB m.edges e)
    (hfit : 12 * (origins (pieces m bd types) m.cells.length).length ≤ INVALID)
    (res : Nat) (hres : res = 0 ∨ 4 ≤ res) (title : List String) :
    ∃ (w : Writer3 (Point3 R)) (ts : List (VTok R)) (F : File R), indexMesh3 ori key cc fc m types w0 = .ok w ∧
      writeToStream3 ori key cc fc hash m types w0 = .ok ({ w with lastHash := hash }, ts) ∧
      header title ++ ts = F.tokens ∧ F.verts = m.vertices ++ w.appended ∧ F.cells = w.cellVert ∧
      F.codes.length = F.cells.length ∧ F.Solids ∧ (∀ vs ∈ F.cells, ∀ p ∈ facePolygons vs, res = 0 ∨ p.length ≤ res) ∧
      w.cellVert.length = (origins (pieces m bd types) m.cells.length).length ∧ w.cellTypes.length = w.cellVert.length ∧
      ∀ (c : Nat) t, w.cellTypes[c]? = some t → ∃ code, F.codes[c]? = some code ∧ fromVtk3 code = some t := by
  obtain ⟨w, hw⟩ := indexMesh3_total ori key cc fc m bd vert types w0 hd hv hn htl hsol
  obtain ⟨h1, h2, h3, h4⟩ := rows_written ori key cc fc m bd vert types w0 w hd hv hn htl hsol hw
  obtain ⟨hk1, hk2⟩ := rows_solids hd hv htl hsol hne h4 h1
  have hknown : ∀ t ∈ w.cellTypes, t = 300 ∨ t = 301 ∨ t = 302 ∨ t = 303 := by
    intro t ht
    obtain ⟨k, hk⟩ := List.getElem?_of_mem ht
    have hkl := (List.getElem?_eq_some_iff.mp hk).1
    rw [h2, h1] at hkl
    have ho := List.getElem?_eq_getElem hkl
    have := h3 k _ ho
    rw [hk] at this
    cases hs : isSplit types (origins (pieces m bd types) m.cells.length)[k] with
    | true => rw [hs] at this; simp at this; exact Or.inl this
    | false =>
      rw [hs] at this
      simp only [Bool.false_eq_true, if_false] at this
      have hs' := hs
      simp [isSplit, ← this] at hs'
      omega
  obtain ⟨ts, F, f1, f2, f3, f4, f5, f6⟩ := file_written ori key cc fc hash m types w0 w hhash hw h2 hknown title
  have hF : F.Solids := ⟨by rw [f4]; exact hk1, by rw [f4]; exact hk2, by rw [f4, h1]; exact hfit⟩
  have hpl : ∀ vs ∈ F.cells, ∀ p ∈ facePolygons vs, res = 0 ∨ p.length ≤ res := by
    intro vs hvs p hp
    have hlen : p.length ≤ 4 := by
      have : ∀ n ∈ [4, 5, 6, 8], ∀ p ∈ cellPolygons n, p.length ≤ 4 := by decide
      obtain ⟨p', hp', rfl⟩ := List.mem_map.mp hp
      rw [List.length_map]
      exact this vs.length (by have := hF.known vs hvs; simp; omega) p' hp'
    omega
  exact ⟨w, ts, F, hw, f1, f2, f3, f4, f5, hF, hpl, h1, h2, f6⟩

/-- C51, round trip. A valid mesh is written with a fresh index and read back. Its cells of type tetrahedron, pyramid, wedge or
hexahedron are such solids, with the vertices `vert i`; the other cells have faces with proper edges, and the text of the
center of the cell differs from those of the centers of its faces. Then writing succeeds; reading the text
(header and content) into any 3D mesh, with a reserve of 0 or at least 4, succeeds; the points are those of the mesh followed
by the appended ones; and the cells are, in order: for a solid, a cell with its type bounded by the faces of this solid; for another
cell, a tetrahedron for each pair of a face and an edge of it, made of the ends of the edge and two of the appended points, which stand for the
centers of the face and of the cell. -/
theorem C51_round_trip_partial [Zero R] (ori : Idx → Bool) (key : Point3 R → List Char) (cc fc : Idx → Point3 R) (hash : Nat)
    (m : Mesh (Point3 R)) (bd vert : Idx → List Idx) (types : List Nat) (w0 : Writer3 (Point3 R)) (hhash : w0.lastHash ≠ hash)
    (hd : m.dim = 3) (hv : ValidMesh m bd) (hn : Numbered m) (htl : types.length = m.cells.length)
    (hsol : ∀ (i : Nat) t, types[i]? = some t → isSplit types i = false → IsSolid m (bd i) (vert i) t)
    (hne : ∀ o, o < m.cells.length → isSplit types o = true → ∀ f ∈ bd o,
      edgesOfFace m f ≠ [] ∧ key (fc f) ≠ key (cc o) ∧ ∀ e ∈ edgesOfFace m f, endA m.edges e ≠ endB m.edges e)
    (hfit : 12 * (origins (pieces m bd types) m.cells.length).length ≤ INVALID)
    (res : Nat) (hres : res = 0 ∨ 4 ≤ res) (title : List String) (types0 : List Nat) (m0 : Mesh (Point3 R)) (hd0 : m0.dim = 3) :
    ∃ w ts m' t', writeToStream3 ori key cc fc hash m types w0 = .ok (w, ts) ∧
      load3 res (header title ++ ts) types0 m0 = .ok (m', t') ∧ m'.vertices = m.vertices ++ w.appended ∧
      m'.cells.length = (origins (pieces m bd types) m.cells.length).length ∧ t'.length = m'.cells.length ∧
      ∀ (k : Nat) o, (origins (pieces m bd types) m.cells.length)[k]? = some o →
        ∃ cl l, m'.cells[k]? = some cl ∧ cl.index = k ∧ l[0]? = some cl.bElem ∧
          (isSplit types o = false → t'[k]? = types[o]? ∧ ∀ t, types[o]? = some t → IsSolid m' l (vert o) t) ∧
          (isSplit types o = true → t'[k]? = some 300 ∧ ∃ f ∈ bd o, ∃ e ∈ edgesOfFace m f, ∃ pf pc q q',
            IsSolid m' l [endA m.edges e, endB m.edges e, m.vertices.length + pf, m.vertices.length + pc] 300 ∧
            w.appended[pf]? = some q ∧ key q = key (fc f) ∧ w.appended[pc]? = some q' ∧ key q' = key (cc o)) := by
  obtain ⟨w, ts, F, hw, f1, f2, f3, f4, f5, hF, hpl, h1, h2, f6⟩ := written_file ori key cc fc hash m bd vert types w0 hhash hd hv hn htl hsol
    hne hfit res hres title
  obtain ⟨_, _, h3, h4⟩ := rows_written ori key cc fc m bd vert types w0 w hd hv hn htl hsol hw
  obtain ⟨hk1, hk2⟩ := rows_solids hd hv htl hsol hne h4 h1
  obtain ⟨m', t', g1, _, g3, _, _, _, _, _, _, g10, g11, g12, g13⟩ := C25_load F hF res hpl (by omega) [] types0 m0 hd0
  rw [List.append_nil, ← f2] at g1
  refine ⟨_, ts, m', t', f1, g1, by rw [g3, f3], by rw [g10, f4, h1], by rw [g12, g10], fun k o ho => ?_⟩
  have holt := origins_lt ho
  obtain ⟨vs, r1, r2, r3⟩ := h4 k o ho
  obtain ⟨cl, l, a1, a2, a3, a4, a5, _⟩ := g11 k vs (by rw [f4]; exact r1)
  have htk : t'[k]? = w.cellTypes[k]? := by
    have hkl : k < w.cellTypes.length := by
      rw [h2]; exact (List.getElem?_eq_some_iff.mp r1).1
    obtain ⟨code, c1, c2⟩ := f6 k _ (List.getElem?_eq_getElem hkl)
    rw [g13 k code _ c1 c2, List.getElem?_eq_getElem hkl]
  rw [h3 k o ho] at htk
  refine ⟨cl, l, a1, a2, a5, fun hs => ?_, fun hs => ?_⟩
  · rw [hs] at htk
    refine ⟨htk, fun t ht => ?_⟩
    have hS := hsol o t ht hs
    exact isSolid_of_same a3 a4 (r2 hs).1 hS.nodup hS.count
  · rw [hs] at htk
    obtain ⟨f, hf, e, he, pf, pc, q, q', rfl, b2⟩ := r3 hs fun f hf => (hne o holt hs f hf).1
    refine ⟨htk, f, hf, e, he, pf, pc, q, q', ?_, b2⟩
    refine ⟨rfl, hk2 _ (List.mem_of_getElem? r1), l, List.Perm.refl _, a3⟩

theorem origins_range {p : Idx → Nat} {n : Nat} (h : ∀ i < n, p i = 1) : origins p n = List.range n := by
  unfold origins
  have : ∀ l : List Nat, (∀ i ∈ l, p i = 1) → (l.flatMap fun i => List.replicate (p i) i) = l := by
    intro l
    induction l with
    | nil => intro _; rfl
    | cons x l ih =>
      intro hl
      rw [List.flatMap_cons, hl x (by simp), ih fun i hi => hl i (by simp [hi])]
      rfl
  exact this _ fun i hi => h i (List.mem_range.mp hi)

theorem vertexCount_type {t n : Nat} (h : vertexCount t = some n) : t = 300 ∨ t = 301 ∨ t = 302 ∨ t = 303 := by
  unfold vertexCount at h
  split at h <;> simp at h ⊢

/-- Cells that are not split append no points. -/
theorem foldRes_appended (ori : Idx → Bool) (key : P → List Char) (cc fc : Idx → P) (m : Mesh V) (types : List Nat) :
    ∀ (cs : List Cell) (s s' : IndexState P), (∀ c ∈ cs, isSplit types c.index = false) →
    foldRes (indexCell3 ori key cc fc m types) s cs = .ok s' → s'.w.appended = s.w.appended := by
  intro cs
  induction cs with
  | nil => intro s s' _ h; simp only [foldRes, Res.ok.injEq] at h; rw [h]
  | cons c cs ih =>
    intro s s' hc h
    simp only [foldRes] at h
    cases hf : indexCell3 ori key cc fc m types s c <;> rw [hf] at h <;> simp only [Res.bind, reduceCtorEq] at h
    rename_i s1
    rw [ih s1 s' (fun c h => hc c (by simp [h])) h]
    have hsp := hc c (by simp)
    unfold indexCell3 at hf
    cases ht : types[c.index]? with
    | none => simp [Res.at', ht] at hf
    | some t =>
      rw [show Res.at' types c.index = .ok t by simp [ht]] at hf
      simp only [Res.bind] at hf
      simp only [isSplit, ht] at hsp
      have hpush : ∀ vs, s1 = s.push vs t → s1.w.appended = s.w.appended := by rintro vs rfl; rfl
      split at hf
      · cases g1 : Res.at' (m.midElems 2) c.bElem <;> rw [g1] at hf <;> simp only [reduceCtorEq] at hf
        rename_i f
        cases g2 : indexPyramid ori m c.index f <;> rw [g2] at hf <;> simp only [reduceCtorEq, Res.ok.injEq] at hf
        exact hpush _ hf.symm
      · split at hf
        · cases g1 : visitedFaces m c.index <;> rw [g1] at hf <;> simp only [reduceCtorEq] at hf
          rename_i fs
          cases g3 : deref (pyramidBase fs) <;> rw [g3] at hf <;> simp only [reduceCtorEq] at hf
          rename_i f
          cases g2 : indexPyramid ori m c.index f <;> rw [g2] at hf <;> simp only [reduceCtorEq, Res.ok.injEq] at hf
          exact hpush _ hf.symm
        · split at hf
          · cases g1 : visitedFaces m c.index <;> rw [g1] at hf <;> simp only [reduceCtorEq] at hf
            rename_i fs
            cases g3 : deref (wedgeBase fs) <;> rw [g3] at hf <;> simp only [reduceCtorEq] at hf
            rename_i f
            cases g2 : indexLinear ori m c.index f <;> rw [g2] at hf <;> simp only [reduceCtorEq, Res.ok.injEq] at hf
            exact hpush _ hf.symm
          · split at hf
            · cases g1 : Res.at' (m.midElems 2) c.bElem <;> rw [g1] at hf <;> simp only [reduceCtorEq] at hf
              rename_i f
              cases g2 : indexLinear ori m c.index f <;> rw [g2] at hf <;> simp only [reduceCtorEq, Res.ok.injEq] at hf
              exact hpush _ hf.symm
            · rename_i k1 k2 k3 k4; simp [k1, k2, k3, k4] at hsp

/-- C51, round trip of tetrahedra, pyramids, wedges and hexahedra. If moreover no two faces of the mesh are the same polygon, the mesh that is
read has the same points, types and number of cells; the boundary walk of each cell gives the faces of the same solid; and two
cells share a face exactly when they do in the original mesh. -/
theorem C51_solids_partial [Zero R] (ori : Idx → Bool) (key : Point3 R → List Char) (cc fc : Idx → Point3 R) (hash : Nat)
    (m : Mesh (Point3 R)) (bd vert : Idx → List Idx) (types : List Nat) (w0 : Writer3 (Point3 R)) (hhash : w0.lastHash ≠ hash)
    (hd : m.dim = 3) (hv : ValidMesh m bd) (hn : Numbered m) (htl : types.length = m.cells.length)
    (hsol : ∀ (i : Nat) t, types[i]? = some t → IsSolid m (bd i) (vert i) t)
    (huniq : ∀ (i j : Nat) f f' p p', (m.midElems 2)[i]? = some f → (m.midElems 2)[j]? = some f' →
      IsPolygon m.edges f.sub p → IsPolygon m.edges f'.sub p' → SameSides p p' → i = j)
    (hfit : 12 * m.cells.length ≤ INVALID)
    (res : Nat) (hres : res = 0 ∨ 4 ≤ res) (title : List String) (types0 : List Nat) (m0 : Mesh (Point3 R)) (hd0 : m0.dim = 3) :
    ∃ w ts m', writeToStream3 ori key cc fc hash m types w0 = .ok (w, ts) ∧
      load3 res (header title ++ ts) types0 m0 = .ok (m', types) ∧ m'.vertices = m.vertices ∧
      m'.cells.length = m.cells.length ∧ ∃ bd' : Idx → List Idx,
        (∀ (c : Nat) t, types[c]? = some t → boundaryWalk m' c = .ok (bd' c) ∧ IsSolid m' (bd' c) (vert c) t) ∧
        ∀ a b, a < m.cells.length → b < m.cells.length → ((∃ f ∈ bd a, f ∈ bd b) ↔ ∃ f ∈ bd' a, f ∈ bd' b) := by
  have hns : ∀ (i : Nat), i < m.cells.length → isSplit types i = false := by
    intro i hi
    have := vertexCount_type (hsol i (types[i]'(by omega)) (by simp)).count
    simp only [isSplit, List.getElem?_eq_getElem (show i < types.length by omega), Option.some.injEq]
    rw [decide_eq_true this]; rfl
  have hsol' : ∀ (i : Nat) t, types[i]? = some t → isSplit types i = false → IsSolid m (bd i) (vert i) t :=
    fun i t h _ => hsol i t h
  have horig : origins (pieces m bd types) m.cells.length = List.range m.cells.length :=
    origins_range fun i hi => by simp [pieces, hns i hi]
  obtain ⟨w, hw⟩ := indexMesh3_total ori key cc fc m bd vert types w0 hd hv hn htl hsol'
  obtain ⟨h1, h2, h3, h4⟩ := rows_written ori key cc fc m bd vert types w0 w hd hv hn htl hsol' hw
  obtain ⟨hk1, hk2⟩ := rows_solids hd hv htl hsol' (fun o ho hs => by rw [hns o ho] at hs; cases hs) h4 h1
  rw [horig] at h1 h3 h4
  rw [List.length_range] at h1
  have htypes : w.cellTypes = types := by
    apply List.ext_getElem?
    intro k
    rcases Nat.lt_or_ge k m.cells.length with hk | hk
    · rw [h3 k k (by simp [hk]), hns k hk]; rfl
    · rw [List.getElem?_eq_none (by omega), List.getElem?_eq_none (by omega)]
  have hknown : ∀ t ∈ w.cellTypes, t = 300 ∨ t = 301 ∨ t = 302 ∨ t = 303 := by
    intro t ht
    rw [htypes] at ht
    obtain ⟨i, hi⟩ := List.getElem?_of_mem ht
    exact vertexCount_type (hsol i t hi).count
  have happ : w.appended = [] := by
    have := foldRes_appended ori key cc fc m types
    unfold indexMesh3 at hw
    cases g1 : m.connectionsAsc 3 0 <;> rw [g1] at hw <;> simp only [Res.bind, reduceCtorEq] at hw
    cases g2 : foldRes (indexCell3 ori key cc fc m types) { w := {} } m.cells <;> rw [g2] at hw <;>
      simp only [reduceCtorEq, Res.ok.injEq] at hw
    rw [← hw]
    refine (this m.cells _ _ ?_ g2).trans rfl
    intro c hc
    obtain ⟨i, hi⟩ := List.getElem?_of_mem hc
    rw [hn.cells i c hi]
    exact hns i (List.getElem?_eq_some_iff.mp hi).1
  obtain ⟨ts, F, f1, f2, f3, f4, f5, f6⟩ := file_written ori key cc fc hash m types w0 w hhash hw h2 hknown title
  have hF : F.Solids := ⟨by rw [f4]; exact hk1, by rw [f4]; exact hk2, by rw [f4, h1]; exact hfit⟩
  have hpl : ∀ vs ∈ F.cells, ∀ p ∈ facePolygons vs, res = 0 ∨ p.length ≤ res := by
    intro vs hvs p hp
    have hlen : p.length ≤ 4 := by
      have : ∀ n ∈ [4, 5, 6, 8], ∀ p ∈ cellPolygons n, p.length ≤ 4 := by decide
      obtain ⟨p', hp', rfl⟩ := List.mem_map.mp hp
      rw [List.length_map]
      exact this vs.length (by have := hF.known vs hvs; simp; omega) p' hp'
    omega
  obtain ⟨m', t', g1, _, g3, _, _, g6, g7, _, _, g10, g11, g12, g13⟩ := C25_load F hF res hpl (by omega) [] types0 m0 hd0
  rw [List.append_nil, ← f2] at g1
  have ht' : t' = types := by
    apply List.ext_getElem?
    intro k
    rcases Nat.lt_or_ge k m.cells.length with hk | hk
    · obtain ⟨code, c1, c2⟩ := f6 k (types[k]'(by omega)) (by rw [htypes]; simp)
      rw [g13 k code _ c1 c2]; simp
    · rw [List.getElem?_eq_none (by rw [g12, f4]; omega), List.getElem?_eq_none (by omega)]
  subst ht'
  have hrow : ∀ (c : Nat), c < m.cells.length → ∃ vs, F.cells[c]? = some vs ∧ SameSolid vs (vert c) := by
    intro c hc
    obtain ⟨vs, r1, r2, _⟩ := h4 c c (by simp [hc])
    exact ⟨vs, by rw [f4]; exact r1, (r2 (hns c hc)).1⟩
  have huse : ∀ (c : Nat) p, UsesFace F c p → c < m.cells.length ∧ ∃ f x q, f ∈ bd c ∧ (m.midElems 2)[f]? = some x ∧
      IsPolygon m.edges x.sub q ∧ SameSides p q := by
    rintro c p ⟨vs, a1, q, a2, a3⟩
    have hc : c < m.cells.length := by
      have := (List.getElem?_eq_some_iff.mp a1).1
      rw [f4] at this; omega
    obtain ⟨vs', b1, b2⟩ := hrow c hc
    rw [a1] at b1
    cases b1
    obtain ⟨q', c1, c2⟩ := b2.2.1 q a2
    obtain ⟨p', d1, rfl⟩ := List.mem_map.mp c1
    obtain ⟨f, x, e1, e2, e3⟩ := (hsol c (t'[c]'(by omega)) (by simp)).polygon d1
    exact ⟨hc, f, x, _, e1, e2, e3, a3.trans (SameCycle.sameSides c2)⟩
  have hside : ∀ (c f : Nat) x, c < m.cells.length → f ∈ bd c → (m.midElems 2)[f]? = some x → c = x.conn.left ∨ c = x.conn.right := by
    intro c f x hc hf hx
    obtain ⟨⟨hne, _, hlink⟩, _⟩ := hv.chain c m.cells[c] (by simp)
    obtain ⟨j, hj⟩ := List.getElem?_of_mem hf
    obtain ⟨hjl, hje⟩ := List.getElem?_eq_some_iff.mp hj
    obtain ⟨cn, l1, l2⟩ := hlink j hjl
    rw [hje] at l1
    simp only [Mesh.faceConn, hd] at l1
    rw [if_neg (by decide)] at l1
    have hat : Res.at' (m.midElems (3 - 1)) f = .ok x := by simpa using hx
    rw [hat] at l1
    cases l1
    exact next_side l2
  have htwo : ∀ p, AtMostTwoFace F p := by
    intro p a b c ha hb hc
    obtain ⟨a0, f, x, q, a1, a2, a3, a4⟩ := huse a p ha
    obtain ⟨b0, f', x', q', b1, b2, b3, b4⟩ := huse b p hb
    obtain ⟨c0, f'', x'', q'', c1, c2, c3, c4⟩ := huse c p hc
    have e1 := huniq f f' x x' q q' a2 b2 a3 b3 (a4.symm.trans b4)
    have e2 := huniq f f'' x x'' q q'' a2 c2 a3 c3 (a4.symm.trans c4)
    subst e1 e2
    have s1 := hside a f x a0 a1 a2
    have s2 := hside b f x b0 b1 a2
    have s3 := hside c f x c0 c1 a2
    omega
  have hcell : ∀ (c : Nat), ∃ l, ∀ t, t'[c]? = some t → boundaryWalk m' c = .ok l ∧ IsSolid m' l (vert c) t := by
    intro c
    rcases Nat.lt_or_ge c m.cells.length with hc | hc
    · obtain ⟨vs, r1, r2⟩ := hrow c hc
      obtain ⟨cl, l, a1, a2, a3, a4, a5, a6⟩ := g11 c vs r1
      refine ⟨l, fun t ht => ⟨a6 fun p _ => htwo p, ?_⟩⟩
      have hS := hsol c t ht
      exact isSolid_of_same a3 a4 r2 hS.nodup hS.count
    · refine ⟨[], fun t ht => ?_⟩
      have := (List.getElem?_eq_some_iff.mp ht).1
      omega
  choose bd' hbd' using hcell
  have share : ∀ {m₁ m₂ : Mesh (Point3 R)} {b₁ b₂ : Idx → List Idx},
      (∀ (c : Nat) t, t'[c]? = some t → IsSolid m₁ (b₁ c) (vert c) t) →
      (∀ (c : Nat) t, t'[c]? = some t → IsSolid m₂ (b₂ c) (vert c) t) →
      (∀ (i j : Nat) f f' p p', (m₂.midElems 2)[i]? = some f → (m₂.midElems 2)[j]? = some f' →
        IsPolygon m₂.edges f.sub p → IsPolygon m₂.edges f'.sub p' → SameSides p p' → i = j) →
      ∀ a b, a < m.cells.length → b < m.cells.length → (∃ f ∈ b₁ a, f ∈ b₁ b) → ∃ f ∈ b₂ a, f ∈ b₂ b := by
    intro m₁ m₂ b₁ b₂ s1 s2 u a b ha hb ⟨f, hfa, hfb⟩
    have A1 := s1 a (t'[a]'(by omega)) (by simp)
    have B1 := s1 b (t'[b]'(by omega)) (by simp)
    obtain ⟨x, p, x1, x2, x3⟩ := A1.face hfa
    obtain ⟨y, q, y1, y2, y3⟩ := B1.face hfb
    rw [x1] at y1
    cases y1
    obtain ⟨i, z, z1, z2, z3⟩ := (s2 a (t'[a]'(by omega)) (by simp)).polygon x2
    obtain ⟨j, u', w1, w2, w3⟩ := (s2 b (t'[b]'(by omega)) (by simp)).polygon y2
    have := u i j z u' _ _ z2 w2 z3 w3 (sameSides_of_subs x3 y3)
    subst this
    exact ⟨i, z1, w1⟩
  refine ⟨_, ts, m', f1, g1, by rw [g3, f3, happ, List.append_nil], by rw [g10, f4, h1], bd', hbd', fun a b ha hb => ⟨?_, ?_⟩⟩
  · exact share hsol (fun c t ht => (hbd' c t ht).2) g7 a b ha hb
  · exact share (fun c t ht => (hbd' c t ht).2) hsol huniq a b ha hb

/-! Example: the mesh of a hexahedron and a pyramid. -/

theorem exampleMesh3_load : ∃ t, load3 4 exampleFile3.tokens [] { dim := 3 } = .ok (exampleMesh3, t) := ⟨[301, 303], by decide +kernel⟩

/-- The vertices of its cells. -/
def exampleVert (i : Idx) : List Idx := (exampleFile3.cells[i]?).getD []

theorem exampleMesh3_facts : (∀ (i : Nat) t, [301, 303][i]? = some t → IsSolid exampleMesh3 (exampleBd3 i) (exampleVert i) t) ∧
    (∀ (i j : Nat) f f' p p', (exampleMesh3.midElems 2)[i]? = some f → (exampleMesh3.midElems 2)[j]? = some f' →
      IsPolygon exampleMesh3.edges f.sub p → IsPolygon exampleMesh3.edges f'.sub p' → SameSides p p' → i = j) := by
  obtain ⟨t, ht⟩ := exampleMesh3_load
  obtain ⟨m, t', h1, _, _, _, _, _, h7, _, _, _, h11, _⟩ := C25_load exampleFile3 exampleFile3_solids 4 (by decide)
    (by decide) [] [] { dim := 3 } rfl
  rw [List.append_nil, ht] at h1
  cases h1
  refine ⟨fun i t hi => ?_, h7⟩
  have hlt := (List.getElem?_eq_some_iff.mp hi).1
  have hw : ∀ i < 2, boundaryWalk exampleMesh3 i = .ok (exampleBd3 i) := by decide +kernel
  have hv : ∀ i < 2, exampleFile3.cells[i]? = some (exampleVert i) ∧
      vertexCount ([301, 303][i]?.getD 0) = some (exampleVert i).length := by decide +kernel
  have hi2 : i < 2 := hlt
  obtain ⟨cl, l, _, _, a3, _, _, a6⟩ := h11 i _ (hv i hi2).1
  have := a6 fun p _ => exampleFile3_two p
  rw [hw i hi2] at this
  cases this
  refine ⟨?_, exampleFile3_solids.nodup _ (List.mem_of_getElem? (hv i hi2).1), _, List.Perm.refl _, a3⟩
  have := (hv i hi2).2
  rwa [hi] at this

example : ∃ w ts m', writeToStream3 (fun i => i % 2 == 0) exampleKey (fun i => (5, i, i)) (fun i => (7, i, i)) 1 exampleMesh3
      [301, 303] {} = .ok (w, ts) ∧
    load3 0 (header ["title"] ++ ts) [] { dim := 3 } = .ok (m', [301, 303]) ∧ m'.vertices = exampleMesh3.vertices ∧
    boundaryWalk m' 1 = .ok [5, 6, 7, 8, 9] := by
  obtain ⟨w, ts, m', h1, h2, h3, _, bd', h4, _⟩ := C51_solids_partial (fun i => i % 2 == 0) exampleKey (fun i => (5, i, i))
    (fun i => (7, i, i)) 1 exampleMesh3 exampleBd3 exampleVert [301, 303] {} (by decide) (by decide +kernel) exampleMesh3_valid
    exampleMesh3_numbered (by decide +kernel) exampleMesh3_facts.1 exampleMesh3_facts.2 (by decide +kernel) 0 (Or.inl rfl) ["title"] []
    { dim := 3 } rfl
  refine ⟨w, ts, m', h1, h2, h3, ?_⟩
  have hb : (match writeToStream3 (fun i => i % 2 == 0) exampleKey (fun i => (5, i, i)) (fun i => (7, i, i)) 1 exampleMesh3
      [301, 303] {} with
    | .ok (_, ts) => match load3 0 (header ["title"] ++ ts) [] { dim := 3 } with
      | .ok (m', _) => decide (boundaryWalk m' 1 = .ok [5, 6, 7, 8, 9])
      | _ => false
    | _ => false) = true := by decide +kernel
  rw [h1] at hb
  simp only at hb
  rw [h2] at hb
  simpa using hb

/-- The pyramid is of an unknown type: it comes back as 16 tetrahedra. -/
example : ∃ w ts m' t', writeToStream3 (fun _ => false) exampleKey (fun i => (5, i, i)) (fun i => (7, i, i)) 1 exampleMesh3
      [301, 304] {} = .ok (w, ts) ∧
    load3 4 (header [] ++ ts) [] { dim := 3 } = .ok (m', t') ∧ m'.cells.length = 17 ∧ t'[0]? = some 301 ∧ t'[16]? = some 300 := by
  have hs : isSplit [301, 304] 1 = true := by decide
  obtain ⟨w, ts, m', t', h1, h2, _, h4, _, h5⟩ := C51_round_trip_partial (fun _ => false) exampleKey (fun i => (5, i, i))
    (fun i => (7, i, i)) 1 exampleMesh3 exampleBd3 exampleVert [301, 304] {} (by decide) (by decide +kernel) exampleMesh3_valid
    exampleMesh3_numbered (by decide +kernel) (by
      intro i t hi hs
      have hlt : i < 2 := (List.getElem?_eq_some_iff.mp hi).1
      obtain rfl | rfl : i = 0 ∨ i = 1 := by omega
      · exact exampleMesh3_facts.1 0 t hi
      · simp [isSplit] at hs) (by decide +kernel) (by decide +kernel) 4 (Or.inr (by decide)) [] []
    { dim := 3 } rfl
  have ho : (origins (pieces exampleMesh3 exampleBd3 [301, 304]) exampleMesh3.cells.length) = 0 :: List.replicate 16 1 := by decide +kernel
  rw [ho] at h4 h5
  refine ⟨w, ts, m', t', h1, h2, h4, ?_, ?_⟩
  · obtain ⟨_, _, _, _, _, a, _⟩ := h5 0 0 rfl
    exact (a rfl).1
  · obtain ⟨_, _, _, _, _, _, a⟩ := h5 16 1 rfl
    exact (a hs).1

end GTMesh.Vtk
