import Verif.Props.Fpma
import Verif.Props.Vtk3valid
import Verif.Spec.Convert
import Mathlib.Algebra.Order.BigOperators.Group.List
import Mathlib.Algebra.Order.Ring.Nat

/-! # C53: conversion between the formats -/

namespace GTMesh.Vtk
open Spec Std' GTMesh.Props
variable {R V P : Type}

/-! ## From VTK to FPMA -/

/-- C21, with the polygons of the faces: each closed polygon with at least three sides formed by the edges of a face is formed by the edges of the
face with the same number after writing and reading. -/
theorem C21_polygons_partial (m : Mesh (Point R)) (bd poly : Idx → List Idx) (hd : m.dim = 3) (hv : ValidMesh m bd)
    (hpoly : ∀ (i : Nat) f, (m.midElems 2)[i]? = some f → IsPolygon m.edges f.sub (poly i) ∧ 3 ≤ (poly i).length)
    (hc : m.cells.length ≤ INVALID) (hf : (m.midElems 2).length ≤ INVALID) :
    ∃ ts m', Fpma.write m = .ok ts ∧ Fpma.load 0 ts { dim := 3 } = .ok m' ∧ m'.vertices = m.vertices ∧
      (m'.midElems 2).length = (m.midElems 2).length ∧
      (∀ (i : Nat) f p, (m.midElems 2)[i]? = some f → IsPolygon m.edges f.sub p →
        ∃ f', (m'.midElems 2)[i]? = some f' ∧ IsPolygon m'.edges f'.sub p) ∧
      m'.cells.length = m.cells.length ∧ ∀ i, i < m.cells.length → boundaryWalk m' i = .ok (bd i) := by
  obtain ⟨ts, m', h1, h2, h3, h4, h5, h6, h7⟩ := Fpma.C21_round_trip_partial m bd poly hd hv (fun i f h => (hpoly i f h).1) hc hf
  refine ⟨ts, m', h1, h2, h3, h4, ?_, h6, fun i hi => (h7 i hi).1.trans (h7 i hi).2⟩
  intro i f p hi hp
  have h3p : 3 ≤ p.length := by
    obtain ⟨⟨_, _, _, es, a1, a2⟩, hl⟩ := hpoly i f hi
    obtain ⟨_, _, _, es', b1, b2⟩ := hp
    rw [← b2.1, b1.length_eq, ← a1.length_eq, a2.1]
    exact hl
  obtain ⟨ts', m'', g1, g2, _, g4, g5, _⟩ := Fpma.C21_round_trip_partial m bd (Function.update poly i p) hd hv (by
    intro j g hj
    by_cases h : j = i
    · subst h
      rw [Function.update_self]
      rw [hi] at hj
      cases hj
      exact hp
    · rw [Function.update_of_ne h]
      exact (hpoly j g hj).1) hc hf
  rw [h1] at g1
  cases g1
  rw [h2] at g2
  cases g2
  have hlt : i < (m'.midElems 2).length := by rw [h4]; exact (List.getElem?_eq_some_iff.mp hi).1
  obtain ⟨q, q1, q2⟩ := g5 i _ (List.getElem?_eq_getElem hlt)
  rw [Function.update_self] at q2
  refine ⟨_, List.getElem?_eq_getElem hlt, ?_⟩
  have hpq : p.Perm q := by
    rcases q2 with h | h
    · exact h.perm.symm
    · exact (h.perm.trans (List.reverse_perm p)).symm
  have hqn : q.Nodup := hpq.nodup_iff.mp hp.2.1
  have hq : IsPolygon m'.edges (m'.midElems 2)[i].sub q := by
    refine ⟨?_, hqn, EdgesOf.nodup q1 hqn (by rw [← hpq.length_eq]; exact h3p), _, List.Perm.refl _, q1⟩
    rintro rfl
    exact hp.1 hpq.eq_nil
  refine isPolygon_cycle hq ?_
  rcases q2 with h | h
  · exact Or.inl h.symm
  · exact Or.inr (List.isRotated_reverse_comm_iff.mp h.symm)

theorem solid_polygon_length {vs : List Idx} (hn : vs.length = 4 ∨ vs.length = 5 ∨ vs.length = 6 ∨ vs.length = 8) {p : List Idx}
    (h : p ∈ facePolygons vs) : 3 ≤ p.length := by
  obtain ⟨q, hq, rfl⟩ := List.mem_map.mp h
  rw [List.length_map]
  have key : ∀ n ∈ [4, 5, 6, 8], ∀ q ∈ cellPolygons n, 3 ≤ q.length := by decide
  exact key vs.length (by simp; omega) q hq

/-- The mesh of a file of solids has at most 6 faces for each cell. -/
theorem faces_count (F : File R) (hF : F.Solids) {es : List Edge} {fs : List Face} (bd : Idx → List Idx)
    (hbd : ∀ (c : Nat) vs, F.cells[c]? = some vs → FacesOf es fs (bd c) vs)
    (hin : ∀ (i : Nat), i < fs.length → ∃ c, c < F.cells.length ∧ i ∈ bd c) : fs.length ≤ 6 * F.cells.length := by
  have hsub : List.range fs.length ⊆ (List.range F.cells.length).flatMap bd := by
    intro i hi
    obtain ⟨c, c1, c2⟩ := hin i (List.mem_range.mp hi)
    exact List.mem_flatMap.mpr ⟨c, List.mem_range.mpr c1, c2⟩
  have := (List.subperm_of_subset List.nodup_range hsub).length_le
  rw [List.length_range, List.length_flatMap] at this
  have hle : ((List.range F.cells.length).map fun c => (bd c).length).sum ≤ 6 * F.cells.length := by
    have := List.sum_le_card_nsmul ((List.range F.cells.length).map fun c => (bd c).length) 6 (by
      intro n hn
      obtain ⟨c, hc, rfl⟩ := List.mem_map.mp hn
      have hc := List.mem_range.mp hc
      rw [(hbd c _ (List.getElem?_eq_getElem hc)).1, facePolygons_length]
      rcases hF.known _ (List.getElem_mem hc) with h | h | h | h <;> rw [h] <;> decide)
    simpa [Nat.mul_comm] using this
  omega

/-- C53, VTK to FPMA. A VTK file with tetrahedra, pyramids, wedges and hexahedra, no face of which belongs to more than two cells, is read,
written in the FPMA format and read again. Then: the points are the same and in the same order; the cells are the same and in the same order, and the boundary walk of
each one visits the faces that the VTK format prescribes for it, in their order; two cells have a face in common exactly when the files says
that they have a face with the same sides. -/
theorem C53_vtk_to_fpma_partial [Zero R] (F : File R) (hF : F.Solids) (res : Nat)
    (hres : ∀ vs ∈ F.cells, ∀ p ∈ facePolygons vs, res = 0 ∨ p.length ≤ res)
    (hcodes : F.codes.length ≤ F.cells.length) (rest : List (VTok R))
    (types : List Nat) (m0 : Mesh (Point3 R)) (hd : m0.dim = 3)
    (htwo : ∀ vs ∈ F.cells, ∀ p ∈ facePolygons vs, AtMostTwoFace F p)
    (hr : ∀ vs ∈ F.cells, ∀ v ∈ vs, v < F.verts.length) :
    ∃ m t ts m', ∃ bd : Idx → List Idx, load3 res (F.tokens ++ rest) types m0 = .ok (m, t) ∧ Fpma.write m = .ok ts ∧
      Fpma.load 0 ts { dim := 3 } = .ok m' ∧ m'.vertices = F.verts ∧ m'.cells.length = F.cells.length ∧
      (∀ (c : Nat) vs, F.cells[c]? = some vs → boundaryWalk m' c = .ok (bd c) ∧ FacesOf m'.edges (m'.midElems 2) (bd c) vs) ∧
      (∀ (c c' : Nat) vs vs' (j j' : Nat) p p', F.cells[c]? = some vs → F.cells[c']? = some vs' → (facePolygons vs)[j]? = some p →
        (facePolygons vs')[j']? = some p' → ((bd c)[j]? = (bd c')[j']? ↔ SameSides p p')) := by
  obtain ⟨m, t, bd, h1, hv, hfaces⟩ := C25_valid F hF res hres hcodes rest types m0 hd htwo hr
  obtain ⟨m1, t1, u1, u2, u3, _, _, u6, u7, u8, _, u10, u11, _⟩ := C25_load F hF res hres hcodes rest types m0 hd
  rw [h1] at u1
  cases u1
  have hin : ∀ (i : Nat), i < (m.midElems 2).length → ∃ c, c < F.cells.length ∧ i ∈ bd c ∧ ∃ vs p, F.cells[c]? = some vs ∧
      p ∈ facePolygons vs ∧ IsPolygon m.edges ((m.midElems 2)[i]?.getD {}).sub p := by
    intro i hi
    obtain ⟨p, p1, ⟨vs, p2, q, p3, p4⟩, _⟩ := u8 _ (List.getElem_mem hi)
    obtain ⟨j, hj⟩ := List.getElem?_of_mem p3
    obtain ⟨i', x, a1, a2, a3⟩ := (hfaces _ _ p2).2 j q hj
    obtain rfl := u7 i i' _ _ _ _ (List.getElem?_eq_getElem hi) a2 p1 a3 p4
    refine ⟨_, (List.getElem?_eq_some_iff.mp p2).1, List.mem_of_getElem? a1, vs, q, p2, p3, ?_⟩
    rw [a2]
    exact a3
  have hfl := faces_count F hF bd hfaces fun i hi => let ⟨c, c1, c2, _⟩ := hin i hi; ⟨c, c1, c2⟩
  have hfit := hF.fit
  have hpoly : ∀ (i : Nat), ∃ p, ∀ f, (m.midElems 2)[i]? = some f → IsPolygon m.edges f.sub p ∧ 3 ≤ p.length := by
    intro i
    by_cases hi : i < (m.midElems 2).length
    · obtain ⟨c, _, _, vs, p, a0, a1, a2⟩ := hin i hi
      refine ⟨p, fun f hf => ?_⟩
      rw [hf] at a2
      exact ⟨a2, solid_polygon_length (hF.known _ (List.mem_of_getElem? a0)) a1⟩
    · exact ⟨[], fun f hf => absurd (List.getElem?_eq_some_iff.mp hf).1 hi⟩
  choose poly hpoly using hpoly
  obtain ⟨ts, m', w1, w2, w3, w4, w5, w6, w7⟩ := C21_polygons_partial m bd poly u2 hv hpoly (by omega) (by omega)
  refine ⟨m, t, ts, m', bd, h1, w1, w2, by rw [w3, u3], by rw [w6, u10], ?_, ?_⟩
  · intro c vs hc
    have hf := hfaces c vs hc
    refine ⟨w7 c (by rw [u10]; exact (List.getElem?_eq_some_iff.mp hc).1), hf.1, fun j p hp => ?_⟩
    obtain ⟨i, x, a1, a2, a3⟩ := hf.2 j p hp
    obtain ⟨x', b1, b2⟩ := w5 i x p a2 a3
    exact ⟨i, x', a1, b1, b2⟩
  · intro c c' vs vs' j j' p p' hc hc' hp hp'
    obtain ⟨i, x, a1, a2, a3⟩ := (hfaces c vs hc).2 j p hp
    obtain ⟨i', x', b1, b2, b3⟩ := (hfaces c' vs' hc').2 j' p' hp'
    rw [a1, b1, Option.some.injEq]
    constructor
    · rintro rfl
      rw [a2] at b2
      cases b2
      exact sameSides_of_subs a3 b3
    · exact u7 i i' x x' p p' a2 b2 a3 b3

example : ∃ m t ts m', ∃ bd : Idx → List Idx, load3 4 (exampleFile3.tokens ++ []) [] { dim := 3 } = .ok (m, t) ∧ Fpma.write m = .ok ts ∧
    Fpma.load 0 ts { dim := 3 } = .ok m' ∧ m'.cells.length = 2 ∧ boundaryWalk m' 1 = .ok (bd 1) ∧
    FacesOf m'.edges (m'.midElems 2) (bd 1) [6, 5, 4, 7, 8] ∧ (bd 0)[5]? = (bd 1)[0]? := by
  obtain ⟨m, t, ts, m', bd, h1, h2, h3, _, h4, h5, h6⟩ := C53_vtk_to_fpma_partial exampleFile3 exampleFile3_solids 4 (by decide) (by decide) [] []
    { dim := 3 } rfl (fun _ _ p _ => exampleFile3_two p) (by decide)
  refine ⟨m, t, ts, m', bd, h1, h2, h3, h4, (h5 1 _ rfl).1, (h5 1 _ rfl).2, ?_⟩
  rw [h6 0 1 _ _ 5 0 _ _ rfl rfl rfl rfl]
  exact SameCycle.sameSides (Or.inr ⟨3, rfl⟩)

/-! ## From FPMA to VTK -/

theorem tetra_swap (a b c d : Idx) : SameSolid [a, b, c, d] [b, a, c, d] := by
  refine ⟨rfl, ?_, ?_⟩ <;> rw [tetra_polygons, tetra_polygons] <;> intro p hp <;>
    simp only [List.mem_cons, List.not_mem_nil, or_false] at hp
  · rcases hp with rfl | rfl | rfl | rfl
    · exact ⟨[b, a, c], by simp, Or.inr ⟨2, rfl⟩⟩
    · exact ⟨[b, a, d], by simp, Or.inr ⟨2, rfl⟩⟩
    · exact ⟨[c, b, d], by simp, Or.inr ⟨2, rfl⟩⟩
    · exact ⟨[a, c, d], by simp, Or.inr ⟨2, rfl⟩⟩
  · rcases hp with rfl | rfl | rfl | rfl
    · exact ⟨[a, b, c], by simp, Or.inr ⟨2, rfl⟩⟩
    · exact ⟨[a, b, d], by simp, Or.inr ⟨2, rfl⟩⟩
    · exact ⟨[c, a, d], by simp, Or.inr ⟨2, rfl⟩⟩
    · exact ⟨[b, c, d], by simp, Or.inr ⟨2, rfl⟩⟩

/-- A tetrahedron does not depend on the order of its first two vertices. -/
theorem isSolid_swap {m : Mesh V} {l : List Idx} {a b c d : Idx} (hl : l.Nodup) (h : IsSolid m l [a, b, c, d] 300) :
    IsSolid m l [b, a, c, d] 300 := by
  obtain ⟨_, h2, l', h3, h4⟩ := h
  have := isSolid_of_same (t := 300) h4 (h3.nodup_iff.mpr hl) (tetra_swap a b c d) (by
    unfold NoRepetition at h2
    simp at h2 ⊢
    tauto) rfl
  exact ⟨this.1, this.2, let ⟨l'', g1, g2⟩ := this.3; ⟨l'', g1.trans h3, g2⟩⟩

theorem sideList_eq (vs : List Idx) : Fpma.sideList vs = consecutive vs := by
  apply List.ext_getElem?
  intro j
  unfold Fpma.sideList consecutive
  by_cases hj : j < vs.length
  · have h2 : (j + 1) % vs.length < vs.length := Nat.mod_lt _ (by omega)
    rw [List.getElem?_eq_getElem (by simpa using hj), List.getElem?_eq_getElem (by simpa using hj)]
    simp [List.getElem_rotate, hj, h2]
  · rw [List.getElem?_eq_none (by simp; omega), List.getElem?_eq_none (by simp; omega)]

/-- The edge `e` of the piece joins the ends of the side. -/
def PieceOf (es : List Edge) : Piece → Fpma.CellSide → Prop
  | .part i f e, s => s.cell = i ∧ s.face = f ∧ Joins es e s.u s.v
  | .whole _, _ => False

theorem forall₂_flatMap {α β γ δ : Type} {r : γ → δ → Prop} {f : α → List γ} {g : β → List δ} {q : α → β → Prop} {l : List α} {l' : List β}
    (h : List.Forall₂ q l l') (hfg : ∀ a b, a ∈ l → b ∈ l' → q a b → List.Forall₂ r (f a) (g b)) :
    List.Forall₂ r (l.flatMap f) (l'.flatMap g) := by
  induction h with
  | nil => simp
  | cons h1 h2 ih =>
    simp only [List.flatMap_cons]
    exact List.rel_append (hfg _ _ (by simp) (by simp) h1) (ih fun a b ha hb => hfg a b (by simp [ha]) (by simp [hb]))

/-- C53, FPMA to VTK. An FPMA file with polyhedra is read, written in the VTK format with the cell types reported by the FPMA reader and read again; the texts of the centers
of the faces and of the cells are all different. Then the result is a valid mesh with the points of the file followed by the appended ones, and its cells
are one tetrahedron for each side of each face of each cell in the order of the file, the vertices of which are the ends of the side, the appended center of the face and the appended center of
the cell. -/
theorem C53_fpma_to_vtk_partial [Zero R] (F : Fpma.File R) (hF : F.WellFormed) (hP : F.Polyhedra) (res : Nat)
    (hres : ∀ vs ∈ F.faces, res = 0 ∨ vs.length ≤ res) (rest : List (Tok R)) (hfit : 12 * F.cellSides.length ≤ INVALID)
    (ori : Idx → Bool) (key : Point3 R → List Char) (cc fc : Idx → Point3 R) (hash : Nat) (w0 : Writer3 (Point3 R)) (hhash : w0.lastHash ≠ hash)
    (hkc : ∀ i i', i < F.cells.length → i' < F.cells.length → key (cc i) = key (cc i') → i = i')
    (hkf : ∀ f f', f < F.faces.length → f' < F.faces.length → key (fc f) = key (fc f') → f = f')
    (hkb : ∀ i f, i < F.cells.length → f < F.faces.length → key (fc f) ≠ key (cc i))
    (res' : Nat) (hres' : res' = 0 ∨ 4 ≤ res') (title : List String) (types0 : List Nat) (m0 : Mesh (Point3 R)) (hd0 : m0.dim = 3) :
    ∃ m w ts m' t', ∃ bd' : Idx → List Idx, Fpma.load res (F.tokens ++ rest) { dim := 3 } = .ok m ∧
      writeToStream3 ori key cc fc hash m (Fpma.setupCellTypes [] m) w0 = .ok (w, ts) ∧
      load3 res' (header title ++ ts) types0 m0 = .ok (m', t') ∧ m'.vertices = F.verts ++ w.appended ∧ ValidMesh m' bd' ∧
      t' = List.replicate F.cellSides.length 300 ∧ m'.cells.length = F.cellSides.length ∧
      ∃ faceAt cellAt : Idx → Idx,
        (∀ i f, i < F.cells.length → f ∈ F.cell i → w.appended[faceAt f]? = some (fc f)) ∧
        (∀ i, i < F.cells.length → w.appended[cellAt i]? = some (cc i)) ∧
        ∀ (k : Nat) s, F.cellSides[k]? = some s → boundaryWalk m' k = .ok (bd' k) ∧
          IsSolid m' (bd' k) [s.u, s.v, F.verts.length + faceAt s.face, F.verts.length + cellAt s.cell] 300 := by
  obtain ⟨m, h1, h2, h3, h4, h5, h6, h7, h8, h9, h10⟩ := Fpma.C18_load F hF res hres rest
  obtain ⟨m1, g1, hv⟩ := Fpma.C18_valid F hF res hres rest hP.range
  rw [h1] at g1
  cases g1
  have hty : Fpma.setupCellTypes [] m = List.replicate F.cells.length 305 := by simp [Fpma.setupCellTypes, resize, h9]
  have hspl : ∀ i, isSplit (Fpma.setupCellTypes [] m) i = true := by
    intro i
    rw [hty]
    unfold isSplit
    by_cases hi : i < F.cells.length
    · simp [hi]
    · simp [hi]
  have hface : ∀ (f : Nat), f < F.faces.length → EdgesOf m.edges (edgesOfFace m f) (F.face f) ∧ F.face f ∈ F.faces := by
    intro f hf
    have hm := List.getElem?_eq_getElem hf
    obtain ⟨x, a1, _, a2⟩ := h8 f _ hm
    unfold edgesOfFace Fpma.File.face
    rw [a1, hm]
    exact ⟨a2, List.getElem_mem hf⟩
  have hpol : ∀ (f : Nat), f < F.faces.length → IsPolygon m.edges (edgesOfFace m f) (F.face f) := by
    intro f hf
    obtain ⟨a1, a2⟩ := hface f hf
    have hn := hP.nodup _ a2
    have h3 := hP.three _ a2
    exact ⟨by intro h; rw [h] at h3; simp at h3, hn, EdgesOf.nodup a1 hn h3, _, List.Perm.refl _, a1⟩
  have hcell : ∀ (i : Nat), ∀ f ∈ F.cell i, f < F.faces.length := by
    intro i f hf
    unfold Fpma.File.cell at hf
    cases hc : F.cells[i]? with
    | none => rw [hc] at hf; simp at hf
    | some l =>
      rw [hc] at hf
      exact hF.cells_range l (List.mem_of_getElem? hc) f hf
  have hnum : Numbered m := by
    refine ⟨?_, ?_⟩
    · intro i c hc
      have hi : i < F.cells.length := by rw [← h9]; exact (List.getElem?_eq_some_iff.mp hc).1
      obtain ⟨⟨c', a1, a2⟩, _⟩ := h10 i _ (List.getElem?_eq_getElem hi)
      rw [hc] at a1
      cases a1
      exact a2
    · intro i f hf
      have hi : i < F.faces.length := by rw [← h7]; exact (List.getElem?_eq_some_iff.mp hf).1
      obtain ⟨f', a1, a2, _⟩ := h8 i _ (List.getElem?_eq_getElem hi)
      rw [hf] at a1
      cases a1
      exact a2
  have hsub : ∀ (i : Nat) f, (m.midElems 2)[i]? = some f → f.sub = edgesOfFace m i ∧ i < F.faces.length := by
    intro i f hf
    refine ⟨by unfold edgesOfFace; rw [hf]; rfl, by rw [← h7]; exact (List.getElem?_eq_some_iff.mp hf).1⟩
  have hnd : NoDoubles m := by
    refine ⟨h5, ?_⟩
    intro i j f f' p p' hf hf' hp hp' hs
    obtain ⟨e1, l1⟩ := hsub i f hf
    obtain ⟨e2, l2⟩ := hsub j f' hf'
    rw [e1] at hp
    rw [e2] at hp'
    refine hP.distinct i j (F.face i) (F.face j) (by simp [Fpma.File.face, l1]) (by simp [Fpma.File.face, l2]) fun u v => ?_
    rw [sameSides_of_subs (hpol i l1) hp u v, hs u v, sameSides_of_subs hp' (hpol j l2) u v]
  have hside : ∀ f e, f < F.faces.length → e ∈ edgesOfFace m f → HasSide (F.face f) (endA m.edges e) (endB m.edges e) := by
    intro f e hf he
    obtain ⟨ed, a1, a2⟩ := polygon_edge (hpol f hf) he
    simp only [endA, endB, a1, Option.map_some, Option.getD_some]
    exact a2
  have hpoly : SplitPolyhedra m F.cell (Fpma.setupCellTypes [] m) F.face := by
    refine ⟨fun i f _ _ hf => ⟨hpol f (hcell i f hf), hP.three _ (hface f (hcell i f hf)).2⟩, ?_⟩
    intro i e f f' f'' _ _ hf hf' hf'' he he' he''
    exact hP.closed i f f' f'' _ _ hf hf' hf'' (hside f e (hcell i f hf) he) (hside f' e (hcell i f' hf') he')
      (hside f'' e (hcell i f'' hf'') he'')
  have hkey : DistinctCenters key cc fc m F.cell (Fpma.setupCellTypes [] m) := by
    refine ⟨fun i i' hi hi' _ _ => hkc i i' (by omega) (by omega), fun i i' f f' _ _ _ _ hf hf' => hkf f f' (hcell i f hf) (hcell i' f' hf'),
      fun i i' f _ hi' _ _ hf => hkb i' f (by omega) (hcell i f hf)⟩
  have hex : List.Forall₂ (PieceOf m.edges) (exported m F.cell (Fpma.setupCellTypes [] m)) F.cellSides := by
    unfold exported Fpma.File.cellSides
    rw [h9]
    refine forall₂_flatMap (q := Eq) (List.forall₂_same.mpr fun _ _ => rfl) ?_
    rintro i _ hi _ rfl
    rw [if_pos (hspl i)]
    refine forall₂_flatMap (q := Eq) (List.forall₂_same.mpr fun _ _ => rfl) ?_
    rintro f _ hf _ rfl
    obtain ⟨a1, _⟩ := hface f (hcell i f hf)
    rw [sideList_eq, List.forall₂_map_left_iff, List.forall₂_map_right_iff, List.forall₂_iff_get]
    refine ⟨by rw [a1.1, consecutive_length], fun j hj hj' => ?_⟩
    rw [a1.1] at hj
    obtain ⟨e, u, v, b1, b2, b3, b4⟩ := a1.2 j hj
    obtain ⟨u', v', c1, c2, c3⟩ := consecutive_get (F.face f) j hj
    rw [b2] at c2; rw [b3] at c3
    cases c2; cases c3
    refine ⟨rfl, rfl, ?_⟩
    have d1 := (List.getElem?_eq_some_iff.mp b1).2
    have d2 := (List.getElem?_eq_some_iff.mp c1).2
    simp only [List.get_eq_getElem, d1, d2]
    exact b4
  obtain ⟨w, ts, m', t', bd', k1, k2, k3, k4, _, _, k7, k8, fa, ca, k9, k10, k11⟩ := C51_valid_partial ori key cc fc hash m F.cell (fun _ => []) F.face
    (Fpma.setupCellTypes [] m) w0 hhash h2 hv hnum (by rw [hty, h9]; simp) (fun i t _ hs => by rw [hspl i] at hs; simp at hs) hnd hpoly hkey
    (by rw [hex.length_eq]; exact hfit) res' hres' title types0 m0 hd0
  have hpiece : ∀ (k : Nat) s, F.cellSides[k]? = some s → t'[k]? = some 300 ∧ boundaryWalk m' k = .ok (bd' k) ∧
          IsSolid m' (bd' k) [s.u, s.v, F.verts.length + fa s.face, F.verts.length + ca s.cell] 300 := by
    intro k s hs
    obtain ⟨x, x1, x2⟩ := forall₂_get hex.flip hs
    obtain ⟨y1, y2⟩ := k11 k x x1
    cases x with
    | whole i => exact x2.elim
    | part i f e =>
      obtain ⟨rfl, rfl, ed, z1, z2⟩ := x2
      obtain ⟨y2, y3⟩ := y2
      refine ⟨y2, y1, ?_⟩
      simp only [endA, endB, z1, Option.map_some, Option.getD_some, h3] at y3
      rcases z2 with z2 | z2
      · simp only [Prod.mk.injEq] at z2
        rw [← z2.1, ← z2.2]
        exact y3
      · simp only at z2
        rw [← z2.1, ← z2.2]
        have hk : k < m'.cells.length := by
          rw [k7, hex.length_eq]; exact (List.getElem?_eq_some_iff.mp hs).1
        exact isSolid_swap (k4.chain k m'.cells[k] (by simp [hk])).1.2.1 y3
  refine ⟨m, w, ts, m', t', bd', h1, k1, k2, by rw [k3, h3], k4, ?_, by rw [k7, hex.length_eq], fa, ca,
    fun i f hi hf => k9 i f (by omega) (hspl i) hf, fun i hi => k10 i (by omega) (hspl i), fun k s hs => (hpiece k s hs).2⟩
  apply List.ext_getElem?
  intro k
  by_cases hk : k < F.cellSides.length
  · rw [(hpiece k _ (List.getElem?_eq_getElem hk)).1]
    simp [hk]
  · rw [List.getElem?_eq_none (by rw [k8, k7, hex.length_eq]; omega), List.getElem?_eq_none (by simp; omega)]

/-! Example: the two tetrahedra of the FPMA file, which the reader takes as polyhedra. -/

theorem hasSide_iff_sideList (vs : List Idx) (u v : Idx) :
    HasSide vs u v ↔ ∃ s ∈ Fpma.sideList vs, SamePair s (u, v) := by
  rw [sideList_eq]
  constructor
  · rintro ⟨j, a, b, hj, ha, hb, h⟩
    obtain ⟨a', b', c1, c2, c3⟩ := consecutive_get vs j hj
    rw [ha] at c2; rw [hb] at c3
    cases c2; cases c3
    exact ⟨_, List.mem_of_getElem? c1, h⟩
  · rintro ⟨s, hs, h⟩
    obtain ⟨j, hj, a, b⟩ := Fpma.mem_consecutive hs
    exact ⟨j, _, _, hj, a, b, h⟩

theorem exampleFile_polyhedra : Fpma.exampleFile.Polyhedra where
  nodup := by simp only [NoRepetition]; decide
  three := by decide
  range := by decide
  distinct := by
    intro i j vs ws hi hj h
    have key : ∀ i < 7, ∀ j < 7, (Fpma.exampleFile.face i).all (fun v => (Fpma.exampleFile.face j).contains v) = true → i = j := by decide
    refine key i (List.getElem?_eq_some_iff.mp hi).1 j (List.getElem?_eq_some_iff.mp hj).1 ?_
    simp only [Fpma.File.face, hi, hj, Option.getD_some, List.all_eq_true, List.contains_iff_mem]
    exact fun v hv => (sameSides_mem h v).mp hv
  closed := by
    intro i f f' f'' u v h1 h2 h3 s1 s2 s3
    rw [hasSide_iff_sideList] at s1 s2 s3
    obtain ⟨a, a1, a2⟩ := s1
    obtain ⟨b, b1, b2⟩ := s2
    obtain ⟨c, c1, c2⟩ := s3
    have key : ∀ i < 2, ∀ f ∈ Fpma.exampleFile.cell i, ∀ f' ∈ Fpma.exampleFile.cell i, ∀ f'' ∈ Fpma.exampleFile.cell i,
        ((Fpma.sideList (Fpma.exampleFile.face f)).all fun a => (Fpma.sideList (Fpma.exampleFile.face f')).all fun b =>
          (Fpma.sideList (Fpma.exampleFile.face f'')).all fun c =>
            decide (SamePair a b → SamePair a c → f = f' ∨ f' = f'' ∨ f = f'')) = true := by decide +kernel
    have hi : i < 2 := by
      by_contra hi
      have : Fpma.exampleFile.cell i = [] := by
        unfold Fpma.File.cell
        rw [List.getElem?_eq_none (by simp [Fpma.exampleFile]; omega)]
        rfl
      rw [this] at h1
      simp at h1
    have k := key i hi f h1 f' h2 f'' h3
    simp only [List.all_eq_true, decide_eq_true_eq] at k
    exact k a a1 b b1 c c1 (SamePair.trans a2 (SamePair.symm b2)) (SamePair.trans a2 (SamePair.symm c2))

example : ∃ m w ts m' t', ∃ bd' : Idx → List Idx, Fpma.load 0 (Fpma.exampleFile.tokens ++ []) { dim := 3 } = .ok m ∧
    writeToStream3 (fun _ => false) exampleKey (fun i => (5, i, i)) (fun i => (7, i, i)) 1 m (Fpma.setupCellTypes [] m) {} = .ok (w, ts) ∧
    load3 4 (header [] ++ ts) [] { dim := 3 } = .ok (m', t') ∧ ValidMesh m' bd' ∧ m'.cells.length = 24 := by
  obtain ⟨m, w, ts, m', t', bd', h1, h2, h3, _, h4, _, h5, _⟩ := C53_fpma_to_vtk_partial Fpma.exampleFile Fpma.exampleFile_wellFormed exampleFile_polyhedra 0
    (by decide) [] (by decide) (fun _ => false) exampleKey (fun i => (5, i, i)) (fun i => (7, i, i)) 1 {} (by decide)
    (by
      have key : ∀ i ∈ List.range 2, ∀ i' ∈ List.range 2, exampleKey (5, (i : Int), (i : Int)) = exampleKey (5, (i' : Int), (i' : Int)) → i = i' := by decide +kernel
      exact fun i i' hi hi' => key i (List.mem_range.mpr hi) i' (List.mem_range.mpr hi'))
    (by
      have key : ∀ i ∈ List.range 7, ∀ i' ∈ List.range 7, exampleKey (7, (i : Int), (i : Int)) = exampleKey (7, (i' : Int), (i' : Int)) → i = i' := by decide +kernel
      exact fun i i' hi hi' => key i (List.mem_range.mpr hi) i' (List.mem_range.mpr hi'))
    (by
      have key : ∀ i ∈ List.range 2, ∀ f ∈ List.range 7, exampleKey (7, (f : Int), (f : Int)) ≠ exampleKey (5, (i : Int), (i : Int)) := by decide +kernel
      exact fun i f hi hf => key i (List.mem_range.mpr hi) f (List.mem_range.mpr hf)) 4 (by decide) [] [] { dim := 3 } rfl
  exact ⟨m, w, ts, m', t', bd', h1, h2, h3, h4, h5⟩

end GTMesh.Vtk
