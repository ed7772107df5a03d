import Verif.Props.ConvexMesh
import Verif.Props.Flux2
import Verif.Props.Vtk3
import Verif.Props.FpmaSides
import Verif.Proofs.Solid5

/-! # C70: the geometry of a loaded mesh is that of its file -/

namespace GTMesh.Props
open Spec Std' Vec Geo
open Vtk (vec2 FirstAndLast)

/-- The position as a vector. -/
def vec3 (p : ℝ × ℝ × ℝ) : Vec 3 ℝ := ![p.1, p.2.1, p.2.2]

/-- The position of a vertex of a 2D file. -/
def at2 (verts : List (ℝ × ℝ × ℝ)) (v : Nat) : Option (Vec 2 ℝ) := (verts[v]?).map fun x => vec2 (x.1, x.2.1)

/-- The position of a vertex of a 3D file. -/
def at3 (verts : List (ℝ × ℝ × ℝ)) (v : Nat) : Option (Vec 3 ℝ) := (verts[v]?).map vec3

/-- After `initializeCenters` (with any mesh object that holds the mesh), the measures and the normals of the faces are computed, and:
the lengths of the edges are the distances of their ends, the volumes of the cells are those of the solids, the center of a cell is the
mean of the centers of its faces; going around a cell, the faces have the areas of the polygons of the solid, their centers are the means of
their vertices, and, if the cell is on the left of the face, the normal is the outer normal of the solid. -/
def HasGeometry (m : Mesh (Vec 3 ℝ)) (solids : List (List (List (Vec 3 ℝ) × Vec 3 ℝ))) : Prop :=
  ∀ g : GMesh 3 ℝ, g.mesh = m → ∃ cs ls as vols ns, computeCenters m = .ok cs ∧ computeMeasures3 (setCenters g cs) = .ok (ls, as, vols) ∧
    computeFaceNormals3 (setCenters g cs) = .ok ns ∧
    (∀ (e : Nat) ed A B, m.edges[e]? = some ed → m.vertices[ed.a]? = some A → m.vertices[ed.b]? = some B →
      ls[e]? = some (Vec.norm (A - B)) ∧ entry cs 1 e = some (mean [A, B])) ∧
    vols = solids.map solidVolume ∧
    ∀ (c : Nat) faces, solids[c]? = some faces → entry cs 3 c = some (mean (faces.map fun x => mean x.1)) ∧
      ∃ l, boundaryWalk m c = .ok l ∧ List.Forall₂ (fun (f : Nat) x => as[f]? = some (Vec.norm (vectorArea x.1)) ∧ entry cs 2 f = some (mean x.1) ∧
        ∀ fa, (m.midElems 2)[f]? = some fa → fa.conn.left = c → ns[f]? = some x.2) l faces

/-- A valid mesh whose cells have the shapes of the solids. -/
theorem hasGeometry_of {m : Mesh (Vec 3 ℝ)} {bd : Idx → List Idx} (hv : ValidMesh m bd) (h3 : m.dim = 3) (hb : m.cells.length ≤ BOUNDARY)
    {solids : List (List (List (Vec 3 ℝ) × Vec 3 ℝ))} (hl : m.cells.length = solids.length)
    (hS : ∀ (c : Nat) faces, solids[c]? = some faces → ConvexSolid faces ∧ List.Forall₂ (fun f x => FaceShape m f x.1) (bd c) faces)
    (hcov : ∀ (f : Nat) fa, (m.midElems 2)[f]? = some fa → fa.conn.left < m.cells.length ∧ f ∈ bd fa.conn.left)
    (hedge : ∀ e, e < m.edges.length → ∃ fa ∈ m.midElems 2, e ∈ fa.sub) : HasGeometry m solids := by
  rintro g rfl
  have hget : ∀ c, c < g.mesh.cells.length → solids[c]? = some ((solids[c]?).getD []) := by
    intro c hc
    rw [List.getElem?_eq_getElem (by omega)]; rfl
  obtain ⟨cs, ls, as, vols, ns, h1, h2, h4, h5, h6, h7, h8⟩ := C39_convex_mesh g bd hv h3 hb (fun c => (solids[c]?).getD [])
    (fun c hc => hS c _ (hget c hc)) hcov hedge
  refine ⟨cs, ls, as, vols, ns, h1, h2, h4, ?_, ?_, ?_⟩
  · intro e ed A B he hA hB
    refine ⟨?_, h5.edges e ed A B he hA hB⟩
    rw [h6, lengths, List.getElem?_map, List.getElem?_range (List.getElem?_eq_some_iff.mp he).1, Option.map_some, ends, he]
    simp only [Option.map_some, Option.getD_some, hA, hB]
  · apply List.ext_getElem?
    intro c
    by_cases hc : c < g.mesh.cells.length
    · rw [(h8 c hc).1, List.getElem?_map, hget c hc]; rfl
    · rw [List.getElem?_eq_none (by omega), List.getElem?_eq_none (by simp; omega)]
  · intro c faces hf
    have hc : c < g.mesh.cells.length := by rw [hl]; exact (List.getElem?_eq_some_iff.mp hf).1
    obtain ⟨_, k2, k3⟩ := h8 c hc
    simp only [hf, Option.getD_some] at k2 k3
    obtain ⟨hch, hb0⟩ := hv.chain c _ (List.getElem?_eq_getElem hc)
    exact ⟨k2, bd c, (C09_walk_iff_chain g.mesh hv.dim_ge c _ (List.getElem?_eq_getElem hc) _).mpr ⟨hch, hb0⟩, k3⟩

/-- The shape of a face from the file. -/
theorem faceShape_of {m : Mesh (ℝ × ℝ × ℝ)} {f : Nat} {fa : Face} {p : List Idx} {ps : List (Vec 3 ℝ)} (hf : (m.midElems 2)[f]? = some fa)
    (hp : IsPolygon m.edges fa.sub p) (hd : Drawn (at3 m.vertices) p ps) : FaceShape (m.mapV vec3) f ps := by
  obtain ⟨q, h1, h2⟩ := hd
  refine ⟨fa, q, hf, Vtk.isPolygon_cycle hp h1, ?_⟩
  refine h2.imp fun v x h => ?_
  show (m.vertices.map vec3)[v]? = some x
  rw [List.getElem?_map]; exact h

/-- The loaded mesh and the shapes of its cells. -/
theorem vtk3_shapes (F : Vtk.File ℝ) (hF : F.Solids) (res : Nat)
    (hres : ∀ vs ∈ F.cells, ∀ p ∈ Vtk.facePolygons vs, res = 0 ∨ p.length ≤ res)
    (hcodes : F.codes.length ≤ F.cells.length) (rest : List (Vtk.VTok ℝ))
    (types : List Nat) (m0 : Mesh (Vtk.Point3 ℝ)) (hd : m0.dim = 3)
    (htwo : ∀ vs ∈ F.cells, ∀ p ∈ Vtk.facePolygons vs, Vtk.AtMostTwoFace F p)
    (hr : ∀ vs ∈ F.cells, ∀ v ∈ vs, v < F.verts.length) (solids : List (List (List (Vec 3 ℝ) × Vec 3 ℝ)))
    (hsol : List.Forall₂ (fun vs faces => ConvexSolid faces ∧
      List.Forall₂ (fun p x => Drawn (at3 F.verts) p x.1) (Vtk.facePolygons vs) faces) F.cells solids) :
    ∃ m t bd, Vtk.load3 res (F.tokens ++ rest) types m0 = .ok (m, t) ∧ ValidMesh (m.mapV vec3) bd ∧ m.dim = 3 ∧ m.cells.length ≤ BOUNDARY ∧
      m.cells.length = solids.length ∧
      (∀ (c : Nat) faces, solids[c]? = some faces → ConvexSolid faces ∧ List.Forall₂ (fun f x => FaceShape (m.mapV vec3) f x.1) (bd c) faces) ∧
      (∀ (f : Nat) fa, (m.midElems 2)[f]? = some fa → fa.conn.left < m.cells.length ∧ f ∈ bd fa.conn.left) ∧
      (∀ e, e < m.edges.length → ∃ fa ∈ m.midElems 2, e ∈ fa.sub) ∧
      ∀ (c : Nat) vs, F.cells[c]? = some vs → (bd c).length = (Vtk.facePolygons vs).length ∧
        ∀ (j : Nat) p, (Vtk.facePolygons vs)[j]? = some p → ∃ i f, (bd c)[j]? = some i ∧ (m.midElems 2)[i]? = some f ∧ IsPolygon m.edges f.sub p := by
  obtain ⟨m, t, bd, l1, hv, hE⟩ := Vtk.C25_valid F hF res hres hcodes rest types m0 hd htwo hr
  obtain ⟨m', t', l2, g1, g2, _, _, g5, g6, g7, g8, g9, _⟩ := Vtk.C25_load F hF res hres hcodes rest types m0 hd
  rw [l1] at l2
  cases l2
  have hfit : m.cells.length ≤ BOUNDARY := by
    have := hF.fit
    have e1 : INVALID = 18446744073709551615 := rfl
    have e2 : BOUNDARY = 9223372036854775808 := rfl
    omega
  have hls : m.cells.length = solids.length := by rw [g9, hsol.length_eq]
  have hat : ∀ (c : Nat) faces, solids[c]? = some faces → ∃ vs, F.cells[c]? = some vs ∧ ConvexSolid faces ∧
      List.Forall₂ (fun p x => Drawn (at3 F.verts) p x.1) (Vtk.facePolygons vs) faces := by
    intro c faces hf
    obtain ⟨hlt, rfl⟩ := List.getElem?_eq_some_iff.mp hf
    have hlt' : c < F.cells.length := by rw [hsol.length_eq]; exact hlt
    have := (List.forall₂_iff_get.mp hsol).2 c hlt' hlt
    exact ⟨_, List.getElem?_eq_getElem hlt', this⟩
  refine ⟨m, t, bd, l1, hv.mapV vec3, g1, hfit, hls, ?_, ?_, ?_, hE⟩
  · intro c faces hf
    obtain ⟨vs, h1, h2, h3⟩ := hat c faces hf
    refine ⟨h2, ?_⟩
    obtain ⟨e1, e2⟩ := hE c vs h1
    rw [List.forall₂_iff_get]
    refine ⟨by rw [e1, h3.length_eq], ?_⟩
    intro j j1 j2
    have j3 : j < (Vtk.facePolygons vs).length := by omega
    obtain ⟨i, x, a1, a2, a3⟩ := e2 j _ (List.getElem?_eq_getElem j3)
    rw [List.getElem?_eq_getElem j1] at a1
    have hdr := (List.forall₂_iff_get.mp h3).2 j j3 j2
    simp only [List.get_eq_getElem] at hdr ⊢
    rw [Option.some.inj a1]
    rw [← g2] at hdr
    exact faceShape_of a2 a3 hdr
  · intro f fa hf
    obtain ⟨p, p1, ⟨vs, p2, q, p3, p4⟩, _⟩ := g7 fa (List.mem_of_getElem? hf)
    obtain ⟨j, hj⟩ := List.getElem?_of_mem p3
    obtain ⟨i, x, a1, a2, a3⟩ := (hE _ vs p2).2 j q hj
    obtain rfl := g6 f i fa x p q hf a2 p1 a3 p4
    exact ⟨by rw [g9]; exact (List.getElem?_eq_some_iff.mp p2).1, List.mem_of_getElem? a1⟩
  · intro e he
    obtain ⟨vs, k1, _, p, k2, k3⟩ := g8 _ (List.getElem_mem he)
    obtain ⟨c, hc⟩ := List.getElem?_of_mem k1
    obtain ⟨j, hj⟩ := List.getElem?_of_mem k2
    obtain ⟨i, x, a1, a2, a3⟩ := (hE c vs hc).2 j p hj
    obtain ⟨e', b1, ed, b2, b3⟩ := Vtk.polygon_side a3 k3
    obtain rfl := g5 e' e ed _ b2 (List.getElem?_eq_getElem he) b3
    exact ⟨x, List.mem_of_getElem? a2, b1⟩

/-- C70, VTK 3D: a file whose cells are convex solids. -/
theorem C70_vtk_3d (F : Vtk.File ℝ) (hF : F.Solids) (res : Nat)
    (hres : ∀ vs ∈ F.cells, ∀ p ∈ Vtk.facePolygons vs, res = 0 ∨ p.length ≤ res)
    (hcodes : F.codes.length ≤ F.cells.length) (rest : List (Vtk.VTok ℝ))
    (types : List Nat) (m0 : Mesh (Vtk.Point3 ℝ)) (hd : m0.dim = 3)
    (htwo : ∀ vs ∈ F.cells, ∀ p ∈ Vtk.facePolygons vs, Vtk.AtMostTwoFace F p)
    (hr : ∀ vs ∈ F.cells, ∀ v ∈ vs, v < F.verts.length) (solids : List (List (List (Vec 3 ℝ) × Vec 3 ℝ)))
    (hsol : List.Forall₂ (fun vs faces => ConvexSolid faces ∧
      List.Forall₂ (fun p x => Drawn (at3 F.verts) p x.1) (Vtk.facePolygons vs) faces) F.cells solids) :
    ∃ m t, Vtk.load3 res (F.tokens ++ rest) types m0 = .ok (m, t) ∧ HasGeometry (m.mapV vec3) solids := by
  obtain ⟨m, t, bd, l1, hv, h3, hb, hl, hS, hcov, hedge, _⟩ := vtk3_shapes F hF res hres hcodes rest types m0 hd htwo hr solids hsol
  exact ⟨m, t, l1, hasGeometry_of hv h3 hb hl hS hcov hedge⟩

/-- The loaded mesh and the shapes of its cells. -/
theorem fpma_shapes (F : Fpma.File ℝ) (hF : F.WellFormed) (res : Nat)
    (hres : ∀ vs ∈ F.faces, res = 0 ∨ vs.length ≤ res) (rest : List (Tok ℝ))
    (hr : ∀ vs ∈ F.faces, ∀ v ∈ vs, v < F.verts.length) (hfit : F.cells.length ≤ BOUNDARY)
    (hpoly : ∀ vs ∈ F.faces, 3 ≤ vs.length ∧ NoRepetition vs) (hall : ∀ f, f < F.faces.length → ∃ c, Lists F f c)
    (solids : List (List (List (Vec 3 ℝ) × Vec 3 ℝ)))
    (hsol : List.Forall₂ (fun l faces => ConvexSolid faces ∧
      List.Forall₂ (fun (f : Nat) x => ∃ p, F.faces[f]? = some p ∧ Drawn (at3 F.verts) p x.1) l faces) F.cells solids) :
    ∃ m, Fpma.load res (F.tokens ++ rest) { dim := 3 } = .ok m ∧ ValidMesh (m.mapV vec3) (fun i => (F.cells[i]?).getD []) ∧ m.dim = 3 ∧
      m.cells.length ≤ BOUNDARY ∧ m.cells.length = solids.length ∧
      (∀ (c : Nat) faces, solids[c]? = some faces → ConvexSolid faces ∧
        List.Forall₂ (fun f x => FaceShape (m.mapV vec3) f x.1) ((F.cells[c]?).getD []) faces) ∧
      (∀ (f : Nat) fa, (m.midElems 2)[f]? = some fa → fa.conn.left < m.cells.length ∧ f ∈ (F.cells[fa.conn.left]?).getD []) ∧
      ∀ e, e < m.edges.length → ∃ fa ∈ m.midElems 2, e ∈ fa.sub := by
  obtain ⟨m, l1, hv⟩ := Fpma.C18_valid F hF res hres rest hr
  obtain ⟨m', l2, g1, g2, _, g4, g5, g6, g7, g8, g9⟩ := Fpma.C18_load F hF res hres rest
  rw [l1] at l2
  cases l2
  obtain ⟨m', l2, hs⟩ := Fpma.C18_sides F hF res hres rest
  rw [l1] at l2
  cases l2
  have hls : m.cells.length = solids.length := by rw [g8, hsol.length_eq]
  have hat : ∀ (c : Nat) faces, solids[c]? = some faces → ∃ l, F.cells[c]? = some l ∧ ConvexSolid faces ∧
      List.Forall₂ (fun (f : Nat) x => ∃ p, F.faces[f]? = some p ∧ Drawn (at3 F.verts) p x.1) l faces := by
    intro c faces hf
    obtain ⟨hlt, rfl⟩ := List.getElem?_eq_some_iff.mp hf
    have hlt' : c < F.cells.length := by rw [hsol.length_eq]; exact hlt
    have := (List.forall₂_iff_get.mp hsol).2 c hlt' hlt
    exact ⟨_, List.getElem?_eq_getElem hlt', this⟩
  have hpg : ∀ (i : Nat) vs f, F.faces[i]? = some vs → (m.midElems 2)[i]? = some f → IsPolygon m.edges f.sub vs := by
    intro i vs f hi hf
    obtain ⟨f', a1, _, a3⟩ := g7 i vs hi
    rw [hf] at a1
    cases a1
    obtain ⟨b1, b2⟩ := hpoly vs (List.mem_of_getElem? hi)
    exact ⟨by rintro rfl; simp at b1, b2, Vtk.EdgesOf.nodup a3 b2 b1, f.sub, .refl _, a3⟩
  refine ⟨m, l1, hv.mapV vec3, g1, by omega, hls, ?_, ?_, ?_⟩
  · intro c faces hf
    obtain ⟨l, h1, h2, h3⟩ := hat c faces hf
    refine ⟨h2, ?_⟩
    simp only [h1, Option.getD_some]
    refine h3.imp ?_
    rintro f x ⟨p, p1, p2⟩
    obtain ⟨fa, a1, _, _⟩ := g7 f p p1
    rw [← g2] at p2
    exact faceShape_of a1 (hpg f p fa p1 a1) p2
  · intro f fa hf
    have hlt : f < F.faces.length := by rw [← g6]; exact (List.getElem?_eq_some_iff.mp hf).1
    obtain ⟨c, hc⟩ := hall f hlt
    rcases hs f fa hf with ⟨_, _, h⟩ | ⟨⟨l, h1, h2⟩, _⟩
    · exact absurd hc (h c)
    · exact ⟨by rw [g8]; exact (List.getElem?_eq_some_iff.mp h1).1, by rw [h1]; exact h2⟩
  · intro e he
    obtain ⟨vs, k1, j, k2, k3, k4⟩ := g5 _ (List.getElem_mem he)
    obtain ⟨i, hi⟩ := List.getElem?_of_mem k1
    obtain ⟨fa, a1, _, a3⟩ := g7 i vs hi
    obtain ⟨e', b1, ed, b2, b3⟩ := Vtk.polygon_side (hpg i vs fa hi a1) (u := m.edges[e].a) (v := m.edges[e].b)
      ⟨j, _, _, k2, k3, k4, .inl rfl⟩
    obtain rfl := g4 e' e ed _ b2 (List.getElem?_eq_getElem he) b3
    exact ⟨fa, List.mem_of_getElem? a1, b1⟩

/-- C70, FPMA: a file whose cells are convex solids with all the faces of the file. -/
theorem C70_fpma (F : Fpma.File ℝ) (hF : F.WellFormed) (res : Nat)
    (hres : ∀ vs ∈ F.faces, res = 0 ∨ vs.length ≤ res) (rest : List (Tok ℝ))
    (hr : ∀ vs ∈ F.faces, ∀ v ∈ vs, v < F.verts.length) (hfit : F.cells.length ≤ BOUNDARY)
    (hpoly : ∀ vs ∈ F.faces, 3 ≤ vs.length ∧ NoRepetition vs) (hall : ∀ f, f < F.faces.length → ∃ c, Lists F f c)
    (solids : List (List (List (Vec 3 ℝ) × Vec 3 ℝ)))
    (hsol : List.Forall₂ (fun l faces => ConvexSolid faces ∧
      List.Forall₂ (fun (f : Nat) x => ∃ p, F.faces[f]? = some p ∧ Drawn (at3 F.verts) p x.1) l faces) F.cells solids) :
    ∃ m, Fpma.load res (F.tokens ++ rest) { dim := 3 } = .ok m ∧ HasGeometry (m.mapV vec3) solids := by
  obtain ⟨m, l1, hv, h3, hb, hl, hS, hcov, hedge⟩ := fpma_shapes F hF res hres rest hr hfit hpoly hall solids hsol
  exact ⟨m, l1, hasGeometry_of hv h3 hb hl hS hcov hedge⟩

/-- C70, VTK 2D: the length of an edge is the distance of its ends; the center of a cell is the mean of the vertices of its polygon; if the
polygon is convex, the measure of the cell is its area. -/
theorem C70_vtk_2d (F : Vtk.File ℝ) (hF : F.Polygons) (hcodes : F.codes.length ≤ F.cells.length) (rest : List (Vtk.VTok ℝ))
    (types : List Nat) (m0 : Mesh (Vtk.Point2 ℝ)) (hd : m0.dim = 2) (htwo : ∀ u v, Vtk.AtMostTwo F u v)
    (hr : ∀ vs ∈ F.cells, ∀ v ∈ vs, v < F.verts.length) :
    ∃ m t, Vtk.load2 (F.tokens ++ rest) types m0 = .ok (m, t) ∧ ∀ g : GMesh 2 ℝ, g.mesh = m.mapV vec2 →
      ∃ cs ls as, computeCenters g.mesh = .ok cs ∧ computeMeasures2 (setCenters g cs) = .ok (ls, as) ∧
      (∀ (e : Nat) ed A B, m.edges[e]? = some ed → at2 F.verts ed.a = some A → at2 F.verts ed.b = some B →
        ls[e]? = some (Vec.norm (A - B)) ∧ entry cs 1 e = some (mean [A, B])) ∧
      as.length = F.cells.length ∧
      ∀ (c : Nat) vs ps, F.cells[c]? = some vs → Drawn (at2 F.verts) vs ps →
        entry cs 2 c = some (mean ps) ∧ (ConvexPolygon ps → as[c]? = some (shoelace ps)) := by
  obtain ⟨m, t, bd, l1, hv, hE⟩ := Vtk.C22_valid F hF hcodes rest types m0 hd htwo hr
  obtain ⟨m', t', l2, g1, g2, _, _, _, g6, _⟩ := Vtk.C22_load F hF hcodes rest types m0 hd
  rw [l1] at l2
  cases l2
  refine ⟨m, t, l1, ?_⟩
  intro g hg
  have hv' : ValidMesh g.mesh bd := by rw [hg]; exact hv.mapV vec2
  have h2 : g.mesh.dim = 2 := by rw [hg]; exact g1
  have hne : NoEmptyElement g.mesh := by intro d i f h3 h4; omega
  have hpos : ∀ v, g.mesh.vertices[v]? = at2 F.verts v := by
    intro v
    rw [hg]
    show (m.vertices.map vec2)[v]? = _
    rw [g2, List.map_map, List.getElem?_map]; rfl
  have hedges : g.mesh.edges = m.edges := by rw [hg]; rfl
  have hcells : g.mesh.cells.length = F.cells.length := by rw [hg]; exact g6
  obtain ⟨cs, hcs, hac⟩ := C38_centers g.mesh bd hv' hne
  have hmeas := C39_measures_2d (setCenters g cs) bd hv' h2
  refine ⟨cs, _, _, hcs, hmeas, ?_, ?_, ?_⟩
  · intro e ed A B he hA hB
    rw [← hedges] at he
    rw [← hpos] at hA hB
    refine ⟨?_, hac.edges e ed A B he hA hB⟩
    have he' : (setCenters g cs).mesh.edges[e]? = some ed := he
    rw [lengths, List.getElem?_map, List.getElem?_range (List.getElem?_eq_some_iff.mp he').1, Option.map_some, ends, he']
    have hA' : (setCenters g cs).mesh.vertices[ed.a]? = some A := hA
    have hB' : (setCenters g cs).mesh.vertices[ed.b]? = some B := hB
    simp only [Option.map_some, Option.getD_some, hA', hB']
  · simp; exact hcells
  · intro c vs ps hc hdr
    have hlt : c < g.mesh.cells.length := by rw [hcells]; exact (List.getElem?_eq_some_iff.mp hc).1
    obtain ⟨hch, hb0⟩ := hv'.chain c _ (List.getElem?_eq_getElem hlt)
    have hvs := List.mem_of_getElem? hc
    have hp : IsPolygon g.mesh.edges (bd c) vs := by
      rw [hedges]
      exact ⟨by intro h0; have := hF.three vs hvs; rw [h0] at this; simp at this, hF.nodup vs hvs, hch.2.1, bd c, .refl _, hE c vs hc⟩
    obtain ⟨q, q1, q2⟩ := hdr
    have hp := Vtk.isPolygon_cycle hp q1
    have hps : PositionsOf g.mesh q ps := q2.imp fun v x h => by rw [hpos]; exact h
    constructor
    · have hin : c < g.mesh.numElems 2 := by unfold Mesh.numElems; rw [if_pos h2.symm]; exact hlt
      obtain ⟨xs, p1, _, p3⟩ := hac.higher 2 c (by omega) (by omega) hin
      have hds : directSubs g.mesh bd 2 c = bd c := by unfold directSubs; rw [if_pos h2.symm]
      rw [hds] at p1
      rw [p3, ← polygon_mean hp hps]
      congr 2
      have hr2 := hv'.range 2 c (by omega) (by omega) hin
      rw [hds] at hr2
      have key : ∀ {l : List Idx} {xs : List (Vec 2 ℝ)}, (∀ s ∈ l, s < g.mesh.numElems (2 - 1)) →
          List.Forall₂ (fun s p => entry cs (2 - 1) s = some p) l xs → xs = l.map fun e => mean [(ends g.mesh e).1, (ends g.mesh e).2] := by
        intro l xs hl h
        induction h with
        | nil => rfl
        | @cons e x l xs h1 _ ih =>
          rw [List.map_cons, ← ih fun s hs => hl s (List.mem_cons_of_mem _ hs)]
          congr 1
          have he := hl e List.mem_cons_self
          rw [show 2 - 1 = 1 from rfl, edges_of_valid hv'] at he
          have hed := List.getElem?_eq_getElem he
          obtain ⟨A, B, hA, hB⟩ := exists_ends hv' hed
          rw [show 2 - 1 = 1 from rfl, hac.edges e _ A B hed hA hB] at h1
          rw [← Option.some.inj h1, ends, hed]
          simp only [Option.map_some, Option.getD_some, hA, hB]
      exact key hr2 p1
    · intro hcv
      obtain ⟨cs', ls', as', k1, k2, k3⟩ := C39_convex_2d g bd hv' hne h2 c hlt q ps hp hps hcv
      rw [hcs] at k1
      obtain rfl := Res.ok.inj k1
      rw [hmeas] at k2
      have k2 := Res.ok.inj k2
      simp only [Prod.mk.injEq] at k2
      rw [k2.2]
      exact k3

end GTMesh.Props
