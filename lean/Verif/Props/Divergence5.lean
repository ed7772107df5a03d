import Verif.Props.Divergence
import Verif.Props.LoadedGeometry

/-! # C73: fluxes of linear fields on the meshes of 2D files -/

namespace GTMesh.Vtk
open Std' Spec Vec Props

/-- C73, VTK 2D: every file whose polygons go along each side at most once in each direction (and whose sides have different ends) gives a
mesh where, on each cell, the flux of every linear field, with one value at the computed center of each edge, is the divergence times the
area of the polygon, and the Green-Gauss sum of every linear function is the area times its gradient; the area is the computed measure
if the polygon is convex. -/
theorem C73_vtk_2d (F : File ℝ) (hF : F.Polygons) (hcodes : F.codes.length ≤ F.cells.length) (rest : List (VTok ℝ))
    (types : List Nat) (m0 : Mesh (Point2 ℝ)) (hd : m0.dim = 2) (hor : Oriented F) (hr : ∀ vs ∈ F.cells, ∀ v ∈ vs, v < F.verts.length)
    (hdist : ∀ vs ∈ F.cells, ∀ p ∈ sidesOf vs, ∀ x y, F.verts[p.1]? = some x → F.verts[p.2]? = some y → (x.1, x.2.1) ≠ (y.1, y.2.1)) :
    ∃ m t, load2 (F.tokens ++ rest) types m0 = .ok (m, t) ∧
      ∀ g : GMesh 2 ℝ, g.mesh = m.mapV vec2 → ∃ cs ns ls as, Geo.computeCenters g.mesh = .ok cs ∧ Geo.computeFaceNormals2 g.mesh = .ok ns ∧
        Geo.computeMeasures2 (Geo.setCenters g cs) = .ok (ls, as) ∧
        ∀ (i : Nat) vs ps, F.cells[i]? = some vs → List.Forall₂ (fun v x => at2 F.verts v = some x) vs ps →
          ∃ l, boundaryWalk g.mesh i = .ok l ∧
            (∀ A b, flux g.mesh l ls ns (Geo.setCenters g cs).faceCenter (linearField A b) i = divergence A * shoelace ps) ∧
            (∀ a b, greenGauss g.mesh l ls ns (Geo.setCenters g cs).faceCenter (fun x => dot a x + b) i = shoelace ps • a) ∧
            (ConvexPolygon ps → as[i]? = some (shoelace ps)) := by
  obtain ⟨m, t, bd, h1, hv, h3⟩ := C22_valid F hF hcodes rest types m0 hd (fun u v => hor.two u v) hr
  have hdir := C55_directions F hF hcodes rest types m0 hd m t h1
  obtain ⟨m', t', h1', k2, k3, _, _, k6, k7, k8, _⟩ := C22_load F hF hcodes rest types m0 hd
  rw [h1] at h1'
  have h1' := Res.ok.inj h1'
  simp only [Prod.mk.injEq] at h1'
  obtain ⟨rfl, rfl⟩ := h1'
  refine ⟨m, t, h1, ?_⟩
  intro g hgm
  have hv' : ValidMesh g.mesh bd := by rw [hgm]; exact hv.mapV vec2
  have hg2 : g.mesh.dim = 2 := by rw [hgm]; exact k2
  have hge : g.mesh.edges = m.edges := by rw [hgm]; rfl
  have hgv : ∀ (v : Nat) (x : ℝ × ℝ × ℝ), F.verts[v]? = some x → (g.mesh.vertices[v]?) = some (vec2 (x.1, x.2.1)) := by
    intro v x hx
    rw [hgm]
    show (m.vertices.map vec2)[v]? = _
    rw [k3, List.getElem?_map, List.getElem?_map, hx]; rfl
  have hends : ∀ e, e < g.mesh.edges.length → (ends g.mesh e).1 ≠ (ends g.mesh e).2 := by
    intro e he
    have hg := List.getElem?_eq_getElem he
    obtain ⟨vs, c1, c2⟩ := hdir g.mesh.edges[e] (by rw [← hge]; exact List.getElem_mem he)
    have hvs := List.mem_of_getElem? c1
    obtain ⟨m1, m2⟩ := sidesOf_mem c2
    have b1 := List.getElem?_eq_getElem (hr vs hvs _ m1)
    have b2 := List.getElem?_eq_getElem (hr vs hvs _ m2)
    have := hdist vs hvs _ c2 _ _ b1 b2
    rw [ends, hg]
    simp only [Option.map_some, Option.getD_some]
    rw [hgv _ _ b1, hgv _ _ b2]
    simp only [Option.getD_some]
    intro heq
    apply this
    have z0 := congrFun heq 0
    have z1 := congrFun heq 1
    simp [vec2] at z0 z1
    rw [z0, z1]
  obtain ⟨cs, ns, ls, as, d1, d2, d3, d4⟩ := C73_divergence_2d g bd hv' hg2 hends
  obtain ⟨cs', ns', ls', as', e1, e2, e3, e4⟩ := C73_gradient_2d g bd hv' hg2 hends
  rw [d1] at e1
  cases e1
  rw [d2] at e2
  cases e2
  rw [d3] at e3
  cases e3
  refine ⟨cs, ns, ls, as, d1, d2, d3, ?_⟩
  intro i vs ps hci hdr
  have hi := (List.getElem?_eq_some_iff.mp hci).1
  have hvsm := List.mem_of_getElem? hci
  have hE := h3 i vs hci
  have him : i < m.cells.length := by omega
  obtain ⟨hch, hb0⟩ := hv.chain i _ (List.getElem?_eq_getElem him)
  have hwalk : boundaryWalk g.mesh i = .ok (bd i) := by
    have h0 : boundaryWalk m i = .ok (bd i) := by
      rw [C09_walk_iff_chain m (by omega) i _ (List.getElem?_eq_getElem him)]
      exact ⟨hch, hb0⟩
    rw [hgm, ← h0]
    exact Mesh.mapV_applyOne vec2 m _ _ i
  have hpoly : IsPolygon g.mesh.edges (bd i) vs := by
    rw [hge]
    exact ⟨by intro h0; have := hF.three vs hvsm; rw [h0] at this; simp at this, hF.nodup vs hvsm, hch.2.1, bd i, .refl _, hE⟩
  have hposs : PositionsOf g.mesh vs ps := by
    refine hdr.imp fun v x hx => ?_
    rw [at2, Option.map_eq_some_iff] at hx
    obtain ⟨y, y1, rfl⟩ := hx
    exact hgv v y y1
  have hlead : LeadAlong g.mesh (bd i) i vs := by
    intro e he ed hed
    rw [hge] at hed
    have hside := mem_edges_side hE he hed
    have hconn : m.faceConn e = .ok ed.conn := by
      rw [Mesh.faceConn, if_pos k2, Res.at'_eq_ok.mpr hed]; rfl
    obtain ⟨vl, l1, l2⟩ := hdir ed (List.mem_of_getElem? hed)
    by_cases hl : ed.conn.left = i
    · left
      rw [hl, hci] at l1
      obtain rfl := Option.some.inj l1
      exact ⟨hl, l2⟩
    · right
      refine ⟨hl, (bd_side hv him he hconn).resolve_left hl, ?_⟩
      rcases hside with hside | hside
      · exact absurd (hor _ _ _ _ _ l1 hci l2 hside) hl
      · exact hside
  have hig : i < g.mesh.cells.length := by rw [hgm]; exact him
  obtain ⟨f1, f2⟩ := d4 i vs ps hig hpoly hposs (hF.three vs hvsm) hlead
  exact ⟨bd i, hwalk, f1, e4 i vs ps hig hpoly hposs (hF.three vs hvsm) hlead, f2⟩

/-- On the unit square of the example the flux of the position is 2, twice its area. -/
example : ∃ m t, load2 exampleFileR.tokens [] { dim := 2 } = .ok (m, t) ∧
    ∀ g : GMesh 2 ℝ, g.mesh = m.mapV vec2 → ∃ cs ns ls as, Geo.computeCenters g.mesh = .ok cs ∧ Geo.computeFaceNormals2 g.mesh = .ok ns ∧
      Geo.computeMeasures2 (Geo.setCenters g cs) = .ok (ls, as) ∧
      ∃ l, boundaryWalk g.mesh 0 = .ok l ∧ flux g.mesh l ls ns (Geo.setCenters g cs).faceCenter (linearField (fun k => Pi.single k 1) 0) 0 = 2 := by
  have h := C73_vtk_2d exampleFileR ⟨exampleFile_polygons.nodup, exampleFile_polygons.three, exampleFile_polygons.fit, exampleFile_polygons.edges_fit⟩
    (by decide) [] [] { dim := 2 } rfl exampleFileR_oriented (by
      show ∀ vs ∈ exampleFile.cells, ∀ v ∈ vs, v < 6
      decide) (by
      intro vs hvs p hp x y hx hy
      have hvs : vs = [0, 1, 2, 3] ∨ vs = [2, 1, 4] ∨ vs = [1, 5, 4] := by
        have : vs ∈ exampleFile.cells := hvs
        simpa [exampleFile] using this
      rcases hvs with rfl | rfl | rfl <;> simp [sidesOf, List.rotate] at hp <;>
        (rcases hp with rfl | rfl | rfl | rfl) <;>
        simp [exampleFileR] at hx hy <;> rw [← hx, ← hy] <;> simp)
  rw [List.append_nil] at h
  obtain ⟨m, t, l1, h⟩ := h
  refine ⟨m, t, l1, fun g hg => ?_⟩
  obtain ⟨cs, ns, ls, as, k1, k2, k3, k4⟩ := h g hg
  obtain ⟨l, r1, r2, _⟩ := k4 0 [0, 1, 2, 3] [![0, 0], ![1, 0], ![1, 1], ![0, 1]] rfl (.cons rfl (.cons rfl (.cons rfl (.cons rfl .nil))))
  refine ⟨cs, ns, ls, as, k1, k2, k3, l, r1, ?_⟩
  rw [r2]
  simp [divergence, shoelace, sidesOf, List.rotate]
  norm_num

end GTMesh.Vtk
