import Verif.Props.FlatGeometry
import Verif.Props.Convert

/-! # C74: saving and loading keeps the geometry -/

namespace GTMesh.Props
open Spec Std' Vec Geo
open Vtk (vec2)

theorem sameCycle_symm {p q : List Idx} (h : SameCycle p q) : SameCycle q p := by
  rcases h with h | h
  · exact .inl h.symm
  · right
    have := h.reverse.symm
    rwa [List.reverse_reverse] at this

/-- A symmetric quantity of the edges of a polygon. -/
theorem polygon_edges_perm {n : Nat} {α : Type} {m : Mesh (Vec n ℝ)} {subs vs : List Idx} {ps : List (Vec n ℝ)} (hp : IsPolygon m.edges subs vs)
    (hpos : PositionsOf m vs ps) (φ : Vec n ℝ → Vec n ℝ → α) (hφ : ∀ A B, φ A B = φ B A) :
    (subs.map fun e => φ (ends m e).1 (ends m e).2).Perm ((sidesOf ps).map fun p => φ p.1 p.2) := by
  obtain ⟨es, hperm, hf⟩ := polygon_ends hp hpos
  refine (hperm.map fun e => φ (ends m e).1 (ends m e).2).symm.trans ?_
  refine List.Perm.of_eq ?_
  generalize sidesOf ps = sides at hf
  clear hperm
  induction hf with
  | nil => rfl
  | cons h _ ih =>
    rw [List.map_cons, List.map_cons, ih]
    congr 1
    rcases h with h | h
    · rw [h]
    · rw [h]; exact hφ _ _

/-- The length and the center of an edge. -/
noncomputable def edgeData {n : Nat} (ls : List ℝ) (cs : List (List (Vec n ℝ))) (e : Nat) : Option ℝ × Option (Vec n ℝ) := (ls[e]?, entry cs 1 e)

theorem edgeData_eq {n : Nat} {m : Mesh (Vec n ℝ)} {bd : Idx → List Idx} (hv : ValidMesh m bd) {cs : List (List (Vec n ℝ))} (hac : AreCenters m bd cs)
    {e : Nat} (he : e < m.edges.length) :
    edgeData (lengths m) cs e = (some (Vec.norm ((ends m e).1 - (ends m e).2)), some (mean [(ends m e).1, (ends m e).2])) := by
  have hed := List.getElem?_eq_getElem he
  obtain ⟨A, B, hA, hB⟩ := exists_ends hv hed
  have hends : ends m e = (A, B) := by rw [ends, hed]; simp only [Option.map_some, Option.getD_some, hA, hB]
  rw [edgeData, hends, hac.edges e _ A B hed hA hB, lengths, List.getElem?_map, List.getElem?_range he, Option.map_some, hends]

theorem norm_sub_symm {n : Nat} (A B : Vec n ℝ) : Vec.norm (A - B) = Vec.norm (B - A) := by
  rw [← norm_neg, neg_sub]

theorem mean_pair_symm {n : Nat} (A B : Vec n ℝ) : mean [A, B] = mean [B, A] := by
  simp only [mean, List.sum_cons, List.sum_nil, add_zero, List.length_cons, List.length_nil]
  rw [add_comm A B]

/-- The edges of the same polygon in two meshes have the same lengths and centers. -/
theorem edges_same {n : Nat} {m m' : Mesh (Vec n ℝ)} {bd bd' : Idx → List Idx} (hv : ValidMesh m bd) (hv' : ValidMesh m' bd')
    {cs cs' : List (List (Vec n ℝ))} (hac : AreCenters m bd cs) (hac' : AreCenters m' bd' cs') {l l' vs : List Idx} {ps : List (Vec n ℝ)}
    (hp : IsPolygon m.edges l vs) (hp' : IsPolygon m'.edges l' vs) (hps : PositionsOf m vs ps) (hps' : PositionsOf m' vs ps) :
    (l'.map (edgeData (lengths m') cs')).Perm (l.map (edgeData (lengths m) cs)) := by
  have key : ∀ {m : Mesh (Vec n ℝ)} {bd : Idx → List Idx} (_ : ValidMesh m bd) {cs : List (List (Vec n ℝ))} (_ : AreCenters m bd cs) {l vs : List Idx}
      (_ : IsPolygon m.edges l vs), l.map (edgeData (lengths m) cs) =
        l.map fun e => (some (Vec.norm ((ends m e).1 - (ends m e).2)), some (mean [(ends m e).1, (ends m e).2])) := by
    intro m bd hv cs hac l vs hp
    apply List.map_congr_left
    intro e he
    refine edgeData_eq hv hac ?_
    obtain ⟨_, _, _, es, h1, h2, h3⟩ := hp
    obtain ⟨j, hj⟩ := List.getElem?_of_mem (h1.mem_iff.mpr he)
    have hjl := (List.getElem?_eq_some_iff.mp hj).1
    obtain ⟨i, _, _, b1, _, _, ed, b4, _⟩ := h3 j (by omega)
    rw [hj] at b1
    cases b1
    exact (List.getElem?_eq_some_iff.mp b4).1
  rw [key hv hac hp, key hv' hac' hp']
  let φ : Vec n ℝ → Vec n ℝ → Option ℝ × Option (Vec n ℝ) := fun A B => (some (Vec.norm (A - B)), some (mean [A, B]))
  have hφ : ∀ A B, φ A B = φ B A := by intro A B; simp only [φ]; rw [norm_sub_symm, mean_pair_symm]
  exact (polygon_edges_perm hp' hps' φ hφ).trans (polygon_edges_perm hp hps φ hφ).symm

/-- C74, VTK 2D. A mesh of polygons as in C23, written and read. With the centers that are computed before and after, the cells have the same
centers and the same areas, and going around a cell, the same lengths and centers of edges are found (in another order). The polygons need not
be convex. -/
theorem C74_vtk_2d (m : Mesh (Vtk.Point2 ℝ)) (types : List Nat) (bd poly : Idx → List Idx) (title : List String)
    (hd : m.dim = 2) (hv : ValidMesh m bd) (hidx : ∀ (c : Nat) cl, m.cells[c]? = some cl → cl.index = c)
    (hpoly : ∀ c, c < m.cells.length → IsPolygon m.edges (bd c) (poly c) ∧ 3 ≤ (poly c).length)
    (huniq : ∀ (i j : Nat) e e', m.edges[i]? = some e → m.edges[j]? = some e' →
      SamePair (e.a, e.b) (e'.a, e'.b) → i = j)
    (hcf : m.cells.length ≤ INVALID) (hef : ((List.range m.cells.length).map fun c => (poly c).length).sum ≤ INVALID)
    (htl : types.length = m.cells.length) (htypes : ∀ t ∈ types, ∃ c, Vtk.toVtk2 t = some c)
    (types0 : List Nat) (m0 : Mesh (Vtk.Point2 ℝ)) (hd0 : m0.dim = 2) :
    ∃ ts m', Vtk.writeToStream2 0 m types = .ok ts ∧ Vtk.load2 (Vtk.header title ++ ts) types0 m0 = .ok (m', types) ∧
      ∀ g g' : GMesh 2 ℝ, g.mesh = m.mapV vec2 → g'.mesh = m'.mapV vec2 →
        ∃ cs ls cs' ls' as, computeCenters g.mesh = .ok cs ∧ computeMeasures2 (setCenters g cs) = .ok (ls, as) ∧
          computeCenters g'.mesh = .ok cs' ∧ computeMeasures2 (setCenters g' cs') = .ok (ls', as) ∧
          ∀ c, c < m.cells.length → entry cs' 2 c = entry cs 2 c ∧ ∃ l l', boundaryWalk m c = .ok l ∧ boundaryWalk m' c = .ok l' ∧
            (l'.map (edgeData ls' cs')).Perm (l.map (edgeData ls cs)) := by
  obtain ⟨ts, F, f1, f2, hF, htwo, hr, f3, f4, f5, k3, f6⟩ := Vtk.written2 (0 : ℝ) m types bd poly title hd hv hidx hpoly huniq hcf hef htl htypes
  obtain ⟨ts', m1, w1, w2, w3, w4, _⟩ := Vtk.C23_round_trip (0 : ℝ) m types bd poly title hd hv hidx hpoly huniq hcf hef htl htypes types0 m0 hd0
  rw [f1] at w1
  cases w1
  obtain ⟨m', t, bd', l1, hv', hE⟩ := Vtk.C22_valid F hF (by omega) [] types0 m0 hd0 htwo hr
  obtain ⟨m'', t', l2, g1, _⟩ := Vtk.C22_load F hF (by omega) [] types0 m0 hd0
  rw [l1] at l2
  cases l2
  rw [List.append_nil, ← f2, w2] at l1
  cases l1
  refine ⟨ts, m1, f1, w2, ?_⟩
  intro g g' hg hg'
  have hvg : ValidMesh g.mesh bd := by rw [hg]; exact hv.mapV vec2
  have hvg' : ValidMesh g'.mesh bd' := by rw [hg']; exact hv'.mapV vec2
  have hdg : g.mesh.dim = 2 := by rw [hg]; exact hd
  have hdg' : g'.mesh.dim = 2 := by rw [hg']; exact g1
  obtain ⟨cs, ls, as, a1, a2, a3, a4, a5, a6⟩ := polygon_geometry g bd hvg hdg
  obtain ⟨cs', ls', as', b1, b2, b3, b4, b5, b6⟩ := polygon_geometry g' bd' hvg' hdg'
  have hlen : g.mesh.cells.length = m.cells.length := by rw [hg]; rfl
  have hlen' : g'.mesh.cells.length = m.cells.length := by rw [hg']; exact w4
  have hvert : g'.mesh.vertices = g.mesh.vertices := by
    rw [hg, hg']
    show m1.vertices.map vec2 = m.vertices.map vec2
    rw [w3]
  have hshape : ∀ c, c < m.cells.length → ∃ ps, IsPolygon g.mesh.edges (bd c) (poly c) ∧ IsPolygon g'.mesh.edges (bd' c) (poly c) ∧
      PositionsOf g.mesh (poly c) ps ∧ PositionsOf g'.mesh (poly c) ps := by
    intro c hc
    have hcF : c < F.cells.length := by omega
    have hq := List.getElem?_eq_getElem hcF
    have hqm := List.mem_of_getElem? hq
    have hcyc := f6 c _ hq
    have hch := (hv'.chain c _ (List.getElem?_eq_getElem (show c < m1.cells.length by omega))).1
    have hp' : IsPolygon m1.edges (bd' c) F.cells[c] := by
      refine ⟨?_, hF.nodup _ hqm, hch.2.1, bd' c, .refl _, hE c _ hq⟩
      intro h0
      have := hF.three _ hqm
      rw [h0] at this
      simp at this
    have hp'' : IsPolygon m1.edges (bd' c) (poly c) := Vtk.isPolygon_cycle hp' (sameCycle_symm hcyc)
    have hpos : ∃ ps, List.Forall₂ (fun (v : Nat) p => g.mesh.vertices[v]? = some p) (poly c) ps := by
      have hlt : ∀ v ∈ poly c, v < g.mesh.vertices.length := by
        intro v hvm
        have hperm : (F.cells[c]).Perm (poly c) := by
          rcases hcyc with h | h
          · exact h.perm
          · exact h.perm.trans (List.reverse_perm _)
        have := hr _ hqm v (hperm.mem_iff.mpr hvm)
        rw [f3, List.length_map] at this
        rw [hg]
        show v < (m.vertices.map vec2).length
        rw [List.length_map]
        exact this
      generalize poly c = p at hlt
      induction p with
      | nil => exact ⟨[], .nil⟩
      | cons v p ih =>
        obtain ⟨ps, h⟩ := ih fun v hv => hlt v (List.mem_cons_of_mem _ hv)
        exact ⟨_, .cons (List.getElem?_eq_getElem (hlt v List.mem_cons_self)) h⟩
    obtain ⟨ps, hps⟩ := hpos
    refine ⟨ps, by rw [hg]; exact (hpoly c hc).1, by rw [hg']; exact hp'', hps, ?_⟩
    unfold PositionsOf
    rw [hvert]
    exact hps
  have has : as' = as := by
    apply List.ext_getElem?
    intro c
    by_cases hc : c < m.cells.length
    · obtain ⟨ps, p1, p2, p3, p4⟩ := hshape c hc
      rw [(a6 c _ ps (by omega) p1 p3).2, (b6 c _ ps (by omega) p2 p4).2]
    · rw [List.getElem?_eq_none (by omega), List.getElem?_eq_none (by omega)]
  subst has
  refine ⟨cs, ls, cs', ls', as', a1, a2, b1, b2, ?_⟩
  intro c hc
  obtain ⟨ps, p1, p2, p3, p4⟩ := hshape c hc
  refine ⟨by rw [(a6 c _ ps (by omega) p1 p3).1, (b6 c _ ps (by omega) p2 p4).1], bd c, bd' c, ?_, ?_, ?_⟩
  · exact (C09_walk_iff_chain m (by omega) c _ (List.getElem?_eq_getElem hc) _).mpr (hv.chain c _ (List.getElem?_eq_getElem hc))
  · have hc' : c < m1.cells.length := by omega
    exact (C09_walk_iff_chain m1 (by omega) c _ (List.getElem?_eq_getElem hc') _).mpr (hv'.chain c _ (List.getElem?_eq_getElem hc'))
  · rw [a4, b4]
    exact edges_same hvg hvg' a3 b3 p1 p2 p3 p4

/-- C74, FPMA. A mesh as in C21 whose faces are flat polygons (that need not be convex), with different positions of the ends of each edge, written and
read. With the centers that are computed before and after, the faces have the same centers and the same areas, the cells have the same
centers and the same volumes, and the edges of a face the same lengths and centers (in another order). -/
theorem C74_fpma (m : Mesh (Point ℝ)) (bd poly : Idx → List Idx) (hd : m.dim = 3) (hv : ValidMesh m bd)
    (hpoly : ∀ (i : Nat) f, (m.midElems 2)[i]? = some f → IsPolygon m.edges f.sub (poly i) ∧ 3 ≤ (poly i).length)
    (hc : m.cells.length ≤ INVALID) (hf : (m.midElems 2).length ≤ INVALID)
    (hflat : ∀ i, i < (m.midElems 2).length → ∃ ps ν, List.Forall₂ (fun v x => at3 m.vertices v = some x) (poly i) ps ∧ Flat ps ν)
    (hedge : ∀ e ∈ m.edges, at3 m.vertices e.a ≠ at3 m.vertices e.b) :
    ∃ ts m', Fpma.write m = .ok ts ∧ Fpma.load 0 ts { dim := 3 } = .ok m' ∧
      ∀ g g' : GMesh 3 ℝ, g.mesh = m.mapV vec3 → g'.mesh = m'.mapV vec3 →
        ∃ cs ls cs' ls' as vols, computeCenters g.mesh = .ok cs ∧ computeMeasures3 (setCenters g cs) = .ok (ls, as, vols) ∧
          computeCenters g'.mesh = .ok cs' ∧ computeMeasures3 (setCenters g' cs') = .ok (ls', as, vols) ∧
          (∀ f, f < (m.midElems 2).length → entry cs' 2 f = entry cs 2 f) ∧ (∀ c, c < m.cells.length → entry cs' 3 c = entry cs 3 c) ∧
          ∀ (f : Nat) fa fa', (m.midElems 2)[f]? = some fa → (m'.midElems 2)[f]? = some fa' →
            (fa'.sub.map (edgeData ls' cs')).Perm (fa.sub.map (edgeData ls cs)) := by
  obtain ⟨F, f1, hF, f2, f3, f4, f5⟩ := Fpma.written m bd poly hd hv (fun i f h => (hpoly i f h).1) hc hf
  obtain ⟨ts, m', w1, w2, w3, w4, w5, w6, w7⟩ := Vtk.C21_polygons_partial m bd poly hd hv hpoly hc hf
  rw [f1] at w1
  cases w1
  have hr : ∀ vs ∈ F.faces, ∀ v ∈ vs, v < F.verts.length := by
    intro vs hvs v hvv
    obtain ⟨i, hi⟩ := List.getElem?_of_mem hvs
    have hil : i < (m.midElems 2).length := by rw [← f3]; exact (List.getElem?_eq_some_iff.mp hi).1
    have hperm : vs.Perm (poly i) := by
      rcases f5 i vs hi with h | h
      · exact h.perm
      · exact h.perm.trans (List.reverse_perm _)
    obtain ⟨ps, ν, h1, _⟩ := hflat i hil
    obtain ⟨j, hj⟩ := List.getElem?_of_mem (hperm.mem_iff.mp hvv)
    obtain ⟨x, _, hx⟩ := Vtk.forall₂_get h1 hj
    rw [at3, Option.map_eq_some_iff] at hx
    obtain ⟨y, hy, _⟩ := hx
    rw [f2]
    exact (List.getElem?_eq_some_iff.mp hy).1
  obtain ⟨m'', l1, hv'⟩ := Fpma.C18_valid F hF 0 (fun _ _ => Or.inl rfl) [.num 0] hr
  rw [w2] at l1
  cases l1
  obtain ⟨m'', l1, g1, _, _, g4, g5, _, g7, _⟩ := Fpma.C18_load F hF 0 (fun _ _ => Or.inl rfl) [.num 0]
  rw [w2] at l1
  cases l1
  refine ⟨_, m', f1, w2, ?_⟩
  intro g g' hg hg'
  have hvg : ValidMesh g.mesh bd := by rw [hg]; exact hv.mapV vec3
  have hvg' : ValidMesh g'.mesh (fun i => (F.cells[i]?).getD []) := by rw [hg']; exact hv'.mapV vec3
  have hdg : g.mesh.dim = 3 := by rw [hg]; exact hd
  have hdg' : g'.mesh.dim = 3 := by rw [hg']; exact g1
  have hbd : ∀ c, c < m.cells.length → (F.cells[c]?).getD [] = bd c := by
    intro c hc; rw [f4]; simp [hc]
  have hpos : ∀ v, g.mesh.vertices[v]? = at3 m.vertices v := by
    intro v
    rw [hg]
    show (m.vertices.map vec3)[v]? = _
    rw [List.getElem?_map]; rfl
  have hpos' : ∀ v, g'.mesh.vertices[v]? = at3 m.vertices v := by
    intro v
    rw [hg', ← w3]
    show (m'.vertices.map vec3)[v]? = _
    rw [List.getElem?_map]; rfl
  have hshape : ∀ f, f < (m.midElems 2).length → ∃ fa fa' ps ν, (g.mesh.midElems 2)[f]? = some fa ∧ (g'.mesh.midElems 2)[f]? = some fa' ∧
      IsPolygon g.mesh.edges fa.sub (poly f) ∧ IsPolygon g'.mesh.edges fa'.sub (poly f) ∧ PositionsOf g.mesh (poly f) ps ∧
      PositionsOf g'.mesh (poly f) ps ∧ Flat ps ν := by
    intro f hlt
    have hfa := List.getElem?_eq_getElem hlt
    obtain ⟨fa', k1, k2⟩ := w5 f _ (poly f) hfa (hpoly f _ hfa).1
    obtain ⟨ps, ν, q1, q2⟩ := hflat f hlt
    refine ⟨_, fa', ps, ν, by rw [hg]; exact hfa, by rw [hg']; exact k1, by rw [hg]; exact (hpoly f _ hfa).1, by rw [hg']; exact k2, ?_, ?_, q2⟩
    · exact q1.imp fun v x h => by rw [hpos]; exact h
    · exact q1.imp fun v x h => by rw [hpos']; exact h
  have hlen : (g.mesh.midElems 2).length = (m.midElems 2).length := by rw [hg]; rfl
  have hlen' : (g'.mesh.midElems 2).length = (m.midElems 2).length := by rw [hg']; exact w4
  have hclen : g.mesh.cells.length = m.cells.length := by rw [hg]; rfl
  have hclen' : g'.mesh.cells.length = m.cells.length := by rw [hg']; exact w6
  have hends : ∀ e, e < g.mesh.edges.length → (ends g.mesh e).1 ≠ (ends g.mesh e).2 := by
    intro e he
    have hed := List.getElem?_eq_getElem he
    obtain ⟨A, B, hA, hB⟩ := exists_ends hvg hed
    rw [ends, hed]
    simp only [Option.map_some, Option.getD_some, hA, hB]
    rintro rfl
    have hmem : g.mesh.edges[e] ∈ m.edges := by
      have : g.mesh.edges = m.edges := by rw [hg]; rfl
      rw [← this]; exact List.getElem_mem he
    refine hedge _ hmem ?_
    rw [← hpos, ← hpos, hA, hB]
  have hends' : ∀ e, e < g'.mesh.edges.length → (ends g'.mesh e).1 ≠ (ends g'.mesh e).2 := by
    intro e he
    have hee : g'.mesh.edges = m'.edges := by rw [hg']; rfl
    have he2 : e < m'.edges.length := by rw [← hee]; exact he
    obtain ⟨vs, k1, j, k2, k3, k4⟩ := g5 _ (List.getElem_mem he2)
    obtain ⟨i, hi⟩ := List.getElem?_of_mem k1
    have hil : i < (m.midElems 2).length := by rw [← f3]; exact (List.getElem?_eq_some_iff.mp hi).1
    obtain ⟨fa, fa', ps, ν, q1, q2, q3, q4, q5, q6, q7⟩ := hshape i hil
    have q4' : IsPolygon m'.edges fa'.sub vs := by
      rw [← hee]; exact Vtk.isPolygon_cycle q4 (f5 i vs hi)
    obtain ⟨e', b1, ed, b2, b3⟩ := Vtk.polygon_side q4' (u := m'.edges[e].a) (v := m'.edges[e].b) ⟨j, _, _, k2, k3, k4, .inl rfl⟩
    obtain rfl := g4 e' e ed _ b2 (List.getElem?_eq_getElem he2) b3
    obtain ⟨s, s1, s2⟩ := flat_edge (m := g'.mesh) (f := i) ⟨fa', _, q2, q4, q6⟩ q7 (p := ends g'.mesh e') (by
      rw [faceEdges, q2]
      exact List.mem_map_of_mem b1)
    intro h0
    rw [h0] at s2
    have hz : cross ((ends g'.mesh e').2 - mean ps) ((ends g'.mesh e').2 - mean ps) = 0 := by
      have h1 := cross_apply ((ends g'.mesh e').2 - mean ps) ((ends g'.mesh e').2 - mean ps)
      apply ext3 <;> simp only [h1, Pi.zero_apply] <;> ring
    rw [hz] at s2
    have := congrArg Vec.norm s2
    rw [norm_smul, q7.1, mul_one, show Vec.norm (0 : Vec 3 ℝ) = 0 by simp [norm_real, dot_zero]] at this
    exact s1 (abs_eq_zero.mp this.symm)
  obtain ⟨cs, ls, as, vols, a1, a2, a3, a4, a5, a6, _, a7, a8⟩ := flat_geometry g bd hvg hdg (by
    intro f hlt
    obtain ⟨fa, fa', ps, ν, q1, q2, q3, q4, q5, q6, q7⟩ := hshape f (by omega)
    exact ⟨ps, ν, ⟨fa, _, q1, q3, q5⟩, q7⟩) hends
  obtain ⟨cs', ls', as', vols', b1, b2, b3, b4, b5, b6, _, b7, b8⟩ := flat_geometry g' _ hvg' hdg' (by
    intro f hlt
    obtain ⟨fa, fa', ps, ν, q1, q2, q3, q4, q5, q6, q7⟩ := hshape f (by omega)
    exact ⟨ps, ν, ⟨fa', _, q2, q4, q6⟩, q7⟩) hends'
  have hfaces : ∀ f, f < (m.midElems 2).length → entry cs' 2 f = entry cs 2 f ∧ as'[f]? = as[f]? := by
    intro f hlt
    obtain ⟨fa, fa', ps, ν, q1, q2, q3, q4, q5, q6, q7⟩ := hshape f hlt
    have h1 := a7 f ps ⟨fa, _, q1, q3, q5⟩
    have h2 := b7 f ps ⟨fa', _, q2, q4, q6⟩
    exact ⟨by rw [h1.1, h2.1], by rw [h1.2, h2.2]⟩
  have hcells : ∀ c, c < m.cells.length → entry cs' 3 c = entry cs 3 c ∧ vols'[c]? = vols[c]? := by
    intro c hlt
    have hrange : ∀ f ∈ bd c, f < (m.midElems 2).length := by
      have := hv.range 3 c (by omega) (by omega) (by unfold Mesh.numElems; rw [if_pos hd.symm]; exact hlt)
      have hds : directSubs m bd 3 c = bd c := by unfold directSubs; rw [if_pos hd.symm]
      rw [hds] at this
      intro f hf
      have := this f hf
      simpa [Mesh.numElems, hd] using this
    have hL : ∃ L : List (List (Vec 3 ℝ) × Vec 3 ℝ), List.Forall₂ (fun f x => FaceShape g.mesh f x.1 ∧ Flat x.1 x.2) (bd c) L ∧
        List.Forall₂ (fun f x => FaceShape g'.mesh f x.1 ∧ Flat x.1 x.2) (bd c) L := by
      generalize bd c = b at hrange
      induction b with
      | nil => exact ⟨[], .nil, .nil⟩
      | cons f b ih =>
        obtain ⟨L, h1, h2⟩ := ih fun f hf => hrange f (List.mem_cons_of_mem _ hf)
        obtain ⟨fa, fa', ps, ν, q1, q2, q3, q4, q5, q6, q7⟩ := hshape f (hrange f List.mem_cons_self)
        exact ⟨(ps, ν) :: L, .cons ⟨⟨fa, _, q1, q3, q5⟩, q7⟩ h1, .cons ⟨⟨fa', _, q2, q4, q6⟩, q7⟩ h2⟩
    obtain ⟨L, h1, h2⟩ := hL
    have k1 := a8 c (bd c) L (by omega) (.refl _) h1
    have k2 := b8 c (bd c) L (by omega) (by rw [hbd c hlt]) h2
    exact ⟨by rw [k1.1, k2.1], by rw [k1.2, k2.2]⟩
  have has : as' = as := by
    apply List.ext_getElem?
    intro f
    by_cases hlt : f < (m.midElems 2).length
    · exact (hfaces f hlt).2
    · rw [List.getElem?_eq_none (by omega), List.getElem?_eq_none (by omega)]
  have hvols : vols' = vols := by
    apply List.ext_getElem?
    intro f
    by_cases hlt : f < m.cells.length
    · exact (hcells f hlt).2
    · rw [List.getElem?_eq_none (by omega), List.getElem?_eq_none (by omega)]
  subst has hvols
  refine ⟨cs, ls, cs', ls', as', vols', a1, a2, b1, b2, fun f h => (hfaces f h).1, fun c h => (hcells c h).1, ?_⟩
  intro f fa fa' h1 h2
  obtain ⟨x, x', ps, ν, q1, q2, q3, q4, q5, q6, q7⟩ := hshape f (List.getElem?_eq_some_iff.mp h1).1
  have e1 : (g.mesh.midElems 2)[f]? = some fa := by rw [hg]; exact h1
  have e2 : (g'.mesh.midElems 2)[f]? = some fa' := by rw [hg']; exact h2
  rw [q1] at e1
  rw [q2] at e2
  cases e1
  cases e2
  rw [a4, b4]
  exact edges_same hvg hvg' a3 b3 q3 q4 q5 q6

end GTMesh.Props
