import Verif.Props.Flux
import Verif.Props.Vtk2

/-! # C55 for meshes read from files -/

namespace GTMesh.Vtk
open Spec GTMesh.Props GTMesh.Fpma
variable {R : Type}

theorem TableInv.own {d : Dict} {es : List Edge} {used} (h : TableInv d es used) (extra : List (Idx × Idx)) :
    TableInv d es (es.map (fun e => (e.a, e.b)) ++ extra) :=
  ⟨h.find, h.index, fun _ e he => List.mem_append_left _ (List.mem_map.mpr ⟨e, List.mem_of_getElem? he, rfl⟩)⟩

/-- Where the edges come from: the first cell that has the edge as a side gives it its direction. -/
theorem loadCellList2_origin (used : List (Idx × Idx)) : ∀ (polys : List (List Idx)) (cs : List Cell) (k : Nat) (d : Dict)
    (es : List Edge) (ts rest : List (VTok R)), TableInv d es used → (∀ p ∈ allPairs polys, p ∈ used) →
    (∀ e ∈ es, e.conn.left ≠ INVALID) → k + polys.length ≤ INVALID → cs.length = polys.length →
    (∀ vs ∈ polys, vs ≠ []) → skipNl ts = skipNl (polys.flatMap lineTokens ++ rest) →
    ∀ cs' es' r, loadCellList2 cs k d es ts = .ok (cs', es', r) → ∀ (i : Nat) e, es'[i]? = some e → i < es.length ∨
      ∃ (c : Nat) (vs : List Idx), polys[c]? = some vs ∧ (e.a, e.b) ∈ consecutive vs ∧
        ∀ (c' : Nat) ws, c' < c → polys[c']? = some ws → ∀ p ∈ consecutive ws, ¬ SamePair p (e.a, e.b) := by
  intro polys
  induction polys with
  | nil =>
    intro cs k d es ts rest _ _ _ _ hcs _ _ cs' es' r h i e hi
    have : cs = [] := by simpa using hcs
    subst this
    simp only [loadCellList2, Res.ok.injEq, Prod.mk.injEq] at h
    rw [← h.2.1] at hi
    exact .inl (List.getElem?_eq_some_iff.mp hi).1
  | cons vs polys ih =>
    intro cs k d es ts rest h hu hleft hfit hcs hne hts cs' es' r hload i e hi
    cases cs with
    | nil => simp at hcs
    | cons c0 cs =>
    obtain ⟨l, d1, es1, g1, g2, g3, g4, g5, g6, g7, g8⟩ := addCellEdges_spec k (by simp at hfit; omega) used
      (consecutive vs) INVALID none d es h (fun p hp => hu p (by simp [allPairs]; exact Or.inl hp)) hleft (Or.inl rfl)
    obtain ⟨l', d1', es1', g1', g2', _⟩ := addCellEdges_spec k (by simp at hfit; omega) (es.map (fun e => (e.a, e.b)) ++ consecutive vs)
      (consecutive vs) INVALID none d es (TableInv.own h _) (fun p hp => List.mem_append_right _ hp) hleft (Or.inl rfl)
    have heq : d1' = d1 ∧ es1' = es1 := by
      rw [g1] at g1'
      have := Res.ok.inj g1'
      simp only [Prod.mk.injEq] at this
      exact ⟨this.2.1.symm, this.2.2.symm⟩
    obtain ⟨rfl, rfl⟩ := heq
    have hts' : skipNl (VTok.nl :: (polys.flatMap lineTokens ++ rest) : List (VTok R)) = skipNl (polys.flatMap lineTokens ++ rest) := by simp
    have hu' : ∀ p ∈ allPairs polys, p ∈ used := fun p hp => hu p (by simp only [allPairs, List.flatMap_cons, List.mem_append]; exact Or.inr hp)
    obtain ⟨ls, d2, es2, cs2, r2, e1, e2, e3, e4, _⟩ := loadCellList2_spec used polys cs (k + 1) d1' es1'
      (.nl :: (polys.flatMap lineTokens ++ rest)) rest g2 hu' g6
      (by simp at hfit; omega) (by simpa using hcs) (fun v hv => hne v (by simp [hv])) hts'
    have hes : es' = es2 := by
      simp only [loadCellList2] at hload
      rw [readNum_congr hts] at hload
      simp only [List.flatMap_cons, lineTokens, List.cons_append, List.append_assoc, readNum_num, Res.bind] at hload
      rw [readNums_map] at hload
      simp only at hload
      rw [g1] at hload
      simp only [List.nil_append] at hload
      erw [e1] at hload
      have := Res.ok.inj hload
      simp only [Prod.mk.injEq] at this
      exact this.2.1.symm
    subst hes
    have hlen1 := e4.length
    by_cases h1 : i < es.length
    · exact .inl h1
    right
    by_cases h2 : i < es1'.length
    · refine ⟨0, vs, rfl, ?_, fun c' ws hc' => by omega⟩
      obtain ⟨y, y1, y2, y3⟩ := e4 i _ (List.getElem?_eq_getElem h2)
      rw [hi] at y1
      obtain rfl := Option.some.inj y1
      have ho := g2'.origin i _ (List.getElem?_eq_getElem h2)
      rw [← y2, ← y3] at ho
      rcases List.mem_append.mp ho with ho | ho
      · exfalso
        obtain ⟨x, hx, hxe⟩ := List.mem_map.mp ho
        obtain ⟨j, hj⟩ := List.getElem?_of_mem hx
        obtain ⟨z, z1, z2, z3⟩ := g3 j x hj
        have := g2.unique (List.getElem?_eq_getElem h2) z1 (.inl (by rw [← y2, ← y3, z2, z3]; exact hxe.symm))
        have := (List.getElem?_eq_some_iff.mp hj).1
        omega
      · exact ho
    · rcases ih cs (k + 1) d1' es1' _ rest g2 hu' g6
        (by simp at hfit; omega) (by simpa using hcs) (fun v hv => hne v (by simp [hv])) hts' _ _ _ e1 i e hi with h3 | ⟨c, ws, c1, c2, c3⟩
      · exact absurd h3 h2
      · refine ⟨c + 1, ws, by simpa using c1, c2, ?_⟩
        intro c' ws' hc' hws p hp hsame
        cases c' with
        | succ c' => exact c3 c' ws' (by omega) (by simpa using hws) p hp hsame
        | zero =>
          simp only [List.getElem?_cons_zero, Option.some.injEq] at hws
          subst hws
          obtain ⟨j, hj⟩ := List.getElem?_of_mem hp
          obtain ⟨ee, _, x, x1, x2⟩ := g5 j p.1 p.2 hj
          obtain ⟨y, y1, y2, y3⟩ := e4 ee x x1
          have := e3.unique y1 hi (SamePair.trans (by rw [y2, y3]; exact x2) hsame)
          have := (List.getElem?_eq_some_iff.mp x1).1
          omega

theorem consecutive_eq_sidesOf (vs : List Idx) : consecutive vs = sidesOf vs := by
  apply List.ext_getElem?
  intro j
  by_cases hj : j < vs.length
  · rw [sidesOf_get vs j hj]
    have h2 : (j + 1) % vs.length < vs.length := Nat.mod_lt _ (by omega)
    simp [consecutive, hj, h2]
  · rw [List.getElem?_eq_none (by simp [consecutive]; omega), List.getElem?_eq_none (by simp [sidesOf]; omega)]

/-- C55. Reading a 2D file directs each edge along the polygon of its left cell. -/
theorem C55_directions [Zero R] (F : File R) (hF : F.Polygons) (hcodes : F.codes.length ≤ F.cells.length) (rest : List (VTok R))
    (types : List Nat) (m0 : Mesh (Point2 R)) (hd : m0.dim = 2) (m : Mesh (Point2 R)) (t : List Nat)
    (h : load2 (F.tokens ++ rest) types m0 = .ok (m, t)) :
    ∀ e ∈ m.edges, ∃ vs, F.cells[e.conn.left]? = some vs ∧ (e.a, e.b) ∈ sidesOf vs := by
  obtain ⟨m', t', h1, _, _, _, _, hfl, _⟩ := C22_load F hF hcodes rest types m0 hd
  rw [h] at h1
  have h1 := Res.ok.inj h1
  simp only [Prod.mk.injEq] at h1
  obtain ⟨rfl, rfl⟩ := h1
  obtain ⟨ls, d, es, cs, _, _, i3, _, ⟨r, i5, i5'⟩, _⟩ := loadCells2_spec F hF m0 (typesTail F rest)
  obtain ⟨t'', g1, _⟩ := loadFromStream_spec fromVtk2 (fun p : R × R × R => (p.1, p.2.1)) loadCells2 F rest types m0
    _ ⟨r, i5, i5'⟩ i3 hcodes
  have hm : m.edges = es := by
    have : load2 (F.tokens ++ rest) types m0 = _ := g1
    rw [h] at this
    have := Res.ok.inj this
    simp only [Prod.mk.injEq] at this
    rw [this.1]
  have hne : ∀ vs ∈ F.cells, vs ≠ [] := by
    intro vs hvs h; have := hF.three vs hvs; rw [h] at this; simp at this
  unfold loadCells2 at i5
  simp only [readNum_num, Res.bind, ignoreLine, Mesh.clear] at i5
  intro e he
  rw [hm] at he
  obtain ⟨i, hi⟩ := List.getElem?_of_mem he
  have hload : ∃ cs', loadCellList2 (resize ([] : List Cell) F.cells.length {}) 0 [] [] (F.cells.flatMap lineTokens ++ .nl :: typesTail F rest) = .ok (cs', es, r) := by
    cases hl : loadCellList2 (resize ([] : List Cell) F.cells.length {}) 0 [] [] (F.cells.flatMap lineTokens ++ .nl :: typesTail F rest) with
    | ok q =>
      rw [hl] at i5
      have := Res.ok.inj i5
      simp only [Prod.mk.injEq, Mesh.mk.injEq] at this
      exact ⟨q.1, by rw [← this.2, ← this.1.2.2.1]⟩
    | throw _ => rw [hl] at i5; cases i5
    | ub => rw [hl] at i5; cases i5
    | diverge => rw [hl] at i5; cases i5
  obtain ⟨cs', hload⟩ := hload
  rcases loadCellList2_origin (allPairs F.cells) F.cells (resize [] F.cells.length {}) 0 [] [] _ (.nl :: typesTail F rest) (TableInv.empty _)
    (fun p hp => hp) (by simp) (by have := hF.fit; omega) (by rw [resize_length]) hne rfl _ _ _ hload i e hi with h0 | ⟨c, vs, c1, c2, c3⟩
  · simp at h0
  · rw [consecutive_eq_sidesOf] at c2
    have hfl := hfl e (by rw [hm]; exact he)
    have huses : ∀ (c : Nat) ws p, F.cells[c]? = some ws → p ∈ consecutive ws → SamePair p (e.a, e.b) → Uses F c e.a e.b := by
      intro c ws p hc hp hs
      obtain ⟨j, hj, ha, hb⟩ := mem_consecutive (u := p.1) (v := p.2) hp
      exact ⟨ws, hc, j, p.1, p.2, hj, ha, hb, hs⟩
    have hle := hfl.2.1 c (huses c vs _ c1 (by rw [consecutive_eq_sidesOf]; exact c2) (.inl rfl))
    rcases Nat.lt_or_eq_of_le hle with hlt | heq
    · exfalso
      obtain ⟨ws, w1, j, a, b, w2, w3, w4, w5⟩ := hfl.1
      obtain ⟨a', b', w6, w7, w8⟩ := consecutive_get ws j w2
      rw [w3] at w7; rw [w4] at w8
      cases w7; cases w8
      exact c3 _ ws hlt w1 _ (List.mem_of_getElem? w6) w5
    · rw [heq]; exact ⟨vs, c1, c2⟩

/-- No two cells of the file go along a side in the same direction (as when all polygons of a plane mesh are counterclockwise). -/
def Oriented (F : File R) : Prop :=
  ∀ (c c' : Nat) vs vs' p, F.cells[c]? = some vs → F.cells[c']? = some vs' → p ∈ sidesOf vs → p ∈ sidesOf vs' → c = c'

theorem uses_side {F : File R} {c : Nat} {u v : Idx} (h : Uses F c u v) : ∃ vs, F.cells[c]? = some vs ∧ ((u, v) ∈ sidesOf vs ∨ (v, u) ∈ sidesOf vs) := by
  obtain ⟨ws, w1, j, a, b, w2, w3, w4, w5⟩ := h
  obtain ⟨a', b', w6, w7, w8⟩ := consecutive_get ws j w2
  rw [w3] at w7; rw [w4] at w8
  cases w7; cases w8
  have hm := List.mem_of_getElem? w6
  rw [consecutive_eq_sidesOf] at hm
  refine ⟨ws, w1, ?_⟩
  rcases w5 with h | ⟨h1, h2⟩
  · left; rw [← h]; exact hm
  · right
    simp only at h1 h2
    rw [← h1, ← h2]; exact hm

theorem Oriented.two {F : File R} (h : Oriented F) (u v : Idx) : AtMostTwo F u v := by
  intro a b c ha hb hc
  obtain ⟨va, a1, a2⟩ := uses_side ha
  obtain ⟨vb, b1, b2⟩ := uses_side hb
  obtain ⟨vc, c1, c2⟩ := uses_side hc
  rcases a2 with a2 | a2 <;> rcases b2 with b2 | b2 <;> rcases c2 with c2 | c2 <;>
    first
    | exact .inl (h _ _ _ _ _ a1 b1 a2 b2) | exact .inr (.inl (h _ _ _ _ _ b1 c1 b2 c2)) | exact .inr (.inr (h _ _ _ _ _ a1 c1 a2 c2))

theorem mem_edges_side {es : List Edge} {l vs : List Idx} (h : EdgesOf es l vs) {e : Idx} (he : e ∈ l) {ed : Edge} (hed : es[e]? = some ed) :
    (ed.a, ed.b) ∈ sidesOf vs ∨ (ed.b, ed.a) ∈ sidesOf vs := by
  obtain ⟨j, hj⟩ := List.getElem?_of_mem he
  have hlt := (List.getElem?_eq_some_iff.mp hj).1
  obtain ⟨e', u, v, e1, e2, e3, ed', e4, e5⟩ := h.2 j (by rw [← h.1]; exact hlt)
  rw [hj] at e1
  cases e1
  rw [hed] at e4
  cases e4
  obtain ⟨a', b', w6, w7, w8⟩ := consecutive_get vs j (by rw [← h.1]; exact hlt)
  rw [e2] at w7; rw [e3] at w8
  cases w7; cases w8
  have hm := List.mem_of_getElem? w6
  rw [consecutive_eq_sidesOf] at hm
  rcases e5 with h | ⟨h1, h2⟩
  · left; rw [h]; exact hm
  · right
    simp only at h1 h2
    rw [h1, h2]; exact hm

/-- The position as a vector. -/
def vec2 (p : Point2 ℝ) : Vec 2 ℝ := ![p.1, p.2]

/-- C55. Every 2D file whose polygons go along each side at most once in each direction (and whose sides have different ends) gives a mesh
where the boundary of every cell closes up: the lengths times the normals, with the sign of the side of the cell, add up to zero. -/
theorem C55_vtk2 (F : File ℝ) (hF : F.Polygons) (hcodes : F.codes.length ≤ F.cells.length) (rest : List (VTok ℝ))
    (types : List Nat) (m0 : Mesh (Point2 ℝ)) (hd : m0.dim = 2) (hor : Oriented F) (hr : ∀ vs ∈ F.cells, ∀ v ∈ vs, v < F.verts.length)
    (hdist : ∀ vs ∈ F.cells, ∀ p ∈ sidesOf vs, ∀ x y, F.verts[p.1]? = some x → F.verts[p.2]? = some y → (x.1, x.2.1) ≠ (y.1, y.2.1)) :
    ∃ m t, load2 (F.tokens ++ rest) types m0 = .ok (m, t) ∧ m.cells.length = F.cells.length ∧
      ∀ g : GMesh 2 ℝ, g.mesh = m.mapV vec2 → ∃ ns ls as, Geo.computeFaceNormals2 g.mesh = .ok ns ∧ Geo.computeMeasures2 g = .ok (ls, as) ∧
        ∀ i, i < F.cells.length → ∃ faces, boundaryWalk m i = .ok faces ∧ surface m faces ls ns i = 0 := by
  obtain ⟨m, t, bd, h1, hv, h3⟩ := C22_valid F hF hcodes rest types m0 hd (fun u v => hor.two u v) hr
  have hdir := C55_directions F hF hcodes rest types m0 hd m t h1
  obtain ⟨m', t', h1', k2, k3, _, _, k6, k7, k8, _⟩ := C22_load F hF hcodes rest types m0 hd
  rw [h1] at h1'
  have h1' := Res.ok.inj h1'
  simp only [Prod.mk.injEq] at h1'
  obtain ⟨rfl, rfl⟩ := h1'
  refine ⟨m, t, h1, k7, ?_⟩
  intro g hgm
  have hv' : ValidMesh g.mesh bd := by rw [hgm]; exact hv.mapV vec2
  have hg2 : g.mesh.dim = 2 := by rw [hgm]; exact k2
  have hge : g.mesh.edges = m.edges := by rw [hgm]; rfl
  have hgv : ∀ (v : Nat) (x : ℝ × ℝ × ℝ), F.verts[v]? = some x → (g.mesh.vertices[v]?) = some (vec2 (x.1, x.2.1)) := by
    intro v x hx
    rw [hgm]
    show (m.vertices.map vec2)[v]? = _
    rw [k3, List.getElem?_map, List.getElem?_map, hx]; rfl
  have hends : ∀ e, e < g.mesh.edges.length → (ends g.mesh e).1 ≠ (ends g.mesh e).2 := by
    intro e he
    have hg := List.getElem?_eq_getElem he
    obtain ⟨vs, c1, c2⟩ := hdir g.mesh.edges[e] (by rw [← hge]; exact List.getElem_mem he)
    have hvs := List.mem_of_getElem? c1
    obtain ⟨m1, m2⟩ := sidesOf_mem c2
    have b1 := List.getElem?_eq_getElem (hr vs hvs _ m1)
    have b2 := List.getElem?_eq_getElem (hr vs hvs _ m2)
    have := hdist vs hvs _ c2 _ _ b1 b2
    rw [ends, hg]
    simp only [Option.map_some, Option.getD_some]
    rw [hgv _ _ b1, hgv _ _ b2]
    simp only [Option.getD_some]
    intro heq
    apply this
    have z0 := congrFun heq 0
    have z1 := congrFun heq 1
    simp [vec2] at z0 z1
    rw [z0, z1]
  obtain ⟨ns, n1, _⟩ := C40_normals_2d g.mesh bd hv' hends
  refine ⟨ns, _, _, n1, C39_measures_2d g bd hv' hg2, ?_⟩
  intro i hi
  have hci := List.getElem?_eq_getElem hi
  set vs := F.cells[i] with hvs
  have hvsm := List.mem_of_getElem? hci
  have hE := h3 i vs hci
  have him : i < m.cells.length := by omega
  obtain ⟨hch, hb0⟩ := hv.chain i _ (List.getElem?_eq_getElem him)
  refine ⟨bd i, ?_, ?_⟩
  · rw [C09_walk_iff_chain m (by omega) i _ (List.getElem?_eq_getElem him)]
    exact ⟨hch, hb0⟩
  have hpoly : IsPolygon g.mesh.edges (bd i) vs := by
    rw [hge]
    exact ⟨by intro h0; have := hF.three vs hvsm; rw [h0] at this; simp at this, hF.nodup vs hvsm, hch.2.1, bd i, .refl _, hE⟩
  have hposs : PositionsOf g.mesh vs (vs.map fun v => (g.mesh.vertices[v]?).getD 0) := by
    rw [PositionsOf, List.forall₂_map_right_iff, List.forall₂_same]
    intro v hvm
    rw [hgv v _ (List.getElem?_eq_getElem (hr vs hvsm v hvm))]; rfl
  have hlead : LeadAlong g.mesh (bd i) i vs := by
    intro e he ed hed
    rw [hge] at hed
    have hside := mem_edges_side hE he hed
    have hconn : m.faceConn e = .ok ed.conn := by
      rw [Mesh.faceConn, if_pos k2, Res.at'_eq_ok.mpr hed]; rfl
    obtain ⟨vl, l1, l2⟩ := hdir ed (List.mem_of_getElem? hed)
    by_cases hl : ed.conn.left = i
    · left
      rw [hl, hci] at l1
      obtain rfl := Option.some.inj l1
      exact ⟨hl, l2⟩
    · right
      refine ⟨hl, (bd_side hv him he hconn).resolve_left hl, ?_⟩
      rcases hside with hside | hside
      · exact absurd (hor _ _ _ _ _ l1 hci l2 hside) hl
      · exact hside
  obtain ⟨ns', ls', as', q1, q2, q3⟩ := C55_closed_2d g bd hv' hg2 hends i (by rw [hgm]; exact him) vs _ hpoly hposs (hF.three vs hvsm) hlead
  rw [n1] at q1
  obtain rfl := Res.ok.inj q1
  rw [C39_measures_2d g bd hv' hg2] at q2
  have q2 := Res.ok.inj q2
  simp only [Prod.mk.injEq] at q2
  rw [q2.1]
  have hsurf : surface m (bd i) ls' ns i = surface g.mesh (bd i) ls' ns i := by
    unfold surface
    have : ∀ f, cellsOfFace m f = cellsOfFace g.mesh f := by
      intro f; unfold cellsOfFace; rw [if_pos k2, if_pos hg2, hge]
    simp only [this]
  rw [hsurf, q3]

/-- The example file with real positions. -/
noncomputable def exampleFileR : File ℝ where
  line1 := exampleFile.line1
  line2 := exampleFile.line2
  precision := exampleFile.precision
  verts := [(0, 0, 0), (1, 0, 0), (1, 1, 0), (0, 1, 0), (2, 1, 0), (3, 0, 0)]
  total := exampleFile.total
  cells := exampleFile.cells
  codes := exampleFile.codes

theorem exampleFileR_oriented : Oriented exampleFileR := by
  have key : ∀ c ∈ List.range 3, ∀ c' ∈ List.range 3, ∀ p ∈ sidesOf (exampleFile.cells[c]?.getD []), p ∈ sidesOf (exampleFile.cells[c']?.getD []) → c = c' := by
    decide
  intro c c' vs vs' p h1 h2 h3 h4
  have h1 : exampleFile.cells[c]? = some vs := h1
  have h2 : exampleFile.cells[c']? = some vs' := h2
  have l1 := (List.getElem?_eq_some_iff.mp h1).1
  have l2 := (List.getElem?_eq_some_iff.mp h2).1
  exact key c (List.mem_range.mpr l1) c' (List.mem_range.mpr l2) p (by rw [h1]; exact h3) (by rw [h2]; exact h4)

example : ∃ m t, load2 exampleFileR.tokens [] { dim := 2 } = .ok (m, t) ∧ m.cells.length = 3 ∧
    ∀ g : GMesh 2 ℝ, g.mesh = m.mapV vec2 → ∃ ns ls as, Geo.computeFaceNormals2 g.mesh = .ok ns ∧ Geo.computeMeasures2 g = .ok (ls, as) ∧
      ∀ i, i < 3 → ∃ faces, boundaryWalk m i = .ok faces ∧ surface m faces ls ns i = 0 := by
  have h := C55_vtk2 exampleFileR ⟨exampleFile_polygons.nodup, exampleFile_polygons.three, exampleFile_polygons.fit, exampleFile_polygons.edges_fit⟩
    (by decide) [] [] { dim := 2 } rfl exampleFileR_oriented (by
      show ∀ vs ∈ exampleFile.cells, ∀ v ∈ vs, v < 6
      decide) (by
      intro vs hvs p hp x y hx hy
      have hvs : vs = [0, 1, 2, 3] ∨ vs = [2, 1, 4] ∨ vs = [1, 5, 4] := by
        have : vs ∈ exampleFile.cells := hvs
        simpa [exampleFile] using this
      rcases hvs with rfl | rfl | rfl <;> simp [sidesOf, List.rotate] at hp <;>
        (rcases hp with rfl | rfl | rfl | rfl) <;>
        simp [exampleFileR] at hx hy <;> rw [← hx, ← hy] <;> simp)
  rw [List.append_nil] at h
  exact h

end GTMesh.Vtk
