import Verif.Proofs.Solid6

/-! # C51: the mesh read back is a valid mesh, also when cells are split -/

namespace GTMesh.Vtk
open Spec Std' GTMesh.Props
variable {R V P : Type}

theorem side_of_chain {m : Mesh V} {bd : Idx → List Idx} (hd : m.dim = 3) (hv : ValidMesh m bd) {c f : Nat} {x : Face}
    (hc : c < m.cells.length) (hf : f ∈ bd c) (hx : (m.midElems 2)[f]? = some x) : c = x.conn.left ∨ c = x.conn.right := by
  obtain ⟨⟨hne, _, hlink⟩, _⟩ := hv.chain c m.cells[c] (by simp [hc])
  obtain ⟨j, hj⟩ := List.getElem?_of_mem hf
  obtain ⟨hjl, hje⟩ := List.getElem?_eq_some_iff.mp hj
  obtain ⟨cn, l1, l2⟩ := hlink j hjl
  rw [hje] at l1
  simp only [Mesh.faceConn, hd] at l1
  rw [if_neg (by decide)] at l1
  have hat : Res.at' (m.midElems (3 - 1)) f = .ok x := by simpa using hx
  rw [hat] at l1
  cases l1
  exact next_side l2

theorem two_cells_of_face {m : Mesh V} {bd : Idx → List Idx} (hd : m.dim = 3) (hv : ValidMesh m bd) {f a b c : Nat}
    (ha : a < m.cells.length) (hb : b < m.cells.length) (hc : c < m.cells.length) (fa : f ∈ bd a) (fb : f ∈ bd b) (fc : f ∈ bd c) :
    a = b ∨ b = c ∨ a = c := by
  have hlt := bd_lt hd hv ha f fa
  have hx := List.getElem?_eq_getElem hlt
  have s1 := side_of_chain hd hv ha fa hx
  have s2 := side_of_chain hd hv hb fb hx
  have s3 := side_of_chain hd hv hc fc hx
  omega

theorem solid_vertex_lt {m : Mesh V} {bd : Idx → List Idx} (hd : m.dim = 3) (hv : ValidMesh m bd) {l vs : List Idx} {t : Nat}
    (h : IsSolid m l vs t) {x : Idx} (hx : x ∈ vs) : x < m.vertices.length := by
  obtain ⟨a, ha⟩ := List.getElem?_of_mem hx
  obtain ⟨hal, hae⟩ := List.getElem?_eq_some_iff.mp ha
  obtain ⟨p, hp, b, _, hs⟩ := every_vertex (vertexCount_known h.count) a hal
  obtain ⟨f, y, _, _, h3⟩ := h.polygon hp
  have hside : HasSide (p.map (ent vs)) (ent vs a) (ent vs b) := (hasSide_map' ..).mpr ⟨a, b, hs, Or.inl rfl⟩
  obtain ⟨e, _, ed, e1, e2⟩ := polygon_side h3 hside
  have hel := (List.getElem?_eq_some_iff.mp e1).1
  have := endA_lt hd hv hel
  simp only [endA, endB, e1, Option.map_some, Option.getD_some] at this
  have hent : ent vs a = x := by simp [ent, ha]
  rw [hent] at e2
  simp only [SamePair, Prod.mk.injEq] at e2
  omega

theorem samePair_edges {m : Mesh V}
    (hE : ∀ (i j : Nat) e e', m.edges[i]? = some e → m.edges[j]? = some e' → SamePair (e.a, e.b) (e'.a, e'.b) → i = j)
    {e e' : Idx} (h : e < m.edges.length) (h' : e' < m.edges.length)
    (hs : SamePair (endA m.edges e, endB m.edges e) (endA m.edges e', endB m.edges e')) : e = e' := by
  refine hE e e' _ _ (List.getElem?_eq_getElem h) (List.getElem?_eq_getElem h') ?_
  simpa [endA, endB, h, h'] using hs

/-- The ends of an edge of a polygon with at least three vertices differ. -/
theorem polygon_edge_ends {edges : List Edge} {subs p : List Idx} (h : IsPolygon edges subs p) (h3 : 3 ≤ p.length) {e : Idx} (he : e ∈ subs) :
    endA edges e ≠ endB edges e := by
  obtain ⟨hne, hp, _, es, hperm, hlen, hj⟩ := h
  have hp : p.Nodup := hp
  obtain ⟨j, hje⟩ := List.getElem?_of_mem (hperm.mem_iff.mpr he)
  have hjl : j < p.length := by rw [← hlen]; exact (List.getElem?_eq_some_iff.mp hje).1
  obtain ⟨e1, x, y, a1, a2, a3, ed, a4, a5⟩ := hj j hjl
  rw [hje] at a1
  cases a1
  have hxy : x ≠ y := by
    rintro rfl
    unfold cyc at a2 a3
    have := (List.getElem?_inj (Nat.mod_lt _ (by omega)) hp).mp (a2.trans a3.symm)
    rw [Nat.mod_eq_of_lt hjl] at this
    rcases Nat.lt_or_ge (j + 1) p.length with h | h
    · rw [Nat.mod_eq_of_lt h] at this; omega
    · have h' : j + 1 = p.length := by omega
      rw [h', Nat.mod_self] at this; omega
  simp only [endA, endB, a4, Option.map_some, Option.getD_some]
  simp only [SamePair, Prod.mk.injEq] at a5
  rcases a5 with ⟨rfl, rfl⟩ | ⟨rfl, rfl⟩
  · exact hxy
  · exact hxy.symm

/-- Rows of pieces use a triangle or quadrangle at most twice. -/
theorem pieces_two {key : P → List Char} {cc fc : Idx → P} {m : Mesh V} {bd vert poly : Idx → List Idx}
    {types : List Nat} {rows : List (List Idx)} {appended : List P} {pt : P → Idx} (hd : m.dim = 3) (hv : ValidMesh m bd)
    (htl : types.length = m.cells.length)
    (hsol : ∀ (i : Nat) t, types[i]? = some t → isSplit types i = false → IsSolid m (bd i) (vert i) t)
    (hE : ∀ (i j : Nat) e e', m.edges[i]? = some e → m.edges[j]? = some e' → SamePair (e.a, e.b) (e'.a, e'.b) → i = j)
    (huniq : ∀ (i j : Nat) f f' p p', (m.midElems 2)[i]? = some f → (m.midElems 2)[j]? = some f' →
      IsPolygon m.edges f.sub p → IsPolygon m.edges f'.sub p' → SameSides p p' → i = j)
    (hpoly : SplitPolyhedra m bd types poly) (hkey : DistinctCenters key cc fc m bd types)
    (hrows : List.Forall₂ (RowOf m vert fc cc pt) (exported m bd types) rows)
    (hpt : ∀ (i : Nat), i < m.cells.length → isSplit types i = true → (∀ f ∈ bd i, edgesOfFace m f ≠ []) →
        ∀ p, p = cc i ∨ (∃ f ∈ bd i, p = fc f) →
          m.vertices.length ≤ pt p ∧ ∃ q, appended[pt p - m.vertices.length]? = some q ∧ key q = key p)
    (F : File R) (hF : F.cells = rows) (p : List Idx) : AtMostTwoFace F p := by
  have hne : ∀ i f, i < m.cells.length → isSplit types i = true → f ∈ bd i → edgesOfFace m f ≠ [] := by
    intro i f hi hs hf h
    obtain ⟨⟨h0, _, _, es, hp, hl, _⟩, _⟩ := hpoly.polygon i f hi hs hf
    rw [h] at hp
    rw [hp.eq_nil] at hl
    exact h0 (List.eq_nil_of_length_eq_zero hl.symm)
  have hC : ∀ i, i < m.cells.length → isSplit types i = true → m.vertices.length ≤ pt (cc i) ∧
      ∃ q, appended[pt (cc i) - m.vertices.length]? = some q ∧ key q = key (cc i) :=
    fun i hi hs => hpt i hi hs (fun f hf => hne i f hi hs hf) _ (Or.inl rfl)
  have hFc : ∀ i f, i < m.cells.length → isSplit types i = true → f ∈ bd i → m.vertices.length ≤ pt (fc f) ∧
      ∃ q, appended[pt (fc f) - m.vertices.length]? = some q ∧ key q = key (fc f) :=
    fun i f hi hs hf => hpt i hi hs (fun f hf => hne i f hi hs hf) _ (Or.inr ⟨f, hf, rfl⟩)
  have keyEq : ∀ {x y : P}, (∃ q, appended[pt x - m.vertices.length]? = some q ∧ key q = key x) →
      (∃ q, appended[pt y - m.vertices.length]? = some q ∧ key q = key y) → pt x = pt y → key x = key y := by
    rintro x y ⟨q, h1, h2⟩ ⟨q', h3, h4⟩ h
    rw [h, h3] at h1
    cases h1
    rw [← h2, ← h4]
  have hnodup : (exported m bd types).Nodup := exported_nodup
    (fun i hi => (hv.chain i m.cells[i] (by simp [hi])).1.2.1)
    (fun i f hi hs hf => (hpoly.polygon i f hi hs hf).1.2.2.1)
  have hlen : (exported m bd types).length = F.cells.length := by rw [hF]; exact hrows.length_eq
  -- what a user of `p` is
  have huse : ∀ k, UsesFace F k p → ∃ x, (exported m bd types)[k]? = some x ∧ ∃ vs, RowOf m vert fc cc pt x vs ∧
      ∃ q ∈ facePolygons vs, SameSides p q := by
    rintro k ⟨vs, h1, q, h2, h3⟩
    have hk : k < (exported m bd types).length := by
      rw [hlen]; exact (List.getElem?_eq_some_iff.mp h1).1
    have hx := List.getElem?_eq_getElem hk
    obtain ⟨vs', g1, g2⟩ := forall₂_get hrows hx
    rw [← hF, h1] at g1
    cases g1
    exact ⟨_, hx, vs, g2, q, h2, h3⟩
  have hidx : ∀ (a b : Nat) x, (exported m bd types)[a]? = some x → (exported m bd types)[b]? = some x → a = b := by
    intro a b x ha hb
    exact (List.getElem?_inj (List.getElem?_eq_some_iff.mp ha).1 hnodup).mp (ha.trans hb.symm)
  have hsmall : ∀ i vs, i < m.cells.length → isSplit types i = false → RowOf m vert fc cc pt (.whole i) vs →
      ∀ q ∈ facePolygons vs, ∀ v ∈ q, v < m.vertices.length := by
    intro i vs hi hs hr q hq v hvq
    have hS := hsol i (types[i]'(by omega)) (by simp) hs
    obtain ⟨a1, a2, a3⟩ := hr
    have hknown := vertexCount_known hS.count
    obtain ⟨q', hq', hc⟩ := a1.2.1 q hq
    have hvq' := (sameSides_mem (SameCycle.sameSides hc) v).mp hvq
    obtain ⟨p', hp', rfl⟩ := List.mem_map.mp hq'
    obtain ⟨j, hj, rfl⟩ := List.mem_map.mp hvq'
    have hjl : j < (vert i).length := by
      obtain ⟨u, hu⟩ := mem_hasSide hj
      exact (hasSide_lt hp' hu).1
    refine solid_vertex_lt hd hv hS ?_
    simp [hjl]
  have hbig : ∀ i f e vs, i < m.cells.length → isSplit types i = true → f ∈ bd i →
      RowOf m vert fc cc pt (.part i f e) vs → ∀ q ∈ facePolygons vs, ∃ v ∈ q, m.vertices.length ≤ v := by
    intro i f e vs hi hs hf hr q hq
    obtain rfl : vs = _ := hr
    rw [tetra_polygons] at hq
    have h1 := (hFc i f hi hs hf).1
    have h2 := (hC i hi hs).1
    simp only [List.mem_cons, List.not_mem_nil, or_false] at hq
    rcases hq with rfl | rfl | rfl | rfl
    · exact ⟨_, by simp, h1⟩
    · exact ⟨pt (cc i), by simp, h2⟩
    · exact ⟨_, by simp, h1⟩
    · exact ⟨_, by simp, h1⟩
  have mixed : ∀ x y vs vs' q q', x ∈ exported m bd types → y ∈ exported m bd types → RowOf m vert fc cc pt x vs → RowOf m vert fc cc pt y vs' →
      q ∈ facePolygons vs → q' ∈ facePolygons vs' → SameSides q q' → ∀ i i' f' e', x = .whole i → y = .part i' f' e' → False := by
    intro x y vs vs' q q' hx hy rx ry hq hq' hs i i' f' e' ex ey
    subst ex ey
    obtain ⟨a1, a2⟩ := mem_exported hx
    obtain ⟨b1, b2, b3, _⟩ := mem_exported hy
    obtain ⟨v, c1, c2⟩ := hbig i' f' e' vs' b1 b2 b3 ry q' hq'
    have := hsmall i vs a1 a2 rx q hq v ((sameSides_mem hs v).mpr c1)
    omega
  intro a b c ha hb hc
  obtain ⟨x, x1, xs, x2, qx, x3, x4⟩ := huse a ha
  obtain ⟨y, y1, ys, y2, qy, y3, y4⟩ := huse b hb
  obtain ⟨z, z1, zs, z2, qz, z3, z4⟩ := huse c hc
  have hxy := x4.symm.trans y4
  have hxz := x4.symm.trans z4
  have mx := List.mem_of_getElem? x1
  have my := List.mem_of_getElem? y1
  have mz := List.mem_of_getElem? z1
  suffices h : x = y ∨ y = z ∨ x = z by
    rcases h with rfl | rfl | rfl
    · exact Or.inl (hidx _ _ _ x1 y1)
    · exact Or.inr (Or.inl (hidx _ _ _ y1 z1))
    · exact Or.inr (Or.inr (hidx _ _ _ x1 z1))
  cases x with
  | whole i =>
    cases y with
    | part i' f' e' => exact (mixed _ _ _ _ _ _ mx my x2 y2 x3 y3 hxy _ _ _ _ rfl rfl).elim
    | whole j =>
      cases z with
      | part i' f' e' => exact (mixed _ _ _ _ _ _ mx mz x2 z2 x3 z3 hxz _ _ _ _ rfl rfl).elim
      | whole k =>
        have face : ∀ i vs q, Piece.whole i ∈ exported m bd types → RowOf m vert fc cc pt (.whole i) vs → q ∈ facePolygons vs →
            i < m.cells.length ∧ ∃ f x r, f ∈ bd i ∧ (m.midElems 2)[f]? = some x ∧ IsPolygon m.edges x.sub r ∧ SameSides q r := by
          intro i vs q hi hr hq
          obtain ⟨a1, a2⟩ := mem_exported hi
          refine ⟨a1, ?_⟩
          obtain ⟨q', c1, c2⟩ := hr.1.2.1 q hq
          obtain ⟨p', d1, rfl⟩ := List.mem_map.mp c1
          obtain ⟨f, x, e1, e2, e3⟩ := (hsol i (types[i]'(by omega)) (by simp) a2).polygon d1
          exact ⟨f, x, _, e1, e2, e3, SameCycle.sameSides c2⟩
        obtain ⟨a0, f, x, q, a1, a2, a3, a4⟩ := face i xs qx mx x2 x3
        obtain ⟨b0, f', x', q', b1, b2, b3, b4⟩ := face j ys qy my y2 y3
        obtain ⟨c0, f'', x'', q'', c1, c2, c3, c4⟩ := face k zs qz mz z2 z3
        have e1 := huniq f f' x x' q q' a2 b2 a3 b3 ((a4.symm.trans hxy).trans b4)
        have e2 := huniq f f'' x x'' q q'' a2 c2 a3 c3 ((a4.symm.trans hxz).trans c4)
        subst e1 e2
        rcases two_cells_of_face hd hv a0 b0 c0 a1 b1 c1 with rfl | rfl | rfl
        · exact Or.inl rfl
        · exact Or.inr (Or.inl rfl)
        · exact Or.inr (Or.inr rfl)
  | part i f e =>
    cases y with
    | whole j => exact (mixed _ _ _ _ _ _ my mx y2 x2 y3 x3 hxy.symm _ _ _ _ rfl rfl).elim
    | part i' f' e' =>
      cases z with
      | whole k => exact (mixed _ _ _ _ _ _ mz mx z2 x2 z3 x3 hxz.symm _ _ _ _ rfl rfl).elim
      | part i'' f'' e'' =>
        obtain ⟨p1, p2, p3, p4⟩ := mem_exported mx
        obtain ⟨p1', p2', p3', p4'⟩ := mem_exported my
        obtain ⟨p1'', p2'', p3'', p4''⟩ := mem_exported mz
        obtain rfl : xs = _ := x2
        obtain rfl : ys = _ := y2
        obtain rfl : zs = _ := z2
        have l1 := edgesOfFace_range hd hv p1 p3 p4
        have l1' := edgesOfFace_range hd hv p1' p3' p4'
        have l1'' := edgesOfFace_range hd hv p1'' p3'' p4''
        obtain ⟨r1, r2⟩ := endA_lt hd hv l1
        obtain ⟨r1', r2'⟩ := endA_lt hd hv l1'
        obtain ⟨r1'', r2''⟩ := endA_lt hd hv l1''
        obtain ⟨s1, s2⟩ := hFc i f p1 p2 p3
        obtain ⟨s1', s2'⟩ := hFc i' f' p1' p2' p3'
        obtain ⟨s1'', s2''⟩ := hFc i'' f'' p1'' p2'' p3''
        obtain ⟨t1, t2⟩ := hC i p1 p2
        obtain ⟨t1', t2'⟩ := hC i' p1' p2'
        obtain ⟨t1'', t2''⟩ := hC i'' p1'' p2''
        obtain ⟨P1, P2⟩ := hpoly.polygon i f p1 p2 p3
        obtain ⟨P1', P2'⟩ := hpoly.polygon i' f' p1' p2' p3'
        obtain ⟨P1'', P2''⟩ := hpoly.polygon i'' f'' p1'' p2'' p3''
        have ne : ∀ {i i' f}, i < m.cells.length → i' < m.cells.length → isSplit types i = true → isSplit types i' = true → f ∈ bd i →
            pt (fc f) ≠ pt (cc i') := fun h1 h2 h3 h4 h5 h =>
          hkey.both _ _ _ h1 h2 h3 h4 h5 (keyEq (hFc _ _ h1 h3 h5).2 (hC _ h2 h4).2 h)
        have T := tri_cases r1 r2 r1' r2' s1 t1 s1' t1' (ne p1 p1 p2 p2 p3) (ne p1' p1' p2' p2' p3') (ne p1 p1' p2 p2' p3)
          (ne p1' p1 p2' p2 p3') (polygon_edge_ends P1 P2 p4) (polygon_edge_ends P1' P2' p4') y3
        have T' := tri_cases r1 r2 r1'' r2'' s1 t1 s1'' t1'' (ne p1 p1 p2 p2 p3) (ne p1'' p1'' p2'' p2'' p3'') (ne p1 p1'' p2 p2'' p3)
          (ne p1'' p1 p2'' p2 p3'') (polygon_edge_ends P1 P2 p4) (polygon_edge_ends P1'' P2'' p4'') z3
        have mxy := sameSides_mem hxy
        have mxz := sameSides_mem hxz
        have feq : ∀ {i i' f f'}, i < m.cells.length → i' < m.cells.length → isSplit types i = true → isSplit types i' = true → f ∈ bd i →
            f' ∈ bd i' → pt (fc f) = pt (fc f') → f = f' := fun h1 h2 h3 h4 h5 h6 h =>
          hkey.faces _ _ _ _ h1 h2 h3 h4 h5 h6 (keyEq (hFc _ _ h1 h3 h5).2 (hFc _ _ h2 h4 h6).2 h)
        have ceq : ∀ {i i'}, i < m.cells.length → i' < m.cells.length → isSplit types i = true → isSplit types i' = true →
            pt (cc i) = pt (cc i') → i = i' := fun h1 h2 h3 h4 h =>
          hkey.cells _ _ h1 h2 h3 h4 (keyEq (hC _ h1 h3).2 (hC _ h2 h4).2 h)
        rw [tetra_polygons] at x3
        simp only [List.mem_cons, List.not_mem_nil, or_false] at x3
        rcases x3 with rfl | rfl | rfl | rfl
        · obtain ⟨u1, u2⟩ := T.1 mxy
          obtain ⟨w1, w2⟩ := T'.1 mxz
          obtain rfl := feq p1 p1' p2 p2' p3 p3' u1
          obtain rfl := feq p1 p1'' p2 p2'' p3 p3'' w1
          obtain rfl := samePair_edges hE l1 l1' u2
          obtain rfl := samePair_edges hE l1 l1'' w2
          rcases two_cells_of_face hd hv p1 p1' p1'' p3 p3' p3'' with rfl | rfl | rfl <;> simp
        · obtain ⟨u1, u2⟩ := T.2.1 mxy
          obtain ⟨w1, w2⟩ := T'.2.1 mxz
          obtain rfl := ceq p1 p1' p2 p2' u1
          obtain rfl := ceq p1 p1'' p2 p2'' w1
          obtain rfl := samePair_edges hE l1 l1' u2
          obtain rfl := samePair_edges hE l1 l1'' w2
          rcases hpoly.closed _ _ _ _ _ p1 p2 p3 p3' p3'' p4 p4' p4'' with rfl | rfl | rfl <;> simp
        · obtain ⟨u1, u2, u3⟩ := T.2.2.1 mxy
          obtain ⟨w1, w2, w3⟩ := T'.2.2.1 mxz
          obtain rfl := feq p1 p1' p2 p2' p3 p3' u1
          obtain rfl := feq p1 p1'' p2 p2'' p3 p3'' w1
          obtain rfl := ceq p1 p1' p2 p2' u2
          obtain rfl := ceq p1 p1'' p2 p2'' w2
          rcases polygon_two_edges P1 p4 p4' p4'' (Or.inr rfl) u3 w3 with rfl | rfl | rfl <;> simp
        · obtain ⟨u1, u2, u3⟩ := T.2.2.2 mxy
          obtain ⟨w1, w2, w3⟩ := T'.2.2.2 mxz
          obtain rfl := feq p1 p1' p2 p2' p3 p3' u1
          obtain rfl := feq p1 p1'' p2 p2'' p3 p3'' w1
          obtain rfl := ceq p1 p1' p2 p2' u2
          obtain rfl := ceq p1 p1'' p2 p2'' w2
          rcases polygon_two_edges P1 p4 p4' p4'' (Or.inl rfl) u3 w3 with rfl | rfl | rfl <;> simp

/-- The mesh that is read (`C51_valid_partial`), with more about its faces and edges. -/
theorem saved3 [Zero R] (ori : Idx → Bool) (key : Point3 R → List Char) (cc fc : Idx → Point3 R) (hash : Nat)
    (m : Mesh (Point3 R)) (bd vert poly : Idx → List Idx) (types : List Nat) (w0 : Writer3 (Point3 R)) (hhash : w0.lastHash ≠ hash)
    (hd : m.dim = 3) (hv : ValidMesh m bd) (hn : Numbered m) (htl : types.length = m.cells.length)
    (hsol : ∀ (i : Nat) t, types[i]? = some t → isSplit types i = false → IsSolid m (bd i) (vert i) t)
    (hnd : NoDoubles m) (hpoly : SplitPolyhedra m bd types poly) (hkey : DistinctCenters key cc fc m bd types)
    (hfit : 12 * (exported m bd types).length ≤ INVALID)
    (res : Nat) (hres : res = 0 ∨ 4 ≤ res) (title : List String) (types0 : List Nat) (m0 : Mesh (Point3 R)) (hd0 : m0.dim = 3) :
    ∃ w ts m' t' bd', writeToStream3 ori key cc fc hash m types w0 = .ok (w, ts) ∧
      load3 res (header title ++ ts) types0 m0 = .ok (m', t') ∧ m'.vertices = m.vertices ++ w.appended ∧ ValidMesh m' bd' ∧
      Numbered m' ∧ NoDoubles m' ∧ m'.dim = 3 ∧
      (∀ i, i < (m'.midElems 2).length → ∃ k, k < m'.cells.length ∧ i ∈ bd' k) ∧ (∀ e, e < m'.edges.length → ∃ fa ∈ m'.midElems 2, e ∈ fa.sub) ∧
      m'.cells.length = (exported m bd types).length ∧ t'.length = m'.cells.length ∧
      ∃ faceAt cellAt : Idx → Idx,
        (∀ i f, i < m.cells.length → isSplit types i = true → f ∈ bd i →
          w.appended[faceAt f]? = some (fc f)) ∧
        (∀ i, i < m.cells.length → isSplit types i = true → w.appended[cellAt i]? = some (cc i)) ∧
        ∀ (k : Nat) x, (exported m bd types)[k]? = some x → boundaryWalk m' k = .ok (bd' k) ∧
          match x with
          | .whole i => t'[k]? = types[i]? ∧ ∀ t, types[i]? = some t → IsSolid m' (bd' k) (vert i) t
          | .part i f e => t'[k]? = some 300 ∧ IsSolid m' (bd' k)
              [endA m.edges e, endB m.edges e, m.vertices.length + faceAt f, m.vertices.length + cellAt i] 300 := by
  have hne : ∀ o, o < m.cells.length → isSplit types o = true → ∀ f ∈ bd o,
      edgesOfFace m f ≠ [] ∧ key (fc f) ≠ key (cc o) ∧ ∀ e ∈ edgesOfFace m f, endA m.edges e ≠ endB m.edges e := by
    intro o ho hs f hf
    obtain ⟨P1, P2⟩ := hpoly.polygon o f ho hs hf
    refine ⟨?_, hkey.both _ _ _ ho ho hs hs hf, fun e he => polygon_edge_ends P1 P2 he⟩
    intro h
    obtain ⟨h0, _, _, es, hp, hl, _⟩ := P1
    rw [h] at hp
    rw [hp.eq_nil] at hl
    exact h0 (List.eq_nil_of_length_eq_zero hl.symm)
  obtain ⟨w1, hw1⟩ := indexMesh3_total ori key cc fc m bd vert types w0 hd hv hn htl hsol
  obtain ⟨pt, h1, h2, h3, _⟩ := rows_pieces ori key cc fc m bd vert types w0 w1 hd hv hn htl hsol hw1
  have hcent := appended_centers ori key cc fc m bd types w0 w1 hd hv hn hw1
  have hlen : (exported m bd types).length = (origins (pieces m bd types) m.cells.length).length := by
    rw [← h2, List.length_map]
  obtain ⟨w, ts, F, hw, f1, f2, f3, f4, f5, hF, hpl, g1, g2, f6⟩ := written_file ori key cc fc hash m bd vert types w0 hhash hd hv hn htl hsol
    hne (by rw [← hlen]; exact hfit) res hres title
  rw [hw1] at hw
  cases hw
  have htwo : ∀ p, AtMostTwoFace F p := pieces_two hd hv htl hsol hnd.edges hnd.faces hpoly hkey h1 h3 F f4
  have hpt : ∀ i, i < m.cells.length → isSplit types i = true → ∀ p, p = cc i ∨ (∃ f ∈ bd i, p = fc f) →
      m.vertices.length ≤ pt p ∧ ∃ q, w1.appended[pt p - m.vertices.length]? = some q ∧ key q = key p :=
    fun i hi hs => h3 i hi hs fun f hf => (hne i hi hs f hf).1
  have hrange : ∀ vs ∈ F.cells, ∀ v ∈ vs, v < F.verts.length := by
    intro vs hvs v hvv
    rw [f4] at hvs
    obtain ⟨k, hk⟩ := List.getElem?_of_mem hvs
    have hkl := (List.getElem?_eq_some_iff.mp hk).1
    rw [← h1.length_eq] at hkl
    have hx := List.getElem?_eq_getElem hkl
    obtain ⟨vs', r1, r2⟩ := forall₂_get h1 hx
    rw [hk] at r1
    cases r1
    have hm := List.mem_of_getElem? hx
    generalize (exported m bd types)[k] = x at r2 hm
    rw [f3, List.length_append]
    cases x with
    | whole i =>
      obtain ⟨a1, a2⟩ := mem_exported hm
      have := solid_vertex_lt hd hv (hsol i (types[i]'(by omega)) (by simp) a2) (r2.2.2 v hvv)
      omega
    | part i f e =>
      obtain ⟨a1, a2, a3, a4⟩ := mem_exported hm
      obtain rfl : vs = _ := r2
      have e1 := endA_lt hd hv (edgesOfFace_range hd hv a1 a3 a4)
      obtain ⟨e2, q, e3, _⟩ := hpt i a1 a2 (fc f) (Or.inr ⟨f, a3, rfl⟩)
      obtain ⟨e4, q', e5, _⟩ := hpt i a1 a2 (cc i) (Or.inl rfl)
      have e3 := (List.getElem?_eq_some_iff.mp e3).1
      have e5 := (List.getElem?_eq_some_iff.mp e5).1
      simp only [List.mem_cons, List.not_mem_nil, or_false] at hvv
      omega
  obtain ⟨m', t', bd', v1, v2, v3⟩ := C25_valid F hF res hpl (by omega) [] types0 m0 hd0 (fun _ _ p _ => htwo p) hrange
  obtain ⟨m'', t'', u1, u2, u3, u4, u5, u6, u7, u8, u9, u10, u11, u12, u13⟩ := C25_load F hF res hpl (by omega) [] types0 m0 hd0
  rw [u1] at v1
  simp only [Res.ok.injEq, Prod.mk.injEq] at v1
  obtain ⟨rfl, rfl⟩ := v1
  rw [List.append_nil, ← f2] at u1
  have hkeys : ∀ (k : Nat) (x : Piece), (exported m bd types)[k]? = some x → t''[k]? = if isSplit types x.origin then some 300 else types[x.origin]? := by
    intro k x hx
    have ho : (origins (pieces m bd types) m.cells.length)[k]? = some x.origin := by
      rw [← h2, List.getElem?_map, hx]; rfl
    obtain ⟨_, _, h3', _⟩ := rows_written ori key cc fc m bd vert types w0 w1 hd hv hn htl hsol hw1
    rw [← h3' k _ ho]
    have hkl : k < w1.cellTypes.length := by
      rw [g2, ← h1.length_eq]; exact (List.getElem?_eq_some_iff.mp hx).1
    obtain ⟨code, c1, c2⟩ := f6 k _ (List.getElem?_eq_getElem hkl)
    rw [u13 k code _ c1 c2, List.getElem?_eq_getElem hkl]
  refine ⟨_, ts, m'', t'', bd', f1, u1, by rw [u3, f3], v2, ⟨?_, u5⟩, ⟨u6, u7⟩, u2, ?_, ?_, by rw [u10, f4, h1.length_eq], by rw [u12, u10],
    fun f => pt (fc f) - m.vertices.length, fun i => pt (cc i) - m.vertices.length,
    fun i f hi hs hf => ?_, fun i hi hs => ?_, fun k x hx => ?_⟩
  · intro i c hc
    have hi : i < F.cells.length := by rw [← u10]; exact (List.getElem?_eq_some_iff.mp hc).1
    obtain ⟨cl, l, a1, a2, _⟩ := u11 i _ (List.getElem?_eq_getElem hi)
    rw [hc] at a1
    cases a1
    exact a2
  · intro i hi
    have hfa := List.getElem?_eq_getElem hi
    obtain ⟨p, p1, ⟨vs, p2, q, p3, p4⟩, _⟩ := u8 _ (List.mem_of_getElem? hfa)
    obtain ⟨j, hj⟩ := List.getElem?_of_mem p3
    obtain ⟨i', x, a1, a2, a3⟩ := (v3 _ vs p2).2 j q hj
    obtain rfl := u7 i i' _ x p q hfa a2 p1 a3 p4
    exact ⟨_, by rw [u10]; exact (List.getElem?_eq_some_iff.mp p2).1, List.mem_of_getElem? a1⟩
  · intro e he
    obtain ⟨vs, k1, _, p, k2, k3⟩ := u9 _ (List.getElem_mem he)
    obtain ⟨c, hc⟩ := List.getElem?_of_mem k1
    obtain ⟨j, hj⟩ := List.getElem?_of_mem k2
    obtain ⟨i, x, a1, a2, a3⟩ := (v3 c vs hc).2 j p hj
    obtain ⟨e', b1, ed, b2, b3⟩ := Vtk.polygon_side a3 k3
    obtain rfl := u6 e' e ed _ b2 (List.getElem?_eq_getElem he) b3
    exact ⟨x, List.mem_of_getElem? a2, b1⟩
  · obtain ⟨q, q1, q2⟩ := (hpt i hi hs _ (Or.inr ⟨f, hf, rfl⟩)).2
    refine q1.trans (congrArg some ?_)
    obtain ⟨i', hi', hs', rfl | ⟨f', hf', rfl⟩⟩ := hcent q (List.mem_of_getElem? q1)
    · exact absurd q2.symm (hkey.both i i' f hi hi' hs hs' hf)
    · rw [hkey.faces i' i f' f hi' hi hs' hs hf' hf q2]
  · obtain ⟨q, q1, q2⟩ := (hpt i hi hs _ (Or.inl rfl)).2
    refine q1.trans (congrArg some ?_)
    obtain ⟨i', hi', hs', rfl | ⟨f', hf', rfl⟩⟩ := hcent q (List.mem_of_getElem? q1)
    · rw [hkey.cells i' i hi' hi hs' hs q2]
    · exact absurd q2 (hkey.both i' i f' hi' hi hs' hs hf')
  obtain ⟨vs, r1, r2⟩ := forall₂_get h1 hx
  have hm := List.mem_of_getElem? hx
  have hFk : F.cells[k]? = some vs := by rw [f4]; exact r1
  have hfaces := v3 k vs hFk
  have hck : k < m''.cells.length := by
    rw [u10]; exact (List.getElem?_eq_some_iff.mp hFk).1
  have hchain := v2.chain k m''.cells[k] (by simp [hck])
  have ht := hkeys k x hx
  refine ⟨(C09_walk_iff_chain m'' (by omega) k m''.cells[k] (by simp [hck]) _).mpr hchain, ?_⟩
  cases x with
  | whole i =>
    obtain ⟨a1, a2⟩ := mem_exported hm
    simp only [Piece.origin, a2] at ht
    refine ⟨by simpa using ht, fun t htt => ?_⟩
    have hS := hsol i t htt a2
    exact isSolid_of_same hfaces hchain.1.2.1 r2.1 hS.nodup hS.count
  | part i f e =>
    obtain ⟨a1, a2, a3, a4⟩ := mem_exported hm
    simp only [Piece.origin, a2, if_true] at ht
    obtain rfl : vs = _ := r2
    have e2 := (hpt i a1 a2 (fc f) (Or.inr ⟨f, a3, rfl⟩)).1
    have e4 := (hpt i a1 a2 (cc i) (Or.inl rfl)).1
    refine ⟨ht, ?_⟩
    rw [Nat.add_sub_cancel' e2, Nat.add_sub_cancel' e4]
    exact ⟨rfl, hF.nodup _ (List.mem_of_getElem? hFk), _, List.Perm.refl _, hfaces⟩

/-- C51, round trip of any mixture of solids and polyhedra. A valid mesh without double edges and faces; its cells of type tetrahedron, pyramid, wedge or
hexahedron are such solids with the vertices `vert i`; the other cells are closed polyhedra, and the texts of the centers are different. Then
writing succeeds, reading the text succeeds, and the mesh that is read is valid (the boundary walk of each cell visits its faces once); its points are those of
the mesh followed by the appended ones, its cells are the exported pieces in order: a solid comes back with its type and its faces, a
polyhedron as the tetrahedra made of an edge, the center of the face and the center of the cell, which are among the appended points. Missing: centers
with the same text (`C51_close_centers_violated`). -/
theorem C51_valid_partial [Zero R] (ori : Idx → Bool) (key : Point3 R → List Char) (cc fc : Idx → Point3 R) (hash : Nat)
    (m : Mesh (Point3 R)) (bd vert poly : Idx → List Idx) (types : List Nat) (w0 : Writer3 (Point3 R)) (hhash : w0.lastHash ≠ hash)
    (hd : m.dim = 3) (hv : ValidMesh m bd) (hn : Numbered m) (htl : types.length = m.cells.length)
    (hsol : ∀ (i : Nat) t, types[i]? = some t → isSplit types i = false → IsSolid m (bd i) (vert i) t)
    (hnd : NoDoubles m) (hpoly : SplitPolyhedra m bd types poly) (hkey : DistinctCenters key cc fc m bd types)
    (hfit : 12 * (exported m bd types).length ≤ INVALID)
    (res : Nat) (hres : res = 0 ∨ 4 ≤ res) (title : List String) (types0 : List Nat) (m0 : Mesh (Point3 R)) (hd0 : m0.dim = 3) :
    ∃ w ts m' t' bd', writeToStream3 ori key cc fc hash m types w0 = .ok (w, ts) ∧
      load3 res (header title ++ ts) types0 m0 = .ok (m', t') ∧ m'.vertices = m.vertices ++ w.appended ∧ ValidMesh m' bd' ∧
      Numbered m' ∧ NoDoubles m' ∧ m'.cells.length = (exported m bd types).length ∧ t'.length = m'.cells.length ∧
      ∃ faceAt cellAt : Idx → Idx,
        (∀ i f, i < m.cells.length → isSplit types i = true → f ∈ bd i →
          w.appended[faceAt f]? = some (fc f)) ∧
        (∀ i, i < m.cells.length → isSplit types i = true → w.appended[cellAt i]? = some (cc i)) ∧
        ∀ (k : Nat) x, (exported m bd types)[k]? = some x → boundaryWalk m' k = .ok (bd' k) ∧
          match x with
          | .whole i => t'[k]? = types[i]? ∧ ∀ t, types[i]? = some t → IsSolid m' (bd' k) (vert i) t
          | .part i f e => t'[k]? = some 300 ∧ IsSolid m' (bd' k)
              [endA m.edges e, endB m.edges e, m.vertices.length + faceAt f, m.vertices.length + cellAt i] 300 := by
  obtain ⟨w, ts, m', t', bd', h1, h2, h3, h4, h5, h6, _, _, _, h7⟩ := saved3 ori key cc fc hash m bd vert poly types w0 hhash hd hv hn htl hsol hnd hpoly hkey
    hfit res hres title types0 m0 hd0
  exact ⟨w, ts, m', t', bd', h1, h2, h3, h4, h5, h6, h7⟩

/-! Example: the hexahedron and the pyramid, which is of an unknown type. -/

theorem exampleMesh3_more : NoDoubles exampleMesh3 ∧ FacesOf exampleMesh3.edges (exampleMesh3.midElems 2) (exampleBd3 1) (exampleVert 1) := by
  obtain ⟨t, ht⟩ := exampleMesh3_load
  obtain ⟨m, t', h1, _, _, _, _, h6, h7, _, _, _, h11, _⟩ := C25_load exampleFile3 exampleFile3_solids 4 (by decide)
    (by decide) [] [] { dim := 3 } rfl
  rw [List.append_nil, ht] at h1
  cases h1
  refine ⟨⟨h6, h7⟩, ?_⟩
  obtain ⟨cl, l, _, _, a3, _, _, a6⟩ := h11 1 (exampleVert 1) (by decide +kernel)
  have := a6 fun p _ => exampleFile3_two p
  rw [show boundaryWalk exampleMesh3 1 = .ok (exampleBd3 1) by decide +kernel] at this
  cases this
  exact a3

/-- The faces of the pyramid. -/
def examplePoly (f : Idx) : List Idx := ((facePolygons (exampleVert 1))[f - 5]?).getD []

theorem examplePolyhedra : SplitPolyhedra exampleMesh3 exampleBd3 [301, 304] examplePoly where
  polygon := by
    intro i f hi hs hf
    have hi : i < 2 := hi
    obtain rfl | rfl : i = 0 ∨ i = 1 := by omega
    · exact absurd hs (by decide)
    · have hf' : f = 5 ∨ f = 6 ∨ f = 7 ∨ f = 8 ∨ f = 9 := by simpa [exampleBd3] using hf
      have hlen : ∀ j < 5, 3 ≤ (examplePoly (j + 5)).length ∧ (exampleBd3 1)[j]? = some (j + 5) ∧
        (facePolygons (exampleVert 1))[j]? = some (examplePoly (j + 5)) := by decide +kernel
      obtain ⟨j, hj, rfl⟩ : ∃ j, j < 5 ∧ f = j + 5 := ⟨f - 5, by omega, by omega⟩
      obtain ⟨l1, l2, l3⟩ := hlen j hj
      obtain ⟨k, x, a1, a2, a3⟩ := exampleMesh3_more.2.2 j _ l3
      rw [l2] at a1
      cases a1
      refine ⟨?_, l1⟩
      unfold edgesOfFace
      rw [a2]
      exact a3
  closed := by
    intro i e f f' f'' hi hs h1 h2 h3 e1 e2 e3
    have hi : i < 2 := hi
    obtain rfl | rfl : i = 0 ∨ i = 1 := by omega
    · exact absurd hs (by decide)
    · have key : ∀ f ∈ exampleBd3 1, ∀ e ∈ edgesOfFace exampleMesh3 f, ∀ f' ∈ exampleBd3 1, e ∈ edgesOfFace exampleMesh3 f' →
          ∀ f'' ∈ exampleBd3 1, e ∈ edgesOfFace exampleMesh3 f'' → f = f' ∨ f' = f'' ∨ f = f'' := by decide +kernel
      exact key f h1 e e1 f' h2 e2 f'' h3 e3

theorem exampleCenters : DistinctCenters exampleKey (fun i => (5, i, i)) (fun i => (7, i, i)) exampleMesh3 exampleBd3 [301, 304] where
  cells := by
    intro i i' hi hi' hs hs' _
    have : ∀ i < 2, isSplit [301, 304] i = true → i = 1 := by decide
    rw [this i hi hs, this i' hi' hs']
  faces := by
    have one : ∀ i < 2, isSplit [301, 304] i = true → i = 1 := by decide
    intro i i' f f' hi hi' hs hs' hf hf' h
    obtain rfl := one i hi hs
    obtain rfl := one i' hi' hs'
    have key : ∀ f ∈ exampleBd3 1, ∀ f' ∈ exampleBd3 1, exampleKey (7, (f : Int), (f : Int)) = exampleKey (7, (f' : Int), (f' : Int)) → f = f' := by decide +kernel
    exact key f hf f' hf' h
  both := by
    have one : ∀ i < 2, isSplit [301, 304] i = true → i = 1 := by decide
    intro i i' f hi hi' hs hs' hf
    obtain rfl := one i hi hs
    obtain rfl := one i' hi' hs'
    have key : ∀ f ∈ exampleBd3 1, exampleKey (7, (f : Int), (f : Int)) ≠ exampleKey (5, ((1 : Nat) : Int), ((1 : Nat) : Int)) := by decide +kernel
    exact key f hf

example : ∃ w ts m' t' bd', writeToStream3 (fun _ => false) exampleKey (fun i => (5, i, i)) (fun i => (7, i, i)) 1 exampleMesh3
      [301, 304] {} = .ok (w, ts) ∧
    load3 4 (header [] ++ ts) [] { dim := 3 } = .ok (m', t') ∧ ValidMesh m' bd' ∧ m'.cells.length = 17 ∧
    IsSolid m' (bd' 0) (exampleVert 0) 301 ∧ t'[16]? = some 300 := by
  obtain ⟨w, ts, m', t', bd', h1, h2, _, h3, _, _, h4, _, fa, ca, _, _, h5⟩ := C51_valid_partial (fun _ => false) exampleKey (fun i => (5, i, i))
    (fun i => (7, i, i)) 1 exampleMesh3 exampleBd3 exampleVert examplePoly [301, 304] {} (by decide) (by decide +kernel) exampleMesh3_valid
    exampleMesh3_numbered (by decide +kernel) (by
      intro i t hi hs
      have hlt : i < 2 := (List.getElem?_eq_some_iff.mp hi).1
      obtain rfl | rfl : i = 0 ∨ i = 1 := by omega
      · exact exampleMesh3_facts.1 0 t hi
      · simp [isSplit] at hs) exampleMesh3_more.1 examplePolyhedra exampleCenters (by decide +kernel) 4 (Or.inr (by decide)) [] []
    { dim := 3 } rfl
  have hl : (exported exampleMesh3 exampleBd3 [301, 304]).length = 17 := by decide +kernel
  refine ⟨w, ts, m', t', bd', h1, h2, h3, by rw [h4, hl], ?_, ?_⟩
  · obtain ⟨_, _, a⟩ := h5 0 (.whole 0) (by decide +kernel)
    exact a 301 rfl
  · have : ∃ e ∈ List.range 100, (exported exampleMesh3 exampleBd3 [301, 304])[16]? = some (.part 1 9 e) := by decide +kernel
    obtain ⟨e, _, hx⟩ := this
    obtain ⟨_, a, _⟩ := h5 16 _ hx
    exact a

end GTMesh.Vtk
