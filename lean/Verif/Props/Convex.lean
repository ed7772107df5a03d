import Verif.Props.Measures2

/-! # C39: convex cells with the centers that the library computes -/

namespace GTMesh.Props
open GTMesh Spec Std' Vec Geo

/-- The polygon is convex and goes around counterclockwise: no vertex is on the right of a side. -/
def ConvexPolygon (ps : List (Vec 2 ℝ)) : Prop := ∀ p ∈ sidesOf ps, ∀ q ∈ ps, 0 ≤ turn q p.1 p.2

/-- The faces with the polygons `P f` form a convex polyhedron with the outer unit normals `ν f`. -/
structure ConvexCell (m : Mesh (Vec 3 ℝ)) (faces : List Idx) (P : Idx → List (Vec 3 ℝ)) (ν : Idx → Vec 3 ℝ) : Prop where
  polygon : ∀ f ∈ faces, ∃ fa vs, (m.midElems 2)[f]? = some fa ∧ IsPolygon m.edges fa.sub vs ∧ PositionsOf m vs (P f)
  unit : ∀ f ∈ faces, Vec.norm (ν f) = 1
  /-- each face is planar, and convex and counterclockwise when seen from the outside -/
  convex : ∀ f ∈ faces, ∀ p ∈ sidesOf (P f), ∀ q ∈ P f, dot (q - p.1) (ν f) = 0 ∧ 0 ≤ dot (cross (p.1 - q) (p.2 - q)) (ν f)
  /-- all vertices are on the inner side of each face -/
  inner : ∀ f ∈ faces, ∀ f' ∈ faces, ∀ q ∈ P f, ∀ q' ∈ P f', dot (q' - q) (ν f) ≤ 0
  /-- every side of a face is, in the other direction, a side of another face -/
  closed : (faces.flatMap fun f => sidesOf (P f)).Perm ((faces.flatMap fun f => sidesOf (P f)).map Prod.swap)

theorem sidesOf_mem {α : Type} {ps : List α} {p : α × α} (h : p ∈ sidesOf ps) : p.1 ∈ ps ∧ p.2 ∈ ps := by
  have := List.of_mem_zip (show (p.1, p.2) ∈ ps.zip (ps.rotate 1) from h)
  exact ⟨this.1, List.mem_rotate.mp this.2⟩

theorem verts_polygon {n : Nat} {m : Mesh (Vec n ℝ)} {bd : Idx → List Idx} (hd : 2 ≤ m.dim) {i : Idx} {subs vs : List Idx}
    {ps : List (Vec n ℝ)} (hs : directSubs m bd 2 i = subs) (hp : IsPolygon m.edges subs vs) (hpos : PositionsOf m vs ps) :
    ∀ p ∈ verticesOf m bd 2 i, p ∈ ps := by
  rintro p ⟨v, hv, hvp⟩
  rw [descend, List.mem_flatMap] at hv
  obtain ⟨e, he, hv⟩ := hv
  rw [show 0 + 1 + 1 = 2 from rfl, hs] at he
  rw [descend, List.mem_flatMap] at hv
  obtain ⟨w, hw, hv⟩ := hv
  rw [descend, List.mem_singleton] at hv
  subst hv
  unfold directSubs at hw
  rw [if_neg (by omega), if_pos rfl] at hw
  obtain ⟨q, q1, q2⟩ := polygon_side hp hpos he
  obtain ⟨m1, m2⟩ := sidesOf_mem q1
  cases hed : m.edges[e]? with
  | none => rw [hed] at hw; simp at hw
  | some ed =>
    rw [hed] at hw
    simp only [Option.map_some, Option.getD_some, List.mem_cons, List.not_mem_nil, or_false] at hw
    have hends : ends m e = ((m.vertices[ed.a]?).getD 0, (m.vertices[ed.b]?).getD 0) := by rw [ends, hed]; rfl
    have : p = (ends m e).1 ∨ p = (ends m e).2 := by
      rcases hw with rfl | rfl
      · left; rw [hends, hvp]; rfl
      · right; rw [hends, hvp]; rfl
    rcases this with rfl | rfl <;> rcases q2 with q2 | q2 <;> rw [q2] <;> assumption

theorem entry_exists {n : Nat} {m : Mesh (Vec n ℝ)} {bd : Idx → List Idx} (hv : ValidMesh m bd) (hne : NoEmptyElement m)
    {cs : List (List (Vec n ℝ))} (hcs : computeCenters m = .ok cs) {d i : Nat} (h1 : 2 ≤ d) (h2 : d ≤ m.dim) (hi : i < m.numElems d) :
    ∃ c, entry cs d i = some c := by
  obtain ⟨cs', e1, e2⟩ := C38_centers m bd hv hne
  rw [hcs] at e1
  obtain rfl := Res.ok.inj e1
  obtain ⟨ps, _, _, h⟩ := e2.higher d i h1 h2 hi
  exact ⟨_, h⟩

theorem setCenters_face {n : Nat} (g : GMesh n ℝ) {cs : List (List (Vec n ℝ))} (hd : 2 ≤ g.mesh.dim) {i : Idx} {c : Vec n ℝ} (h : entry cs (g.mesh.dim - 1) i = some c) :
    (setCenters g cs).faceCenter i = c := by
  show ((cs[g.mesh.dim - 2]?.getD [])[i]?).getD 0 = c
  unfold entry at h
  rw [show g.mesh.dim - 1 - 1 = g.mesh.dim - 2 by omega] at h
  cases hl : cs[g.mesh.dim - 2]? with
  | none => rw [hl] at h; simp at h
  | some l => rw [hl] at h; simp only [Option.bind_some] at h; simp [h]

theorem setCenters_cell {n : Nat} (g : GMesh n ℝ) {cs : List (List (Vec n ℝ))} {i : Idx} {c : Vec n ℝ} (h : entry cs g.mesh.dim i = some c) :
    (setCenters g cs).cellCenter i = c := by
  show ((cs[g.mesh.dim - 1]?.getD [])[i]?).getD 0 = c
  unfold entry at h
  cases hl : cs[g.mesh.dim - 1]? with
  | none => rw [hl] at h; simp at h
  | some l => rw [hl] at h; simp only [Option.bind_some] at h; simp [h]

/-- C39. In 2D, with the computed centers, the measure of a cell that is a convex polygon is its area. -/
theorem C39_convex_2d (g : GMesh 2 ℝ) (bd : Idx → List Idx) (hv : ValidMesh g.mesh bd) (hne : NoEmptyElement g.mesh) (h2 : g.mesh.dim = 2)
    (i : Nat) (hi : i < g.mesh.cells.length) (vs : List Idx) (ps : List (Vec 2 ℝ)) (hp : IsPolygon g.mesh.edges (bd i) vs)
    (hpos : PositionsOf g.mesh vs ps) (hc : ConvexPolygon ps) :
    ∃ cs ls as, computeCenters g.mesh = .ok cs ∧ computeMeasures2 (setCenters g cs) = .ok (ls, as) ∧ as[i]? = some (shoelace ps) := by
  obtain ⟨cs, hcs, _⟩ := C38_centers g.mesh bd hv hne
  have hin : i < g.mesh.numElems 2 := by unfold Mesh.numElems; rw [if_pos h2.symm]; exact hi
  obtain ⟨c, hce⟩ := entry_exists hv hne hcs (le_refl 2) (by omega) hin
  have hcc := setCenters_cell g (cs := cs) (i := i) (c := c) (by rw [h2]; exact hce)
  have hds : directSubs g.mesh bd 2 i = bd i := by unfold directSubs; rw [if_pos h2.symm]
  have hverts := verts_polygon hv.dim_ge hds hp hpos
  have hturn : ∀ p ∈ sidesOf ps, 0 ≤ turn c p.1 p.2 := by
    intro p hpp
    have := C38_half_space g.mesh bd hv hne cs hcs ![p.2 1 - p.1 1, p.1 0 - p.2 0] (p.1 0 * p.2 1 - p.2 0 * p.1 1) 2 i c (by omega) hce (by
      intro q hq
      have := hc p hpp q (hverts q hq)
      rw [dot2]
      simp only [Matrix.cons_val_zero, Matrix.cons_val_one]
      unfold turn at this
      nlinarith)
    rw [dot2] at this
    simp only [Matrix.cons_val_zero, Matrix.cons_val_one] at this
    unfold turn
    nlinarith
  obtain ⟨ls, as, h3, h4⟩ := C39_shoelace (setCenters g cs) bd hv h2 i hi vs ps hp hpos (by left; rw [hcc]; exact hturn)
  refine ⟨cs, ls, as, hcs, h3, ?_⟩
  have hnn : 0 ≤ shoelace ps := by
    have := sum_nonneg (l := (sidesOf ps).map fun p => turn c p.1 p.2) (by
      intro x hx; obtain ⟨p, hp, rfl⟩ := List.mem_map.mp hx; exact hturn p hp)
    rw [sum_turn] at this; linarith
  rw [h4, abs_of_nonneg hnn]

theorem cross_antisymm (a b : Vec 3 ℝ) : cross a b = - cross b a := by
  have h1 := cross_apply a b
  have h2 := cross_apply b a
  apply ext3 <;> simp only [h1, h2, Pi.neg_apply] <;> ring

theorem closed_of_sides {faces : List Idx} {P : Idx → List (Vec 3 ℝ)}
    (h : (faces.flatMap fun f => sidesOf (P f)).Perm ((faces.flatMap fun f => sidesOf (P f)).map Prod.swap)) :
    (faces.map fun f => vectorArea (P f)).sum = 0 := by
  have h1 : ∀ l : List Idx, (l.map fun f => vectorArea (P f)).sum =
      (1 / 2 : ℝ) • ((l.flatMap fun f => sidesOf (P f)).map fun p => cross p.1 p.2).sum := by
    intro l
    induction l with
    | nil => simp
    | cons f l ih => rw [List.map_cons, List.sum_cons, ih, List.flatMap_cons, List.map_append, List.sum_append, smul_add]; rfl
  rw [h1]
  have h2 := (h.map fun p => cross p.1 p.2).sum_eq
  rw [List.map_map] at h2
  have h3 : ∀ l : List (Vec 3 ℝ × Vec 3 ℝ), (l.map ((fun p => cross p.1 p.2) ∘ Prod.swap)).sum = - (l.map fun p => cross p.1 p.2).sum := by
    intro l
    induction l with
    | nil => simp
    | cons p l ih =>
      rw [List.map_cons, List.sum_cons, ih, List.map_cons, List.sum_cons, neg_add]
      congr 1
      exact cross_antisymm p.2 p.1
  rw [h3] at h2
  have h4 := self_eq_neg.mp h2
  rw [h4, smul_zero]

/-- A vector product of two vectors in a plane is a multiple of the normal. -/
theorem cross_in_plane (a b ν : Vec 3 ℝ) (hν : Vec.norm ν = 1) (ha : dot a ν = 0) (hb : dot b ν = 0) : cross a b = dot (cross a b) ν • ν := by
  have h1 : cross (cross a b) ν = 0 := by rw [triple, ha, hb]; simp
  have h2 := triple ν (cross a b) ν
  have hνν : dot ν ν = 1 := by
    have := congrArg (fun x => x ^ 2) hν
    simp only [norm_real] at this
    rw [Real.sq_sqrt (dot_self_nonneg ν)] at this
    simpa using this
  have h3 : cross ν (cross a b) = 0 := by rw [cross_antisymm, h1, neg_zero]
  have h4 : cross (cross ν (cross a b)) ν = 0 := by
    rw [h3]
    have h := cross_apply (0 : Vec 3 ℝ) ν
    apply ext3 <;> simp [h]
  rw [h4, hνν, one_smul] at h2
  exact sub_eq_zero.mp h2.symm

/-- The volume of a polyhedron with the faces `P f` by the divergence theorem. -/
noncomputable def polyhedronVolume (faces : List Idx) (P : Idx → List (Vec 3 ℝ)) : ℝ :=
  1 / 3 * (faces.map fun f => dot ((P f).headD 0) (vectorArea (P f))).sum

/-- A convex polyhedron is star-shaped with respect to the computed centers. -/
theorem convex_star (g : GMesh 3 ℝ) (bd : Idx → List Idx) (hv : ValidMesh g.mesh bd) (hne : NoEmptyElement g.mesh) (h3 : g.mesh.dim = 3)
    (cs : List (List (Vec 3 ℝ))) (hcs : computeCenters g.mesh = .ok cs)
    (i : Nat) (hi : i < g.mesh.cells.length) (P : Idx → List (Vec 3 ℝ)) (ν : Idx → Vec 3 ℝ) (hc : ConvexCell g.mesh (bd i) P ν) :
    StarShaped (setCenters g cs) (bd i) ((setCenters g cs).cellCenter i) P ν ∧
      ∀ f ∈ bd i, ∀ q ∈ P f, dot ((setCenters g cs).faceCenter f - q) (ν f) = 0 := by
  have hn2 : g.mesh.numElems 2 = (g.mesh.midElems 2).length := by
    unfold Mesh.numElems; rw [if_neg (by omega), if_neg (by omega), if_neg (by omega)]
  have hlt : ∀ f ∈ bd i, f < g.mesh.numElems 2 := by
    intro f hf
    have := bd_lt hv hi f hf
    rwa [h3] at this
  -- the vertices of a face
  have hface : ∀ f ∈ bd i, ∃ c, entry cs 2 f = some c ∧ (setCenters g cs).faceCenter f = c ∧
      (∀ p ∈ verticesOf g.mesh bd 2 f, p ∈ P f) := by
    intro f hf
    obtain ⟨c, hce⟩ := entry_exists hv hne hcs (le_refl 2) (by omega) (hlt f hf)
    refine ⟨c, hce, setCenters_face g (by omega) (by rw [h3]; exact hce), ?_⟩
    obtain ⟨fa, vs, p1, p2, p3⟩ := hc.polygon f hf
    exact verts_polygon hv.dim_ge (by unfold directSubs; rw [if_neg (by omega), if_neg (by omega), p1]; rfl) p2 p3
  have hplane : ∀ f ∈ bd i, ∀ q ∈ P f, dot ((setCenters g cs).faceCenter f - q) (ν f) = 0 := by
    intro f hf q hq
    obtain ⟨c, hce, hcc, hvs⟩ := hface f hf
    have hz : ∀ q' ∈ P f, dot (q' - q) (ν f) = 0 := by
      intro q' hq'
      have i1 := hc.inner f hf f hf q hq q' hq'
      have i2 := hc.inner f hf f hf q' hq' q hq
      rw [← neg_sub, show -(q' - q) = (-1 : ℝ) • (q' - q) by simp, dot_smul] at i2
      linarith
    have b1 := C38_half_space g.mesh bd hv hne cs hcs (ν f) (dot (ν f) q) 2 f c (by omega) hce (by
      intro p hp
      have := hz p (hvs p hp)
      rw [dot_sub, dot_comm p, dot_comm q] at this
      linarith)
    have b2 := C38_half_space g.mesh bd hv hne cs hcs (-ν f) (dot (-ν f) q) 2 f c (by omega) hce (by
      intro p hp
      have := hz p (hvs p hp)
      rw [dot_sub, dot_comm p, dot_comm q] at this
      rw [show -ν f = (-1 : ℝ) • ν f by simp, dot_smul, dot_smul]
      linarith)
    rw [show -ν f = (-1 : ℝ) • ν f by simp, dot_smul, dot_smul] at b2
    rw [hcc, dot_sub, dot_comm c, dot_comm q]
    linarith
  have hsees : ∀ f ∈ bd i, SeesAround ((setCenters g cs).faceCenter f) (ν f) (P f) := by
    intro f hf
    refine ⟨hc.unit f hf, ?_⟩
    intro p hp
    obtain ⟨m1, m2⟩ := sidesOf_mem hp
    have z1 := hplane f hf p.1 m1
    have z2 := hplane f hf p.2 m2
    set c := (setCenters g cs).faceCenter f with hcdef
    have neg : ∀ q, dot (c - q) (ν f) = 0 → dot (q - c) (ν f) = 0 := by
      intro q h
      rw [dot_sub] at h ⊢
      linarith
    refine ⟨dot (cross (p.1 - c) (p.2 - c)) (ν f), ?_, cross_in_plane _ _ _ (hc.unit f hf) (neg _ z1) (neg _ z2)⟩
    -- an affine function of `c`, not negative at the vertices
    obtain ⟨c', hce, hcc, hvs⟩ := hface f hf
    have haff : ∀ q, dot (cross (p.1 - q) (p.2 - q)) (ν f) = dot (cross p.1 p.2) (ν f) - dot (cross (p.2 - p.1) (ν f)) q := by
      intro q
      have e1 := cross_apply (p.1 - q) (p.2 - q)
      have e2 := cross_apply p.1 p.2
      have e3 := cross_apply (p.2 - p.1) (ν f)
      simp only [dot3, e1, e2, e3, Pi.sub_apply]
      ring
    have b := C38_half_space g.mesh bd hv hne cs hcs (cross (p.2 - p.1) (ν f)) (dot (cross p.1 p.2) (ν f)) 2 f c' (by omega) hce (by
      intro q hq
      have := (hc.convex f hf p hp q (hvs q hq)).2
      rw [haff] at this
      linarith)
    rw [haff, hcdef, hcc]
    linarith
  have hcell : ∀ f ∈ bd i, 0 ≤ dot ((setCenters g cs).faceCenter f - (setCenters g cs).cellCenter i) (ν f) := by
    intro f hf
    have hin : i < g.mesh.numElems 3 := by unfold Mesh.numElems; rw [if_pos h3.symm]; exact hi
    obtain ⟨c, hce⟩ := entry_exists hv hne hcs (show 2 ≤ 3 by omega) (by omega) hin
    have hcc := setCenters_cell g (cs := cs) (i := i) (c := c) (by rw [h3]; exact hce)
    obtain ⟨c', _, hcc', _⟩ := hface f hf
    obtain ⟨fa, vs, p1, p2, p3⟩ := hc.polygon f hf
    obtain ⟨q, hq⟩ : ∃ q, q ∈ P f := by
      have : vs ≠ [] := p2.1
      have hl : vs.length = (P f).length := p3.length_eq
      have : P f ≠ [] := by
        intro h0
        rw [h0, List.length_nil] at hl
        exact this (List.length_eq_zero_iff.mp hl)
      exact List.exists_mem_of_ne_nil _ this
    have b := C38_half_space g.mesh bd hv hne cs hcs (ν f) (dot (ν f) q) 3 i c (by omega) hce (by
      rintro p ⟨v, hv1, hv2⟩
      rw [descend, List.mem_flatMap] at hv1
      obtain ⟨f', hf', hv1⟩ := hv1
      have hf'' : f' ∈ bd i := by
        unfold directSubs at hf'; rwa [if_pos (by rw [h3])] at hf'
      obtain ⟨_, _, _, hvs'⟩ := hface f' hf''
      have := hc.inner f hf f' hf'' q hq p (hvs' p ⟨v, hv1, hv2⟩)
      rw [dot_sub, dot_comm p, dot_comm q] at this
      linarith)
    have hz := hplane f hf q hq
    rw [dot_sub] at hz
    rw [hcc, dot_sub, dot_comm c]
    rw [dot_comm (ν f) q] at b
    linarith
  exact ⟨⟨hc.polygon, hsees, hcell, closed_of_sides hc.closed⟩, hplane⟩

/-- C39. In 3D, with the computed centers, the measure of a cell that is a convex polyhedron is its volume, and the measures of its
faces are their areas. -/
theorem C39_convex_3d (g : GMesh 3 ℝ) (bd : Idx → List Idx) (hv : ValidMesh g.mesh bd) (hne : NoEmptyElement g.mesh) (h3 : g.mesh.dim = 3)
    (cs : List (List (Vec 3 ℝ))) (hcs : computeCenters g.mesh = .ok cs) (hd : NonDegenerate (setCenters g cs))
    (i : Nat) (hi : i < g.mesh.cells.length) (P : Idx → List (Vec 3 ℝ)) (ν : Idx → Vec 3 ℝ) (hc : ConvexCell g.mesh (bd i) P ν) :
    ∃ ls as vs, computeMeasures3 (setCenters g cs) = .ok (ls, as, vs) ∧ vs[i]? = some (polyhedronVolume (bd i) P) ∧
      ∀ f ∈ bd i, as[f]? = some (Vec.norm (vectorArea (P f))) := by
  obtain ⟨hstar, hplane⟩ := convex_star g bd hv hne h3 cs hcs i hi P ν hc
  have hsees := hstar.sees
  obtain ⟨ls, as, vs, e1, e2⟩ := C39_volume (setCenters g cs) bd hv h3 hd i hi P ν hstar
  refine ⟨ls, as, vs, e1, ?_, ?_⟩
  · rw [e2, polyhedronVolume]
    congr 3
    apply List.map_congr_left
    intro f hf
    obtain ⟨fa, us, p1, p2, p3⟩ := hc.polygon f hf
    obtain ⟨_, ha⟩ := face_area_polygon (setCenters g cs) p1 p2 p3 (hsees f hf)
    have hq : (P f).headD 0 ∈ P f := by
      have : us ≠ [] := p2.1
      have hl : us.length = (P f).length := p3.length_eq
      cases hP : P f with
      | nil => rw [hP, List.length_nil] at hl; exact absurd (List.length_eq_zero_iff.mp hl) this
      | cons x l => simp
    have hz := hplane f hf _ hq
    rw [ha, dot_smul_right, dot_smul_right]
    rw [dot_sub] at hz
    congr 1
    linarith
  · intro f hf
    obtain ⟨fa, us, p1, p2, p3⟩ := hc.polygon f hf
    obtain ⟨ls', as', vs', e1', e2'⟩ := C39_planar_face (setCenters g cs) bd hv h3 hd f fa p1 us (P f) p2 p3 (ν f) (hsees f hf)
    rw [e1] at e1'
    have := Res.ok.inj e1'
    simp only [Prod.mk.injEq] at this
    rw [this.2.1]
    exact e2'

/-! ## Examples -/

/-- Half of the unit square is a convex polygon of area 1/2. -/
example : ∃ cs ls as, computeCenters squareG.mesh = .ok cs ∧ computeMeasures2 (setCenters squareG cs) = .ok (ls, as) ∧ as[0]? = some (1 / 2 : ℝ) := by
  have hs : shoelace [squarePos 0, squarePos 1, squarePos 2] = 1 / 2 := by
    simp [shoelace, sidesOf, squarePos, List.rotate]
  have := C39_convex_2d squareG _ square_valid square_noEmpty rfl 0 (by simp [squareG, square, twoTriangles]) [0, 1, 2]
    [squarePos 0, squarePos 1, squarePos 2] (by
      refine ⟨by simp, by simp [NoRepetition], by simp [NoRepetition, twoTrianglesBd], [0, 1, 2], ?_, ?_⟩
      · simp [twoTrianglesBd]
      · refine ⟨rfl, ?_⟩
        intro j hj
        have hj : j < 3 := hj
        interval_cases j
        · exact ⟨0, 0, 1, rfl, rfl, rfl, _, rfl, by decide⟩
        · exact ⟨1, 1, 2, rfl, rfl, rfl, _, rfl, by decide⟩
        · exact ⟨2, 2, 0, rfl, rfl, rfl, _, rfl, by decide⟩)
    (by repeat' constructor) (by
      intro p hp q hq
      simp [sidesOf, List.rotate, squarePos] at hp hq
      rcases hp with rfl | rfl | rfl <;> rcases hq with rfl | rfl | rfl <;> simp [turn])
  rwa [hs] at this

theorem edge_entry {m : Mesh (Vec 3 ℝ)} {bd : Idx → List Idx} (hv : ValidMesh m bd) {cs : List (List (Vec 3 ℝ))} (h : AreCenters m bd cs) {e : Idx}
    (he : e < m.edges.length) : entry cs 1 e = some (mean [(ends m e).1, (ends m e).2]) := by
  have hg := List.getElem?_eq_getElem he
  obtain ⟨A, B, hA, hB⟩ := exists_ends hv hg
  rw [h.edges e _ A B hg hA hB, ends, hg]
  simp only [Option.map_some, Option.getD_some, hA, hB]

/-- In 3D the computed center of a face is the mean of the midpoints of its edges. -/
theorem face_entry {m : Mesh (Vec 3 ℝ)} {bd : Idx → List Idx} (hv : ValidMesh m bd) (h3 : m.dim = 3) {cs : List (List (Vec 3 ℝ))}
    (h : AreCenters m bd cs) {f : Nat} (hf : f < (m.midElems 2).length) : entry cs 2 f = some (edgeMean m f) := by
  have hn2 : m.numElems 2 = (m.midElems 2).length := by
    unfold Mesh.numElems; rw [if_neg (by omega), if_neg (by omega), if_neg (by omega)]
  obtain ⟨ps, p1, _, p3⟩ := h.higher 2 f (le_refl 2) (by omega) (by rw [hn2]; exact hf)
  have hg := List.getElem?_eq_getElem hf
  have hds : directSubs m bd 2 f = (m.midElems 2)[f].sub := by
    unfold directSubs; rw [if_neg (by omega), if_neg (by omega), hg]; rfl
  have hr := hv.range 2 f (by omega) (by omega) (by rw [hn2]; exact hf)
  rw [hds] at p1 hr
  rw [p3, edgeMean, faceEdges, hg]
  simp only [Option.map_some, Option.getD_some, List.map_map]
  congr 2
  have key : ∀ {ss : List Idx} {ps : List (Vec 3 ℝ)}, (∀ s ∈ ss, s < m.numElems (2 - 1)) →
      List.Forall₂ (fun s p => entry cs (2 - 1) s = some p) ss ps → ps = ss.map ((fun p => mean [p.1, p.2]) ∘ ends m) := by
    intro ss ps hs hf
    induction hf with
    | nil => rfl
    | cons h1 _ ih =>
      rw [List.map_cons, ← ih fun s hs' => hs s (List.mem_cons_of_mem _ hs')]
      congr 1
      have hlt := hs _ List.mem_cons_self
      rw [show 2 - 1 = 1 from rfl, edges_of_valid hv] at hlt
      rw [show 2 - 1 = 1 from rfl, edge_entry hv h hlt] at h1
      exact (Option.some.inj h1).symm
  exact key hr p1

/-- For a triangle that is not degenerate, the center is not on the line of its first side. -/
theorem triangle_first {m : Mesh (Vec 3 ℝ)} {i : Nat} {A B C : Vec 3 ℝ} (hf : faceEdges m i = [(A, B), (B, C), (C, A)] ∨
    faceEdges m i = [(A, B), (B, C), (A, C)] ∨ faceEdges m i = [(A, B), (A, C), (B, C)]) (hc : cross (A - C) (B - C) ≠ 0) :
    faceEdges m i ≠ [] ∧ cross ((firstSide m i).1 - edgeMean m i) ((firstSide m i).2 - edgeMean m i) ≠ 0 := by
  have hmean : edgeMean m i = (3⁻¹ : ℝ) • (A + B + C) := by
    rcases hf with hf | hf | hf <;> rw [edgeMean, hf] <;> funext k <;> simp [mean] <;> ring
  have hfs : firstSide m i = (A, B) := by rcases hf with hf | hf | hf <;> rw [firstSide, hf] <;> rfl
  refine ⟨by rcases hf with hf | hf | hf <;> rw [hf] <;> simp, ?_⟩
  rw [hfs, hmean]
  intro h
  apply hc
  have h1 := cross_apply (A - (3⁻¹ : ℝ) • (A + B + C)) (B - (3⁻¹ : ℝ) • (A + B + C))
  have h2 := cross_apply (A - C) (B - C)
  have z0 := congrFun h 0
  have z1 := congrFun h 1
  have z2 := congrFun h 2
  apply ext3 <;> simp only [h1, h2, Pi.zero_apply, Pi.sub_apply, Pi.smul_apply, Pi.add_apply, smul_eq_mul] at * <;> linarith

/-- Two tetrahedra; the centers are to be computed. -/
noncomputable def tetsG : GMesh 3 ℝ := { mesh := tets, faceCenter := 0, cellCenter := 0, bCellCenter := 0 }

theorem tets_nonDegenerate {cs : List (List (Vec 3 ℝ))} (hcs : computeCenters tets = .ok cs) : NonDegenerate (setCenters tetsG cs) := by
  obtain ⟨cs', e1, e2⟩ := C38_centers tets _ tets_valid tets_noEmpty
  rw [hcs] at e1
  obtain rfl := Res.ok.inj e1
  have hfc : ∀ f, f < (tets.midElems 2).length → (setCenters tetsG cs).faceCenter f = edgeMean tets f := by
    intro f hf
    exact setCenters_face tetsG (le_of_lt (show 2 < 3 by omega)) (face_entry tets_valid rfl e2 hf)
  have ne : ∀ x : Vec 3 ℝ, x 0 ≠ 0 ∨ x 1 ≠ 0 ∨ x 2 ≠ 0 → x ≠ 0 := by
    rintro x h rfl
    simp at h
  have hall : ∀ f, f < (tets.midElems 2).length → faceEdges tets f ≠ [] ∧
      cross ((firstSide tets f).1 - edgeMean tets f) ((firstSide tets f).2 - edgeMean tets f) ≠ 0 := by
    intro i hi
    have hi : i < 7 := hi
    interval_cases i
    · exact triangle_first (A := tetPos 0) (B := tetPos 1) (C := tetPos 2) (by left; rfl) (ne _ (by simp [cross_apply, tetPos]))
    · exact triangle_first (A := tetPos 0) (B := tetPos 1) (C := tetPos 3) (by right; left; rfl) (ne _ (by simp [cross_apply, tetPos]))
    · exact triangle_first (A := tetPos 2) (B := tetPos 0) (C := tetPos 3) (by right; left; rfl) (ne _ (by simp [cross_apply, tetPos]))
    · exact triangle_first (A := tetPos 1) (B := tetPos 2) (C := tetPos 3) (by right; left; rfl) (ne _ (by simp [cross_apply, tetPos]))
    · exact triangle_first (A := tetPos 1) (B := tetPos 2) (C := tetPos 4) (by right; left; rfl) (ne _ (by simp [cross_apply, tetPos]))
    · exact triangle_first (A := tetPos 2) (B := tetPos 3) (C := tetPos 4) (by right; left; rfl) (ne _ (by simp [cross_apply, tetPos]))
    · exact triangle_first (A := tetPos 1) (B := tetPos 3) (C := tetPos 4) (by right; right; rfl) (ne _ (by simp [cross_apply, tetPos]))
  refine ⟨?_, fun f hf => (hall f hf).1, ?_⟩
  · intro e he
    have he : e < 9 := he
    have hne : ∀ i j : Nat, (∃ k, tetPos i k ≠ tetPos j k) → tetPos i ≠ tetPos j := by
      rintro i j ⟨k, hk⟩ h; rw [h] at hk; exact hk rfl
    interval_cases e
    · exact hne 0 1 ⟨0, by simp [tetPos]⟩
    · exact hne 1 2 ⟨0, by simp [tetPos]⟩
    · exact hne 2 0 ⟨1, by simp [tetPos]⟩
    · exact hne 0 3 ⟨2, by simp [tetPos]⟩
    · exact hne 1 3 ⟨2, by simp [tetPos]⟩
    · exact hne 2 3 ⟨2, by simp [tetPos]⟩
    · exact hne 1 4 ⟨2, by simp [tetPos]⟩
    · exact hne 2 4 ⟨2, by simp [tetPos]⟩
    · exact hne 3 4 ⟨1, by simp [tetPos]⟩
  · intro f hf
    rw [hfc f hf]
    exact (hall f hf).2

/-- The faces of the first tetrahedron, counterclockwise from the outside. -/
def tetCycle : Idx → List Idx
  | 0 => [0, 2, 1]
  | 1 => [0, 1, 3]
  | 2 => [0, 3, 2]
  | _ => [1, 2, 3]

/-- Their outer normals. -/
noncomputable def tetNormal : Idx → Vec 3 ℝ
  | 0 => ![0, 0, -1]
  | 1 => ![0, -1, 0]
  | 2 => ![-1, 0, 0]
  | _ => (Real.sqrt 3)⁻¹ • ![1, 1, 1]

theorem sidesOf_map {α β : Type} (f : α → β) (l : List α) : sidesOf (l.map f) = (sidesOf l).map fun p => (f p.1, f p.2) := by
  unfold sidesOf
  rw [← List.map_rotate, List.zip_map]
  rfl

theorem tets_convex : ConvexCell tets (twoTetsBd 0) (fun f => (tetCycle f).map tetPos) tetNormal := by
  have hs : 0 < (Real.sqrt 3)⁻¹ := inv_pos.mpr (Real.sqrt_pos.mpr (by norm_num))
  have hs3 : (Real.sqrt 3)⁻¹ * (Real.sqrt 3)⁻¹ = 1 / 3 := by
    rw [← mul_inv, Real.mul_self_sqrt (by norm_num)]; norm_num
  have hmem : ∀ f ∈ twoTetsBd 0, f = 0 ∨ f = 1 ∨ f = 2 ∨ f = 3 := by intro f hf; simpa [twoTetsBd] using hf
  refine ⟨?_, ?_, ?_, ?_, ?_⟩
  · intro f hf
    have poly : ∀ (a b c e1 e2 e3 : Nat) (subs : List Nat), [a, b, c].Nodup → [e1, e2, e3].Perm subs → subs.Nodup →
        Joins tets.edges e1 a b → Joins tets.edges e2 b c → Joins tets.edges e3 c a → IsPolygon tets.edges subs [a, b, c] := by
      intro a b c e1 e2 e3 subs h1 h2 h3 j1 j2 j3
      refine ⟨by simp, h1, h3, _, h2, rfl, ?_⟩
      intro j hj
      have hj : j < 3 := hj
      interval_cases j
      · exact ⟨e1, a, b, rfl, rfl, rfl, j1⟩
      · exact ⟨e2, b, c, rfl, rfl, rfl, j2⟩
      · exact ⟨e3, c, a, rfl, rfl, by simp [cyc], j3⟩
    rcases hmem f hf with rfl | rfl | rfl | rfl
    · exact ⟨_, [0, 2, 1], rfl, poly 0 2 1 2 1 0 _ (by decide) (by decide) (by decide) ⟨_, rfl, by decide⟩ ⟨_, rfl, by decide⟩ ⟨_, rfl, by decide⟩,
        by repeat' constructor⟩
    · exact ⟨_, [0, 1, 3], rfl, poly 0 1 3 0 4 3 _ (by decide) (by decide) (by decide) ⟨_, rfl, by decide⟩ ⟨_, rfl, by decide⟩ ⟨_, rfl, by decide⟩,
        by repeat' constructor⟩
    · exact ⟨_, [0, 3, 2], rfl, poly 0 3 2 3 5 2 _ (by decide) (by decide) (by decide) ⟨_, rfl, by decide⟩ ⟨_, rfl, by decide⟩ ⟨_, rfl, by decide⟩,
        by repeat' constructor⟩
    · exact ⟨_, [1, 2, 3], rfl, poly 1 2 3 1 5 4 _ (by decide) (by decide) (by decide) ⟨_, rfl, by decide⟩ ⟨_, rfl, by decide⟩ ⟨_, rfl, by decide⟩,
        by repeat' constructor⟩
  · intro f hf
    rcases hmem f hf with rfl | rfl | rfl | rfl
    · simp [norm_real, dot3, tetNormal]
    · simp [norm_real, dot3, tetNormal]
    · simp [norm_real, dot3, tetNormal]
    · have : dot (tetNormal 3) (tetNormal 3) = 1 := by
        simp only [dot3, tetNormal, Pi.smul_apply, smul_eq_mul, Matrix.cons_val_zero, Matrix.cons_val_one, Matrix.cons_val]
        linarith
      rw [norm_real, this, Real.sqrt_one]
  · intro f hf p hp q hq
    rcases hmem f hf with rfl | rfl | rfl | rfl <;> simp [sidesOf, List.rotate, tetCycle, tetPos] at hp hq <;>
      rcases hp with rfl | rfl | rfl <;> rcases hq with rfl | rfl | rfl <;> simp [dot3, cross_apply, tetNormal] <;> linarith
  · intro f hf f' hf' q hq q' hq'
    rcases hmem f hf with rfl | rfl | rfl | rfl <;> rcases hmem f' hf' with rfl | rfl | rfl | rfl <;> simp [tetCycle, tetPos] at hq hq' <;>
      rcases hq with rfl | rfl | rfl <;> rcases hq' with rfl | rfl | rfl <;> simp [dot3, tetNormal, hs.le]
  · have e : ((twoTetsBd 0).flatMap fun f => sidesOf ((tetCycle f).map tetPos)) =
        ((twoTetsBd 0).flatMap fun f => sidesOf (tetCycle f)).map fun p => (tetPos p.1, tetPos p.2) := by
      rw [List.map_flatMap]
      simp only [sidesOf_map]
    rw [e, List.map_map]
    have hp : ((twoTetsBd 0).flatMap fun f => sidesOf (tetCycle f)).Perm (((twoTetsBd 0).flatMap fun f => sidesOf (tetCycle f)).map Prod.swap) := by
      decide
    have := hp.map fun p => (tetPos p.1, tetPos p.2)
    rw [List.map_map] at this
    exact this

/-- The first tetrahedron has the volume 1/6. -/
example : ∃ cs ls as vs, computeCenters tets = .ok cs ∧ computeMeasures3 (setCenters tetsG cs) = .ok (ls, as, vs) ∧ vs[0]? = some (1 / 6 : ℝ) := by
  obtain ⟨cs, hcs, _⟩ := C38_centers tets _ tets_valid tets_noEmpty
  obtain ⟨ls, as, vs, h1, h2, _⟩ := C39_convex_3d tetsG _ tets_valid tets_noEmpty rfl cs hcs (tets_nonDegenerate hcs) 0
    (by simp [tetsG, tets, twoTets]) _ _ tets_convex
  refine ⟨cs, ls, as, vs, hcs, h1, ?_⟩
  rw [h2]
  congr 1
  simp [polyhedronVolume, twoTetsBd, tetCycle, vectorArea, sidesOf, List.rotate, tetPos, dot3, cross_apply]
  norm_num

end GTMesh.Props
