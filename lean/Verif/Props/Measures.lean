import Verif.Proofs.Measures
import Verif.Props.Centers

/-! # C39: lengths, areas and volumes -/

namespace GTMesh.Props
open GTMesh Spec Std' Vec Geo

/-! ## Polygons -/

theorem sidesOf_sum {α : Type} (f : α → ℝ) (ps : List α) : ((sidesOf ps).map fun p => f p.2 - f p.1).sum = 0 := by
  have key : ∀ (l r : List α), l.length = r.length → ((l.zip r).map fun p => f p.2 - f p.1).sum = (r.map f).sum - (l.map f).sum := by
    intro l
    induction l with
    | nil => intro r h; cases r with
      | nil => simp
      | cons x r => simp at h
    | cons x l ih =>
      intro r h
      cases r with
      | nil => simp at h
      | cons y r =>
        simp only [List.zip_cons_cons, List.map_cons, List.sum_cons]
        rw [ih r (by simpa using h)]
        ring
  rw [sidesOf, key _ _ (by simp)]
  have hp : ((ps.rotate 1).map f).Perm (ps.map f) := (List.rotate_perm ps 1).map f
  rw [hp.sum_eq, sub_self]

/-- Seen from any point, the signed triangles of a closed polygon add up to the shoelace area. -/
theorem sum_turn (c : Vec 2 ℝ) (ps : List (Vec 2 ℝ)) : ((sidesOf ps).map fun p => turn c p.1 p.2).sum = 2 * shoelace ps := by
  have h := sidesOf_sum (fun p : Vec 2 ℝ => - (c 0 * p 1) + c 1 * p 0) ps
  have key : ∀ l : List (Vec 2 ℝ × Vec 2 ℝ), (l.map fun p => turn c p.1 p.2).sum =
      (l.map fun p => p.1 0 * p.2 1 - p.2 0 * p.1 1).sum +
      (l.map fun p => (- (c 0 * p.2 1) + c 1 * p.2 0) - (- (c 0 * p.1 1) + c 1 * p.1 0)).sum := by
    intro l
    induction l with
    | nil => simp
    | cons p l ih =>
      rw [List.map_cons, List.sum_cons, ih]
      simp only [List.map_cons, List.sum_cons, turn]
      ring
  rw [key, shoelace]
  rw [h]
  ring

theorem vec_sum_apply {n : Nat} (l : List (Vec n ℝ)) (k : Fin n) : l.sum k = (l.map fun x => x k).sum := by
  induction l with
  | nil => simp
  | cons x l ih => simp [ih]

/-- The same in space. -/
theorem sum_cross (c : Vec 3 ℝ) (ps : List (Vec 3 ℝ)) :
    ((sidesOf ps).map fun p => cross (p.1 - c) (p.2 - c)).sum = (2 : ℝ) • vectorArea ps := by
  have key : ∀ l : List (Vec 3 ℝ × Vec 3 ℝ), (l.map fun p => cross (p.1 - c) (p.2 - c)).sum =
      (l.map fun p => cross p.1 p.2).sum + (l.map fun p => cross p.2 c - cross p.1 c).sum := by
    intro l
    induction l with
    | nil => simp
    | cons p l ih =>
      have e : cross (p.1 - c) (p.2 - c) = cross p.1 p.2 + (cross p.2 c - cross p.1 c) := by
        have h1 := cross_apply (p.1 - c) (p.2 - c)
        have h2 := cross_apply p.1 p.2
        have h3 := cross_apply p.2 c
        have h4 := cross_apply p.1 c
        apply ext3 <;> simp only [h1, h2, h3, h4, Pi.add_apply, Pi.sub_apply] <;> ring
      simp only [List.map_cons, List.sum_cons, ih, e]
      abel
  have hz : ((sidesOf ps).map fun p => cross p.2 c - cross p.1 c).sum = 0 := by
    funext k
    rw [vec_sum_apply, List.map_map]
    exact sidesOf_sum (fun p => cross p c k) ps
  rw [key, hz, add_zero, vectorArea, smul_smul]
  norm_num

/-- The ends of the edges of a polygon, in the order of the polygon, are its consecutive vertices, up to the direction of the edges. -/
theorem polygon_ends {n : Nat} {m : Mesh (Vec n ℝ)} {subs vs : List Idx} {ps : List (Vec n ℝ)} (hp : IsPolygon m.edges subs vs)
    (hpos : PositionsOf m vs ps) : ∃ es, es.Perm subs ∧
      List.Forall₂ (fun e (p : Vec n ℝ × Vec n ℝ) => ends m e = p ∨ ends m e = (p.2, p.1)) es (sidesOf ps) := by
  obtain ⟨hne, _, _, es, hperm, hlen, hj⟩ := hp
  have hps := hpos.length_eq
  refine ⟨es, hperm, ?_⟩
  have hl : (sidesOf ps).length = ps.length := by simp [sidesOf]
  rw [List.forall₂_iff_get]
  refine ⟨by omega, ?_⟩
  intro j h1 h2
  rw [hl] at h2
  have hjv : j < vs.length := by omega
  obtain ⟨e, u, v, e1, e2, e3, ed, e4, e5⟩ := hj j hjv
  have hcyc : ∀ k u, cyc vs k = some u → m.vertices[u]? = ps[k % ps.length]? := by
    intro k u hu
    unfold cyc at hu
    rw [← hps]
    have hk : k % vs.length < vs.length := Nat.mod_lt _ (by omega)
    have hk' : k % vs.length < ps.length := by omega
    have := (List.forall₂_iff_get.mp hpos).2 (k % vs.length) hk hk'
    rw [List.getElem?_eq_getElem hk] at hu
    rw [← Option.some.inj hu, List.getElem?_eq_getElem hk']
    exact this
  have hjm : j % ps.length = j := Nat.mod_eq_of_lt h2
  have hu := hcyc j u e2
  have hv := hcyc (j + 1) v e3
  rw [hjm, List.getElem?_eq_getElem h2] at hu
  have hj1 : (j + 1) % ps.length < ps.length := Nat.mod_lt _ (by omega)
  rw [List.getElem?_eq_getElem hj1] at hv
  rw [List.getElem?_eq_getElem h1] at e1
  simp only [List.get_eq_getElem]
  rw [Option.some.inj e1]
  have hside : (sidesOf ps)[j]'(by rw [hl]; exact h2) = (ps[j], ps[(j + 1) % ps.length]) := by
    simp only [sidesOf, List.getElem_zip, List.getElem_rotate]
  rw [hside]
  rcases e5 with h | ⟨h5, h6⟩
  · have h5 := congrArg Prod.fst h
    have h6 := congrArg Prod.snd h
    simp only at h5 h6
    left
    rw [ends, e4]; simp only [Option.map_some, Option.getD_some, h5, h6, hu, hv]
  · simp only at h5 h6
    right
    rw [ends, e4]; simp only [Option.map_some, Option.getD_some, h5, h6, hu, hv]

theorem polygon_sum {n : Nat} {m : Mesh (Vec n ℝ)} {subs vs : List Idx} {ps : List (Vec n ℝ)} (hp : IsPolygon m.edges subs vs)
    (hpos : PositionsOf m vs ps) (φ : Vec n ℝ → Vec n ℝ → ℝ) (hφ : ∀ A B, φ A B = φ B A) :
    (subs.map fun e => φ (ends m e).1 (ends m e).2).sum = ((sidesOf ps).map fun p => φ p.1 p.2).sum := by
  obtain ⟨es, hperm, hf⟩ := polygon_ends hp hpos
  rw [← (hperm.map fun e => φ (ends m e).1 (ends m e).2).sum_eq]
  congr 1
  generalize sidesOf ps = sides at hf
  clear hperm
  induction hf with
  | nil => rfl
  | cons h _ ih =>
    rw [List.map_cons, List.map_cons, ih]
    congr 1
    rcases h with h | h
    · rw [h]
    · rw [h]; exact hφ _ _

theorem polygon_side {n : Nat} {m : Mesh (Vec n ℝ)} {subs vs : List Idx} {ps : List (Vec n ℝ)} (hp : IsPolygon m.edges subs vs)
    (hpos : PositionsOf m vs ps) {e : Idx} (he : e ∈ subs) : ∃ p ∈ sidesOf ps, ends m e = p ∨ ends m e = (p.2, p.1) := by
  obtain ⟨es, hperm, hf⟩ := polygon_ends hp hpos
  have he := hperm.mem_iff.mpr he
  generalize sidesOf ps = sides at hf
  clear hperm
  induction hf with
  | nil => simp at he
  | cons h _ ih =>
    rcases List.mem_cons.mp he with e1 | he
    · rw [e1]; exact ⟨_, List.mem_cons_self, h⟩
    · obtain ⟨p, h1, h2⟩ := ih he
      exact ⟨p, List.mem_cons_of_mem _ h1, h2⟩

/-! ## The walk along the boundary of a cell -/

theorem cellWalk_ok {V : Type} {β : Type} {m : Mesh V} {bd : Idx → List Idx} (hv : ValidMesh m bd) {i : Nat} {c : Cell} (hc : m.cells[i]? = some c)
    {body : Idx → Res (List β)} {f : Idx → β} (h : ∀ x ∈ bd i, body x = .ok [f x]) :
    m.cellLoop body i c.bElem (m.numFaces + 1) c.bElem = .ok ((bd i).map f) := by
  obtain ⟨h1, h2⟩ := hv.chain i c hc
  have h0 : 0 < (bd i).length := List.length_pos_iff.mpr h1.1
  have hget : (bd i)[0] = c.bElem := by
    rw [List.getElem?_eq_getElem h0] at h2; exact Option.some.inj h2
  have := Mesh.cellLoop_chain h1 h h2 (m.numFaces + 1) 0 h0 (by have := Mesh.chain_length hv.dim_ge h1; omega)
  rw [hget] at this
  rw [this]
  rw [List.drop_zero, List.map_eq_flatMap]

theorem bd_lt {V : Type} {m : Mesh V} {bd : Idx → List Idx} (hv : ValidMesh m bd) {i : Nat} (hi : i < m.cells.length) :
    ∀ f ∈ bd i, f < m.numElems (m.dim - 1) := by
  have h := hv.range m.dim i (by have := hv.dim_ge; omega) (le_refl _) (by unfold Mesh.numElems; rw [if_pos rfl]; exact hi)
  unfold directSubs at h
  rwa [if_pos rfl] at h

/-- The lengths of the edges. -/
noncomputable def lengths {n : Nat} (m : Mesh (Vec n ℝ)) : List ℝ :=
  (List.range m.edges.length).map fun e => Vec.norm ((ends m e).1 - (ends m e).2)

theorem edgeMeasures_ok {n : Nat} {m : Mesh (Vec n ℝ)} {bd : Idx → List Idx} (hv : ValidMesh m bd) : edgeMeasures m = .ok (lengths m) := by
  apply forEach_ok
  intro e he
  rw [edgeMeasure, ends_ok hv (List.mem_range.mp he)]
  simp only [Res.bind, sub_eq]

theorem triangle2_eq (c a b : Vec 2 ℝ) : triangle2 c a b = triangleArea2 a b c := by
  rw [triangle2, triangleArea2, ← abs_neg]
  congr 2
  ring

/-- C39. In 2D: the measure of an edge is the distance of its ends, the measure of a cell is the sum of the areas of the triangles that
join its edges to its center. -/
theorem C39_measures_2d (g : GMesh 2 ℝ) (bd : Idx → List Idx) (hv : ValidMesh g.mesh bd) (h2 : g.mesh.dim = 2) :
    computeMeasures2 g = .ok (lengths g.mesh, (List.range g.mesh.cells.length).map fun i =>
      ((bd i).map fun e => triangleArea2 (ends g.mesh e).1 (ends g.mesh e).2 (g.cellCenter i)).sum) := by
  rw [computeMeasures2, edgeMeasures_ok hv]
  simp only [Res.bind]
  rw [forEach_ok (f := fun i => ((bd i).map fun e => triangleArea2 (ends g.mesh e).1 (ends g.mesh e).2 (g.cellCenter i)).sum)]
  intro i hi
  rw [List.mem_range] at hi
  have hc := List.getElem?_eq_getElem hi
  have hat : Res.at' g.mesh.cells i = .ok g.mesh.cells[i] := Res.at'_eq_ok.mpr hc
  rw [cellMeasure2, hat]
  simp only [Res.bind]
  have := cellWalk_ok hv hc (body := fun e => (edgeEnds g.mesh e).bind fun p => .ok [triangle2 (g.cellCenter i) p.1 p.2])
    (f := fun e => triangleArea2 (ends g.mesh e).1 (ends g.mesh e).2 (g.cellCenter i)) (by
    intro e he
    have hlt := bd_lt hv hi e he
    rw [h2, edges_of_valid hv] at hlt
    rw [ends_ok hv hlt]
    simp only [Res.bind, triangle2_eq])
  simp only [Res.bind] at this
  rw [this]
  simp only [total_eq]

/-- C39. In 2D, when the edges of a cell form a polygon and the center of the cell sees all of them from the same side, the measure of
the cell is the area of the polygon (the absolute value of the shoelace formula). -/
theorem C39_shoelace (g : GMesh 2 ℝ) (bd : Idx → List Idx) (hv : ValidMesh g.mesh bd) (h2 : g.mesh.dim = 2) (i : Nat)
    (hi : i < g.mesh.cells.length) (vs : List Idx) (ps : List (Vec 2 ℝ)) (hp : IsPolygon g.mesh.edges (bd i) vs)
    (hpos : PositionsOf g.mesh vs ps)
    (hs : (∀ p ∈ sidesOf ps, 0 ≤ turn (g.cellCenter i) p.1 p.2) ∨ (∀ p ∈ sidesOf ps, turn (g.cellCenter i) p.1 p.2 ≤ 0)) :
    ∃ ls cs, computeMeasures2 g = .ok (ls, cs) ∧ cs[i]? = some |shoelace ps| := by
  refine ⟨_, _, C39_measures_2d g bd hv h2, ?_⟩
  rw [List.getElem?_map, List.getElem?_range hi]
  simp only [Option.map_some, Option.some.injEq]
  rw [polygon_sum hp hpos (fun A B => triangleArea2 A B (g.cellCenter i)) (by
    intro A B; simp only [triangleArea2]; rw [abs_sub_comm]; congr 2; ring)]
  have hturn : ∀ A B C, triangleArea2 A B C = 1 / 2 * |turn C A B| := by
    intro A B C; rw [triangleArea2, turn]; congr 2; ring
  simp only [hturn]
  have hst := sum_turn (g.cellCenter i) ps
  rcases hs with hs | hs
  · have : ((sidesOf ps).map fun p => 1 / 2 * |turn (g.cellCenter i) p.1 p.2|) = (sidesOf ps).map fun p => 1 / 2 * turn (g.cellCenter i) p.1 p.2 := by
      apply List.map_congr_left
      intro p hp
      rw [abs_of_nonneg (hs p hp)]
    rw [this, List.sum_map_mul_left, hst]
    have hnn : 0 ≤ shoelace ps := by
      have := sum_nonneg (l := (sidesOf ps).map fun p => turn (g.cellCenter i) p.1 p.2) (by
        intro x hx; obtain ⟨p, hp, rfl⟩ := List.mem_map.mp hx; exact hs p hp)
      rw [hst] at this; linarith
    rw [abs_of_nonneg hnn]; ring
  · have : ((sidesOf ps).map fun p => 1 / 2 * |turn (g.cellCenter i) p.1 p.2|) = (sidesOf ps).map fun p => -(1 / 2) * turn (g.cellCenter i) p.1 p.2 := by
      apply List.map_congr_left
      intro p hp
      rw [abs_of_nonpos (hs p hp)]; ring
    rw [this, List.sum_map_mul_left, hst]
    have hnn : shoelace ps ≤ 0 := by
      have := sum_nonneg (l := (sidesOf ps).map fun p => -1 * turn (g.cellCenter i) p.1 p.2) (by
        intro x hx; obtain ⟨p, hp, rfl⟩ := List.mem_map.mp hx; have := hs p hp; linarith)
      rw [List.sum_map_mul_left, hst] at this; linarith
    rw [abs_of_nonpos hnn]; ring

/-! ## Three dimensions -/

/-- The distance of the point `P` from the plane through `A`, `B`, `C`. -/
noncomputable def planeDistance (P A B C : Vec 3 ℝ) : ℝ := |dot (P - A) (cross (B - A) (C - A))| / Vec.norm (cross (B - A) (C - A))

/-- The ends of the first edge of face `f`. -/
noncomputable def firstSide (m : Mesh (Vec 3 ℝ)) (f : Idx) : Vec 3 ℝ × Vec 3 ℝ := (faceEdges m f).headD (0, 0)

/-- The sum of the areas of the triangles that join the edges of face `f` to its center. -/
noncomputable def faceArea (g : GMesh 3 ℝ) (f : Idx) : ℝ := ((faceEdges g.mesh f).map fun p => triangleArea p.1 p.2 (g.faceCenter f)).sum

/-- A third of the area of face `f` times the distance of `P` from the plane given by the first edge and the center of the face. -/
noncomputable def pyramid (g : GMesh 3 ℝ) (P : Vec 3 ℝ) (f : Idx) : ℝ :=
  planeDistance P (firstSide g.mesh f).1 (firstSide g.mesh f).2 (g.faceCenter f) * faceArea g f / 3

/-- The edges have different ends and the center of a face is not on the line of its first edge. -/
structure NonDegenerate (g : GMesh 3 ℝ) : Prop where
  edges : ∀ e, e < g.mesh.edges.length → (ends g.mesh e).1 ≠ (ends g.mesh e).2
  nonempty : ∀ f, f < (g.mesh.midElems 2).length → faceEdges g.mesh f ≠ []
  faces : ∀ f, f < (g.mesh.midElems 2).length →
    cross ((firstSide g.mesh f).1 - g.faceCenter f) ((firstSide g.mesh f).2 - g.faceCenter f) ≠ 0

theorem cross_rel (A B C : Vec 3 ℝ) : cross (B - A) (C - A) = cross (A - C) (B - C) ∧ cross (A - B) (A - C) = cross (A - C) (B - C) := by
  have h1 := cross_apply (B - A) (C - A)
  have h2 := cross_apply (A - C) (B - C)
  have h3 := cross_apply (A - B) (A - C)
  constructor <;> apply ext3 <;> simp only [h1, h2, h3, Pi.sub_apply] <;> ring

/-- C39. In 3D: the measure of an edge is its length, the measure of a face the sum of the areas of the triangles that join its edges to
its center, the measure of a cell the sum of the volumes of the pyramids over its faces. -/
theorem C39_measures_3d (g : GMesh 3 ℝ) (bd : Idx → List Idx) (hv : ValidMesh g.mesh bd) (h3 : g.mesh.dim = 3) (hd : NonDegenerate g) :
    computeMeasures3 g = .ok (lengths g.mesh, (List.range (g.mesh.midElems 2).length).map (faceArea g),
      (List.range g.mesh.cells.length).map fun i => ((bd i).map (pyramid g (g.cellCenter i))).sum) := by
  have hn2 : g.mesh.numElems 2 = (g.mesh.midElems 2).length := by
    unfold Mesh.numElems; rw [if_neg (by omega), if_neg (by omega), if_neg (by omega)]
  have hlen : ∀ e, e < g.mesh.edges.length → Res.at' (lengths g.mesh) e = .ok (Vec.norm ((ends g.mesh e).1 - (ends g.mesh e).2)) := by
    intro e he
    rw [Res.at'_eq_ok, lengths, List.getElem?_map, List.getElem?_range he]; rfl
  have hface : ∀ f ∈ List.range (g.mesh.midElems 2).length, faceMeasure3 g (lengths g.mesh) f = .ok (faceArea g f) := by
    intro f hf
    rw [List.mem_range] at hf
    have hg := List.getElem?_eq_getElem hf
    obtain ⟨_, d2, _⟩ := face_edges_lt hv h3 hg
    have hat : Res.at' (g.mesh.midElems 2) f = .ok (g.mesh.midElems 2)[f] := Res.at'_eq_ok.mpr hg
    rw [faceMeasure3, hat]
    simp only [Res.bind]
    rw [forEach_ok (f := fun e => triangleArea (ends g.mesh e).1 (ends g.mesh e).2 (g.faceCenter f))]
    · simp only [total_eq]
      rw [faceArea, faceEdges, hg]
      simp only [Option.map_some, Option.getD_some, List.map_map]
      rfl
    · intro e he
      have hne := hd.edges e (d2 e he)
      have h0 : sub (ends g.mesh e).2 (ends g.mesh e).1 ≠ 0 := by rw [sub_eq]; exact sub_ne_zero.mpr (Ne.symm hne)
      obtain ⟨us, hgs⟩ := gs2 _ (sub (g.faceCenter f) (ends g.mesh e).1) h0
      rw [faceTerm, ends_ok hv (d2 e he)]
      simp only [Res.bind, hgs, hlen e (d2 e he)]
      have hidx : ∀ a b : ℝ, Res.idx [a, b] 1 = .ok b := fun _ _ => rfl
      simp only [hidx]
      congr 1
      have hp := (norm_pos h0).ne'
      rw [sub_eq] at hp ⊢
      rw [sub_eq, (cross_rel _ _ _).1, triangleArea, norm_sub_comm (ends g.mesh e).1]
      field_simp
  have hcell : ∀ i ∈ List.range g.mesh.cells.length,
      cellMeasure3 g ((List.range (g.mesh.midElems 2).length).map (faceArea g)) i = .ok ((bd i).map (pyramid g (g.cellCenter i))).sum := by
    intro i hi
    rw [List.mem_range] at hi
    have hc := List.getElem?_eq_getElem hi
    have hat : Res.at' g.mesh.cells i = .ok g.mesh.cells[i] := Res.at'_eq_ok.mpr hc
    rw [cellMeasure3, hat]
    simp only [Res.bind]
    rw [cellWalk_ok hv hc (f := pyramid g (g.cellCenter i))]
    · simp only [total_eq]
    · intro f hf
      have hlt := bd_lt hv hi f hf
      rw [h3, show 3 - 1 = 2 from rfl, hn2] at hlt
      have hg := List.getElem?_eq_getElem hlt
      obtain ⟨_, d2, _⟩ := face_edges_lt hv h3 hg
      have hfe : faceEdges g.mesh f = ((g.mesh.midElems 2)[f]).sub.map (ends g.mesh) := by rw [faceEdges, hg]; rfl
      have hne := hd.nonempty f hlt
      have hfc := hd.faces f hlt
      cases hsub : ((g.mesh.midElems 2)[f]).sub with
      | nil => rw [hfe, hsub] at hne; simp at hne
      | cons e es =>
        have hfs : firstSide g.mesh f = ends g.mesh e := by rw [firstSide, hfe, hsub]; rfl
        have he : e < g.mesh.edges.length := d2 e (by rw [hsub]; exact List.mem_cons_self)
        have hat2 : Res.at' (g.mesh.midElems 2) f = .ok (g.mesh.midElems 2)[f] := Res.at'_eq_ok.mpr hg
        have hfirst : firstEdge g.mesh f = .ok (ends g.mesh e) := by
          rw [firstEdge, hat2]
          simp only [Res.bind, hsub]
          exact ends_ok hv he
        rw [hfs] at hfc
        have hk := (cross_rel (ends g.mesh e).1 (ends g.mesh e).2 (g.faceCenter f)).2
        have hk' := (cross_rel (ends g.mesh e).1 (ends g.mesh e).2 (g.faceCenter f)).1
        rw [← hk] at hfc
        obtain ⟨u0, u1, hgs⟩ := gs3 (sub (ends g.mesh e).1 (ends g.mesh e).2) (sub (ends g.mesh e).1 (g.faceCenter f))
          (sub (ends g.mesh e).1 (g.cellCenter i)) (by rw [sub_eq, sub_eq]; exact hfc)
        have harea : Res.at' ((List.range (g.mesh.midElems 2).length).map (faceArea g)) f = .ok (faceArea g f) := by
          rw [Res.at'_eq_ok, List.getElem?_map, List.getElem?_range hlt]; rfl
        have hidx : ∀ a b c : ℝ, Res.idx [a, b, c] 2 = .ok c := fun _ _ _ => rfl
        rw [cellTerm3, hfirst]
        simp only [Res.bind, hgs, hidx, harea]
        congr 2
        rw [pyramid, planeDistance, hfs, sub_eq, sub_eq, sub_eq, hk, hk']
        congr 3
        rw [← neg_sub (g.cellCenter i), show -(g.cellCenter i - (ends g.mesh e).1) = (-1 : ℝ) • (g.cellCenter i - (ends g.mesh e).1) by simp,
          dot_smul, neg_one_mul, abs_neg]
  rw [computeMeasures3, edgeMeasures_ok hv]
  simp only [Res.bind]
  rw [forEach_ok hface]
  simp only
  rw [forEach_ok hcell]

/-- C39. The measure of a planar face whose center sees all its sides from the same side (for instance a convex face) is the
length of the vector area of its polygon. -/
theorem face_area_polygon (g : GMesh 3 ℝ) {f : Nat} {fa : Face} (hf : (g.mesh.midElems 2)[f]? = some fa) {vs : List Idx} {ps : List (Vec 3 ℝ)}
    (hp : IsPolygon g.mesh.edges fa.sub vs) (hpos : PositionsOf g.mesh vs ps) {ν : Vec 3 ℝ} (hs : SeesAround (g.faceCenter f) ν ps) :
    faceArea g f = Vec.norm (vectorArea ps) ∧ vectorArea ps = faceArea g f • ν := by
  have e : faceArea g f = ((sidesOf ps).map fun p => triangleArea p.1 p.2 (g.faceCenter f)).sum := by
    rw [← polygon_sum hp hpos (fun A B => triangleArea A B (g.faceCenter f)), faceArea, faceEdges, hf]
    · simp only [Option.map_some, Option.getD_some, List.map_map]; rfl
    · intro A B
      rw [triangleArea, triangleArea]
      congr 1
      have h1 := cross_apply (A - g.faceCenter f) (B - g.faceCenter f)
      have h2 := cross_apply (B - g.faceCenter f) (A - g.faceCenter f)
      have : cross (A - g.faceCenter f) (B - g.faceCenter f) = -cross (B - g.faceCenter f) (A - g.faceCenter f) := by
        apply ext3 <;> simp only [h1, h2, Pi.neg_apply] <;> ring
      rw [this, norm_neg]
  obtain ⟨hν, hr⟩ := hs
  have key : ∀ l : List (Vec 3 ℝ × Vec 3 ℝ), (∀ p ∈ l, ∃ r : ℝ, 0 ≤ r ∧ cross (p.1 - g.faceCenter f) (p.2 - g.faceCenter f) = r • ν) →
      (l.map fun p => cross (p.1 - g.faceCenter f) (p.2 - g.faceCenter f)).sum =
        (2 * (l.map fun p => triangleArea p.1 p.2 (g.faceCenter f)).sum) • ν := by
    intro l
    induction l with
    | nil => intro _; simp
    | cons p l ih =>
      intro h
      obtain ⟨r, h1, h2⟩ := h p List.mem_cons_self
      have ht : triangleArea p.1 p.2 (g.faceCenter f) = 1 / 2 * r := by
        rw [triangleArea, h2, norm_smul, hν, abs_of_nonneg h1, mul_one]
      rw [List.map_cons, List.sum_cons, ih fun q hq => h q (List.mem_cons_of_mem p hq), List.map_cons, List.sum_cons, ht, h2, ← add_smul]
      congr 1
      ring
  have hsum := key _ hr
  rw [sum_cross, ← e, mul_smul] at hsum
  have h2 : vectorArea ps = faceArea g f • ν := by
    have := congrArg (fun x => (1 / 2 : ℝ) • x) hsum
    simp only [smul_smul] at this
    rw [show (1 / 2 * (2 * faceArea g f) : ℝ) = faceArea g f by ring, show (1 / 2 * 2 : ℝ) = 1 by norm_num, one_smul] at this
    exact this
  refine ⟨?_, h2⟩
  have hnn : 0 ≤ faceArea g f := by
    rw [e]
    apply sum_nonneg
    intro x hx
    obtain ⟨p, _, rfl⟩ := List.mem_map.mp hx
    exact mul_nonneg (by norm_num) (norm_nonneg' _)
  rw [h2, norm_smul, hν, mul_one, abs_of_nonneg hnn]

theorem C39_planar_face (g : GMesh 3 ℝ) (bd : Idx → List Idx) (hv : ValidMesh g.mesh bd) (h3 : g.mesh.dim = 3) (hd : NonDegenerate g)
    (f : Nat) (fa : Face) (hf : (g.mesh.midElems 2)[f]? = some fa) (vs : List Idx) (ps : List (Vec 3 ℝ))
    (hp : IsPolygon g.mesh.edges fa.sub vs) (hpos : PositionsOf g.mesh vs ps) (ν : Vec 3 ℝ) (hs : SeesAround (g.faceCenter f) ν ps) :
    ∃ ls fs cs, computeMeasures3 g = .ok (ls, fs, cs) ∧ fs[f]? = some (Vec.norm (vectorArea ps)) := by
  refine ⟨_, _, _, C39_measures_3d g bd hv h3 hd, ?_⟩
  rw [List.getElem?_map, List.getElem?_range (List.getElem?_eq_some_iff.mp hf).1]
  simp only [Option.map_some]
  rw [(face_area_polygon g hf hp hpos hs).1]

/-- The faces of the cell `i` are planar polygons `P f`, seen from their centers counterclockwise around the outer unit normals `ν f`;
the center of the cell lies on the inner side of all of them, and the surface is closed. -/
structure StarShaped (g : GMesh 3 ℝ) (faces : List Idx) (center : Vec 3 ℝ) (P : Idx → List (Vec 3 ℝ)) (ν : Idx → Vec 3 ℝ) : Prop where
  polygon : ∀ f ∈ faces, ∃ fa vs, (g.mesh.midElems 2)[f]? = some fa ∧ IsPolygon g.mesh.edges fa.sub vs ∧ PositionsOf g.mesh vs (P f)
  sees : ∀ f ∈ faces, SeesAround (g.faceCenter f) (ν f) (P f)
  inner : ∀ f ∈ faces, 0 ≤ dot (g.faceCenter f - center) (ν f)
  closed : (faces.map fun f => vectorArea (P f)).sum = 0

/-- C39. The measure of a star-shaped cell with planar faces is its volume as given by the divergence theorem,
`1/3 Σ (point of the face) · (vector area of the face)`; it does not depend on the center of the cell. -/
theorem C39_volume (g : GMesh 3 ℝ) (bd : Idx → List Idx) (hv : ValidMesh g.mesh bd) (h3 : g.mesh.dim = 3) (hd : NonDegenerate g)
    (i : Nat) (hi : i < g.mesh.cells.length) (P : Idx → List (Vec 3 ℝ)) (ν : Idx → Vec 3 ℝ)
    (hs : StarShaped g (bd i) (g.cellCenter i) P ν) :
    ∃ ls fs cs, computeMeasures3 g = .ok (ls, fs, cs) ∧
      cs[i]? = some (1 / 3 * ((bd i).map fun f => dot (g.faceCenter f) (vectorArea (P f))).sum) := by
  refine ⟨_, _, _, C39_measures_3d g bd hv h3 hd, ?_⟩
  rw [List.getElem?_map, List.getElem?_range hi]
  simp only [Option.map_some, Option.some.injEq]
  have hn2 : g.mesh.numElems 2 = (g.mesh.midElems 2).length := by
    unfold Mesh.numElems; rw [if_neg (by omega), if_neg (by omega), if_neg (by omega)]
  have hpyr : ∀ f ∈ bd i, pyramid g (g.cellCenter i) f =
      1 / 3 * dot (g.faceCenter f) (vectorArea (P f)) - 1 / 3 * dot (g.cellCenter i) (vectorArea (P f)) := by
    intro f hf
    obtain ⟨fa, vs, p1, p2, p3⟩ := hs.polygon f hf
    have hlt := bd_lt hv hi f hf
    rw [h3, show 3 - 1 = 2 from rfl, hn2] at hlt
    obtain ⟨_, harea⟩ := face_area_polygon g p1 p2 p3 (hs.sees f hf)
    have hfe : faceEdges g.mesh f = fa.sub.map (ends g.mesh) := by rw [faceEdges, p1]; rfl
    have hne := hd.nonempty f hlt
    have hfc := hd.faces f hlt
    have hin := hs.inner f hf
    cases hsub : fa.sub with
    | nil => rw [hfe, hsub] at hne; simp at hne
    | cons e es =>
      have hfs : firstSide g.mesh f = ends g.mesh e := by rw [firstSide, hfe, hsub]; rfl
      rw [hfs] at hfc
      obtain ⟨p, q1, q2⟩ := polygon_side p2 p3 (e := e) (by rw [hsub]; exact List.mem_cons_self)
      obtain ⟨hν, hr⟩ := hs.sees f hf
      obtain ⟨r, r1, r2⟩ := hr p q1
      have hk : ∃ s : ℝ, s ≠ 0 ∧ cross ((ends g.mesh e).1 - g.faceCenter f) ((ends g.mesh e).2 - g.faceCenter f) = s • ν f := by
        rcases q2 with q2 | q2
        · rw [q2] at hfc ⊢
          refine ⟨r, ?_, r2⟩
          rintro rfl
          rw [r2, zero_smul] at hfc
          exact hfc rfl
        · have hsw : cross (p.2 - g.faceCenter f) (p.1 - g.faceCenter f) = (-r) • ν f := by
            have h1 := cross_apply (p.2 - g.faceCenter f) (p.1 - g.faceCenter f)
            have h2 := cross_apply (p.1 - g.faceCenter f) (p.2 - g.faceCenter f)
            rw [neg_smul, ← r2]
            apply ext3 <;> simp only [h1, h2, Pi.neg_apply] <;> ring
          rw [q2] at hfc ⊢
          refine ⟨-r, ?_, hsw⟩
          intro h0
          rw [hsw, h0, zero_smul] at hfc
          exact hfc rfl
      obtain ⟨s, s1, s2⟩ := hk
      have horth : dot ((ends g.mesh e).1 - g.faceCenter f) (ν f) = 0 := by
        have := dot_cross_left ((ends g.mesh e).1 - g.faceCenter f) ((ends g.mesh e).2 - g.faceCenter f)
        rw [s2, dot_smul, dot_comm] at this
        exact (mul_eq_zero.mp this).resolve_left s1
      have hdist : planeDistance (g.cellCenter i) (ends g.mesh e).1 (ends g.mesh e).2 (g.faceCenter f) =
          dot (g.faceCenter f - g.cellCenter i) (ν f) := by
        rw [planeDistance, (cross_rel _ _ _).1, s2, norm_smul, hν, mul_one, dot_smul_right, abs_mul,
          mul_div_cancel_left₀ _ (abs_ne_zero.mpr s1)]
        have e1 : g.cellCenter i - (ends g.mesh e).1 = -(g.faceCenter f - g.cellCenter i) - ((ends g.mesh e).1 - g.faceCenter f) := by abel
        rw [e1, dot_sub, horth, sub_zero, show -(g.faceCenter f - g.cellCenter i) = (-1 : ℝ) • (g.faceCenter f - g.cellCenter i) by simp,
          dot_smul, neg_one_mul, abs_neg, abs_of_nonneg hin]
      rw [pyramid, hfs, hdist, harea, dot_smul_right, dot_smul_right, dot_sub]
      ring
  have hmap : (bd i).map (pyramid g (g.cellCenter i)) = (bd i).map fun f =>
      1 / 3 * dot (g.faceCenter f) (vectorArea (P f)) - 1 / 3 * dot (g.cellCenter i) (vectorArea (P f)) :=
    List.map_congr_left hpyr
  rw [hmap]
  have hsplit : ∀ l : List Idx, (l.map fun f => 1 / 3 * dot (g.faceCenter f) (vectorArea (P f)) - 1 / 3 * dot (g.cellCenter i) (vectorArea (P f))).sum =
      1 / 3 * (l.map fun f => dot (g.faceCenter f) (vectorArea (P f))).sum - 1 / 3 * dot (g.cellCenter i) (l.map fun f => vectorArea (P f)).sum := by
    intro l
    induction l with
    | nil => simp [dot_zero]
    | cons f l ih =>
      simp only [List.map_cons, List.sum_cons, ih, dot_add_right]
      ring
  rw [hsplit, hs.closed, dot_zero, mul_zero, sub_zero]

end GTMesh.Props
