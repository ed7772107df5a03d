import Verif.Props.SavedGeometry
import Verif.Props.LoadedTets
import Verif.Props.Vtk3valid

/-! # C74: saving and loading a 3D mesh in the VTK format -/

namespace GTMesh.Props
open Spec Std' Vec Geo

theorem norm_zero3 : Vec.norm (0 : Vec 3 ℝ) = 0 := by simp [norm_real, dot_zero]

/-- The crosses at the centroid of a triangle. -/
theorem tri_cross (P Q R : Vec 3 ℝ) : ∀ p ∈ sidesOf [P, Q, R], cross (p.1 - mean [P, Q, R]) (p.2 - mean [P, Q, R]) = (1 / 3 : ℝ) • cross (Q - P) (R - P) := by
  intro p hp
  have e0 := cross_apply (Q - P) (R - P)
  have m0 : ∀ k, mean [P, Q, R] k = (P k + Q k + R k) / 3 := by intro k; simp [mean]; ring
  rcases mem_sides3 hp with rfl | rfl | rfl
  · have h1 := cross_apply (P - mean [P, Q, R]) (Q - mean [P, Q, R])
    apply ext3 <;> simp only [h1, e0, Pi.sub_apply, Pi.smul_apply, smul_eq_mul, m0] <;> ring
  · have h1 := cross_apply (Q - mean [P, Q, R]) (R - mean [P, Q, R])
    apply ext3 <;> simp only [h1, e0, Pi.sub_apply, Pi.smul_apply, smul_eq_mul, m0] <;> ring
  · have h1 := cross_apply (R - mean [P, Q, R]) (P - mean [P, Q, R])
    apply ext3 <;> simp only [h1, e0, Pi.sub_apply, Pi.smul_apply, smul_eq_mul, m0] <;> ring

/-- A triangle with an area is flat. -/
theorem tri_flat {P Q R : Vec 3 ℝ} (hN : cross (Q - P) (R - P) ≠ 0) : Flat (tri P Q R).1 (tri P Q R).2 := by
  obtain ⟨h1, _, h3⟩ := normal_pos hN
  refine ⟨h3, fun p hp => ?_⟩
  have hn : Vec.norm (cross (Q - P) (R - P)) ≠ 0 := by intro h; rw [h] at h1; simp at h1
  refine ⟨1 / 3 * Vec.norm (cross (Q - P) (R - P)), by positivity, ?_⟩
  rw [show (tri P Q R).1 = [P, Q, R] from rfl] at hp ⊢
  rw [tri_cross P Q R p hp, show (tri P Q R).2 = (Vec.norm (cross (Q - P) (R - P)))⁻¹ • cross (Q - P) (R - P) from rfl, smul_smul, mul_assoc,
    mul_inv_cancel₀ hn, mul_one]

/-- The cone over a triangle. -/
theorem tri_cone {P Q R : Vec 3 ℝ} (hN : cross (Q - P) (R - P) ≠ 0) (X : Vec 3 ℝ) :
    coneVolume X (tri P Q R) = 1 / 6 * |dot (X - mean [P, Q, R]) (cross (Q - P) (R - P))| := by
  obtain ⟨h1, _, _⟩ := normal_pos hN
  have hn : Vec.norm (cross (Q - P) (R - P)) ≠ 0 := by intro h; rw [h] at h1; simp at h1
  have hfan : fanArea [P, Q, R] = 1 / 2 * Vec.norm (cross (Q - P) (R - P)) := by
    have ht : ∀ p ∈ sidesOf [P, Q, R], triangleArea p.1 p.2 (mean [P, Q, R]) = 1 / 6 * Vec.norm (cross (Q - P) (R - P)) := by
      intro p hp
      rw [triangleArea, tri_cross P Q R p hp, norm_smul, abs_of_pos (by norm_num)]
      ring
    rw [fanArea, List.map_congr_left ht]
    simp [sidesOf, List.rotate]
    ring
  rw [coneVolume, tri_dot]
  rw [show (tri P Q R).1 = [P, Q, R] from rfl, hfan, abs_mul, abs_of_pos h1]
  field_simp
  ring

/-- The triangles of a tetrahedron, in the order of the VTK format. -/
noncomputable def tetTris (A B C D : Vec 3 ℝ) : List (List (Vec 3 ℝ) × Vec 3 ℝ) := [tri A B C, tri A B D, tri B C D, tri C A D]

theorem tet_crosses {A B C D : Vec 3 ℝ} (h : det4 A B C D ≠ 0) :
    cross (B - A) (C - A) ≠ 0 ∧ cross (B - A) (D - A) ≠ 0 ∧ cross (C - B) (D - B) ≠ 0 ∧ cross (A - C) (D - C) ≠ 0 := by
  refine ⟨cross_ne_of_det h, cross_ne_of_det (S := C) ?_, cross_ne_of_det (S := A) ?_, cross_ne_of_det (S := B) ?_⟩
  · have : det4 A B D C = - det4 A B C D := by rw [det4_eq, det4_eq]; ring
    rw [this]; exact neg_ne_zero.mpr h
  · have : det4 B C D A = - det4 A B C D := by rw [det4_eq, det4_eq]; ring
    rw [this]; exact neg_ne_zero.mpr h
  · have : det4 C A D B = - det4 A B C D := by rw [det4_eq, det4_eq]; ring
    rw [this]; exact neg_ne_zero.mpr h

/-- The volume that is computed for a tetrahedron. -/
theorem tet_cones {A B C D : Vec 3 ℝ} (h : det4 A B C D ≠ 0) :
    ((tetTris A B C D).map (coneVolume (mean ((tetTris A B C D).map fun x => mean x.1)))).sum = |det4 A B C D| / 6 := by
  obtain ⟨h1, h2, h3, h4⟩ := tet_crosses h
  set X := mean ((tetTris A B C D).map fun x => mean x.1) with hX
  have m3 : ∀ (P Q R : Vec 3 ℝ) k, mean [P, Q, R] k = (P k + Q k + R k) / 3 := by intro P Q R k; simp [mean]; ring
  have mX : ∀ k, X k = (A k + B k + C k + D k) / 4 := by
    intro k
    simp only [hX, tetTris, tri, List.map_cons, List.map_nil]
    simp only [mean, List.sum_cons, List.sum_nil, List.length_cons, List.length_nil, Pi.smul_apply, Pi.add_apply, Pi.zero_apply, smul_eq_mul]
    push_cast
    ring
  have d : ∀ P Q R : Vec 3 ℝ, dot (X - mean [P, Q, R]) (cross (Q - P) (R - P)) = (X 0 - (P 0 + Q 0 + R 0) / 3) * ((Q 1 - P 1) * (R 2 - P 2) - (Q 2 - P 2) * (R 1 - P 1)) +
      (X 1 - (P 1 + Q 1 + R 1) / 3) * ((Q 2 - P 2) * (R 0 - P 0) - (Q 0 - P 0) * (R 2 - P 2)) + (X 2 - (P 2 + Q 2 + R 2) / 3) * ((Q 0 - P 0) * (R 1 - P 1) - (Q 1 - P 1) * (R 0 - P 0)) := by
    intro P Q R
    have hc := cross_apply (Q - P) (R - P)
    simp only [dot3, hc, Pi.sub_apply, m3]
  have k1 : dot (X - mean [A, B, C]) (cross (B - A) (C - A)) = det4 A B C D / 4 := by rw [d, det4_eq]; simp only [mX]; ring
  have k2 : dot (X - mean [A, B, D]) (cross (B - A) (D - A)) = -(det4 A B C D / 4) := by rw [d, det4_eq]; simp only [mX]; ring
  have k3 : dot (X - mean [B, C, D]) (cross (C - B) (D - B)) = -(det4 A B C D / 4) := by rw [d, det4_eq]; simp only [mX]; ring
  have k4 : dot (X - mean [C, A, D]) (cross (A - C) (D - C)) = -(det4 A B C D / 4) := by rw [d, det4_eq]; simp only [mX]; ring
  have e4 : |det4 A B C D / 4| = |det4 A B C D| / 4 := by rw [abs_div, abs_of_pos (show (0:ℝ) < 4 by norm_num)]
  rw [show (tetTris A B C D).map (coneVolume X) = [coneVolume X (tri A B C), coneVolume X (tri A B D), coneVolume X (tri B C D), coneVolume X (tri C A D)] from rfl,
    tri_cone h1, tri_cone h2, tri_cone h3, tri_cone h4, k1, k2, k3, k4]
  simp only [List.sum_cons, List.sum_nil, abs_neg, e4]
  ring

/-- Every vertex of a polygon of edges has a position. -/
theorem polygon_positions {n : Nat} {m : Mesh (Vec n ℝ)} {bd : Idx → List Idx} (hv : ValidMesh m bd) {l p : List Idx} (hp : IsPolygon m.edges l p) :
    ∃ ps, PositionsOf m p ps := by
  obtain ⟨h0, h1, _, es, _, h2, h3⟩ := hp
  have hlt : ∀ v ∈ p, ∃ x, m.vertices[v]? = some x := by
    intro v hvp
    obtain ⟨j, hj⟩ := List.getElem?_of_mem hvp
    have hjl := (List.getElem?_eq_some_iff.mp hj).1
    obtain ⟨i, x, y, b1, b2, _, ed, b4, b5⟩ := h3 j hjl
    rw [cyc, Nat.mod_eq_of_lt hjl, hj] at b2
    cases b2
    obtain ⟨A, B, hA, hB⟩ := exists_ends hv b4
    unfold SamePair at b5
    simp only [Prod.mk.injEq] at b5
    rcases b5 with ⟨rfl, _⟩ | ⟨_, rfl⟩
    · exact ⟨A, hA⟩
    · exact ⟨B, hB⟩
  clear h0 h1 h2 h3
  induction p with
  | nil => exact ⟨[], .nil⟩
  | cons v p ih =>
    obtain ⟨ps, h⟩ := ih fun v hv => hlt v (List.mem_cons_of_mem _ hv)
    obtain ⟨x, hx⟩ := hlt v List.mem_cons_self
    exact ⟨x :: ps, .cons hx h⟩

/-- Flatness does not depend on how the polygon of a face is listed. -/
theorem flat_other {m : Mesh (Vec 3 ℝ)} {f : Idx} {ps ps' : List (Vec 3 ℝ)} {ν : Vec 3 ℝ} (h : FaceShape m f ps) (h' : FaceShape m f ps') (hf : Flat ps ν) :
    mean ps' = mean ps ∧ Flat ps' ν := by
  have hm : mean ps' = mean ps := by
    obtain ⟨fa, vs, h1, h2, h3⟩ := h
    obtain ⟨fa', vs', k1, k2, k3⟩ := h'
    rw [h1] at k1
    cases k1
    rw [← polygon_mean h2 h3, ← polygon_mean k2 k3]
  refine ⟨hm, hf.1, ?_⟩
  intro p hp
  rw [hm]
  obtain ⟨fa', vs', k1, k2, k3⟩ := h'
  obtain ⟨es, e1, e2⟩ := polygon_ends k2 k3
  have : ∃ e ∈ es, ends m e = p ∨ ends m e = (p.2, p.1) := by
    generalize sidesOf ps' = S at hp e2
    clear e1
    induction e2 with
    | nil => simp at hp
    | @cons e q es S h _ ih =>
      rcases List.mem_cons.mp hp with rfl | hp
      · exact ⟨e, List.mem_cons_self, h⟩
      · obtain ⟨e', a1, a2⟩ := ih hp
        exact ⟨e', List.mem_cons_of_mem _ a1, a2⟩
  obtain ⟨e, he, hq⟩ := this
  obtain ⟨s, s1, s2⟩ := flat_edge h hf (p := ends m e) (by
    rw [faceEdges, k1]
    exact List.mem_map_of_mem (e1.mem_iff.mp he))
  rcases hq with hq | hq
  · rw [hq] at s2; exact ⟨s, s1, s2⟩
  · rw [hq] at s2
    refine ⟨-s, neg_ne_zero.mpr s1, ?_⟩
    rw [neg_smul, ← s2]
    exact cross_flip _ _ _

/-- The faces of a solid in a mesh. -/
theorem solid_list {m : Mesh (Vec 3 ℝ)} {l vs : List Idx} {t : Nat} (h : Vtk.IsSolid m l vs t) :
    ∃ l', l'.Perm l ∧ List.Forall₂ (fun f p => ∃ fa, (m.midElems 2)[f]? = some fa ∧ IsPolygon m.edges fa.sub p) l' (Vtk.facePolygons vs) := by
  obtain ⟨l', h1, h2, h3⟩ := h.faces
  refine ⟨l', h1, List.forall₂_iff_get.mpr ⟨h2, ?_⟩⟩
  intro j j1 j2
  obtain ⟨i, x, a1, a2, a3⟩ := h3 j _ (List.getElem?_eq_getElem j2)
  rw [List.getElem?_eq_getElem j1] at a1
  simp only [List.get_eq_getElem]
  rw [Option.some.inj a1]
  exact ⟨x, a2, a3⟩

/-- The same polygons in two meshes with the same positions. -/
theorem same_shapes {m m' : Mesh (Vec 3 ℝ)} {bd : Idx → List Idx} (hv : ValidMesh m bd) (hsub : ∀ (v : Nat) x, m.vertices[v]? = some x → m'.vertices[v]? = some x)
    {l l' : List Idx} {ps : List (List Idx)} (h : List.Forall₂ (fun f p => ∃ fa, (m.midElems 2)[f]? = some fa ∧ IsPolygon m.edges fa.sub p) l ps)
    (h' : List.Forall₂ (fun f p => ∃ fa, (m'.midElems 2)[f]? = some fa ∧ IsPolygon m'.edges fa.sub p) l' ps)
    (hflat : ∀ f ∈ l, ∃ ps ν, FaceShape m f ps ∧ Flat ps ν) :
    ∃ L : List (List (Vec 3 ℝ) × Vec 3 ℝ), List.Forall₂ (fun f x => FaceShape m f x.1 ∧ Flat x.1 x.2) l L ∧
      List.Forall₂ (fun f x => FaceShape m' f x.1 ∧ Flat x.1 x.2) l' L := by
  induction h generalizing l' with
  | nil => cases h'; exact ⟨[], .nil, .nil⟩
  | @cons f p l ps h1 _ ih =>
    cases h' with
    | @cons f' _ l' _ h1' ht =>
      obtain ⟨L, a, b⟩ := ih ht fun f hf => hflat f (List.mem_cons_of_mem _ hf)
      obtain ⟨fa, q1, q2⟩ := h1
      obtain ⟨fa', q1', q2'⟩ := h1'
      obtain ⟨xs, hx⟩ := polygon_positions hv q2
      obtain ⟨ps0, ν, r1, r2⟩ := hflat f List.mem_cons_self
      have hs : FaceShape m f xs := ⟨fa, p, q1, q2, hx⟩
      have hfl := (flat_other r1 hs r2).2
      exact ⟨(xs, ν) :: L, .cons ⟨hs, hfl⟩ a, .cons ⟨⟨fa', p, q1', q2', hx.imp fun v x h => hsub v x h⟩, hfl⟩ b⟩

/-- The faces of a tetrahedron in a mesh. -/
theorem tet_shapes {m : Mesh (Vec 3 ℝ)} {l : List Idx} {a b c d : Idx} (h : Vtk.IsSolid m l [a, b, c, d] 300) {A B C D : Vec 3 ℝ}
    (hA : m.vertices[a]? = some A) (hB : m.vertices[b]? = some B) (hC : m.vertices[c]? = some C) (hD : m.vertices[d]? = some D) (hdet : det4 A B C D ≠ 0) :
    ∃ l', l'.Perm l ∧ List.Forall₂ (fun f x => FaceShape m f x.1 ∧ Flat x.1 x.2) l' (tetTris A B C D) := by
  obtain ⟨l', h1, h2⟩ := solid_list h
  refine ⟨l', h1, ?_⟩
  obtain ⟨k1, k2, k3, k4⟩ := tet_crosses hdet
  rw [Vtk.tetra_polygons] at h2
  have sh : ∀ {f : Idx} {p q r : Idx} {P Q R : Vec 3 ℝ}, (∃ fa, (m.midElems 2)[f]? = some fa ∧ IsPolygon m.edges fa.sub [p, q, r]) →
      m.vertices[p]? = some P → m.vertices[q]? = some Q → m.vertices[r]? = some R → cross (Q - P) (R - P) ≠ 0 →
      FaceShape m f (tri P Q R).1 ∧ Flat (tri P Q R).1 (tri P Q R).2 := by
    rintro f p q r P Q R ⟨fa, q1, q2⟩ hp hq hr hn
    exact ⟨⟨fa, _, q1, q2, .cons hp (.cons hq (.cons hr .nil))⟩, tri_flat hn⟩
  cases h2 with
  | cons x1 h2 =>
    cases h2 with
    | cons x2 h2 =>
      cases h2 with
      | cons x3 h2 =>
        cases h2 with
        | cons x4 h2 =>
          cases h2
          exact .cons (sh x1 hA hB hC k1) (.cons (sh x2 hA hB hD k2) (.cons (sh x3 hB hC hD k3) (.cons (sh x4 hC hA hD k4) .nil)))

/-- The pieces of one cell among all the pieces. -/
theorem filter_flatMap_range {α : Type} (g : Nat → List α) (o : α → Nat) (ho : ∀ i, ∀ x ∈ g i, o x = i) (n i : Nat) (hi : i < n) :
    ((List.range n).flatMap g).filter (fun x => o x == i) = g i := by
  have hall : ∀ j, (g j).filter (fun x => o x == i) = if j = i then g i else [] := by
    intro j
    split
    · rename_i h; subst h
      exact List.filter_eq_self.mpr fun x hx => by simp [ho _ x hx]
    · rename_i h
      exact List.filter_eq_nil_iff.mpr fun x hx => by simp [ho _ x hx, h]
  induction n with
  | zero => omega
  | succ n ih =>
    rw [List.range_succ, List.flatMap_append, List.filter_append]
    simp only [List.flatMap_cons, List.flatMap_nil, List.append_nil]
    rw [hall]
    by_cases h : n = i
    · subst h
      rw [if_pos rfl]
      have : ((List.range n).flatMap g).filter (fun x => o x == n) = [] := by
        refine List.filter_eq_nil_iff.mpr fun x hx => ?_
        obtain ⟨j, hj, hx⟩ := List.mem_flatMap.mp hx
        have := List.mem_range.mp hj
        have e := ho _ x hx
        simp only [beq_iff_eq]; omega
      rw [this, List.nil_append]
    · rw [if_neg h, ih (by omega), List.append_nil]

theorem sum_flatMap_range (g : Nat → List α) (φ : α → ℝ) (n : Nat) :
    (((List.range n).flatMap g).map φ).sum = ((List.range n).map fun i => ((g i).map φ).sum).sum := by
  induction n with
  | zero => rfl
  | succ n ih =>
    rw [List.range_succ, List.flatMap_append, List.map_append, List.sum_append, ih, List.map_append, List.sum_append]
    simp

/-- The volumes of the cells that are read from `pieces`, for the cell `i`. -/
def partsOf (pieces : List Vtk.Piece) (vols : List ℝ) (i : Idx) : List ℝ := ((pieces.zip vols).filter fun x => x.1.origin == i).map (·.2)

theorem partsOf_map (pieces : List Vtk.Piece) (φ : Vtk.Piece → ℝ) (i : Idx) :
    partsOf pieces (pieces.map φ) i = (pieces.filter fun x => x.origin == i).map φ := by
  induction pieces with
  | nil => rfl
  | cons x l ih =>
    unfold partsOf at ih ⊢
    rw [List.map_cons, List.zip_cons_cons, List.filter_cons, List.filter_cons]
    by_cases h : (x.origin == i) = true
    · rw [if_pos h, if_pos h, List.map_cons, List.map_cons, ih]
    · rw [if_neg h, if_neg h, ih]

/-- C74, VTK 3D. A mesh as in `C51_valid_partial` (any mixture of solids and polyhedra), written with the computed centers and read; its faces are
flat polygons (that need not be convex), the ends of each edge have different positions, and the center of a cell that is split is not in the
plane of a face of the cell. With the centers that are computed before and after: a solid keeps its center and its volume; the volumes of the
tetrahedra a cell is split into add up to the volume of the cell; the total volume is the same. -/
theorem C74_vtk_3d (ori : Idx → Bool) (key : Vtk.Point3 ℝ → List Char) (cc fc : Idx → Vtk.Point3 ℝ) (hash : Nat)
    (m : Mesh (Vtk.Point3 ℝ)) (bd vert poly : Idx → List Idx) (types : List Nat) (w0 : Vtk.Writer3 (Vtk.Point3 ℝ)) (hhash : w0.lastHash ≠ hash)
    (hd : m.dim = 3) (hv : ValidMesh m bd) (hn : Vtk.Numbered m) (htl : types.length = m.cells.length)
    (hsol : ∀ (i : Nat) t, types[i]? = some t → Vtk.isSplit types i = false → Vtk.IsSolid m (bd i) (vert i) t)
    (hnd : Vtk.NoDoubles m) (hpoly : Vtk.SplitPolyhedra m bd types poly) (hkey : Vtk.DistinctCenters key cc fc m bd types)
    (hfit : 12 * (Vtk.exported m bd types).length ≤ INVALID)
    (shape : Idx → List (Vec 3 ℝ) × Vec 3 ℝ) (hflat : ∀ f, f < (m.midElems 2).length → FaceShape (m.mapV vec3) f (shape f).1 ∧ Flat (shape f).1 (shape f).2)
    (hedge : ∀ e ∈ m.edges, at3 m.vertices e.a ≠ at3 m.vertices e.b)
    (hcen : ∀ cs, computeCenters (m.mapV vec3) = .ok cs →
      (∀ i, i < m.cells.length → entry cs 3 i = some (vec3 (cc i))) ∧ ∀ f, f < (m.midElems 2).length → entry cs 2 f = some (vec3 (fc f)))
    (hapex : ∀ i f, i < m.cells.length → Vtk.isSplit types i = true → f ∈ bd i → dot (vec3 (cc i) - vec3 (fc f)) (shape f).2 ≠ 0)
    (res : Nat) (hres : res = 0 ∨ 4 ≤ res) (title : List String) (types0 : List Nat) (m0 : Mesh (Vtk.Point3 ℝ)) (hd0 : m0.dim = 3) :
    ∃ w ts m' t', Vtk.writeToStream3 ori key cc fc hash m types w0 = .ok (w, ts) ∧ Vtk.load3 res (Vtk.header title ++ ts) types0 m0 = .ok (m', t') ∧
      ∀ g g' : GMesh 3 ℝ, g.mesh = m.mapV vec3 → g'.mesh = m'.mapV vec3 →
        ∃ cs ls as vols cs' ls' as' vols', computeCenters g.mesh = .ok cs ∧ computeMeasures3 (setCenters g cs) = .ok (ls, as, vols) ∧
          computeCenters g'.mesh = .ok cs' ∧ computeMeasures3 (setCenters g' cs') = .ok (ls', as', vols') ∧
          (∀ (k : Nat) i, (Vtk.exported m bd types)[k]? = some (.whole i) → entry cs' 3 k = entry cs 3 i ∧ vols'[k]? = vols[i]?) ∧
          (∀ i, i < m.cells.length → vols[i]? = some (partsOf (Vtk.exported m bd types) vols' i).sum) ∧
          vols'.length = (Vtk.exported m bd types).length ∧ vols'.sum = vols.sum := by
  obtain ⟨w, ts, m', t', bd', h1, h2, h3, hv', _, _, hd', hcov, hecov, h7, _, faceAt, cellAt, hface, hcell, hpiece⟩ := Vtk.saved3 ori key cc fc hash m bd vert poly types w0 hhash hd hv
    hn htl hsol hnd hpoly hkey hfit res hres title types0 m0 hd0
  refine ⟨w, ts, m', t', h1, h2, ?_⟩
  intro g g' hg hg'
  have hvg : ValidMesh g.mesh bd := by rw [hg]; exact hv.mapV vec3
  have hvg' : ValidMesh g'.mesh bd' := by rw [hg']; exact hv'.mapV vec3
  have hdg : g.mesh.dim = 3 := by rw [hg]; exact hd
  have hdg' : g'.mesh.dim = 3 := by rw [hg']; exact hd'
  have hpos : ∀ v, g.mesh.vertices[v]? = at3 m.vertices v := by
    intro v
    rw [hg]
    show (m.vertices.map vec3)[v]? = _
    rw [List.getElem?_map]; rfl
  have hpos' : ∀ v, g'.mesh.vertices[v]? = at3 (m.vertices ++ w.appended) v := by
    intro v
    rw [hg', ← h3]
    show (m'.vertices.map vec3)[v]? = _
    rw [List.getElem?_map]; rfl
  have hsub : ∀ (v : Nat) x, g.mesh.vertices[v]? = some x → g'.mesh.vertices[v]? = some x := by
    intro v x hx
    rw [hpos, at3, Option.map_eq_some_iff] at hx
    obtain ⟨y, y1, y2⟩ := hx
    rw [hpos', at3, List.getElem?_append_left (List.getElem?_eq_some_iff.mp y1).1, y1, ← y2]
    rfl
  have happ : ∀ (j : Nat) x, w.appended[j]? = some x → g'.mesh.vertices[m.vertices.length + j]? = some (vec3 x) := by
    intro j x hx
    rw [hpos', at3, List.getElem?_append_right (by omega), Nat.add_sub_cancel_left, hx]
    rfl
  have hmid : g.mesh.midElems 2 = m.midElems 2 := by rw [hg]; rfl
  have hmid' : g'.mesh.midElems 2 = m'.midElems 2 := by rw [hg']; rfl
  have hed : g.mesh.edges = m.edges := by rw [hg]; rfl
  have hed' : g'.mesh.edges = m'.edges := by rw [hg']; rfl
  have hcl : g.mesh.cells.length = m.cells.length := by rw [hg]; rfl
  have hcl' : g'.mesh.cells.length = (Vtk.exported m bd types).length := by rw [hg']; exact h7
  have hshape : ∀ f, f < (m.midElems 2).length → FaceShape g.mesh f (shape f).1 ∧ Flat (shape f).1 (shape f).2 := by
    intro f hf; rw [hg]; exact hflat f hf
  have hends : ∀ e, e < g.mesh.edges.length → (ends g.mesh e).1 ≠ (ends g.mesh e).2 := by
    intro e he
    have hed0 := List.getElem?_eq_getElem he
    obtain ⟨A, B, hA, hB⟩ := exists_ends hvg hed0
    rw [ends, hed0]
    simp only [Option.map_some, Option.getD_some, hA, hB]
    rintro rfl
    have hmem : g.mesh.edges[e] ∈ m.edges := by rw [← hed]; exact List.getElem_mem he
    refine hedge _ hmem ?_
    rw [← hpos, ← hpos, hA, hB]
  obtain ⟨cs, ls, as, vols, a1, a2, a3, a4, a5, a6, _, a7, a8⟩ := flat_geometry g bd hvg hdg
    (fun f hf => ⟨_, _, hshape f (by rw [← hmid]; exact hf)⟩) hends
  obtain ⟨c1, c2⟩ := hcen cs (by rw [← hg]; exact a1)
  have hrange : ∀ c, c < m.cells.length → ∀ f ∈ bd c, f < (m.midElems 2).length := by
    intro c hlt
    have := hv.range 3 c (by omega) (by omega) (by unfold Mesh.numElems; rw [if_pos hd.symm]; exact hlt)
    have hds : directSubs m bd 3 c = bd c := by unfold directSubs; rw [if_pos hd.symm]
    rw [hds] at this
    intro f hf
    have := this f hf
    simpa [Mesh.numElems, hd] using this
  have hfc : ∀ f, f < (m.midElems 2).length → mean (shape f).1 = vec3 (fc f) := by
    intro f hf
    have := (a7 f _ (hshape f hf).1).1
    rw [c2 f hf] at this
    exact (Option.some.inj this).symm
  -- the volume of a piece
  let φ : Vtk.Piece → ℝ := fun x => match x with
    | .whole i => (vols[i]?).getD 0
    | .part i f e => 1 / 3 * triangleArea (ends g.mesh e).1 (ends g.mesh e).2 (vec3 (fc f)) * |dot (vec3 (cc i) - vec3 (fc f)) (shape f).2|
  -- what is known of a piece
  have hp : ∀ (k : Nat) x, (Vtk.exported m bd types)[k]? = some x → ∃ l' L, l'.Perm (bd' k) ∧
      List.Forall₂ (fun f x => FaceShape g'.mesh f x.1 ∧ Flat x.1 x.2) l' L ∧ (L.map (coneVolume (mean (L.map fun x => mean x.1)))).sum = φ x ∧
      ∀ i, x = .whole i → some (mean (L.map fun x => mean x.1)) = entry cs 3 i ∧ some (φ x) = vols[i]? := by
    intro k x hx
    have hm := List.mem_of_getElem? hx
    obtain ⟨_, hk⟩ := hpiece k x hx
    cases x with
    | whole i =>
      obtain ⟨i1, i2⟩ := Vtk.mem_exported hm
      obtain ⟨_, hk⟩ := hk
      have ht := List.getElem?_eq_getElem (show i < types.length by omega)
      have hS : Vtk.IsSolid g.mesh (bd i) (vert i) (types[i]'(by omega)) := by
        obtain ⟨b1, b2, b3⟩ := hsol i _ ht i2
        exact ⟨b1, b2, by rw [hed, hmid]; exact b3⟩
      have hS' : Vtk.IsSolid g'.mesh (bd' k) (vert i) (types[i]'(by omega)) := by
        obtain ⟨b1, b2, b3⟩ := hk _ ht
        exact ⟨b1, b2, by rw [hed', hmid']; exact b3⟩
      obtain ⟨l, l1, l2⟩ := solid_list hS
      obtain ⟨l', l1', l2'⟩ := solid_list hS'
      obtain ⟨L, L1, L2⟩ := same_shapes hvg hsub l2 l2' fun f hf => ⟨_, _, hshape f (hrange i i1 f (l1.mem_iff.mp hf))⟩
      obtain ⟨r1, r2⟩ := a8 i l L (by omega) l1 L1
      refine ⟨l', L, l1', L2, ?_, ?_⟩
      · simp only [φ, r2, Option.getD_some]
      · intro i' hi'
        cases hi'
        exact ⟨r1.symm, by simp only [φ, r2, Option.getD_some]⟩
    | part i f e =>
      obtain ⟨i1, i2, i3, i4⟩ := Vtk.mem_exported hm
      obtain ⟨_, hk⟩ := hk
      have hfl := hrange i i1 f i3
      have hS' : Vtk.IsSolid g'.mesh (bd' k) [Vtk.endA m.edges e, Vtk.endB m.edges e, m.vertices.length + faceAt f, m.vertices.length + cellAt i] 300 := by
        obtain ⟨b1, b2, b3⟩ := hk
        exact ⟨b1, b2, by rw [hed', hmid']; exact b3⟩
      have hel : e < m.edges.length := by
        have := Vtk.edgesOfFace_range hd hv i1 i3 i4
        simpa [Mesh.numElems, hd] using this
      have hed0 := List.getElem?_eq_getElem hel
      obtain ⟨A, B, hA, hB⟩ := exists_ends hvg (show g.mesh.edges[e]? = some m.edges[e] by rw [hed]; exact hed0)
      have hea : Vtk.endA m.edges e = m.edges[e].a := by rw [Vtk.endA, hed0]; rfl
      have heb : Vtk.endB m.edges e = m.edges[e].b := by rw [Vtk.endB, hed0]; rfl
      have hE : ends g.mesh e = (A, B) := by
        rw [ends, hed, hed0]; simp only [Option.map_some, Option.getD_some, hA, hB]
      obtain ⟨s, s1, s2⟩ := flat_edge (hshape f hfl).1 (hshape f hfl).2 (p := (A, B)) (by
        rw [← hE, faceEdges]
        unfold Vtk.edgesOfFace at i4
        rw [hmid]
        rw [List.getElem?_eq_getElem hfl] at i4 ⊢
        exact List.mem_map_of_mem i4)
      rw [hfc f hfl] at s2
      have hdet : det4 A B (vec3 (fc f)) (vec3 (cc i)) = s * dot (vec3 (cc i) - vec3 (fc f)) (shape f).2 := by
        rw [← dot_smul_right, ← s2, det4_eq]
        have hcr := cross_apply (A - vec3 (fc f)) (B - vec3 (fc f))
        simp only [dot3, hcr, Pi.sub_apply]
        ring
      have hne : det4 A B (vec3 (fc f)) (vec3 (cc i)) ≠ 0 := by
        rw [hdet]; exact mul_ne_zero s1 (hapex i f i1 i2 i3)
      rw [hea, heb] at hS'
      obtain ⟨l', q1, q2⟩ := tet_shapes hS' (hsub _ _ hA) (hsub _ _ hB) (happ _ _ (hface i f i1 i2 i3)) (happ _ _ (hcell i i1 i2)) hne
      refine ⟨l', _, q1, q2, ?_, ?_⟩
      · rw [tet_cones hne, hdet, abs_mul]
        simp only [φ, hE, triangleArea]
        rw [s2, norm_smul, (hshape f hfl).2.1]
        ring
      · intro i' hi'
        cases hi'
  have hflat' : ∀ f, f < (g'.mesh.midElems 2).length → ∃ ps ν, FaceShape g'.mesh f ps ∧ Flat ps ν := by
    intro f hf
    rw [hmid'] at hf
    obtain ⟨k, k1, k2⟩ := hcov f hf
    rw [h7] at k1
    obtain ⟨l', L, q1, q2, _⟩ := hp k _ (List.getElem?_eq_getElem k1)
    obtain ⟨j, hj⟩ := List.getElem?_of_mem (q1.mem_iff.mpr k2)
    obtain ⟨x, _, hx⟩ := Vtk.forall₂_get q2 hj
    exact ⟨_, _, hx⟩
  have hends' : ∀ e, e < g'.mesh.edges.length → (ends g'.mesh e).1 ≠ (ends g'.mesh e).2 := by
    intro e he
    rw [hed'] at he
    obtain ⟨fa, k1, k2⟩ := hecov e he
    obtain ⟨f, hf⟩ := List.getElem?_of_mem k1
    rw [← hmid'] at hf
    obtain ⟨ps, ν, q1, q2⟩ := hflat' f (List.getElem?_eq_some_iff.mp hf).1
    obtain ⟨s, s1, s2⟩ := flat_edge q1 q2 (p := ends g'.mesh e) (by
      rw [faceEdges, hf]
      exact List.mem_map_of_mem k2)
    intro h0
    rw [h0] at s2
    have hz : cross ((ends g'.mesh e).2 - mean ps) ((ends g'.mesh e).2 - mean ps) = 0 := by
      have h1 := cross_apply ((ends g'.mesh e).2 - mean ps) ((ends g'.mesh e).2 - mean ps)
      apply ext3 <;> simp only [h1, Pi.zero_apply] <;> ring
    rw [hz] at s2
    have := congrArg Vec.norm s2
    rw [norm_smul, q2.1, mul_one, norm_zero3] at this
    exact s1 (abs_eq_zero.mp this.symm)
  obtain ⟨cs', ls', as', vols', b1, b2, b3, b4, b5, b6, _, b7, b8⟩ := flat_geometry g' bd' hvg' hdg' hflat' hends'
  have hvols : vols' = (Vtk.exported m bd types).map φ := by
    apply List.ext_getElem?
    intro k
    by_cases hk : k < (Vtk.exported m bd types).length
    · obtain ⟨l', L, q1, q2, q3, _⟩ := hp k _ (List.getElem?_eq_getElem hk)
      rw [(b8 k l' L (by omega) q1 q2).2, q3, List.getElem?_map, List.getElem?_eq_getElem hk]
      rfl
    · rw [List.getElem?_eq_none (by omega), List.getElem?_eq_none (by simp; omega)]
  -- the pieces of a cell
  have hcells : ∀ i, i < m.cells.length → vols[i]? = some (((if Vtk.isSplit types i then (bd i).flatMap fun f =>
      (Vtk.edgesOfFace m f).map fun e => Vtk.Piece.part i f e else [Vtk.Piece.whole i]).map φ).sum) := by
    intro i hi
    by_cases hs : Vtk.isSplit types i = true
    · rw [if_pos hs]
      have hL : List.Forall₂ (fun f x => FaceShape g.mesh f x.1 ∧ Flat x.1 x.2) (bd i) ((bd i).map shape) := by
        rw [List.forall₂_map_right_iff, List.forall₂_same]
        exact fun f hf => hshape f (hrange i hi f hf)
      obtain ⟨r1, r2⟩ := a8 i (bd i) _ (by omega) (.refl _) hL
      rw [c1 i hi] at r1
      rw [← Option.some.inj r1] at r2
      rw [r2]
      congr 1
      have hr := hrange i hi
      generalize bd i = b at hr
      clear hL r1 r2
      induction b with
      | nil => rfl
      | cons f b ih =>
        rw [List.map_cons, List.map_cons, List.sum_cons, ih fun f hf => hr f (List.mem_cons_of_mem _ hf), List.flatMap_cons, List.map_append, List.sum_append]
        congr 1
        have hfl := hr f List.mem_cons_self
        obtain ⟨⟨fa, vs, f1, f2, f3⟩, f4⟩ := hshape f hfl
        have he : Vtk.edgesOfFace m f = fa.sub := by
          rw [Vtk.edgesOfFace, ← hmid, f1]; rfl
        rw [coneVolume, fanArea, ← polygon_sum f2 f3 (fun A B => triangleArea A B (mean (shape f).1)) (fun A B => triangleArea_symm A B _), hfc f hfl, he]
        simp only [List.map_map]
        generalize fa.sub = es
        induction es with
        | nil => simp
        | cons e es ih =>
          rw [List.map_cons, List.map_cons, List.sum_cons, List.sum_cons, ← ih]
          simp only [φ, Function.comp]
          ring
    · rw [if_neg hs]
      have hi' : i < vols.length := by omega
      simp [φ, hi']
  refine ⟨cs, ls, as, vols, cs', ls', as', vols', a1, a2, b1, b2, ?_, ?_, by omega, ?_⟩
  · intro k i hk
    obtain ⟨l', L, q1, q2, q3, q4⟩ := hp k _ hk
    obtain ⟨q5, q6⟩ := q4 i rfl
    have hkl := (List.getElem?_eq_some_iff.mp hk).1
    obtain ⟨r1, r2⟩ := b8 k l' L (by omega) q1 q2
    rw [r1, q5, r2, q3, q6]
    exact ⟨rfl, rfl⟩
  · intro i hi
    rw [hvols, partsOf_map, Vtk.exported, filter_flatMap_range _ _ ?_ _ _ hi, hcells i hi]
    intro i x hx
    split at hx
    · simp only [List.mem_flatMap, List.mem_map] at hx
      obtain ⟨f, _, e, _, rfl⟩ := hx
      rfl
    · simp only [List.mem_singleton] at hx
      rw [hx]; rfl
  · rw [hvols, Vtk.exported, sum_flatMap_range]
    congr 1
    apply List.ext_getElem?
    intro i
    by_cases hi : i < m.cells.length
    · rw [hcells i hi, List.getElem?_map, List.getElem?_range hi]; rfl
    · rw [List.getElem?_eq_none (by simp; omega), List.getElem?_eq_none (by omega)]

end GTMesh.Props
