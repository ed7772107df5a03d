import Verif.Props.LoadedTets
import Verif.Props.Balance
import Verif.Proofs.Solid6

/-! # C55 for loaded 3D meshes -/

namespace GTMesh.Props
open Spec Std' Vec Geo

/-- The vector area of a face of a convex solid is its area times the outer normal. -/
theorem convexSolid_area {faces : List (List (Vec 3 ℝ) × Vec 3 ℝ)} (h : ConvexSolid faces) {x : List (Vec 3 ℝ) × Vec 3 ℝ} (hx : x ∈ faces) :
    vectorArea x.1 = Vec.norm (vectorArea x.1) • x.2 := by
  have hν := h.unit x hx
  cases hx1 : x.1 with
  | nil =>
    have : vectorArea ([] : List (Vec 3 ℝ)) = 0 := by simp [vectorArea, sidesOf]
    rw [this]
    simp [norm_real, dot_zero]
  | cons q qs =>
    rw [← hx1]
    have hq : q ∈ x.1 := by rw [hx1]; exact List.mem_cons_self
    have plane : ∀ q' ∈ x.1, dot (q' - q) x.2 = 0 := by
      intro q' hq'
      have i1 := h.inner x hx x hx q hq q' hq'
      have i2 := h.inner x hx x hx q' hq' q hq
      rw [dot_sub] at i1 i2 ⊢
      linarith
    have key : ∀ l : List (Vec 3 ℝ × Vec 3 ℝ), (∀ p ∈ l, p ∈ sidesOf x.1) → ∃ r : ℝ, 0 ≤ r ∧
        (l.map fun p => cross (p.1 - q) (p.2 - q)).sum = r • x.2 := by
      intro l
      induction l with
      | nil => intro _; exact ⟨0, le_refl _, by simp⟩
      | cons p l ih =>
        intro hl
        obtain ⟨r, r1, r2⟩ := ih fun p' hp' => hl p' (List.mem_cons_of_mem p hp')
        have hp := hl p List.mem_cons_self
        obtain ⟨m1, m2⟩ := sidesOf_mem hp
        refine ⟨dot (cross (p.1 - q) (p.2 - q)) x.2 + r, add_nonneg (h.convex x hx p hp q hq).2 r1, ?_⟩
        rw [List.map_cons, List.sum_cons, r2, add_smul, ← cross_in_plane _ _ _ hν (plane _ m1) (plane _ m2)]
    obtain ⟨r, r1, r2⟩ := key _ fun p hp => hp
    rw [sum_cross] at r2
    have hr : vectorArea x.1 = (1 / 2 * r) • x.2 := by
      have := congrArg (fun x => (1 / 2 : ℝ) • x) r2
      simp only [smul_smul] at this
      rwa [show (1 / 2 * 2 : ℝ) = 1 by norm_num, one_smul] at this
    rw [hr, norm_smul, hν, mul_one, abs_of_nonneg (by linarith)]

theorem convexSolid_closed {faces : List (List (Vec 3 ℝ) × Vec 3 ℝ)} (h : ConvexSolid faces) : (faces.map fun x => vectorArea x.1).sum = 0 := by
  have e : ∀ l : List (List (Vec 3 ℝ) × Vec 3 ℝ), l = (List.range l.length).map fun i => (l[i]?).getD ([], 0) := by
    intro l
    apply List.ext_getElem?
    intro i
    by_cases hi : i < l.length
    · rw [List.getElem?_map, List.getElem?_range hi, Option.map_some, List.getElem?_eq_getElem hi]; rfl
    · rw [List.getElem?_eq_none (by omega), List.getElem?_eq_none (by simp; omega)]
  have hc := h.closed
  rw [e faces, List.flatMap_map] at hc
  have := closed_of_sides (P := fun i => ((faces[i]?).getD ([], 0)).1) hc
  rw [e faces, List.map_map]
  exact this

/-- The center of a face is in its plane. -/
theorem convexSolid_plane {faces : List (List (Vec 3 ℝ) × Vec 3 ℝ)} (h : ConvexSolid faces) {x : List (Vec 3 ℝ) × Vec 3 ℝ} (hx : x ∈ faces)
    (h0 : x.1 ≠ []) : dot (x.1.headD 0) x.2 = dot (mean x.1) x.2 := by
  obtain ⟨q, qs, hq⟩ := List.exists_cons_of_ne_nil h0
  have hqm : q ∈ x.1 := by rw [hq]; exact List.mem_cons_self
  have := mean_eq_plane (a := x.2) (b := dot x.2 q) h0 (by
    intro q' hq'
    have i1 := h.inner x hx x hx q hqm q' hq'
    have i2 := h.inner x hx x hx q' hq' q hqm
    rw [dot_sub, dot_comm q', dot_comm q] at i1 i2
    linarith)
  rw [dot_comm (mean x.1), this, hq, List.headD_cons, dot_comm]

/-- With the centers that are computed, the normals and the measures are computed, and: for each cell, the normals of its faces, with the sign
of the side, are the outer normals of the solid, and the sum of areas times these normals is zero; the volumes of the cells add up to what
the divergence theorem gives for the surface of the mesh: a third of the sum of (center · normal) × area over the faces with one cell. -/
def Conservative (m : Mesh (Vec 3 ℝ)) (solids : List (List (List (Vec 3 ℝ) × Vec 3 ℝ))) : Prop :=
  ∀ g : GMesh 3 ℝ, g.mesh = m → ∃ cs ls as vols ns, computeCenters m = .ok cs ∧ computeMeasures3 (setCenters g cs) = .ok (ls, as, vols) ∧
    computeFaceNormals3 (setCenters g cs) = .ok ns ∧
    (∀ (c : Nat) faces, solids[c]? = some faces → ∃ l, boundaryWalk m c = .ok l ∧
      List.Forall₂ (fun (f : Nat) x => ∃ n, ns[f]? = some n ∧ outwards (cellsOfFace m f) c • n = x.2) l faces ∧ surface m l as ns c = 0) ∧
    vols.sum = 1 / 3 * (((List.range (m.midElems 2).length).filter fun f => decide ((cellsOfFace m f).right = INVALID)).map fun f =>
      (as[f]?).getD 0 * dot ((entry cs 2 f).getD 0) ((ns[f]?).getD 0)).sum

theorem forall₂_zip {α β : Type} {r : α → β → Prop} {l : List α} {k : List β} (h : List.Forall₂ r l k) : ∀ z ∈ l.zip k, r z.1 z.2 := by
  induction h with
  | nil => simp
  | cons h1 _ ih =>
    intro z hz
    rw [List.zip_cons_cons, List.mem_cons] at hz
    rcases hz with rfl | hz
    · exact h1
    · exact ih z hz

theorem forall₂_of_zip {α β : Type} {r : α → β → Prop} {l : List α} {k : List β} (hl : l.length = k.length) (h : ∀ z ∈ l.zip k, r z.1 z.2) :
    List.Forall₂ r l k := by
  induction l generalizing k with
  | nil => cases k with
    | nil => exact .nil
    | cons b k => simp at hl
  | cons a l ih => cases k with
    | nil => simp at hl
    | cons b k =>
      exact .cons (h (a, b) (by simp)) (ih (by simpa using hl) fun z hz => h z (by rw [List.zip_cons_cons]; exact List.mem_cons_of_mem _ hz))

theorem zip_sum {α β M : Type} [AddCommMonoid M] {l : List α} {k : List β} {u : α → M} {v : β → M} (hl : l.length = k.length)
    (h : ∀ z ∈ l.zip k, u z.1 = v z.2) : (l.map u).sum = (k.map v).sum := by
  have := forall₂_of_zip (r := fun a b => u a = v b) hl h
  clear h hl
  induction this with
  | nil => rfl
  | cons h1 _ ih => rw [List.map_cons, List.map_cons, List.sum_cons, List.sum_cons, h1, ih]

/-- C55. On a mesh of convex polyhedra that are on different sides of their common faces. -/
theorem C55_convex_mesh (m : Mesh (Vec 3 ℝ)) (bd : Idx → List Idx) (hv : ValidMesh m bd) (h3 : m.dim = 3) (hb : m.cells.length ≤ BOUNDARY)
    (solids : List (List (List (Vec 3 ℝ) × Vec 3 ℝ))) (hl : m.cells.length = solids.length)
    (hS : ∀ (c : Nat) faces, solids[c]? = some faces → ConvexSolid faces ∧ List.Forall₂ (fun f x => FaceShape m f x.1) (bd c) faces)
    (hcov : ∀ (f : Nat) fa, (m.midElems 2)[f]? = some fa → fa.conn.left < m.cells.length ∧ f ∈ bd fa.conn.left)
    (hedge : ∀ e, e < m.edges.length → ∃ fa ∈ m.midElems 2, e ∈ fa.sub)
    (hapart : Apart Eq ((List.range m.cells.length).map bd) solids)
    (hbal : ∀ φ : Idx → ℝ, totalOutflow m bd φ =
      (((List.range (m.midElems 2).length).filter fun f => decide ((cellsOfFace m f).right = INVALID)).map φ).sum) : Conservative m solids := by
  intro g hg
  obtain ⟨cs, ls, as, vols, ns, k1, k2, k3, _, k5, k6⟩ := hasGeometry_of hv h3 hb hl hS hcov hedge g hg
  have hget : ∀ c, c < m.cells.length → solids[c]? = some ((solids[c]?).getD []) := by
    intro c hc
    rw [List.getElem?_eq_getElem (by omega)]; rfl
  have hwalk : ∀ c, c < m.cells.length → boundaryWalk m c = .ok (bd c) := by
    intro c hc
    obtain ⟨hch, hb0⟩ := hv.chain c _ (List.getElem?_eq_getElem hc)
    exact (C09_walk_iff_chain m hv.dim_ge c _ (List.getElem?_eq_getElem hc) _).mpr ⟨hch, hb0⟩
  have hgeo : ∀ (c : Nat) faces, solids[c]? = some faces → List.Forall₂ (fun (f : Nat) x => as[f]? = some (Vec.norm (vectorArea x.1)) ∧
      entry cs 2 f = some (mean x.1) ∧ ∀ fa, (m.midElems 2)[f]? = some fa → fa.conn.left = c → ns[f]? = some x.2) (bd c) faces := by
    intro c faces hf
    have hc : c < m.cells.length := by rw [hl]; exact (List.getElem?_eq_some_iff.mp hf).1
    obtain ⟨_, l, l1, l2⟩ := k6 c faces hf
    rw [hwalk c hc] at l1
    rwa [Res.ok.inj l1]
  -- the normals
  have hnorm : ∀ (c : Nat) faces, solids[c]? = some faces → ∀ z ∈ (bd c).zip faces,
      ∃ n, ns[z.1]? = some n ∧ outwards (cellsOfFace m z.1) c • n = z.2.2 := by
    intro c faces hf z hz
    have hc : c < m.cells.length := by rw [hl]; exact (List.getElem?_eq_some_iff.mp hf).1
    have hzf : z.1 ∈ bd c := (List.of_mem_zip hz).1
    obtain ⟨_, _, zn⟩ := forall₂_zip (hgeo c faces hf) z hz
    obtain ⟨fa, vs, hfa, _⟩ := forall₂_zip (hS c faces hf).2 z hz
    obtain ⟨c1, c2⟩ := cellsOfFace3 h3 hfa
    rw [c1]
    by_cases hle : fa.conn.left = c
    · exact ⟨_, zn fa hfa hle, by rw [outwards, if_pos hle, one_smul]⟩
    · have hri := (bd_side hv hc hzf c2).resolve_left hle
      obtain ⟨k, hk⟩ := hcov z.1 fa hfa
      have hs0 := hget fa.conn.left k
      -- the position of the face in the left cell
      have hlen := (hgeo _ _ hs0).length_eq
      obtain ⟨j, hj⟩ := List.getElem?_of_mem hk
      have hj1 := (List.getElem?_eq_some_iff.mp hj).1
      have hzm : (z.1, ((solids[fa.conn.left]?).getD [])[j]'(by omega)) ∈ (bd fa.conn.left).zip ((solids[fa.conn.left]?).getD []) := by
        rw [List.mem_iff_getElem?]
        refine ⟨j, ?_⟩
        rw [List.getElem?_zip_eq_some]
        exact ⟨hj, List.getElem?_eq_getElem _⟩
      obtain ⟨_, _, zn'⟩ := forall₂_zip (hgeo _ _ hs0) _ hzm
      refine ⟨_, zn' fa hfa rfl, ?_⟩
      have := hapart fa.conn.left c (bd fa.conn.left) (bd c) _ _ hle (by rw [List.getElem?_map, List.getElem?_range k]; rfl)
        (by rw [List.getElem?_map, List.getElem?_range hc]; rfl) hs0 hf _ hzm z hz rfl
      rw [outwards, if_neg hle, if_pos hri, this, neg_smul, one_smul]
  refine ⟨cs, ls, as, vols, ns, k1, k2, k3, ?_, ?_⟩
  · intro c faces hf
    have hc : c < m.cells.length := by rw [hl]; exact (List.getElem?_eq_some_iff.mp hf).1
    have hlen := (hgeo c faces hf).length_eq
    refine ⟨bd c, hwalk c hc, forall₂_of_zip hlen (hnorm c faces hf), ?_⟩
    have hs := (hS c faces hf).1
    rw [surface, ← convexSolid_closed hs]
    refine zip_sum hlen fun z hz => ?_
    obtain ⟨n, n1, n2⟩ := hnorm c faces hf z hz
    obtain ⟨za, _, _⟩ := forall₂_zip (hgeo c faces hf) z hz
    have hh := convexSolid_area hs (List.of_mem_zip hz).2
    rw [n1, za]
    simp only [Option.getD_some]
    rw [mul_comm, mul_smul, n2]
    exact hh.symm
  · have hφ := hbal fun f => 1 / 3 * ((as[f]?).getD 0 * dot ((entry cs 2 f).getD 0) ((ns[f]?).getD 0))
    have hmul : ∀ l : List Idx, (l.map fun f => 1 / 3 * ((as[f]?).getD 0 * dot ((entry cs 2 f).getD 0) ((ns[f]?).getD 0))).sum =
        1 / 3 * (l.map fun f => (as[f]?).getD 0 * dot ((entry cs 2 f).getD 0) ((ns[f]?).getD 0)).sum := by
      intro l
      rw [List.sum_map_mul_left]
    rw [← hmul, ← hφ, totalOutflow, k5]
    rw [show solids.map solidVolume = (List.range m.cells.length).map fun c => solidVolume ((solids[c]?).getD []) from by
      apply List.ext_getElem?
      intro c
      by_cases hc : c < m.cells.length
      · rw [List.getElem?_map, List.getElem?_map, List.getElem?_range hc, hget c hc]; rfl
      · rw [List.getElem?_eq_none (by simp; omega), List.getElem?_eq_none (by simp; omega)]]
    congr 1
    apply List.map_congr_left
    intro c hc
    have hc := List.mem_range.mp hc
    have hf := hget c hc
    have hs := (hS c _ hf).1
    have hlen := (hgeo c _ hf).length_eq
    rw [solidVolume, ← List.sum_map_mul_left]
    symm
    refine zip_sum hlen fun z hz => ?_
    obtain ⟨n, n1, n2⟩ := hnorm c _ hf z hz
    obtain ⟨za, zc, _⟩ := forall₂_zip (hgeo c _ hf) z hz
    have hne := FaceShape.ne (forall₂_zip (hS c _ hf).2 z hz)
    have hh := congrArg (dot (z.2.1.headD 0)) (convexSolid_area hs (List.of_mem_zip hz).2)
    rw [dot_smul_right, convexSolid_plane hs (List.of_mem_zip hz).2 hne, ← n2, dot_smul_right] at hh
    rw [n1, za, zc, hh]
    simp only [Option.getD_some]
    ring

/-- Two polygons of the same face have the same sides. -/
theorem sameSides_of_face {edges : List Edge} {subs p q : List Idx} (hp : IsPolygon edges subs p) (hq : IsPolygon edges subs q) : Vtk.SameSides p q := by
  have key : ∀ {p q : List Idx}, IsPolygon edges subs p → IsPolygon edges subs q → ∀ u v, Vtk.HasSide p u v → Vtk.HasSide q u v := by
    intro p q hp hq u v h
    obtain ⟨e, e1, ed, e2, e3⟩ := Vtk.polygon_side hp h
    obtain ⟨ed', f1, k, a, b, f2, f3, f4, f5⟩ := Vtk.polygon_edge hq e1
    rw [e2] at f1
    cases f1
    exact ⟨k, a, b, f2, f3, f4, by rcases e3 with e3 | e3 <;> rcases f5 with f5 | f5 <;> simp_all [SamePair]⟩
  exact fun u v => ⟨key hp hq u v, key hq hp u v⟩

/-- C55, VTK 3D: in the mesh of a file whose cells are convex solids, on different sides of their common faces, the sums of the outer normals
times the areas are zero on each cell, and the volumes add up to the flux through the surface. -/
theorem C55_vtk3 (F : Vtk.File ℝ) (hF : F.Solids) (res : Nat)
    (hres : ∀ vs ∈ F.cells, ∀ p ∈ Vtk.facePolygons vs, res = 0 ∨ p.length ≤ res)
    (hcodes : F.codes.length ≤ F.cells.length) (rest : List (Vtk.VTok ℝ))
    (types : List Nat) (m0 : Mesh (Vtk.Point3 ℝ)) (hd : m0.dim = 3)
    (htwo : ∀ vs ∈ F.cells, ∀ p ∈ Vtk.facePolygons vs, Vtk.AtMostTwoFace F p)
    (hr : ∀ vs ∈ F.cells, ∀ v ∈ vs, v < F.verts.length) (solids : List (List (List (Vec 3 ℝ) × Vec 3 ℝ)))
    (hsol : List.Forall₂ (fun vs faces => ConvexSolid faces ∧
      List.Forall₂ (fun p x => Drawn (at3 F.verts) p x.1) (Vtk.facePolygons vs) faces) F.cells solids)
    (hapart : Apart Vtk.SameSides (F.cells.map Vtk.facePolygons) solids) :
    ∃ m t, Vtk.load3 res (F.tokens ++ rest) types m0 = .ok (m, t) ∧ Conservative (m.mapV vec3) solids := by
  obtain ⟨m, t, bd, l1, hv, h3, hb, hl, hS, hcov, hedge, hE⟩ := vtk3_shapes F hF res hres hcodes rest types m0 hd htwo hr solids hsol
  obtain ⟨m', t', bd', l2, hw, hbal⟩ := Vtk.C55_balance_vtk3 F hF res hres hcodes rest types m0 hd htwo hr
  rw [l1] at l2
  cases l2
  have hlen : F.cells.length = m.cells.length := by rw [hl, hsol.length_eq]
  refine ⟨m, t, l1, C55_convex_mesh (m.mapV vec3) bd hv h3 hb solids hl hS hcov hedge ?_ ?_⟩
  · intro c c' ks ks' faces faces' hne k1 k2 f1 f2 z hz z' hz' hzz
    have k1 : ((List.range m.cells.length).map bd)[c]? = some ks := k1
    have k2 : ((List.range m.cells.length).map bd)[c']? = some ks' := k2
    have hc : c < m.cells.length := by
      rw [hl]; exact (List.getElem?_eq_some_iff.mp f1).1
    have hc' : c' < m.cells.length := by
      rw [hl]; exact (List.getElem?_eq_some_iff.mp f2).1
    rw [List.getElem?_map, List.getElem?_range hc] at k1
    rw [List.getElem?_map, List.getElem?_range hc'] at k2
    cases k1; cases k2
    have g1 := List.getElem?_eq_getElem (hlen ▸ hc)
    have g2 := List.getElem?_eq_getElem (hlen ▸ hc')
    have pos : ∀ {c : Nat} {vs faces} {z : Idx × List (Vec 3 ℝ) × Vec 3 ℝ}, F.cells[c]? = some vs → z ∈ (bd c).zip faces →
        ∃ p f, (p, z.2) ∈ (Vtk.facePolygons vs).zip faces ∧ (m.midElems 2)[z.1]? = some f ∧ IsPolygon m.edges f.sub p := by
      intro c vs faces z hvs hz
      obtain ⟨e1, e2⟩ := hE c vs hvs
      obtain ⟨j, hj⟩ := List.getElem?_of_mem hz
      rw [List.getElem?_zip_eq_some] at hj
      have hj' : j < (Vtk.facePolygons vs).length := by rw [← e1]; exact (List.getElem?_eq_some_iff.mp hj.1).1
      obtain ⟨i, f, a1, a2, a3⟩ := e2 j _ (List.getElem?_eq_getElem hj')
      rw [hj.1] at a1
      cases a1
      exact ⟨_, f, List.mem_of_getElem? (i := j) (by rw [List.getElem?_zip_eq_some]; exact ⟨List.getElem?_eq_getElem hj', hj.2⟩), a2, a3⟩
    obtain ⟨p, f, p1, p2, p3⟩ := pos g1 hz
    obtain ⟨p', f', p1', p2', p3'⟩ := pos g2 hz'
    rw [← hzz, p2] at p2'
    cases p2'
    exact hapart c c' _ _ faces faces' hne (by rw [List.getElem?_map, g1]; rfl) (by rw [List.getElem?_map, g2]; rfl) f1 f2 _ p1 _ p1'
      (sameSides_of_face p3 p3')
  · intro φ
    rw [show (m.mapV vec3).midElems 2 = m.midElems 2 from rfl]
    have := hbal φ
    rw [show (fun f => decide ((cellsOfFace (m.mapV vec3) f).right = INVALID)) = fun f => decide ((cellsOfFace m f).right = INVALID) from rfl, ← this]
    unfold totalOutflow
    show ((List.range m.cells.length).map fun i => ((bd i).map fun f => outwards (cellsOfFace m f) i * φ f).sum).sum = _
    congr 1
    apply List.map_congr_left
    intro i hi
    have hi := List.mem_range.mp hi
    have h1 := hw i (by omega)
    obtain ⟨hch, hb0⟩ := hv.chain i _ (List.getElem?_eq_getElem (show i < (m.mapV vec3).cells.length from hi))
    have h2 := (C09_walk_iff_chain (m.mapV vec3) hv.dim_ge i _ (List.getElem?_eq_getElem (show i < (m.mapV vec3).cells.length from hi)) _).mpr ⟨hch, hb0⟩
    have h3 : boundaryWalk (m.mapV vec3) i = boundaryWalk m i := Mesh.mapV_applyOne vec3 m _ _ i
    rw [h3, h1] at h2
    rw [Res.ok.inj h2]

/-- C55, FPMA. -/
theorem C55_fpma (F : Fpma.File ℝ) (hF : F.WellFormed) (res : Nat)
    (hres : ∀ vs ∈ F.faces, res = 0 ∨ vs.length ≤ res) (rest : List (Tok ℝ))
    (hr : ∀ vs ∈ F.faces, ∀ v ∈ vs, v < F.verts.length) (hfit : F.cells.length ≤ BOUNDARY)
    (hpoly : ∀ vs ∈ F.faces, 3 ≤ vs.length ∧ NoRepetition vs) (hall : ∀ f, f < F.faces.length → ∃ c, Lists F f c)
    (solids : List (List (List (Vec 3 ℝ) × Vec 3 ℝ)))
    (hsol : List.Forall₂ (fun l faces => ConvexSolid faces ∧
      List.Forall₂ (fun (f : Nat) x => ∃ p, F.faces[f]? = some p ∧ Drawn (at3 F.verts) p x.1) l faces) F.cells solids)
    (hapart : Apart Eq F.cells solids) :
    ∃ m, Fpma.load res (F.tokens ++ rest) { dim := 3 } = .ok m ∧ Conservative (m.mapV vec3) solids := by
  obtain ⟨m, l1, hv, h3, hb, hl, hS, hcov, hedge⟩ := fpma_shapes F hF res hres rest hr hfit hpoly hall solids hsol
  obtain ⟨m', l2, hbal⟩ := Fpma.C55_balance_fpma F hF res hres rest hr hall
  rw [l1] at l2
  cases l2
  obtain ⟨m', l2, _, _, _, _, _, g6, _⟩ := Fpma.C18_load F hF res hres rest
  rw [l1] at l2
  cases l2
  refine ⟨m, l1, C55_convex_mesh (m.mapV vec3) _ hv h3 hb solids hl hS hcov hedge ?_ ?_⟩
  · have : ((List.range (m.mapV vec3).cells.length).map fun i => (F.cells[i]?).getD []) = F.cells := by
      apply List.ext_getElem?
      intro c
      show ((List.range m.cells.length).map _)[c]? = _
      rw [hl, ← hsol.length_eq]
      by_cases hc : c < F.cells.length
      · rw [List.getElem?_map, List.getElem?_range hc, Option.map_some, List.getElem?_eq_getElem hc]; rfl
      · rw [List.getElem?_eq_none (by simp; omega), List.getElem?_eq_none (by omega)]
    rwa [this]
  · intro φ
    have := hbal φ
    rw [← g6] at this
    exact this

/-! ## Examples -/

theorem tri_flip (P Q R : Vec 3 ℝ) : (tri Q P R).2 = -(tri P Q R).2 := by
  have : cross (P - Q) (R - Q) = -cross (Q - P) (R - P) := by
    have h1 := cross_apply (P - Q) (R - Q)
    have h2 := cross_apply (Q - P) (R - P)
    apply ext3 <;> simp only [h1, h2, Pi.sub_apply, Pi.neg_apply] <;> ring
  simp only [tri, this]
  rw [norm_neg, smul_neg]

/-- The two tetrahedra of the example are on different sides of their common face. -/
theorem tetFile_apart : Apart Vtk.SameSides (tetFile.cells.map Vtk.facePolygons) (tetCorners.map fun t => tetFaces t.1 t.2.1 t.2.2.1 t.2.2.2) := by
  have hP : tetFile.cells.map Vtk.facePolygons = [[[0, 1, 2], [0, 1, 3], [1, 2, 3], [2, 0, 3]], [[2, 1, 3], [2, 1, 4], [1, 3, 4], [3, 2, 4]]] := rfl
  have hQ : (tetCorners.map fun t => tetFaces t.1 t.2.1 t.2.2.1 t.2.2.2) =
      [[tri (vec3 (0, 0, 0)) (vec3 (0, 1, 0)) (vec3 (1, 0, 0)), tri (vec3 (0, 0, 0)) (vec3 (1, 0, 0)) (vec3 (0, 0, 1)),
        tri (vec3 (1, 0, 0)) (vec3 (0, 1, 0)) (vec3 (0, 0, 1)), tri (vec3 (0, 1, 0)) (vec3 (0, 0, 0)) (vec3 (0, 0, 1))],
       [tri (vec3 (0, 1, 0)) (vec3 (1, 0, 0)) (vec3 (0, 0, 1)), tri (vec3 (0, 1, 0)) (vec3 (1, 1, 1)) (vec3 (1, 0, 0)),
        tri (vec3 (1, 0, 0)) (vec3 (1, 1, 1)) (vec3 (0, 0, 1)), tri (vec3 (0, 0, 1)) (vec3 (1, 1, 1)) (vec3 (0, 1, 0))]] := by
    simp only [tetCorners, List.map_cons, List.map_nil, tetFaces]
    rw [if_pos (by simp [det4_eq, vec3]), if_neg (by simp [det4_eq, vec3])]
  rw [hP, hQ]
  have hlt : ∀ {α : Type} {x y a : α} {c : Nat}, [x, y][c]? = some a → c = 0 ∧ x = a ∨ c = 1 ∧ y = a := by
    intro α x y a c h
    rcases c with - | - | c <;> simp_all
  have flip := tri_flip (vec3 (1, 0, 0)) (vec3 (0, 1, 0)) (vec3 (0, 0, 1))
  intro c c' ks ks' faces faces' hne k1 k2 f1 f2 z hz z' hz' hs
  rcases hlt k1 with ⟨rfl, rfl⟩ | ⟨rfl, rfl⟩ <;> rcases hlt k2 with ⟨rfl, rfl⟩ | ⟨rfl, rfl⟩
  · exact absurd rfl hne
  · simp only [List.getElem?_cons_zero, List.getElem?_cons_succ, Option.some.injEq] at f1 f2
    subst f1 f2
    simp only [List.zip_cons_cons, List.zip_nil_right, List.mem_cons, List.not_mem_nil, or_false] at hz hz'
    have h0 := Vtk.sameSides_mem hs 0
    have h4 := Vtk.sameSides_mem hs 4
    rcases hz with rfl | rfl | rfl | rfl <;> rcases hz' with rfl | rfl | rfl | rfl <;> first | (exfalso; revert h0 h4; decide) | exact flip
  · simp only [List.getElem?_cons_zero, List.getElem?_cons_succ, Option.some.injEq] at f1 f2
    subst f1 f2
    simp only [List.zip_cons_cons, List.zip_nil_right, List.mem_cons, List.not_mem_nil, or_false] at hz hz'
    have h0 := Vtk.sameSides_mem hs 0
    have h4 := Vtk.sameSides_mem hs 4
    rcases hz with rfl | rfl | rfl | rfl <;> rcases hz' with rfl | rfl | rfl | rfl <;>
      first | (exfalso; revert h0 h4; decide) | exact (neg_eq_iff_eq_neg.mpr flip).symm
  · exact absurd rfl hne

example : ∃ m t, Vtk.load3 3 (tetFile.tokens ++ []) [] { dim := 3 } = .ok (m, t) ∧
    Conservative (m.mapV vec3) (tetCorners.map fun t => tetFaces t.1 t.2.1 t.2.2.1 t.2.2.2) := by
  refine C55_vtk3 tetFile ⟨?_, by simp only [NoRepetition, tetFile]; decide, by simp [tetFile]; decide⟩ 3 ?_ (le_refl _) [] [] { dim := 3 } rfl ?_ ?_
    _ ?_ tetFile_apart
  · simp [tetFile]
  · show ∀ vs ∈ [[0, 1, 2, 3], [2, 1, 3, 4]], _
    decide
  · rintro _ _ p _ a b c ⟨_, ha, _⟩ ⟨_, hb, _⟩ ⟨_, hc, _⟩
    have ha := (List.getElem?_eq_some_iff.mp ha).1
    have hb := (List.getElem?_eq_some_iff.mp hb).1
    have hc := (List.getElem?_eq_some_iff.mp hc).1
    simp [tetFile] at ha hb hc
    omega
  · show ∀ vs ∈ [[0, 1, 2, 3], [2, 1, 3, 4]], ∀ v ∈ vs, v < 5
    decide
  · have d1 := tetFaces_drawn (verts := tetFile.verts) (a := 0) (b := 1) (c := 2) (d := 3) rfl rfl rfl rfl
    have d2 := tetFaces_drawn (verts := tetFile.verts) (a := 2) (b := 1) (c := 3) (d := 4) rfl rfl rfl rfl
    exact .cons ⟨tetFaces_convex (tetCorners_det _ (by simp [tetCorners])), d1⟩
      (.cons ⟨tetFaces_convex (tetCorners_det _ (by simp [tetCorners])), d2⟩ .nil)

end GTMesh.Props
