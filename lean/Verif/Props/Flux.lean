import Verif.Props.Normals
import Verif.Spec.Flux

/-! # C55: the normals and measures of the faces of a cell close up -/

namespace GTMesh.Props
open GTMesh Spec Std' Vec Geo

/-! ## Two dimensions -/

theorem sidesOf_get {α : Type} (ps : List α) (j : Nat) (hj : j < ps.length) :
    (sidesOf ps)[j]? = some (ps[j], ps[(j + 1) % ps.length]'(Nat.mod_lt _ (by omega))) := by
  have hl : (sidesOf ps).length = ps.length := by simp [sidesOf]
  rw [List.getElem?_eq_getElem (by omega)]
  simp only [sidesOf, List.getElem_zip, List.getElem_rotate]

theorem sidesOf_index {α : Type} {ps : List α} {p : α × α} (h : p ∈ sidesOf ps) :
    ∃ (j : Nat) (hj : j < ps.length), p = (ps[j], ps[(j + 1) % ps.length]'(Nat.mod_lt _ (by omega))) := by
  obtain ⟨j, hj⟩ := List.getElem?_of_mem h
  have hl : (sidesOf ps).length = ps.length := by simp [sidesOf]
  have hlt := (List.getElem?_eq_some_iff.mp hj).1
  rw [hl] at hlt
  rw [sidesOf_get ps j hlt] at hj
  exact ⟨j, hlt, (Option.some.inj hj).symm⟩

/-- A simple polygon with at least three vertices has no side in both directions. -/
theorem sidesOf_no_swap {vs : List Idx} (hn : vs.Nodup) (h3 : 3 ≤ vs.length) {x y : Idx} (h : (x, y) ∈ sidesOf vs) : (y, x) ∉ sidesOf vs := by
  intro h'
  obtain ⟨j, hj, e1⟩ := sidesOf_index h
  obtain ⟨k, hk, e2⟩ := sidesOf_index h'
  simp only [Prod.mk.injEq] at e1 e2
  have a1 := (List.Nodup.getElem_inj_iff hn).mp (e1.1.symm.trans e2.2)
  have a2 := (List.Nodup.getElem_inj_iff hn).mp (e2.1.symm.trans e1.2)
  rcases Nat.lt_or_ge (j + 1) vs.length with h | h
  · rw [Nat.mod_eq_of_lt h] at a2
    subst a2
    rcases Nat.lt_or_ge (j + 1 + 1) vs.length with h' | h'
    · rw [Nat.mod_eq_of_lt h'] at a1; omega
    · rw [show j + 1 + 1 = vs.length by omega, Nat.mod_self] at a1; omega
  · rw [show j + 1 = vs.length by omega, Nat.mod_self] at a2
    subst a2
    rw [Nat.mod_eq_of_lt (by omega)] at a1; omega

/-- Summing an odd function of the directed edges of a cell, with the sign of the side of the cell, gives the sum over the polygon. -/
theorem polygon_sum_directed {n k : Nat} {m : Mesh (Vec n ℝ)} {subs vs : List Idx} {ps : List (Vec n ℝ)} (hp : IsPolygon m.edges subs vs)
    (hpos : PositionsOf m vs ps) (h3 : 3 ≤ vs.length) (s : Idx → ℝ)
    (hs : ∀ e ∈ subs, ∀ ed, m.edges[e]? = some ed → (s e = 1 ∧ (ed.a, ed.b) ∈ sidesOf vs) ∨ (s e = -1 ∧ (ed.b, ed.a) ∈ sidesOf vs))
    (φ : Vec n ℝ → Vec n ℝ → Vec k ℝ) (hφ : ∀ A B, φ B A = - φ A B) :
    (subs.map fun e => s e • φ (ends m e).1 (ends m e).2).sum = ((sidesOf ps).map fun p => φ p.1 p.2).sum := by
  obtain ⟨hne, hnd, _, es, hperm, hlen, hj⟩ := hp
  have hps := hpos.length_eq
  have hnd : vs.Nodup := hnd
  rw [← (hperm.map fun e => s e • φ (ends m e).1 (ends m e).2).sum_eq]
  congr 1
  apply List.ext_getElem?
  intro j
  rw [List.getElem?_map, List.getElem?_map]
  by_cases hjl : j < vs.length
  swap
  · have hl : (sidesOf ps).length = ps.length := by simp [sidesOf]
    rw [List.getElem?_eq_none (by omega), List.getElem?_eq_none (by omega)]; rfl
  obtain ⟨e, u, v, e1, e2, e3, ed, e4, e5⟩ := hj j hjl
  have hjp : j < ps.length := by omega
  rw [e1, sidesOf_get ps j hjp]
  simp only [Option.map_some, Option.some.injEq]
  have hcyc : ∀ k u, cyc vs k = some u → m.vertices[u]? = ps[k % ps.length]? := by
    intro k u hu
    unfold cyc at hu
    rw [← hps]
    have hk : k % vs.length < vs.length := Nat.mod_lt _ (by omega)
    have hk' : k % vs.length < ps.length := by omega
    have := (List.forall₂_iff_get.mp hpos).2 (k % vs.length) hk hk'
    rw [List.getElem?_eq_getElem hk] at hu
    rw [← Option.some.inj hu, List.getElem?_eq_getElem hk']
    exact this
  have hu := hcyc j u e2
  have hv := hcyc (j + 1) v e3
  rw [Nat.mod_eq_of_lt hjp, List.getElem?_eq_getElem hjp] at hu
  rw [List.getElem?_eq_getElem (Nat.mod_lt _ (by omega))] at hv
  have huv : (u, v) ∈ sidesOf vs := by
    have h := sidesOf_get vs j hjl
    unfold cyc at e2 e3
    rw [Nat.mod_eq_of_lt hjl, List.getElem?_eq_getElem hjl] at e2
    rw [List.getElem?_eq_getElem (Nat.mod_lt _ (by omega))] at e3
    rw [Option.some.inj e2, Option.some.inj e3] at h
    exact List.mem_of_getElem? h
  have hmem : e ∈ subs := hperm.mem_iff.mp (List.mem_of_getElem? e1)
  have hends : ends m e = ((m.vertices[ed.a]?).getD 0, (m.vertices[ed.b]?).getD 0) := by rw [ends, e4]; rfl
  rw [hends]
  rcases e5 with h | ⟨h5, h6⟩
  · simp only [Prod.mk.injEq] at h
    obtain ⟨rfl, rfl⟩ := h
    rw [hu, hv]
    rcases hs e hmem ed e4 with ⟨h1, _⟩ | ⟨_, h2⟩
    · rw [h1, one_smul]; rfl
    · exact absurd h2 (sidesOf_no_swap hnd h3 huv)
  · simp only at h5 h6
    rw [h5, h6, hu, hv]
    rcases hs e hmem ed e4 with ⟨_, h2⟩ | ⟨h1, _⟩
    · rw [h5, h6] at h2
      exact absurd h2 (sidesOf_no_swap hnd h3 huv)
    · rw [h1, Option.getD_some, Option.getD_some, hφ, neg_smul, one_smul, neg_neg]

theorem lead_signs {V : Type} {m : Mesh V} (h2 : m.dim = 2) {edges : List Idx} {cell : Idx} {vs : List Idx} (h : LeadAlong m edges cell vs) :
    ∀ e ∈ edges, ∀ ed, m.edges[e]? = some ed → (outwards (cellsOfFace m e) cell = 1 ∧ (ed.a, ed.b) ∈ sidesOf vs) ∨
      (outwards (cellsOfFace m e) cell = -1 ∧ (ed.b, ed.a) ∈ sidesOf vs) := by
  intro e he ed hed
  have hc : cellsOfFace m e = ed.conn := by rw [cellsOfFace, if_pos h2, hed]; rfl
  rw [hc, outwards]
  rcases h e he ed hed with ⟨h1, h2⟩ | ⟨h1, h2, h3⟩
  · left; exact ⟨by rw [if_pos h1], h2⟩
  · right; exact ⟨by rw [if_neg h1, if_pos h2], h3⟩

/-- The length of an edge times its normal is the edge turned by a right angle. -/
theorem length_normal {A B ν : Vec 2 ℝ} (h : A ≠ B) (hν : IsNormal2 A B ν) : Vec.norm (A - B) • ν = ![B 1 - A 1, -(B 0 - A 0)] := by
  rw [hν.unique h (normal2_spec h), smul_smul]
  have hz : B - A ≠ 0 := fun e => h (sub_eq_zero.mp e).symm
  rw [norm_sub_comm, mul_inv_cancel₀ (norm_pos hz).ne', one_smul]

/-- C55. In 2D: the lengths times the normals of the edges of a cell, taken with the sign of the side on which the cell lies, add up to
zero, whatever the shape of the polygon. -/
theorem C55_closed_2d (g : GMesh 2 ℝ) (bd : Idx → List Idx) (hv : ValidMesh g.mesh bd) (h2 : g.mesh.dim = 2)
    (hd : ∀ e, e < g.mesh.edges.length → (ends g.mesh e).1 ≠ (ends g.mesh e).2)
    (i : Nat) (hi : i < g.mesh.cells.length) (vs : List Idx) (ps : List (Vec 2 ℝ)) (hp : IsPolygon g.mesh.edges (bd i) vs)
    (hpos : PositionsOf g.mesh vs ps) (h3 : 3 ≤ vs.length) (hdir : LeadAlong g.mesh (bd i) i vs) :
    ∃ ns ls as, computeFaceNormals2 g.mesh = .ok ns ∧ computeMeasures2 g = .ok (ls, as) ∧ surface g.mesh (bd i) ls ns i = 0 := by
  obtain ⟨ns, n1, n2, n3⟩ := C40_normals_2d g.mesh bd hv hd
  refine ⟨ns, _, _, n1, C39_measures_2d g bd hv h2, ?_⟩
  rw [surface]
  have key : ∀ e ∈ bd i, (outwards (cellsOfFace g.mesh e) i * ((lengths g.mesh)[e]?).getD 0) • (ns[e]?).getD 0 =
      outwards (cellsOfFace g.mesh e) i • (fun A B : Vec 2 ℝ => (![B 1 - A 1, -(B 0 - A 0)] : Vec 2 ℝ)) (ends g.mesh e).1 (ends g.mesh e).2 := by
    intro e he
    have hlt := bd_lt hv hi e he
    rw [h2, edges_of_valid hv] at hlt
    rw [lengths, List.getElem?_map, List.getElem?_range hlt, List.getElem?_eq_getElem (by rw [n2]; exact hlt)]
    simp only [Option.map_some, Option.getD_some]
    rw [mul_smul, length_normal (hd e hlt) (n3 e _ (List.getElem?_eq_getElem (by rw [n2]; exact hlt)))]
  rw [List.map_congr_left key, polygon_sum_directed hp hpos h3 _ (lead_signs h2 hdir) (fun A B : Vec 2 ℝ => (![B 1 - A 1, -(B 0 - A 0)] : Vec 2 ℝ)) (by
    intro A B; funext k; fin_cases k <;> simp)]
  funext k
  rw [vec_sum_apply, List.map_map]
  fin_cases k
  · exact sidesOf_sum (fun p : Vec 2 ℝ => p 1) ps
  · have := sidesOf_sum (fun p : Vec 2 ℝ => - p 0) ps
    simp only [sub_neg_eq_add] at this
    refine Eq.trans ?_ this
    congr 1
    apply List.map_congr_left
    intro p _
    simp
    ring

/-- C55. In 2D, when moreover the polygon is convex and counterclockwise, the normals with these signs are outer normals: every vertex of
the cell is behind them. -/
theorem C55_outer_2d (g : GMesh 2 ℝ) (bd : Idx → List Idx) (hv : ValidMesh g.mesh bd) (h2 : g.mesh.dim = 2)
    (hd : ∀ e, e < g.mesh.edges.length → (ends g.mesh e).1 ≠ (ends g.mesh e).2)
    (i : Nat) (hi : i < g.mesh.cells.length) (vs : List Idx) (ps : List (Vec 2 ℝ))
    (hpos : PositionsOf g.mesh vs ps) (hdir : LeadAlong g.mesh (bd i) i vs) (hc : ConvexPolygon ps) :
    ∃ ns, computeFaceNormals2 g.mesh = .ok ns ∧ ∀ e ∈ bd i, ∃ ν, ns[e]? = some ν ∧
      ∀ q ∈ ps, dot (outwards (cellsOfFace g.mesh e) i • ν) (q - (ends g.mesh e).1) ≤ 0 := by
  obtain ⟨ns, n1, n2, n3⟩ := C40_normals_2d g.mesh bd hv hd
  refine ⟨ns, n1, ?_⟩
  intro e he
  have hlt := bd_lt hv hi e he
  rw [h2, edges_of_valid hv] at hlt
  have hns := List.getElem?_eq_getElem (show e < ns.length by rw [n2]; exact hlt)
  refine ⟨_, hns, ?_⟩
  intro q hq
  have hn := n3 e _ hns
  have hg := List.getElem?_eq_getElem hlt
  set ed := g.mesh.edges[e]
  have hends : ends g.mesh e = ((g.mesh.vertices[ed.a]?).getD 0, (g.mesh.vertices[ed.b]?).getD 0) := by rw [ends, hg]; rfl
  have hmap : ∀ {u v}, (u, v) ∈ sidesOf vs → ((g.mesh.vertices[u]?).getD 0, (g.mesh.vertices[v]?).getD 0) ∈ sidesOf ps := by
    intro u v huv
    have hps : ps = vs.map fun v => (g.mesh.vertices[v]?).getD 0 := by
      clear hc hq hdir huv
      induction hpos with
      | nil => rfl
      | cons h _ ih => rw [List.map_cons, h, ← ih]; rfl
    rw [hps, sidesOf_map]
    exact List.mem_map_of_mem (f := fun p : Idx × Idx => ((g.mesh.vertices[p.1]?).getD 0, (g.mesh.vertices[p.2]?).getD 0)) huv
  -- behind the normal means on the left
  have hA : dot (ns[e]) (q - (ends g.mesh e).1) * Vec.norm ((ends g.mesh e).1 - (ends g.mesh e).2) = - turn q (ends g.mesh e).1 (ends g.mesh e).2 := by
    have := length_normal (hd e hlt) hn
    rw [mul_comm, ← dot_smul, this, dot2, turn]
    simp only [Pi.sub_apply, Matrix.cons_val_zero, Matrix.cons_val_one]
    ring
  have hz : (ends g.mesh e).1 - (ends g.mesh e).2 ≠ 0 := fun h => hd e hlt (sub_eq_zero.mp h)
  have hpos' := norm_pos hz
  rcases lead_signs h2 hdir e he ed hg with ⟨h1, h4⟩ | ⟨h1, h4⟩
  · have := hc _ (hmap h4) q hq
    rw [h1, one_smul]
    rw [← hends] at this
    by_contra hcon
    push Not at hcon
    have := mul_pos hcon hpos'
    linarith
  · have := hc _ (hmap h4) q hq
    rw [h1, neg_smul, one_smul, show -ns[e] = (-1 : ℝ) • ns[e] by simp, dot_smul]
    have e1 : turn q (ends g.mesh e).1 (ends g.mesh e).2 = - turn q (ends g.mesh e).2 (ends g.mesh e).1 := by
      simp only [turn]; ring
    have e2 : 0 ≤ turn q (ends g.mesh e).2 (ends g.mesh e).1 := by rw [hends]; exact this
    by_contra hcon
    push Not at hcon
    have hneg : dot ns[e] (q - (ends g.mesh e).1) < 0 := by linarith
    have := mul_neg_of_neg_of_pos hneg hpos'
    linarith

/-! ## Three dimensions -/

/-- The centers of the two inner cells of face `f` are on different sides of the plane of its first edge and its center. -/
def OppositeSides (g : GMesh 3 ℝ) (f : Idx) (conn : Conn) : Prop :=
  let c := g.faceCenter f
  let K := cross ((firstSide g.mesh f).1 - c) ((firstSide g.mesh f).2 - c)
  0 < dot K (c - g.cellCenter conn.left) * dot K (g.cellCenter conn.right - c)

/-- Every face of a cell has the cell on one of its sides. -/
theorem bd_side {V : Type} {m : Mesh V} {bd : Idx → List Idx} (hv : ValidMesh m bd) {i : Nat} (hi : i < m.cells.length) {f : Idx} (hf : f ∈ bd i)
    {c : Conn} (hc : m.faceConn f = .ok c) : c.left = i ∨ c.right = i := by
  obtain ⟨⟨_, _, hl⟩, _⟩ := hv.chain i _ (List.getElem?_eq_getElem hi)
  obtain ⟨j, hj, rfl⟩ := List.getElem_of_mem hf
  obtain ⟨c', h1, h2⟩ := hl j hj
  rw [hc] at h1
  obtain rfl := Res.ok.inj h1
  unfold Conn.getNextBElem at h2
  split at h2
  · cases h2
  split at h2
  · right; symm; assumption
  split at h2
  · left; symm; assumption
  · cases h2

theorem cellsOfFace3 {m : Mesh (Vec 3 ℝ)} (h3 : m.dim = 3) {f : Nat} {fa : Face} (hf : (m.midElems 2)[f]? = some fa) :
    cellsOfFace m f = fa.conn ∧ m.faceConn f = .ok fa.conn := by
  constructor
  · rw [cellsOfFace, if_neg (by omega), show m.dim - 1 = 2 by omega, hf]; rfl
  · rw [Mesh.faceConn, if_neg (by omega), show m.dim - 1 = 2 by omega, Res.at'_eq_ok.mpr hf]; rfl

theorem neg_dot (x y : Vec 3 ℝ) : dot (-x) y = - dot x y := by rw [show -x = (-1 : ℝ) • x by simp, dot_smul]; ring

theorem dot_sub_swap (x a b : Vec 3 ℝ) : dot x (a - b) = - dot x (b - a) := by rw [dot_sub_right, dot_sub_right]; ring

/-- The outer normal of a star-shaped cell, taken with the sign of the side of the cell, satisfies the conditions of the computed normal. -/
theorem outer_isNormal3 (g : GMesh 3 ℝ) (bd : Idx → List Idx) (hv : ValidMesh g.mesh bd) (h3 : g.mesh.dim = 3)
    (hb : g.mesh.cells.length ≤ BOUNDARY) (i : Nat) (hi : i < g.mesh.cells.length) (P : Idx → List (Vec 3 ℝ)) (ν : Idx → Vec 3 ℝ)
    (hs : StarShaped g (bd i) (g.cellCenter i) P ν) (f : Nat) (hf : f ∈ bd i) (fa : Face) (hfa : (g.mesh.midElems 2)[f]? = some fa)
    (hg : GoodFace g f fa.conn) (hopp : fa.conn.left < BOUNDARY → fa.conn.right < BOUNDARY → OppositeSides g f fa.conn) :
    IsNormal3 g fa.conn (g.faceCenter f) (firstSide g.mesh f).1 (firstSide g.mesh f).2 (outwards fa.conn i • ν f) ∧
      (outwards fa.conn i = 1 ∨ outwards fa.conn i = -1) := by
  obtain ⟨fa', vs, p1, p2, p3⟩ := hs.polygon f hf
  rw [hfa] at p1
  obtain rfl := Option.some.inj p1
  obtain ⟨hν, hr⟩ := hs.sees f hf
  have hin := hs.inner f hf
  have hside := bd_side hv hi hf (cellsOfFace3 h3 hfa).2
  have hplane := hg.plane
  have hgl := hg.left
  have hgr := hg.right
  set c := g.faceCenter f with hc
  have hfe : faceEdges g.mesh f = fa.sub.map (ends g.mesh) := by rw [faceEdges, hfa]; rfl
  -- the first side spans a multiple of the outer normal
  have hk : ∃ s : ℝ, s ≠ 0 ∧ cross ((firstSide g.mesh f).1 - c) ((firstSide g.mesh f).2 - c) = s • ν f := by
    have hne := hg.nonempty
    cases hsub : fa.sub with
    | nil => rw [hfe, hsub] at hne; simp at hne
    | cons e es =>
      have hfs : firstSide g.mesh f = ends g.mesh e := by rw [firstSide, hfe, hsub]; rfl
      rw [hfs] at hplane ⊢
      obtain ⟨p, q1, q2⟩ := polygon_side p2 p3 (e := e) (by rw [hsub]; exact List.mem_cons_self)
      obtain ⟨r, r1, r2⟩ := hr p q1
      rcases q2 with q2 | q2
      · rw [q2] at hplane ⊢
        refine ⟨r, ?_, r2⟩
        rintro rfl
        rw [r2, zero_smul] at hplane
        exact hplane rfl
      · rw [q2] at hplane ⊢
        simp only at hplane ⊢
        rw [cross_antisymm, r2] at hplane ⊢
        refine ⟨-r, ?_, by rw [neg_smul]⟩
        intro h0
        rw [neg_eq_zero.mp h0, zero_smul, neg_zero] at hplane
        exact hplane rfl
  obtain ⟨s, hs0, hK⟩ := hk
  set A := (firstSide g.mesh f).1 with hA
  set B := (firstSide g.mesh f).2 with hB
  have oA : dot (ν f) (A - c) = 0 := by
    have h := dot_cross_left (A - c) (B - c)
    rw [hK, dot_smul] at h
    exact (mul_eq_zero.mp h).resolve_left hs0
  have oB : dot (ν f) (B - c) = 0 := by
    have h := dot_cross_right (A - c) (B - c)
    rw [hK, dot_smul] at h
    exact (mul_eq_zero.mp h).resolve_left hs0
  rw [hK] at hgl hgr
  have hib : i < BOUNDARY := by omega
  have hs2 : 0 < s * s := mul_self_pos.mpr hs0
  by_cases hl : fa.conn.left = i
  · have ho : outwards fa.conn i = 1 := by rw [outwards, if_pos hl]
    refine ⟨?_, .inl ho⟩
    rw [ho, one_smul]
    refine ⟨hν, oA, oB, fun _ => ?_, fun h => by omega⟩
    have := hgl (by omega)
    rw [dot_smul_right, hl] at this
    rw [hl, dot_comm]
    exact lt_of_le_of_ne hin (fun h => this (by rw [← h, mul_zero]))
  · have hrt := hside.resolve_left hl
    have ho : outwards fa.conn i = -1 := by rw [outwards, if_neg hl, if_pos hrt]
    refine ⟨?_, .inr ho⟩
    rw [ho, neg_smul, one_smul]
    refine ⟨by rw [norm_neg]; exact hν, by rw [neg_dot, oA, neg_zero], by rw [neg_dot, oB, neg_zero], fun hlb => ?_, fun hlb => ?_⟩
    · have ho := hopp hlb (by omega)
      unfold OppositeSides at ho
      simp only at ho
      rw [← hc, ← hA, ← hB, hK, hrt, dot_smul, dot_smul] at ho
      rw [neg_dot]
      have hin' : dot (ν f) (g.cellCenter i - c) ≤ 0 := by
        rw [dot_sub_swap, dot_comm]; linarith
      have ho : 0 < (s * s) * (dot (ν f) (c - g.cellCenter fa.conn.left) * dot (ν f) (g.cellCenter i - c)) := by nlinarith
      have ho := (mul_pos_iff_of_pos_left hs2).mp ho
      by_contra hcon
      push Not at hcon
      have := mul_nonpos_of_nonneg_of_nonpos (show 0 ≤ dot (ν f) (c - g.cellCenter fa.conn.left) by linarith) hin'
      linarith
    · have := hgr hlb
      rw [dot_smul_right, hrt] at this
      rw [hrt, neg_dot, ← dot_sub_swap, dot_comm]
      exact lt_of_le_of_ne hin (fun h => this (by rw [← h, mul_zero]))

/-- C55. In 3D: for a star-shaped cell with planar faces whose neighbours lie on the other sides of the faces, the computed normal of each
face is, with the sign of the side on which the cell lies, the outer unit normal of the cell, and the areas times these normals add up
to zero. -/
theorem C55_closed_3d (g : GMesh 3 ℝ) (bd : Idx → List Idx) (hv : ValidMesh g.mesh bd) (h3 : g.mesh.dim = 3) (hd : NonDegenerate g)
    (hg : ∀ (k : Nat) f, (g.mesh.midElems 2)[k]? = some f → GoodFace g k f.conn) (hb : g.mesh.cells.length ≤ BOUNDARY)
    (i : Nat) (hi : i < g.mesh.cells.length) (P : Idx → List (Vec 3 ℝ)) (ν : Idx → Vec 3 ℝ)
    (hs : StarShaped g (bd i) (g.cellCenter i) P ν)
    (hopp : ∀ (f : Nat) fa, f ∈ bd i → (g.mesh.midElems 2)[f]? = some fa → fa.conn.left < BOUNDARY → fa.conn.right < BOUNDARY →
      OppositeSides g f fa.conn) :
    ∃ ns ls as vols, computeFaceNormals3 g = .ok ns ∧ computeMeasures3 g = .ok (ls, as, vols) ∧
      (∀ f ∈ bd i, ∃ n, ns[f]? = some n ∧ outwards (cellsOfFace g.mesh f) i • n = ν f) ∧ surface g.mesh (bd i) as ns i = 0 := by
  obtain ⟨ns, n1, n2, n3⟩ := C40_normals_3d g bd hv h3 hg
  have hn2 : g.mesh.numElems 2 = (g.mesh.midElems 2).length := by
    unfold Mesh.numElems; rw [if_neg (by omega), if_neg (by omega), if_neg (by omega)]
  have key : ∀ f ∈ bd i, f < (g.mesh.midElems 2).length ∧ ∃ n, ns[f]? = some n ∧ outwards (cellsOfFace g.mesh f) i • n = ν f := by
    intro f hf
    have hlt := bd_lt hv hi f hf
    rw [h3, show 3 - 1 = 2 from rfl, hn2] at hlt
    refine ⟨hlt, ?_⟩
    have hfa := List.getElem?_eq_getElem hlt
    have hns := List.getElem?_eq_getElem (show f < ns.length by omega)
    refine ⟨_, hns, ?_⟩
    obtain ⟨h1, h2⟩ := outer_isNormal3 g bd hv h3 hb i hi P ν hs f hf _ hfa (hg f _ hfa) (hopp f _ hf hfa)
    rw [(cellsOfFace3 h3 hfa).1, IsNormal3.unique (hg f _ hfa).plane (n3 f _ _ hfa hns) h1, smul_smul]
    rcases h2 with h2 | h2 <;> rw [h2] <;> simp
  refine ⟨ns, _, _, _, n1, C39_measures_3d g bd hv h3 hd, fun f hf => (key f hf).2, ?_⟩
  rw [surface, ← hs.closed]
  congr 1
  apply List.map_congr_left
  intro f hf
  obtain ⟨hlt, n, hn, ho⟩ := key f hf
  rw [hn, List.getElem?_map, List.getElem?_range hlt]
  simp only [Option.map_some, Option.getD_some]
  obtain ⟨fa, vs, p1, p2, p3⟩ := hs.polygon f hf
  rw [(face_area_polygon g p1 p2 p3 (hs.sees f hf)).2, mul_comm, mul_smul, ho]

/-- C55. The same for a cell that is a convex polyhedron, with the centers that the library computes. -/
theorem C55_convex_3d (g : GMesh 3 ℝ) (bd : Idx → List Idx) (hv : ValidMesh g.mesh bd) (hne : NoEmptyElement g.mesh) (h3 : g.mesh.dim = 3)
    (hb : g.mesh.cells.length ≤ BOUNDARY) (cs : List (List (Vec 3 ℝ))) (hcs : computeCenters g.mesh = .ok cs) (hd : NonDegenerate (setCenters g cs))
    (hg : ∀ (k : Nat) f, (g.mesh.midElems 2)[k]? = some f → GoodFace (setCenters g cs) k f.conn)
    (i : Nat) (hi : i < g.mesh.cells.length) (P : Idx → List (Vec 3 ℝ)) (ν : Idx → Vec 3 ℝ) (hc : ConvexCell g.mesh (bd i) P ν)
    (hopp : ∀ (f : Nat) fa, f ∈ bd i → (g.mesh.midElems 2)[f]? = some fa → fa.conn.left < BOUNDARY → fa.conn.right < BOUNDARY →
      OppositeSides (setCenters g cs) f fa.conn) :
    ∃ ns ls as vols, computeFaceNormals3 (setCenters g cs) = .ok ns ∧ computeMeasures3 (setCenters g cs) = .ok (ls, as, vols) ∧
      (∀ f ∈ bd i, ∃ n, ns[f]? = some n ∧ outwards (cellsOfFace g.mesh f) i • n = ν f) ∧ surface g.mesh (bd i) as ns i = 0 :=
  C55_closed_3d (setCenters g cs) bd hv h3 hd hg hb i hi P ν (convex_star g bd hv hne h3 cs hcs i hi P ν hc).1 hopp

/-! ### Examples -/

theorem square_edges : ∀ e, e < squareG.mesh.edges.length → (ends squareG.mesh e).1 ≠ (ends squareG.mesh e).2 := by
  intro e he
  have he : e < 5 := he
  have hne : ∀ i j : Nat, (∃ k, squarePos i k ≠ squarePos j k) → squarePos i ≠ squarePos j := by
    rintro i j ⟨k, hk⟩ h; rw [h] at hk; exact hk rfl
  interval_cases e
  · exact hne 0 1 ⟨0, by simp [squarePos]⟩
  · exact hne 1 2 ⟨1, by simp [squarePos]⟩
  · exact hne 2 0 ⟨1, by simp [squarePos]⟩
  · exact hne 2 3 ⟨0, by simp [squarePos]⟩
  · exact hne 3 0 ⟨1, by simp [squarePos]⟩

/-- The second triangle of the square has one edge on whose right side it lies. -/
theorem square_lead : LeadAlong squareG.mesh (twoTrianglesBd 1) 1 [0, 2, 3] := by
  intro e he ed hed
  have : e = 2 ∨ e = 3 ∨ e = 4 := by simpa [twoTrianglesBd] using he
  rcases this with rfl | rfl | rfl <;> obtain rfl := Option.some.inj hed <;> decide

example : ∃ ns ls as, computeFaceNormals2 square = .ok ns ∧ computeMeasures2 squareG = .ok (ls, as) ∧ surface square [2, 3, 4] ls ns 1 = 0 :=
  C55_closed_2d squareG _ square_valid rfl square_edges 1 (by simp [squareG, square, twoTriangles]) [0, 2, 3]
    [squarePos 0, squarePos 2, squarePos 3] (by
      refine ⟨by simp, by simp [NoRepetition], by simp [NoRepetition, twoTrianglesBd], [2, 3, 4], ?_, ?_⟩
      · simp [twoTrianglesBd]
      · refine ⟨rfl, ?_⟩
        intro j hj
        have hj : j < 3 := hj
        interval_cases j
        · exact ⟨2, 0, 2, rfl, rfl, rfl, _, rfl, by decide⟩
        · exact ⟨3, 2, 3, rfl, rfl, rfl, _, rfl, by decide⟩
        · exact ⟨4, 3, 0, rfl, rfl, rfl, _, rfl, by decide⟩)
    (by repeat' constructor) (by decide) square_lead

example : ∃ ns, computeFaceNormals2 square = .ok ns ∧ ∀ e ∈ twoTrianglesBd 1, ∃ ν, ns[e]? = some ν ∧
    ∀ q ∈ [squarePos 0, squarePos 2, squarePos 3], dot (outwards (cellsOfFace square e) 1 • ν) (q - (ends square e).1) ≤ 0 :=
  C55_outer_2d squareG _ square_valid rfl square_edges 1 (by simp [squareG, square, twoTriangles]) [0, 2, 3]
    [squarePos 0, squarePos 2, squarePos 3] (by repeat' constructor) square_lead (by
      intro p hp q hq
      simp [sidesOf, List.rotate, squarePos] at hp hq
      rcases hp with rfl | rfl | rfl <;> rcases hq with rfl | rfl | rfl <;> simp [turn])

theorem tetsC_star : StarShaped tetsC (twoTetsBd 0) (tetsC.cellCenter 0) (fun f => (tetCycle f).map tetPos) tetNormal := by
  obtain ⟨cs, hcs, hac⟩ := C38_centers tets _ tets_valid tets_noEmpty
  obtain ⟨h, _⟩ := convex_star tetsG _ tets_valid tets_noEmpty rfl cs hcs 0 (by simp [tetsG, tets, twoTets]) _ _ tets_convex
  have hfc : ∀ f, f < (tets.midElems 2).length → (setCenters tetsG cs).faceCenter f = edgeMean tets f := by
    intro f hf
    exact setCenters_face tetsG (le_of_lt (show 2 < 3 by omega)) (face_entry tets_valid rfl hac hf)
  have hmem : ∀ f ∈ twoTetsBd 0, f = 0 ∨ f = 1 ∨ f = 2 ∨ f = 3 := by intro f hf; simpa [twoTetsBd] using hf
  have hlt : ∀ f ∈ twoTetsBd 0, f < (tets.midElems 2).length := by
    intro f hf
    show f < 7
    rcases hmem f hf with rfl | rfl | rfl | rfl <;> decide
  refine ⟨tets_convex.polygon, ?_, ?_, closed_of_sides tets_convex.closed⟩
  · intro f hf
    have := h.sees f hf
    rw [hfc f (hlt f hf)] at this
    exact this
  · intro f hf
    have hs : 0 < (Real.sqrt 3)⁻¹ := inv_pos.mpr (Real.sqrt_pos.mpr (by norm_num))
    show 0 ≤ dot (edgeMean tets f - tetsC.cellCenter 0) (tetNormal f)
    rcases hmem f hf with rfl | rfl | rfl | rfl
    · have hf : faceEdges tets 0 = [(tetPos 0, tetPos 1), (tetPos 1, tetPos 2), (tetPos 2, tetPos 0)] := rfl
      rw [edgeMean, hf]; simp [dot3, mean, tetPos, tetsC, tetNormal]
    · have hf : faceEdges tets 1 = [(tetPos 0, tetPos 1), (tetPos 1, tetPos 3), (tetPos 0, tetPos 3)] := rfl
      rw [edgeMean, hf]; simp [dot3, mean, tetPos, tetsC, tetNormal]
    · have hf : faceEdges tets 2 = [(tetPos 2, tetPos 0), (tetPos 0, tetPos 3), (tetPos 2, tetPos 3)] := rfl
      rw [edgeMean, hf]; simp [dot3, mean, tetPos, tetsC, tetNormal]
    · have hf : faceEdges tets 3 = [(tetPos 1, tetPos 2), (tetPos 2, tetPos 3), (tetPos 1, tetPos 3)] := rfl
      rw [edgeMean, hf]; simp [dot3, mean, tetPos, tetsC, tetNormal]
      nlinarith

theorem tetsC_nonDegenerate : NonDegenerate tetsC := by
  refine ⟨?_, ?_, ?_⟩
  · obtain ⟨cs, hcs, _⟩ := C38_centers tets _ tets_valid tets_noEmpty
    exact (tets_nonDegenerate hcs).edges
  · intro f hf
    exact (tetsC_good f _ (List.getElem?_eq_getElem hf)).nonempty
  · intro f hf
    exact (tetsC_good f _ (List.getElem?_eq_getElem hf)).plane

/-- The first of the two tetrahedra. -/
example : ∃ ns ls as vols, computeFaceNormals3 tetsC = .ok ns ∧ computeMeasures3 tetsC = .ok (ls, as, vols) ∧
    (∀ f ∈ [0, 1, 2, 3], ∃ n, ns[f]? = some n ∧ outwards (cellsOfFace tets f) 0 • n = tetNormal f) ∧ surface tets [0, 1, 2, 3] as ns 0 = 0 := by
  refine C55_closed_3d tetsC _ tets_valid rfl tetsC_nonDegenerate tetsC_good ?_ 0 (by simp [tetsC, tets, twoTets]) _ _ tetsC_star ?_
  · show 2 ≤ BOUNDARY
    decide +kernel
  · intro f fa hf hfa hl hr
    have hinv : ¬ INVALID < BOUNDARY := by decide +kernel
    have hmem : f = 0 ∨ f = 1 ∨ f = 2 ∨ f = 3 := by simpa [twoTetsBd] using hf
    rcases hmem with rfl | rfl | rfl | rfl <;> obtain rfl := Option.some.inj hfa
    · exact absurd hr hinv
    · exact absurd hr hinv
    · exact absurd hr hinv
    · have hf : faceEdges tets 3 = [(tetPos 1, tetPos 2), (tetPos 2, tetPos 3), (tetPos 1, tetPos 3)] := rfl
      have hfs : firstSide tetsC.mesh 3 = (tetPos 1, tetPos 2) := rfl
      have hc : tetsC.faceCenter 3 = (3⁻¹ : ℝ) • (tetPos 1 + tetPos 2 + tetPos 3) := by
        show edgeMean tets 3 = _
        rw [edgeMean, hf]; funext k; simp [mean]; ring
      unfold OppositeSides
      simp only
      rw [hfs, hc]
      simp [dot3, cross_apply, tetPos, tetsC]
      norm_num

end GTMesh.Props
