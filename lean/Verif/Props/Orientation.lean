import Verif.Proofs.Orient
import Verif.Props.Flux
import Verif.Props.Vtk3valid
import Verif.Props.Distances

/-! # C56: orientation of the exported solids -/

namespace GTMesh.Props
open Spec Std' Vec Geo Vtk

theorem sidesOf_rotate {α : Type} (l : List α) (k : Nat) : sidesOf (l.rotate k) = (sidesOf l).rotate k := by
  apply List.ext_getElem?
  intro j
  have hl : (sidesOf (l.rotate k)).length = l.length := by simp [sidesOf]
  have hl' : ((sidesOf l).rotate k).length = l.length := by simp [sidesOf]
  by_cases hj : j < l.length
  · rw [List.getElem?_eq_getElem (by omega), List.getElem?_eq_getElem (by omega)]
    simp only [sidesOf, List.getElem_zip, List.getElem_rotate, List.length_rotate, List.length_zip, Nat.min_self, Option.some.injEq, Prod.mk.injEq,
      true_and]
    congr 1
    rw [Nat.mod_add_mod, Nat.mod_add_mod]
    congr 1
    omega
  · rw [List.getElem?_eq_none (by omega), List.getElem?_eq_none (by omega)]

theorem sidesOf_reverse {α : Type} {l : List α} {s : α × α} (h : s ∈ sidesOf l.reverse) : (s.2, s.1) ∈ sidesOf l := by
  obtain ⟨j, hj, rfl⟩ := sidesOf_index h
  rw [List.length_reverse] at hj
  simp only [List.getElem_reverse, List.length_reverse]
  by_cases hl : j + 1 < l.length
  · refine List.mem_of_getElem? (i := l.length - 1 - (j + 1)) ?_
    rw [sidesOf_get _ _ (by omega)]
    simp only [Option.some.injEq, Prod.mk.injEq]
    refine ⟨?_, ?_⟩ <;> congr 1
    · rw [Nat.mod_eq_of_lt hl]
    · rw [Nat.mod_eq_of_lt (by omega)]; omega
  · refine List.mem_of_getElem? (i := l.length - 1) ?_
    rw [sidesOf_get _ _ (by omega)]
    have e1 : j + 1 = l.length := by omega
    simp only [Option.some.injEq, Prod.mk.injEq]
    refine ⟨?_, ?_⟩ <;> congr 1
    · rw [e1, Nat.mod_self]; omega
    · rw [show l.length - 1 + 1 = l.length by omega, Nat.mod_self]; omega

theorem sidesOf_sameCycle {q p : List Idx} (h : SameCycle q p) :
    (∀ s ∈ sidesOf q, s ∈ sidesOf p) ∨ (∀ s ∈ sidesOf q, (s.2, s.1) ∈ sidesOf p) := by
  have rot : ∀ {q p : List Idx}, q ~r p → ∀ s ∈ sidesOf q, s ∈ sidesOf p := by
    rintro q p ⟨k, rfl⟩ s hs
    rw [sidesOf_rotate]
    exact List.mem_rotate.mpr hs
  rcases h with h | h
  · exact .inl (rot h)
  · exact .inr fun s hs => sidesOf_reverse (rot h s hs)

/-- A polygon that goes around in one of the two senses. -/
theorem seesAround_sameCycle {c μ : Vec 3 ℝ} {pos : Idx → Vec 3 ℝ} {q p : List Idx} (h : SameCycle q p) (hs : SeesAround c μ (p.map pos)) :
    SeesAround c μ (q.map pos) ∨ SeesAround c (-μ) (q.map pos) := by
  have hp : ∀ s ∈ sidesOf p, ∃ r : ℝ, 0 ≤ r ∧ cross (pos s.1 - c) (pos s.2 - c) = r • μ := by
    intro s hs'
    refine hs.2 (pos s.1, pos s.2) ?_
    rw [sidesOf_map]
    exact List.mem_map_of_mem hs'
  rcases sidesOf_sameCycle h with h | h
  · left
    refine ⟨hs.1, fun s hs' => ?_⟩
    rw [sidesOf_map] at hs'
    obtain ⟨t, ht, rfl⟩ := List.mem_map.mp hs'
    exact hp t (h t ht)
  · right
    refine ⟨by rw [norm_neg]; exact hs.1, fun s hs' => ?_⟩
    rw [sidesOf_map] at hs'
    obtain ⟨t, ht, rfl⟩ := List.mem_map.mp hs'
    obtain ⟨r, r1, r2⟩ := hp _ (h t ht)
    refine ⟨r, r1, ?_⟩
    simp only at r2 ⊢
    rw [cross_antisymm, r2, smul_neg]

/-- A vector orthogonal to two independent vectors is a multiple of their vector product. -/
theorem parallel_cross {a b ν : Vec 3 ℝ} (hp : cross a b ≠ 0) (ha : dot ν a = 0) (hb : dot ν b = 0) : ∃ s : ℝ, ν = s • cross a b := by
  set K := cross a b with hK
  have hKp := norm_pos hp
  have hz : cross K ν = 0 := by rw [hK, triple, dot_comm, ha, dot_comm, hb]; simp
  have ht := triple K ν K
  have hz2 : cross (cross K ν) K = 0 := by
    rw [hz]
    have h := cross_apply (0 : Vec 3 ℝ) K
    apply ext3 <;> simp [h]
  rw [hz2] at ht
  have hKK : dot K K ≠ 0 := by rw [← norm_sq]; exact (mul_pos hKp hKp).ne'
  refine ⟨(dot K K)⁻¹ * dot ν K, ?_⟩
  have := sub_eq_zero.mp ht.symm
  rw [mul_smul, ← this, smul_smul, inv_mul_cancel₀ hKK, one_smul]

/-- The two senses exclude each other. -/
theorem BaseInward.not_outward {g : GMesh 3 ℝ} {i f : Idx} {base : List Idx} (h : BaseInward g i f base) : ¬ BaseOutward g i f base := by
  rintro ⟨μ', ⟨⟨hn', hs'⟩, u', v', e1', e2', p'⟩, d'⟩
  obtain ⟨μ, ⟨⟨hn, hs⟩, u, v, e1, e2, p⟩, d⟩ := h
  obtain rfl : u = u' := Option.some.inj (e1.symm.trans e1')
  obtain rfl : v = v' := Option.some.inj (e2.symm.trans e2')
  clear e1' e2'
  have hside : (posAt g.mesh u, posAt g.mesh v) ∈ sidesOf (base.map (posAt g.mesh)) := by
    rw [sidesOf_map]
    refine List.mem_map.mpr ⟨(u, v), ?_, rfl⟩
    have hl := (List.getElem?_eq_some_iff.mp e2).1
    refine List.mem_of_getElem? (i := 0) ?_
    rw [sidesOf_get _ _ (by omega)]
    rw [List.getElem?_eq_getElem (by omega)] at e1 e2
    simp only [Option.some.injEq] at e1 e2 ⊢
    simp only [zero_add, Nat.mod_eq_of_lt hl, e1, e2]
  obtain ⟨r, r1, r2⟩ := hs _ hside
  obtain ⟨r', r1', r2'⟩ := hs' _ hside
  simp only at r2 r2'
  rw [r2, dot_smul_right] at p
  rw [r2'] at r2
  rw [r2', dot_smul_right] at p'
  have hr : 0 < r := lt_of_le_of_ne r1 (by rintro rfl; simp at p)
  have hr' : 0 < r' := lt_of_le_of_ne r1' (by rintro rfl; simp at p')
  have := congrArg (fun x => dot x (g.cellCenter i - g.faceCenter f)) r2
  simp only [dot_smul] at this
  have a := mul_pos hr d
  have b := mul_neg_of_pos_of_neg hr' d'
  linarith

/-- When both sides of a face are cells, their centers lie on different sides of its plane. -/
def OppositeCells (g : GMesh 3 ℝ) (i : Idx) (conn : Conn) : Prop :=
  conn.left < g.mesh.cells.length → conn.right < g.mesh.cells.length → conn.left ≠ conn.right →
    dot (g.cellCenter conn.left - g.faceCenter i) (cross ((firstSide g.mesh i).1 - g.faceCenter i) ((firstSide g.mesh i).2 - g.faceCenter i)) *
      dot (g.cellCenter conn.right - g.faceCenter i) (cross ((firstSide g.mesh i).1 - g.faceCenter i) ((firstSide g.mesh i).2 - g.faceCenter i)) < 0

/-- The vertices of face `i` go around its center, in a plane, in one of the two senses. -/
def StarFace (g : GMesh 3 ℝ) (i : Idx) (subs : List Idx) : Prop :=
  ∀ p, IsPolygon g.mesh.edges subs p → ∃ μ, SeesAround (g.faceCenter i) μ (p.map (posAt g.mesh))

theorem firstSide_eq {m : Mesh (Vec 3 ℝ)} {i : Nat} {f : Face} {e0 : Idx} {ed : Edge} (hf : (m.midElems 2)[i]? = some f) (h0 : f.sub[0]? = some e0)
    (he : m.edges[e0]? = some ed) : firstSide m i = (posAt m ed.a, posAt m ed.b) := by
  rw [firstSide, faceEdges, hf]
  cases hs : f.sub with
  | nil => rw [hs] at h0; simp at h0
  | cons x xs =>
    rw [hs] at h0
    simp only [List.getElem?_cons_zero, Option.some.injEq] at h0
    subst h0
    simp [hs, ends, he, posAt]

/-- The base in the sense of `indexFace`. -/
theorem base_sense (g : GMesh 3 ℝ) (o f : Nat) (x : Face) (ν : Vec 3 ℝ) (b : Bool)
    (hg : GoodFace g f x.conn) (hop : OppositeCells g f x.conn) (ho : o < g.mesh.cells.length) (hob : o < BOUNDARY)
    (hside : o = x.conn.left ∨ o = x.conn.right)
    (hn : IsNormal3 g x.conn (g.faceCenter f) (firstSide g.mesh f).1 (firstSide g.mesh f).2 ν)
    (hb : b = true ↔ 0 < dot ν (cross ((firstSide g.mesh f).1 - g.faceCenter f) ((firstSide g.mesh f).2 - g.faceCenter f)))
    {p q : List Idx} (hstar : ∃ μ, SeesAround (g.faceCenter f) μ (p.map (posAt g.mesh))) (hc : SameCycle q p) {u v : Idx}
    (hfs : firstSide g.mesh f = (posAt g.mesh u, posAt g.mesh v))
    (h1 : b = true ∧ o = x.conn.left → q[0]? = some v ∧ q[1]? = some u)
    (h2 : ¬ (b = true ∧ o = x.conn.left) → q[0]? = some u ∧ q[1]? = some v) :
    (o = x.conn.left ∨ b = true → BaseInward g o f q) ∧ (o ≠ x.conn.left → b = false → BaseOutward g o f q) := by
  have hplane := hg.plane
  have hr := hg.right
  have hl := hg.left
  unfold OppositeCells at hop
  rw [hfs] at hn hb hplane hop hr hl
  simp only at hn hb hplane hop hr hl
  set c := g.faceCenter f with hcdef
  set A := posAt g.mesh u
  set B := posAt g.mesh v
  set K := cross (A - c) (B - c) with hK
  obtain ⟨s, hs⟩ := parallel_cross hplane hn.orthA hn.orthB
  rw [← hK] at hs
  have hKK : 0 < dot K K := by rw [← norm_sq]; exact mul_pos (norm_pos hplane) (norm_pos hplane)
  have hs0 : s ≠ 0 := by rintro rfl; have := hn.unit; rw [hs, zero_smul] at this; simp [norm_real, dot3] at this
  have hbs : b = true ↔ 0 < s := by
    rw [hb, hs, dot_smul]
    constructor
    · intro h; by_contra hn'; have := mul_nonpos_of_nonpos_of_nonneg (not_lt.mp hn') hKK.le; linarith
    · intro h; exact mul_pos h hKK
  -- the sense of the base
  obtain ⟨μ0, hμ0⟩ := hstar
  obtain ⟨μ, hμ⟩ : ∃ μ, SeesAround c μ (q.map (posAt g.mesh)) := by
    rcases seesAround_sameCycle hc hμ0 with h | h
    · exact ⟨_, h⟩
    · exact ⟨_, h⟩
  have first : ∀ y z, q[0]? = some y → q[1]? = some z → ∃ r : ℝ, 0 ≤ r ∧ cross (posAt g.mesh y - c) (posAt g.mesh z - c) = r • μ := by
    intro y z e1 e2
    refine hμ.2 (posAt g.mesh y, posAt g.mesh z) ?_
    rw [sidesOf_map]
    refine List.mem_map.mpr ⟨(y, z), ?_, rfl⟩
    have hl := (List.getElem?_eq_some_iff.mp e2).1
    refine List.mem_of_getElem? (i := 0) ?_
    rw [sidesOf_get _ _ (by omega)]
    rw [List.getElem?_eq_getElem (by omega)] at e1 e2
    simp only [Option.some.injEq] at e1 e2 ⊢
    simp only [zero_add, Nat.mod_eq_of_lt hl, e1, e2]
  have hμμ : dot μ μ = 1 := by rw [← norm_sq, hμ.1, mul_one]
  -- `σ` is the sense: `σ • K` is the vector product of the first side of the base
  obtain ⟨σ, y, z, hσ, y1, z1, hyz, hσ1, hσ2⟩ : ∃ (σ : ℝ) (y z : Idx), (σ = 1 ∨ σ = -1) ∧ q[0]? = some y ∧ q[1]? = some z ∧
      cross (posAt g.mesh y - c) (posAt g.mesh z - c) = σ • K ∧ (b = true ∧ o = x.conn.left → σ = -1) ∧ (¬ (b = true ∧ o = x.conn.left) → σ = 1) := by
    by_cases h : b = true ∧ o = x.conn.left
    · refine ⟨-1, v, u, .inr rfl, (h1 h).1, (h1 h).2, ?_, fun _ => rfl, fun h' => absurd h h'⟩
      rw [cross_antisymm, neg_smul, one_smul]
    · refine ⟨1, u, v, .inl rfl, (h2 h).1, (h2 h).2, ?_, fun h' => absurd h' h, fun _ => rfl⟩
      rw [one_smul]
  obtain ⟨r, r1, r2⟩ := first y z y1 z1
  rw [hyz] at r2
  have hrp : 0 < r := by
    refine lt_of_le_of_ne r1 ?_
    rintro rfl
    rw [zero_smul] at r2
    rcases hσ with rfl | rfl
    · rw [one_smul] at r2; exact hplane r2
    · rw [neg_smul, one_smul, neg_eq_zero] at r2; exact hplane r2
  have hgo : GoesAround g f q μ := by
    refine ⟨hμ, y, z, y1, z1, ?_⟩
    rw [← hcdef, hyz, r2, dot_smul_right, hμμ, mul_one]
    exact hrp
  have hd : ∀ w, r * dot μ w = σ * dot w K := by
    intro w
    have := congrArg (fun k => dot k w) r2
    simp only [dot_smul] at this
    rw [dot_comm w K, this]
  -- the side of the center of the cell
  have hin : ∀ {t : ℝ}, 0 < σ * t → dot (g.cellCenter o - c) K = t → BaseInward g o f q := by
    intro t ht e
    refine ⟨μ, hgo, ?_⟩
    rw [← hcdef]
    have := hd (g.cellCenter o - c)
    rw [e] at this
    by_contra hn'
    have := mul_nonpos_of_nonneg_of_nonpos hrp.le (not_lt.mp hn')
    linarith
  have hout : ∀ {t : ℝ}, σ * t < 0 → dot (g.cellCenter o - c) K = t → BaseOutward g o f q := by
    intro t ht e
    refine ⟨μ, hgo, ?_⟩
    rw [← hcdef]
    have := hd (g.cellCenter o - c)
    rw [e] at this
    by_contra hn'
    have := mul_nonneg hrp.le (not_lt.mp hn')
    linarith
  have awayK : x.conn.left < BOUNDARY → s * dot (g.cellCenter x.conn.left - c) K < 0 := by
    intro hlb
    have ha := hn.away hlb
    rw [hs, dot_smul, dot_comm] at ha
    have e : dot (g.cellCenter x.conn.left - c) K = - dot (c - g.cellCenter x.conn.left) K := by
      rw [dot_sub, dot_sub]; ring
    rw [e]; linarith
  have hneg : ∀ {t : ℝ}, s * t < 0 → (0 < s → t < 0) ∧ (s < 0 → 0 < t) := by
    intro t ht
    constructor
    · intro h; by_contra hn'; have := mul_nonneg h.le (not_lt.mp hn'); linarith
    · intro h; by_contra hn'; have := mul_nonneg_of_nonpos_of_nonpos h.le (not_lt.mp hn'); linarith
  have hbf : b = false → s < 0 := by
    intro h
    rcases lt_or_gt_of_ne hs0 with h' | h'
    · exact h'
    · rw [hbs.mpr h'] at h; simp at h
  by_cases ho' : o = x.conn.left
  · refine ⟨fun _ => ?_, fun h => absurd ho' h⟩
    have haw := hneg (awayK (ho' ▸ hob))
    rw [← ho'] at haw
    refine hin ?_ rfl
    cases hbb : b with
    | true =>
      rw [hσ1 ⟨hbb, ho'⟩]
      have := haw.1 (hbs.mp hbb)
      linarith
    | false =>
      rw [hσ2 (by rw [hbb]; simp)]
      have := haw.2 (hbf hbb)
      linarith
  · have hor : o = x.conn.right := hside.resolve_left ho'
    have hσv := hσ2 (fun h => ho' h.2)
    have hpos : 0 < s * dot (g.cellCenter o - c) K := by
      by_cases hlb : x.conn.left < BOUNDARY
      · have hin' : x.conn.left < g.mesh.cells.length := by
          rcases hg.inner with h | h
          · exact h.1
          · omega
        have h1 := awayK hlb
        have h2 := hop hin' (hor ▸ ho) (by rw [← hor]; exact fun h => ho' h.symm)
        rw [← hor] at h2
        have h3 := hneg h1
        rcases lt_or_gt_of_ne hs0 with h | h
        · have := h3.2 h
          have : dot (g.cellCenter o - c) K < 0 := by
            by_contra hn'; have := mul_nonneg this.le (not_lt.mp hn'); linarith
          exact mul_pos_of_neg_of_neg h this
        · have := h3.1 h
          have : 0 < dot (g.cellCenter o - c) K := by
            by_contra hn'; have := mul_nonneg_of_nonpos_of_nonpos this.le (not_lt.mp hn'); linarith
          exact mul_pos h this
      · have ht := hn.towards (not_lt.mp hlb)
        rw [hs, dot_smul, dot_comm, ← hor] at ht
        exact ht
    refine ⟨fun h => ?_, fun _ hbb => ?_⟩
    · have h : 0 < s := hbs.mp (h.resolve_left ho')
      refine hin ?_ rfl
      rw [hσv, one_mul]
      by_contra hn'; have := mul_nonpos_of_nonneg_of_nonpos h.le (not_lt.mp hn'); linarith
    · have h := hbf hbb
      refine hout ?_ rfl
      rw [hσv, one_mul]
      by_contra hn'; have := mul_nonpos_of_nonpos_of_nonneg h.le (not_lt.mp hn'); linarith

/-- C56. Let every cell of a 3D mesh that is exported whole be a solid of its type, and let the faces be planar, star-shaped with respect
to their centers, with the two cells on different sides. The exported cell begins with the vertices of one of its faces. When the cell is the left
cell of this face, or when the first edge of the face has the orientation `true`, the right-hand rule for these vertices points into the
cell, as the VTK format asks for tetrahedra, pyramids and hexahedra; in all other cases it points out of the cell. -/
theorem C56_base_partial (key : Vec 3 ℝ → List Char) (g : GMesh 3 ℝ) (bd vert : Idx → List Idx)
    (types : List Nat) (w0 : Writer3 (Vec 3 ℝ)) (hd : g.mesh.dim = 3) (hv : ValidMesh g.mesh bd) (hnum : Vtk.Numbered g.mesh)
    (htl : types.length = g.mesh.cells.length) (hfit : g.mesh.cells.length ≤ BOUNDARY)
    (hsol : ∀ (i : Nat) t, types[i]? = some t → isSplit types i = false → IsSolid g.mesh (bd i) (vert i) t)
    (hg : ∀ (i : Nat) f, (g.mesh.midElems 2)[i]? = some f → GoodFace g i f.conn)
    (hop : ∀ (i : Nat) f, (g.mesh.midElems 2)[i]? = some f → OppositeCells g i f.conn)
    (hstar : ∀ (i : Nat) f, (g.mesh.midElems 2)[i]? = some f → StarFace g i f.sub) :
    ∃ bs w, edgesOrientation g = .ok bs ∧ indexMesh3 (firstOri bs) key g.cellCenter g.faceCenter g.mesh types w0 = .ok w ∧
      ∀ (k : Nat) o t, (origins (pieces g.mesh bd types) g.mesh.cells.length)[k]? = some o → isSplit types o = false → types[o]? = some t →
        ∃ vs f x p, w.cellVert[k]? = some vs ∧ f ∈ bd o ∧ (g.mesh.midElems 2)[f]? = some x ∧
          IsPolygon g.mesh.edges x.sub p ∧ SameCycle (vs.take (baseSize t)) p ∧
          (t = 300 → ∀ c, g.mesh.cells[o]? = some c → f = c.bElem) ∧
          (o = x.conn.left ∨ firstOri bs f = true → BaseInward g o f (vs.take (baseSize t))) ∧
          (o ≠ x.conn.left → firstOri bs f = false → BaseOutward g o f (vs.take (baseSize t))) := by
  obtain ⟨ns, hns, hnl, hnor⟩ := C40_normals_3d g bd hv hd hg
  obtain ⟨bs, hbs, _, hor⟩ := C42_orientations g bd hv hd ns hns
  obtain ⟨w, hw⟩ := indexMesh3_total (firstOri bs) key g.cellCenter g.faceCenter g.mesh bd vert types w0 hd hv hnum htl hsol
  refine ⟨bs, w, hbs, hw, fun k o t ho hs ht => ?_⟩
  obtain ⟨blocks, pt, h1, h2, h3, h4, h5, h6, h7, _, h9, _⟩ := export_full (firstOri bs) key g.cellCenter g.faceCenter g.mesh bd types w0 w hd hv hnum hw
  have holt := origins_lt ho
  unfold origins at ho
  rw [← h1, List.range_eq_range'] at ho
  obtain ⟨b, j, y, _, g2, g3, g4⟩ := flatten_origin (pieces g.mesh bd types) blocks 0 (fun i b hb => by
    rw [Nat.zero_add]; exact h3 i b hb) k o ho
  rw [Nat.sub_zero] at g2
  obtain ⟨c, vs, c1, rfl, c3⟩ := h9 o b g2 hs
  have hx : y = vs := by
    cases j with
    | zero => simpa using g3.symm
    | succ j => simp at g3
  subst hx
  obtain ⟨f, hf, p, f1, f2, f3, f5, f4⟩ := knownVerts_base (firstOri bs) hd hv c1 (hnum.cells o c c1) ht (hsol o t ht hs) c3
  set x := faceAt g.mesh f with hxdef
  have hp2 : 2 ≤ p.length := by rw [f3]; unfold baseSize; split <;> omega
  obtain ⟨q, e0, ed, q1, q2, q3, q4, q5, q6⟩ := indexFace3_start (firstOri bs) f2 hp2 o
  rw [f4] at q1
  cases q1
  have hside := side_of_chain hd hv holt hf f1
  obtain ⟨ν, b', b1, b2, b3, b4⟩ := hor f x f1
  have hfi : x.index = f := hnum.faces f x f1
  have hsub : 0 < x.sub.length := (List.getElem?_eq_some_iff.mp q3).1
  have hb0 : b'[0]? = some (b'[0]'(by omega)) := List.getElem?_eq_getElem (by omega)
  have hfo : firstOri bs f = b'[0]'(by omega) := by rw [firstOri, b2, Option.bind_some, hb0]; rfl
  have hfs := firstSide_eq f1 q3 q4
  have hends : ends g.mesh e0 = firstSide g.mesh f := by rw [hfs]; simp [ends, q4, posAt]
  have hb5 := b4 0 e0 _ q3 hb0
  rw [hends, ← hfo] at hb5
  rw [hfi] at q5 q6
  exact ⟨y, f, x, p, by rw [h2]; exact g4, hf, f1, f2, q2, fun ht c' hc' => by rw [c1] at hc'; cases hc'; exact f5 ht, base_sense g o f x ν (firstOri bs f) (hg f x f1) (hop f x f1) holt (by omega) hside
    (hnor f x ν f1 b1) hb5 (hstar f x f1 p f2) q2 hfs q5 q6⟩

/-- C56. The orientation of the first edge of a face with an inner cell on the left is `true` exactly when this edge turns
counterclockwise around the center of the face, seen from outside of the left cell. -/
theorem C56_first_edge (g : GMesh 3 ℝ) (bd : Idx → List Idx) (hd : g.mesh.dim = 3) (hv : ValidMesh g.mesh bd)
    (hg : ∀ (i : Nat) f, (g.mesh.midElems 2)[i]? = some f → GoodFace g i f.conn) :
    ∃ bs, edgesOrientation g = .ok bs ∧ ∀ (i : Nat) f, (g.mesh.midElems 2)[i]? = some f → f.conn.left < BOUNDARY →
      (firstOri bs i = true ↔ 0 < dot (g.faceCenter i - g.cellCenter f.conn.left)
        (cross ((firstSide g.mesh i).1 - g.faceCenter i) ((firstSide g.mesh i).2 - g.faceCenter i))) := by
  obtain ⟨ns, hns, hnl, hnor⟩ := C40_normals_3d g bd hv hd hg
  obtain ⟨bs, hbs, _, hor⟩ := C42_orientations g bd hv hd ns hns
  refine ⟨bs, hbs, fun i f hf hlb => ?_⟩
  obtain ⟨ν, b, b1, b2, b3, b4⟩ := hor i f hf
  have hgf := hg i f hf
  have hn := hnor i f ν hf b1
  have hsub : 0 < f.sub.length := by
    have := hgf.nonempty
    rw [faceEdges, hf] at this
    simp only [Option.map_some, Option.getD_some, ne_eq, List.map_eq_nil_iff] at this
    exact List.length_pos_of_ne_nil this
  have hb0 : b[0]? = some (b[0]'(by omega)) := List.getElem?_eq_getElem (by omega)
  have hfo : firstOri bs i = b[0]'(by omega) := by rw [firstOri, b2, Option.bind_some, hb0]; rfl
  have h0 : f.sub[0]? = some f.sub[0] := List.getElem?_eq_getElem hsub
  have hfs : ends g.mesh f.sub[0] = firstSide g.mesh i := by
    rw [firstSide, faceEdges, hf]
    simp only [Option.map_some, Option.getD_some]
    have : ∀ (l : List Idx) (h : 0 < l.length), ends g.mesh l[0] = (l.map (ends g.mesh)).headD (0, 0) := by
      intro l h
      cases l with
      | nil => simp at h
      | cons x xs => rfl
    exact this _ hsub
  rw [hfo, b4 0 _ _ h0 hb0, hfs]
  have hplane := hgf.plane
  set K := cross ((firstSide g.mesh i).1 - g.faceCenter i) ((firstSide g.mesh i).2 - g.faceCenter i) with hK
  obtain ⟨s, hs⟩ := parallel_cross hplane hn.orthA hn.orthB
  rw [← hK] at hs
  have hKK : 0 < dot K K := by rw [← norm_sq]; exact mul_pos (norm_pos hplane) (norm_pos hplane)
  have ha := hn.away hlb
  rw [hs, dot_smul, dot_comm] at ha
  rw [hs, dot_smul]
  constructor
  · intro h
    have : 0 < s := by by_contra hn'; have := mul_nonpos_of_nonpos_of_nonneg (not_lt.mp hn') hKK.le; linarith
    by_contra hn'; have := mul_nonpos_of_nonneg_of_nonpos this.le (not_lt.mp hn'); linarith
  · intro h
    refine mul_pos ?_ hKK
    by_contra hn'; have := mul_nonpos_of_nonpos_of_nonneg (not_lt.mp hn') h.le; linarith

/-! ## Tetrahedra -/

theorem mean_perm {n : Nat} {l l' : List (Vec n ℝ)} (h : l.Perm l') : mean l = mean l' := by rw [mean, mean, h.sum_eq, h.length_eq]

/-- The mean of the midpoints of the edges of a polygon is the mean of its vertices. -/
theorem edgeMean_polygon {m : Mesh (Vec 3 ℝ)} {i : Nat} {f : Face} {p : List Idx} (hf : (m.midElems 2)[i]? = some f)
    (h : IsPolygon m.edges f.sub p) : edgeMean m i = mean (p.map (posAt m)) := by
  obtain ⟨hne, _, _, es, hp, hl, hj⟩ := h
  have h1 : edgeMean m i = mean (es.map fun e => mean [(ends m e).1, (ends m e).2]) := by
    rw [edgeMean, faceEdges, hf]
    simp only [Option.map_some, Option.getD_some, List.map_map]
    exact mean_perm ((hp.map _).symm)
  have h2 : es.map (fun e => mean [(ends m e).1, (ends m e).2]) = (sidesOf p).map fun s => mean [posAt m s.1, posAt m s.2] := by
    apply List.ext_getElem
    · simp [sidesOf, hl]
    · intro j g1 g2
      simp only [List.length_map] at g1
      rw [hl] at g1
      obtain ⟨e, u, v, e1, e2, e3, ed, e4, e5⟩ := hj j g1
      have hs := sidesOf_get p j g1
      have hu : p[j] = u := by
        unfold cyc at e2
        rw [Nat.mod_eq_of_lt g1, List.getElem?_eq_getElem g1] at e2
        exact Option.some.inj e2
      have hv : p[(j + 1) % p.length]'(Nat.mod_lt _ (by omega)) = v := by
        unfold cyc at e3
        rw [List.getElem?_eq_getElem (Nat.mod_lt _ (by omega))] at e3
        exact Option.some.inj e3
      rw [hu, hv] at hs
      obtain ⟨hs1, hs2⟩ := List.getElem?_eq_some_iff.mp hs
      obtain ⟨he1, he2⟩ := List.getElem?_eq_some_iff.mp e1
      simp only [List.getElem_map, hs2, he2]
      have : ends m e = (posAt m ed.a, posAt m ed.b) := by simp [ends, e4, posAt]
      rw [this]
      rcases e5 with e5 | e5
      · simp only [Prod.mk.injEq] at e5; rw [e5.1, e5.2]
      · simp only at e5
        rw [e5.1, e5.2]
        exact mean_perm (List.Perm.swap _ _ _)
  rw [h1, h2, mean, mean]
  simp only [List.length_map]
  have hlen : (sidesOf p).length = p.length := by simp [sidesOf]
  rw [hlen]
  congr 1
  have h3 : ∀ l : List (Idx × Idx), (l.map fun s => mean [posAt m s.1, posAt m s.2]).sum =
      (2⁻¹ : ℝ) • ((l.map (·.1)).map (posAt m)).sum + (2⁻¹ : ℝ) • ((l.map (·.2)).map (posAt m)).sum := by
    intro l
    induction l with
    | nil => simp
    | cons s l ih =>
      rw [List.map_cons, List.sum_cons, ih]
      have hm : mean [posAt m s.1, posAt m s.2] = (2⁻¹ : ℝ) • posAt m s.1 + (2⁻¹ : ℝ) • posAt m s.2 := by simp [mean]
      rw [hm]
      simp only [List.map_cons, List.sum_cons, smul_add]
      abel
  rw [h3]
  have f1 : (sidesOf p).map (·.1) = p := by rw [sidesOf]; exact List.map_fst_zip (by simp)
  have f2 : (sidesOf p).map (·.2) = p.rotate 1 := by rw [sidesOf]; exact List.map_snd_zip (by simp)
  rw [f1, f2, ((List.rotate_perm p 1).map (posAt m)).sum_eq, ← add_smul]
  norm_num

/-- A triangle with its mean as the center. -/
theorem triangle_star (pos : Idx → Vec 3 ℝ) (a b c : Idx) (x y : Idx) (hxy : (x, y) ∈ sidesOf [a, b, c] ∨ (y, x) ∈ sidesOf [a, b, c])
    (hne : cross (pos x - mean ([a, b, c].map pos)) (pos y - mean ([a, b, c].map pos)) ≠ 0) :
    ∃ μ, SeesAround (mean ([a, b, c].map pos)) μ ([a, b, c].map pos) := by
  have hm : mean ([a, b, c].map pos) = (3⁻¹ : ℝ) • (pos a + pos b + pos c) := by
    simp [mean]; abel_nf
  rw [hm] at hne ⊢
  set N := cross (pos b - pos a) (pos c - pos a) with hN
  have hsides : ∀ s ∈ sidesOf [a, b, c], cross (pos s.1 - (3⁻¹ : ℝ) • (pos a + pos b + pos c)) (pos s.2 - (3⁻¹ : ℝ) • (pos a + pos b + pos c)) =
      (3⁻¹ : ℝ) • N := by
    intro s hs
    have h1 := cross_apply (pos b - pos a) (pos c - pos a)
    simp [sidesOf, List.rotate] at hs
    rcases hs with rfl | rfl | rfl <;> simp only
    · have h2 := cross_apply (pos a - (3⁻¹ : ℝ) • (pos a + pos b + pos c)) (pos b - (3⁻¹ : ℝ) • (pos a + pos b + pos c))
      apply ext3 <;> simp only [hN, h1, h2, Pi.sub_apply, Pi.smul_apply, Pi.add_apply, smul_eq_mul] <;> ring
    · have h2 := cross_apply (pos b - (3⁻¹ : ℝ) • (pos a + pos b + pos c)) (pos c - (3⁻¹ : ℝ) • (pos a + pos b + pos c))
      apply ext3 <;> simp only [hN, h1, h2, Pi.sub_apply, Pi.smul_apply, Pi.add_apply, smul_eq_mul] <;> ring
    · have h2 := cross_apply (pos c - (3⁻¹ : ℝ) • (pos a + pos b + pos c)) (pos a - (3⁻¹ : ℝ) • (pos a + pos b + pos c))
      apply ext3 <;> simp only [hN, h1, h2, Pi.sub_apply, Pi.smul_apply, Pi.add_apply, smul_eq_mul] <;> ring
  have hN0 : N ≠ 0 := by
    intro h
    apply hne
    rcases hxy with h' | h'
    · rw [hsides _ h', h, smul_zero]
    · rw [cross_antisymm, hsides _ h', h, smul_zero, neg_zero]
  have hNp := norm_pos hN0
  refine ⟨(Vec.norm N)⁻¹ • N, ?_, fun s hs => ?_⟩
  · rw [norm_smul, abs_of_pos (inv_pos.mpr hNp), inv_mul_cancel₀ hNp.ne']
  · rw [sidesOf_map] at hs
    obtain ⟨t, ht, rfl⟩ := List.mem_map.mp hs
    refine ⟨3⁻¹ * Vec.norm N, by positivity, ?_⟩
    simp only
    rw [hsides t ht, smul_smul, mul_assoc, mul_inv_cancel₀ hNp.ne', mul_one]

theorem sixVolume_centers (A B C D : Vec 3 ℝ) : sixVolume A B C D =
    12 * dot (cross (A - mean [A, B, C]) (B - mean [A, B, C])) (mean [A, B, C, D] - mean [A, B, C]) := by
  have h3 : mean [A, B, C] = (3⁻¹ : ℝ) • (A + B + C) := by simp [mean]; abel_nf
  have h4 : mean [A, B, C, D] = (4⁻¹ : ℝ) • (A + B + C + D) := by simp [mean]; abel_nf
  rw [h3, h4, sixVolume]
  have h1 := cross_apply (B - A) (C - A)
  have h2 := cross_apply (A - (3⁻¹ : ℝ) • (A + B + C)) (B - (3⁻¹ : ℝ) • (A + B + C))
  simp only [dot3, h1, h2, Pi.sub_apply, Pi.smul_apply, Pi.add_apply, smul_eq_mul]
  ring

/-- The center of a tetrahedron is the mean of its vertices. -/
theorem tetra_center {m : Mesh (Vec 3 ℝ)} {l vs : List Idx} (h : IsSolid m l vs 300) {fc : Idx → Vec 3 ℝ} (hfc : ∀ f ∈ l, fc f = edgeMean m f) :
    mean (l.map fc) = mean (vs.map (posAt m)) := by
  obtain ⟨l', hp, hl, hj⟩ := h.faces
  have hc := h.count
  simp only [vertexCount, Option.some.injEq] at hc
  obtain ⟨a, b, c, d, rfl⟩ : ∃ a b c d, vs = [a, b, c, d] := by
    match vs, hc with
    | [a, b, c, d], _ => exact ⟨a, b, c, d, rfl⟩
  have hl4 : l'.length = 4 := hl
  obtain ⟨f0, f1, f2, f3, rfl⟩ : ∃ a b c d, l' = [a, b, c, d] := by
    match l', hl4 with
    | [a, b, c, d], _ => exact ⟨a, b, c, d, rfl⟩
  have key : ∀ (j : Nat) f p, [f0, f1, f2, f3][j]? = some f → (facePolygons [a, b, c, d])[j]? = some p → fc f = mean (p.map (posAt m)) := by
    intro j f p hf hp'
    obtain ⟨i, x, i1, i2, i3⟩ := hj j p hp'
    rw [hf] at i1
    cases i1
    rw [hfc f (hp.mem_iff.mp (List.mem_of_getElem? hf)), edgeMean_polygon i2 i3]
  have k0 := key 0 f0 [a, b, c] rfl rfl
  have k1 := key 1 f1 [a, b, d] rfl rfl
  have k2 := key 2 f2 [b, c, d] rfl rfl
  have k3 := key 3 f3 [c, a, d] rfl rfl
  rw [← mean_perm (hp.map fc)]
  simp only [List.map_cons, List.map_nil, k0, k1, k2, k3]
  simp only [mean, List.length_cons, List.length_nil, List.sum_cons, List.sum_nil]
  funext k
  simp only [Pi.smul_apply, Pi.add_apply, Pi.zero_apply, smul_eq_mul]
  push_cast
  ring

theorem computed_face {g : GMesh 3 ℝ} {bd : Idx → List Idx} {cs : List (List (Vec 3 ℝ))} (hd : g.mesh.dim = 3) (hv : ValidMesh g.mesh bd)
    (hac : AreCenters g.mesh bd cs) {i : Nat} (hi : i < (g.mesh.midElems 2).length) : (setCenters g cs).faceCenter i = edgeMean g.mesh i := by
  refine setCenters_face g (by omega) ?_
  rw [hd]
  exact face_entry hv hd hac hi

theorem computed_tetra {g : GMesh 3 ℝ} {bd : Idx → List Idx} {cs : List (List (Vec 3 ℝ))} (hd : g.mesh.dim = 3) (hv : ValidMesh g.mesh bd)
    (hac : AreCenters g.mesh bd cs) {o : Nat} (holt : o < g.mesh.cells.length) {vs : List Idx} (hso : IsSolid g.mesh (bd o) vs 300) :
    (setCenters g cs).cellCenter o = mean (vs.map (posAt g.mesh)) := by
  have hn3 : o < g.mesh.numElems 3 := by simpa [Mesh.numElems, hd] using holt
  obtain ⟨ps, p1, _, p3⟩ := hac.higher 3 o (by omega) (by omega) hn3
  have hds : directSubs g.mesh bd 3 o = bd o := by simp [directSubs, hd]
  rw [hds] at p1
  have hps : ps = (bd o).map (setCenters g cs).faceCenter := by
    have key : ∀ {ss : List Idx} {ps : List (Vec 3 ℝ)}, List.Forall₂ (fun s p => entry cs (3 - 1) s = some p) ss ps →
        ps = ss.map (setCenters g cs).faceCenter := by
      intro ss ps hf
      induction hf with
      | nil => rfl
      | cons h1 _ ih =>
        rw [List.map_cons, ← ih]
        congr 1
        exact (setCenters_face g (by omega) (by rw [hd]; exact h1)).symm
    exact key p1
  have : (setCenters g cs).cellCenter o = mean ps := setCenters_cell g (by rw [hd]; exact p3)
  rw [this, hps, tetra_center hso (fun f hf => computed_face hd hv hac (Vtk.bd_lt hd hv holt f hf))]

/-- C56. Let all cells be tetrahedra, with the centers that `initializeCenters` sets, no face being degenerate and the two cells of each face
lying on different sides of it. Every exported tetrahedron has a positive volume in the order of its vertices when it is the left cell of its first
face, or when the first edge of this face has the orientation `true`; otherwise its volume is negative. -/
theorem C56_tetrahedra_partial (key : Vec 3 ℝ → List Char) (g : GMesh 3 ℝ) (bd vert : Idx → List Idx) (cs : List (List (Vec 3 ℝ)))
    (w0 : Writer3 (Vec 3 ℝ)) (hd : g.mesh.dim = 3) (hv : ValidMesh g.mesh bd) (hnum : Vtk.Numbered g.mesh) (hne : NoEmptyElement g.mesh)
    (hfit : g.mesh.cells.length ≤ BOUNDARY) (hcs : computeCenters g.mesh = .ok cs)
    (hsol : ∀ i, i < g.mesh.cells.length → IsSolid g.mesh (bd i) (vert i) 300)
    (hg : ∀ (i : Nat) f, (g.mesh.midElems 2)[i]? = some f → GoodFace (setCenters g cs) i f.conn)
    (hop : ∀ (i : Nat) f, (g.mesh.midElems 2)[i]? = some f → OppositeCells (setCenters g cs) i f.conn)
    (htri : ∀ (i : Nat) f, (g.mesh.midElems 2)[i]? = some f → f.sub.length = 3) :
    ∃ bs w, edgesOrientation (setCenters g cs) = .ok bs ∧
      indexMesh3 (firstOri bs) key (setCenters g cs).cellCenter (setCenters g cs).faceCenter g.mesh (List.replicate g.mesh.cells.length 300) w0 = .ok w ∧
      ∀ (o : Nat) cell, g.mesh.cells[o]? = some cell → ∃ a b c d x, w.cellVert[o]? = some [a, b, c, d] ∧ [a, b, c, d].Perm (vert o) ∧
        (g.mesh.midElems 2)[cell.bElem]? = some x ∧
        (o = x.conn.left ∨ firstOri bs cell.bElem = true →
          0 < sixVolume (posAt g.mesh a) (posAt g.mesh b) (posAt g.mesh c) (posAt g.mesh d)) ∧
        (o ≠ x.conn.left → firstOri bs cell.bElem = false →
          sixVolume (posAt g.mesh a) (posAt g.mesh b) (posAt g.mesh c) (posAt g.mesh d) < 0) := by
  obtain ⟨cs', hcs', hac⟩ := C38_centers g.mesh bd hv hne
  rw [hcs] at hcs'
  cases hcs'
  set G := setCenters g cs with hG
  have hGm : G.mesh = g.mesh := rfl
  set types := List.replicate g.mesh.cells.length 300 with htypes
  have hty : ∀ (i : Nat), i < g.mesh.cells.length → types[i]? = some 300 := by
    intro i hi; rw [htypes, List.getElem?_replicate, if_pos hi]
  have htyl : ∀ (i : Nat) t, types[i]? = some t → i < g.mesh.cells.length ∧ t = 300 := by
    intro i t h
    rw [htypes, List.getElem?_replicate] at h
    split at h
    · exact ⟨by assumption, (Option.some.inj h).symm⟩
    · simp at h
  have hsplit : ∀ i, i < g.mesh.cells.length → isSplit types i = false := by
    intro i hi; simp [isSplit, hty i hi]
  have hfc : ∀ (i : Nat), i < (g.mesh.midElems 2).length → G.faceCenter i = edgeMean g.mesh i := fun i hi => computed_face hd hv hac hi
  have hstar : ∀ (i : Nat) f, (g.mesh.midElems 2)[i]? = some f → StarFace G i f.sub := by
    intro i f hf p hp
    have hlt := (List.getElem?_eq_some_iff.mp hf).1
    have hc : G.faceCenter i = mean (p.map (posAt g.mesh)) := by rw [hfc i hlt, edgeMean_polygon hf hp]
    have hp3 : p.length = 3 := by rw [← polygon_length hp, htri i f hf]
    obtain ⟨a, b, c, rfl⟩ : ∃ a b c, p = [a, b, c] := by
      match p, hp3 with
      | [a, b, c], _ => exact ⟨a, b, c, rfl⟩
    have hpl := (hg i f hf).plane
    have hsub : f.sub[0]? = some (f.sub[0]'(by rw [htri i f hf]; decide)) := List.getElem?_eq_getElem _
    obtain ⟨ed, e1, e2⟩ := polygon_edge hp (List.mem_of_getElem? hsub)
    have hfs := firstSide_eq hf hsub e1
    rw [hGm, hfs, hc] at hpl
    rw [hc]
    refine triangle_star (posAt g.mesh) a b c ed.a ed.b ?_ hpl
    obtain ⟨j, u, v, j1, j2, j3, j4⟩ := e2
    have : (u, v) ∈ sidesOf [a, b, c] := by
      refine List.mem_of_getElem? (i := j) ?_
      rw [sidesOf_get _ _ j1]
      unfold cyc at j2 j3
      rw [Nat.mod_eq_of_lt j1, List.getElem?_eq_getElem j1] at j2
      rw [List.getElem?_eq_getElem (Nat.mod_lt _ (by simp))] at j3
      rw [Option.some.inj j2, Option.some.inj j3]
    rcases j4 with j4 | j4
    · simp only [Prod.mk.injEq] at j4
      left; rw [← j4.1, ← j4.2]; exact this
    · simp only at j4
      right; rw [← j4.1, ← j4.2]; exact this
  have hsol' : ∀ (i : Nat) t, types[i]? = some t → isSplit types i = false → IsSolid g.mesh (bd i) (vert i) t := by
    intro i t ht _
    obtain ⟨hi, rfl⟩ := htyl i t ht
    exact hsol i hi
  obtain ⟨bs, w, h1, h2, h3⟩ := C56_base_partial key G bd vert types w0 hd hv hnum (by rw [htypes, List.length_replicate]; rfl) hfit hsol' hg hop hstar
  obtain ⟨w', g1, g2⟩ := C51_vertices (firstOri bs) key G.cellCenter G.faceCenter g.mesh bd vert types w0 hd hv hnum (by simp [htypes]) hsol'
  rw [hGm] at h2 h3
  rw [h2] at g1
  cases g1
  refine ⟨bs, w, h1, h2, fun o cell hcell => ?_⟩
  have holt := (List.getElem?_eq_some_iff.mp hcell).1
  have hor : (origins (pieces g.mesh bd types) g.mesh.cells.length)[o]? = some o := by
    rw [origins_range (fun i hi => by simp [pieces, hsplit i hi]), List.getElem?_range holt]
  obtain ⟨vs, v1, v2, v3, v4, v5⟩ := g2 o o hor (hsplit o holt)
  obtain ⟨vs', f, x, p, u1, u2, u3, u6, u7, u8, u4, u5⟩ := h3 o o 300 hor (hsplit o holt) (hty o holt)
  rw [v1] at u1
  cases u1
  have hf := u8 rfl cell hcell
  subst hf
  have hso := hsol o holt
  have hv4 : (vert o).length = 4 := by
    have := hso.count
    simp only [vertexCount, Option.some.injEq] at this
    exact this.symm
  have hl4 : vs.length = 4 := by rw [v3.1, hv4]
  obtain ⟨a, b, c, d, rfl⟩ : ∃ a b c d, vs = [a, b, c, d] := by
    match vs, hl4 with
    | [a, b, c, d], _ => exact ⟨a, b, c, d, rfl⟩
  have hperm : [a, b, c, d].Perm (vert o) := (List.Nodup.subperm v4 v5).perm_of_length_le (by rw [hv4]; rfl)
  have hlt := (List.getElem?_eq_some_iff.mp u3).1
  have hbase : List.take (baseSize 300) [a, b, c, d] = [a, b, c] := rfl
  rw [hbase] at u4 u5 u7
  have hF : G.faceCenter cell.bElem = mean [posAt g.mesh a, posAt g.mesh b, posAt g.mesh c] := by
    rw [hfc _ hlt, edgeMean_polygon u3 u6]
    have hpp : p.Perm [a, b, c] := by
      rcases u7 with h | h
      · exact h.perm.symm
      · exact (h.perm.trans (List.reverse_perm p)).symm
    exact mean_perm (hpp.map (posAt g.mesh))
  have hC : G.cellCenter o = mean [posAt g.mesh a, posAt g.mesh b, posAt g.mesh c, posAt g.mesh d] := by
    rw [computed_tetra hd hv hac holt hso]
    exact mean_perm ((hperm.map (posAt g.mesh)).symm)
  have vol := sixVolume_centers (posAt g.mesh a) (posAt g.mesh b) (posAt g.mesh c) (posAt g.mesh d)
  rw [← hF, ← hC] at vol
  have first : ∀ μ, GoesAround G cell.bElem [a, b, c] μ → ∃ r : ℝ, 0 < r ∧
      cross (posAt g.mesh a - G.faceCenter cell.bElem) (posAt g.mesh b - G.faceCenter cell.bElem) = r • μ := by
    rintro μ ⟨⟨m1, m2⟩, y, z, y1, z1, yz⟩
    obtain ⟨r, r1, r2⟩ := m2 (posAt g.mesh a, posAt g.mesh b) (by simp [sidesOf, List.rotate, hGm])
    cases y1
    cases z1
    refine ⟨r, lt_of_le_of_ne r1 ?_, r2⟩
    rintro rfl
    rw [hGm] at yz
    simp only at r2
    rw [r2, zero_smul, dot_zero] at yz
    exact lt_irrefl _ yz
  refine ⟨a, b, c, d, x, v1, hperm, u3, fun h => ?_, fun h h' => ?_⟩
  · obtain ⟨μ, m1, m2⟩ := u4 h
    obtain ⟨r, r1, r2⟩ := first μ m1
    rw [vol, r2, dot_smul]
    have := mul_pos r1 m2
    linarith
  · obtain ⟨μ, m1, m2⟩ := u5 h h'
    obtain ⟨r, r1, r2⟩ := first μ m1
    rw [vol, r2, dot_smul]
    have := mul_neg_of_pos_of_neg r1 m2
    linarith

/-! ## Examples: two tetrahedra -/

/-- The two tetrahedra `tets`; the edges of the common face are `subs`. -/
noncomputable def tetsWith (subs : List Idx) : Mesh (Vec 3 ℝ) :=
  { tets with mids := [(tets.midElems 2).modify 3 fun f => { f with sub := subs }] }

theorem triangle_polygon {edges : List Edge} {e0 e1 e2 a b c : Idx} {subs : List Idx} (hv : [a, b, c].Nodup) (hn : subs.Nodup)
    (hp : [e0, e1, e2].Perm subs) (h0 : Joins edges e0 a b) (h1 : Joins edges e1 b c) (h2 : Joins edges e2 c a) :
    IsPolygon edges subs [a, b, c] := by
  refine ⟨by simp, hv, hn, [e0, e1, e2], hp, rfl, fun j hj => ?_⟩
  have hj : j < 3 := hj
  interval_cases j
  · exact ⟨e0, a, b, rfl, rfl, rfl, h0⟩
  · exact ⟨e1, b, c, rfl, rfl, rfl, h1⟩
  · exact ⟨e2, c, a, rfl, rfl, by simp [cyc], h2⟩

/-- The vertices of the two tetrahedra. -/
def tetVert (i : Idx) : List Idx := if i = 0 then [0, 1, 2, 3] else [1, 2, 3, 4]

theorem tetsWith_solid {subs : List Idx} (hs : [1, 5, 4].Perm subs) : ∀ i, i < (tetsWith subs).cells.length →
    IsSolid (tetsWith subs) (twoTetsBd i) (tetVert i) 300 := by
  have hj : ∀ (e : Nat) ed u v, twoTets.edges[e]? = some ed → SamePair (ed.a, ed.b) (u, v) → Joins (tetsWith subs).edges e u v :=
    fun e ed u v h1 h2 => ⟨ed, h1, h2⟩
  have hp3 : IsPolygon (tetsWith subs).edges subs [1, 2, 3] :=
    triangle_polygon (by decide) (hs.nodup (by decide)) hs (hj 1 _ _ _ rfl (by decide)) (hj 5 _ _ _ rfl (by decide)) (hj 4 _ _ _ rfl (by decide))
  have hm : (tetsWith subs).midElems 2 = [_, _, _, _, _, _, _] := rfl
  intro i hi
  have hi : i < 2 := hi
  interval_cases i
  · refine ⟨rfl, (by decide : (tetVert 0).Nodup), [0, 1, 3, 2], by decide, rfl, fun j p hp => ?_⟩
    have hlt : j < 4 := (List.getElem?_eq_some_iff.mp hp).1
    interval_cases j <;> cases hp
    · exact ⟨0, _, rfl, rfl, triangle_polygon (e0 := 0) (e1 := 1) (e2 := 2) (by decide) (by decide) (List.Perm.refl _)
        (hj _ _ _ _ rfl (by decide)) (hj _ _ _ _ rfl (by decide)) (hj _ _ _ _ rfl (by decide))⟩
    · exact ⟨1, _, rfl, rfl, triangle_polygon (e0 := 0) (e1 := 4) (e2 := 3) (by decide) (by decide) (List.Perm.refl _)
        (hj _ _ _ _ rfl (by decide)) (hj _ _ _ _ rfl (by decide)) (hj _ _ _ _ rfl (by decide))⟩
    · exact ⟨3, _, rfl, rfl, hp3⟩
    · exact ⟨2, _, rfl, rfl, triangle_polygon (e0 := 2) (e1 := 3) (e2 := 5) (by decide) (by decide) (List.Perm.refl _)
        (hj _ _ _ _ rfl (by decide)) (hj _ _ _ _ rfl (by decide)) (hj _ _ _ _ rfl (by decide))⟩
  · refine ⟨rfl, (by decide : (tetVert 1).Nodup), [3, 4, 5, 6], by decide, rfl, fun j p hp => ?_⟩
    have hlt : j < 4 := (List.getElem?_eq_some_iff.mp hp).1
    interval_cases j <;> cases hp
    · exact ⟨3, _, rfl, rfl, hp3⟩
    · exact ⟨4, _, rfl, rfl, triangle_polygon (e0 := 1) (e1 := 7) (e2 := 6) (by decide) (by decide) (List.Perm.refl _)
        (hj _ _ _ _ rfl (by decide)) (hj _ _ _ _ rfl (by decide)) (hj _ _ _ _ rfl (by decide))⟩
    · exact ⟨5, _, rfl, rfl, triangle_polygon (e0 := 5) (e1 := 8) (e2 := 7) (by decide) (by decide) (List.Perm.refl _)
        (hj _ _ _ _ rfl (by decide)) (hj _ _ _ _ rfl (by decide)) (hj _ _ _ _ rfl (by decide))⟩
    · exact ⟨6, _, rfl, rfl, triangle_polygon (e0 := 4) (e1 := 6) (e2 := 8) (by decide) (by decide) (List.Perm.refl _)
        (hj _ _ _ _ rfl (by decide)) (hj _ _ _ _ rfl (by decide)) (hj _ _ _ _ rfl (by decide))⟩

theorem twoTets_swap_valid : ValidMesh { twoTets with mids := [(twoTets.midElems 2).modify 3 fun f => { f with sub := [4, 1, 5] }] } twoTetsBd :=
  validB_sound (by decide)

theorem tetsWith_valid : ∀ subs, subs = [1, 5, 4] ∨ subs = [4, 1, 5] → ValidMesh (tetsWith subs) twoTetsBd := by
  rintro subs (rfl | rfl)
  · exact twoTets_valid.mapV tetPos
  · exact twoTets_swap_valid.mapV tetPos

/-- A triangle of a mesh with the computed centers. -/
theorem good_triangle (g : GMesh 3 ℝ) (i : Nat) (f : Face) (A B C : Vec 3 ℝ)
    (hfs : firstSide g.mesh i = (A, B)) (hne : faceEdges g.mesh i ≠ []) (hc : g.faceCenter i = mean [A, B, C])
    (hl : f.conn.left < g.mesh.cells.length) (hfit : g.mesh.cells.length ≤ BOUNDARY)
    (hL : dot (A - g.cellCenter f.conn.left) (cross (A - C) (B - C)) ≠ 0)
    (hR : f.conn.right < g.mesh.cells.length → dot (A - g.cellCenter f.conn.left) (cross (A - C) (B - C)) *
      dot (A - g.cellCenter f.conn.right) (cross (A - C) (B - C)) < 0) :
    GoodFace g i f.conn ∧ OppositeCells g i f.conn := by
  have hm : mean [A, B, C] = (3⁻¹ : ℝ) • (A + B + C) := by simp [mean]; abel_nf
  rw [hm] at hc
  have hcr : cross (A - (3⁻¹ : ℝ) • (A + B + C)) (B - (3⁻¹ : ℝ) • (A + B + C)) = (3⁻¹ : ℝ) • cross (A - C) (B - C) := by
    have h1 := cross_apply (A - (3⁻¹ : ℝ) • (A + B + C)) (B - (3⁻¹ : ℝ) • (A + B + C))
    have h2 := cross_apply (A - C) (B - C)
    apply ext3 <;> simp only [h1, h2, Pi.sub_apply, Pi.smul_apply, Pi.add_apply, smul_eq_mul] <;> ring
  have hdt : ∀ D, dot ((3⁻¹ : ℝ) • (A + B + C) - D) (cross (A - C) (B - C)) = dot (A - D) (cross (A - C) (B - C)) := by
    intro D
    have h2 := cross_apply (A - C) (B - C)
    simp only [dot3, h2, Pi.sub_apply, Pi.smul_apply, Pi.add_apply, smul_eq_mul]
    ring
  have hne0 : cross (A - C) (B - C) ≠ 0 := by
    intro h; rw [h, dot_zero] at hL; exact hL rfl
  have hb : f.conn.left < BOUNDARY := by omega
  refine ⟨⟨hne, .inl ⟨hl, hb⟩, ?_, fun _ => ?_, fun h => by omega⟩, fun _ h _ => ?_⟩
  · rw [hfs, hc]
    simp only
    rw [hcr]
    exact smul_ne_zero (by norm_num) hne0
  · rw [hfs, hc]
    simp only
    rw [hcr, dot_smul_right, hdt]
    exact mul_ne_zero (by norm_num) hL
  · rw [hfs, hc]
    simp only
    have e : ∀ D, dot (D - (3⁻¹ : ℝ) • (A + B + C)) (cross (A - (3⁻¹ : ℝ) • (A + B + C)) (B - (3⁻¹ : ℝ) • (A + B + C))) =
        - (3⁻¹ * dot (A - D) (cross (A - C) (B - C))) := by
      intro D
      rw [hcr, dot_smul_right, ← hdt D, dot_sub, dot_sub]; ring
    rw [e, e]
    have := hR h
    linarith

/-- The two tetrahedra with any centers. -/
noncomputable def tetsWithG (subs : List Idx) : GMesh 3 ℝ := { mesh := tetsWith subs, faceCenter := 0, cellCenter := 0, bCellCenter := 0 }

theorem tetsWith_facts (subs : List Idx) (hs : subs = [1, 5, 4] ∨ subs = [4, 1, 5]) (cs : List (List (Vec 3 ℝ)))
    (hac : AreCenters (tetsWith subs) twoTetsBd cs) :
    (setCenters (tetsWithG subs) cs).cellCenter 0 = ![1 / 4, 1 / 4, 1 / 4] ∧
    (setCenters (tetsWithG subs) cs).cellCenter 1 = ![1 / 2, 1 / 2, 1 / 2] ∧
    ∀ (i : Nat) f, ((tetsWith subs).midElems 2)[i]? = some f →
      GoodFace (setCenters (tetsWithG subs) cs) i f.conn ∧ OppositeCells (setCenters (tetsWithG subs) cs) i f.conn := by
  have hperm : [1, 5, 4].Perm subs := by rcases hs with rfl | rfl <;> decide
  have hv := tetsWith_valid subs hs
  have hsol := tetsWith_solid hperm
  set G := setCenters (tetsWithG subs) cs with hG
  have hGm : G.mesh = tetsWith subs := rfl
  have hpos : ∀ v, v < 5 → posAt (tetsWith subs) v = tetPos v := by
    intro v hv; interval_cases v <;> rfl
  have hc0 : G.cellCenter 0 = ![1 / 4, 1 / 4, 1 / 4] := by
    rw [hG, computed_tetra (g := tetsWithG subs) rfl hv hac (show 0 < 2 by decide) (hsol 0 (show 0 < 2 by decide))]
    have : (tetVert 0).map (posAt (tetsWith subs)) = [tetPos 0, tetPos 1, tetPos 2, tetPos 3] := rfl
    show mean ((tetVert 0).map (posAt (tetsWith subs))) = _
    rw [this]
    apply ext3 <;> simp [mean, tetPos]
  have hc1 : G.cellCenter 1 = ![1 / 2, 1 / 2, 1 / 2] := by
    rw [hG, computed_tetra (g := tetsWithG subs) rfl hv hac (show 1 < 2 by decide) (hsol 1 (show 1 < 2 by decide))]
    have : (tetVert 1).map (posAt (tetsWith subs)) = [tetPos 1, tetPos 2, tetPos 3, tetPos 4] := rfl
    show mean ((tetVert 1).map (posAt (tetsWith subs))) = _
    rw [this]
    apply ext3 <;> simp [mean, tetPos] <;> norm_num
  refine ⟨hc0, hc1, fun i f hf => ?_⟩
  have hfit : G.mesh.cells.length ≤ BOUNDARY := by
    have : (2 : Nat) ≤ BOUNDARY := by decide +kernel
    exact this
  have hi : i < 7 := (List.getElem?_eq_some_iff.mp hf).1
  have hfc : G.faceCenter i = edgeMean (tetsWith subs) i := computed_face (g := tetsWithG subs) rfl hv hac hi
  have em : ∀ (A B C : Vec 3 ℝ), (faceEdges (tetsWith subs) i = [(A, B), (B, C), (C, A)] ∨
      faceEdges (tetsWith subs) i = [(A, B), (B, C), (A, C)] ∨ faceEdges (tetsWith subs) i = [(A, B), (A, C), (B, C)] ∨
      faceEdges (tetsWith subs) i = [(A, B), (A, C), (C, B)]) → G.faceCenter i = mean [A, B, C] := by
    intro A B C h
    rw [hfc]
    rcases h with h | h | h | h <;> rw [edgeMean, h] <;> funext k <;> simp [mean] <;> ring
  have go : ∀ (A B C : Vec 3 ℝ), (faceEdges (tetsWith subs) i = [(A, B), (B, C), (C, A)] ∨
      faceEdges (tetsWith subs) i = [(A, B), (B, C), (A, C)] ∨ faceEdges (tetsWith subs) i = [(A, B), (A, C), (B, C)] ∨
      faceEdges (tetsWith subs) i = [(A, B), (A, C), (C, B)]) → f.conn.left < 2 →
      dot (A - G.cellCenter f.conn.left) (cross (A - C) (B - C)) ≠ 0 →
      (f.conn.right < 2 → dot (A - G.cellCenter f.conn.left) (cross (A - C) (B - C)) *
        dot (A - G.cellCenter f.conn.right) (cross (A - C) (B - C)) < 0) →
      GoodFace G i f.conn ∧ OppositeCells G i f.conn := by
    intro A B C h h1 h2 h3
    refine good_triangle G i f A B C ?_ ?_ (em A B C h) h1 hfit h2 h3
    · rw [hGm, firstSide]; rcases h with h | h | h | h <;> rw [h] <;> rfl
    · rw [hGm]; rcases h with h | h | h | h <;> rw [h] <;> simp
  have nr : ¬ INVALID < 2 := by decide +kernel
  interval_cases i
  · cases hf
    refine go (tetPos 0) (tetPos 1) (tetPos 2) (.inl rfl) (by decide) ?_ (fun h => absurd h nr)
    show dot (tetPos 0 - G.cellCenter 0) _ ≠ 0
    rw [hc0]; simp [dot3, cross_apply, tetPos]
  · cases hf
    refine go (tetPos 0) (tetPos 1) (tetPos 3) (.inr (.inl rfl)) (by decide) ?_ (fun h => absurd h nr)
    show dot (tetPos 0 - G.cellCenter 0) _ ≠ 0
    rw [hc0]; simp [dot3, cross_apply, tetPos]
  · cases hf
    refine go (tetPos 2) (tetPos 0) (tetPos 3) (.inr (.inl rfl)) (by decide) ?_ (fun h => absurd h nr)
    show dot (tetPos 2 - G.cellCenter 0) _ ≠ 0
    rw [hc0]; simp [dot3, cross_apply, tetPos]
  · cases hf
    have h1 : dot (tetPos 1 - G.cellCenter 0) (cross (tetPos 1 - tetPos 3) (tetPos 2 - tetPos 3)) = 1 / 4 := by
      rw [hc0]; simp [dot3, cross_apply, tetPos]; norm_num
    have h2 : dot (tetPos 1 - G.cellCenter 1) (cross (tetPos 1 - tetPos 3) (tetPos 2 - tetPos 3)) = -1 / 2 := by
      rw [hc1]; simp [dot3, cross_apply, tetPos]; norm_num
    have h3 : dot (tetPos 1 - G.cellCenter 0) (cross (tetPos 1 - tetPos 2) (tetPos 3 - tetPos 2)) = -1 / 4 := by
      rw [hc0]; simp [dot3, cross_apply, tetPos]; norm_num
    have h4 : dot (tetPos 1 - G.cellCenter 1) (cross (tetPos 1 - tetPos 2) (tetPos 3 - tetPos 2)) = 1 / 2 := by
      rw [hc1]; simp [dot3, cross_apply, tetPos]; norm_num
    rcases hs with rfl | rfl
    · refine go (tetPos 1) (tetPos 2) (tetPos 3) (.inr (.inl rfl)) (by decide) ?_ (fun _ => ?_)
      · show dot (tetPos 1 - G.cellCenter 0) _ ≠ 0
        rw [h1]; norm_num
      · show dot (tetPos 1 - G.cellCenter 0) _ * dot (tetPos 1 - G.cellCenter 1) _ < 0
        rw [h1, h2]; norm_num
    · refine go (tetPos 1) (tetPos 3) (tetPos 2) (.inr (.inr (.inr rfl))) (by decide) ?_ (fun _ => ?_)
      · show dot (tetPos 1 - G.cellCenter 0) _ ≠ 0
        rw [h3]; norm_num
      · show dot (tetPos 1 - G.cellCenter 0) _ * dot (tetPos 1 - G.cellCenter 1) _ < 0
        rw [h3, h4]; norm_num
  · cases hf
    refine go (tetPos 1) (tetPos 2) (tetPos 4) (.inr (.inl rfl)) (by decide) ?_ (fun h => absurd h nr)
    show dot (tetPos 1 - G.cellCenter 1) _ ≠ 0
    rw [hc1]; simp [dot3, cross_apply, tetPos]; norm_num
  · cases hf
    refine go (tetPos 2) (tetPos 3) (tetPos 4) (.inr (.inl rfl)) (by decide) ?_ (fun h => absurd h nr)
    show dot (tetPos 2 - G.cellCenter 1) _ ≠ 0
    rw [hc1]; simp [dot3, cross_apply, tetPos]; norm_num
  · cases hf
    refine go (tetPos 1) (tetPos 3) (tetPos 4) (.inr (.inr (.inl rfl))) (by decide) ?_ (fun h => absurd h nr)
    show dot (tetPos 1 - G.cellCenter 1) _ ≠ 0
    rw [hc1]; simp [dot3, cross_apply, tetPos]; norm_num

theorem tetsWith_numbered (subs : List Idx) : Vtk.Numbered (tetsWith subs) where
  cells := by
    intro i c h
    have hi : i < 2 := (List.getElem?_eq_some_iff.mp h).1
    interval_cases i <;> cases h <;> rfl
  faces := by
    intro i f h
    have hi : i < 7 := (List.getElem?_eq_some_iff.mp h).1
    interval_cases i <;> cases h <;> rfl

theorem tetsWith_export (subs : List Idx) (hs : subs = [1, 5, 4] ∨ subs = [4, 1, 5]) (key : Vec 3 ℝ → List Char) :
    ∃ cs bs w, computeCenters (tetsWith subs) = .ok cs ∧ edgesOrientation (setCenters (tetsWithG subs) cs) = .ok bs ∧
      indexMesh3 (firstOri bs) key (setCenters (tetsWithG subs) cs).cellCenter (setCenters (tetsWithG subs) cs).faceCenter (tetsWith subs)
        [300, 300] {} = .ok w ∧
      (∃ a b c d, w.cellVert[0]? = some [a, b, c, d] ∧
        0 < sixVolume (posAt (tetsWith subs) a) (posAt (tetsWith subs) b) (posAt (tetsWith subs) c) (posAt (tetsWith subs) d)) ∧
      (∃ a b c d, w.cellVert[1]? = some [a, b, c, d] ∧ [a, b, c, d].Perm [1, 2, 3, 4] ∧
        (subs = [1, 5, 4] → 0 < sixVolume (posAt (tetsWith subs) a) (posAt (tetsWith subs) b) (posAt (tetsWith subs) c) (posAt (tetsWith subs) d)) ∧
        (subs = [4, 1, 5] → sixVolume (posAt (tetsWith subs) a) (posAt (tetsWith subs) b) (posAt (tetsWith subs) c) (posAt (tetsWith subs) d) < 0)) := by
  have hperm : [1, 5, 4].Perm subs := by rcases hs with rfl | rfl <;> decide
  have hl3 : subs.length = 3 := by rcases hs with rfl | rfl <;> rfl
  have hv := tetsWith_valid subs hs
  have htri : ∀ (i : Nat) f, ((tetsWith subs).midElems 2)[i]? = some f → f.sub.length = 3 := by
    intro i f h
    have hi : i < 7 := (List.getElem?_eq_some_iff.mp h).1
    interval_cases i <;> cases h <;> first | rfl | exact hl3
  have hne : NoEmptyElement (tetsWith subs) := by
    intro d i f _ _ h
    match d with
    | 0 | 1 | 2 => intro e; have := htri i f h; rw [e] at this; simp at this
    | d + 3 => simp [Mesh.midElems, tetsWith] at h
  obtain ⟨cs, hcs, hac⟩ := C38_centers (tetsWith subs) twoTetsBd hv hne
  obtain ⟨hc0, hc1, hgood⟩ := tetsWith_facts subs hs cs hac
  have hfit : (tetsWithG subs).mesh.cells.length ≤ BOUNDARY := by
    have : (2 : Nat) ≤ BOUNDARY := by decide +kernel
    exact this
  obtain ⟨bs, w, h1, h2, h3⟩ := C56_tetrahedra_partial key (tetsWithG subs) twoTetsBd tetVert cs {} rfl hv (tetsWith_numbered subs) hne hfit hcs
    (tetsWith_solid hperm) (fun i f h => (hgood i f h).1) (fun i f h => (hgood i f h).2) htri
  obtain ⟨bs', h1', h4⟩ := C56_first_edge (setCenters (tetsWithG subs) cs) twoTetsBd rfl hv (fun i f h => (hgood i f h).1)
  rw [h1] at h1'
  cases h1'
  have hfc : (setCenters (tetsWithG subs) cs).faceCenter 3 = ![1 / 3, 1 / 3, 1 / 3] := by
    rw [computed_face (g := tetsWithG subs) rfl hv hac (show 3 < 7 by decide)]
    show edgeMean (tetsWith subs) 3 = _
    rcases hs with rfl | rfl
    · have : faceEdges (tetsWith [1, 5, 4]) 3 = [(tetPos 1, tetPos 2), (tetPos 2, tetPos 3), (tetPos 1, tetPos 3)] := rfl
      rw [edgeMean, this]
      apply ext3 <;> simp [mean, tetPos] <;> norm_num
    · have : faceEdges (tetsWith [4, 1, 5]) 3 = [(tetPos 1, tetPos 3), (tetPos 1, tetPos 2), (tetPos 2, tetPos 3)] := rfl
      rw [edgeMean, this]
      apply ext3 <;> simp [mean, tetPos] <;> norm_num
  refine ⟨cs, bs, w, hcs, h1, h2, ?_, ?_⟩
  · obtain ⟨a, b, c, d, x, x1, _, x2, x3, _⟩ := h3 0 _ rfl
    cases x2
    exact ⟨a, b, c, d, x1, x3 (.inl rfl)⟩
  · obtain ⟨a, b, c, d, x, x1, x5, x2, x3, x4⟩ := h3 1 _ rfl
    cases x2
    refine ⟨a, b, c, d, x1, x5, fun h => x3 (.inr ?_), fun h => x4 (show 1 ≠ 0 by decide) ?_⟩
    · subst h
      refine (h4 3 _ rfl (show 0 < BOUNDARY by decide +kernel)).mpr ?_
      have : firstSide (setCenters (tetsWithG [1, 5, 4]) cs).mesh 3 = (tetPos 1, tetPos 2) := rfl
      rw [this, hfc]
      show 0 < dot (_ - (setCenters (tetsWithG [1, 5, 4]) cs).cellCenter 0) _
      rw [hc0]
      simp [dot3, cross_apply, tetPos]
      norm_num
    · subst h
      rw [← Bool.not_eq_true]
      refine fun h => ?_
      have := (h4 3 _ rfl (show 0 < BOUNDARY by decide +kernel)).mp h
      have e : firstSide (setCenters (tetsWithG [4, 1, 5]) cs).mesh 3 = (tetPos 1, tetPos 3) := rfl
      rw [e, hfc] at this
      change 0 < dot (_ - (setCenters (tetsWithG [4, 1, 5]) cs).cellCenter 0) _ at this
      rw [hc0] at this
      simp [dot3, cross_apply, tetPos] at this
      norm_num at this

/-- The hypotheses hold for two tetrahedra; both are exported with a positive volume. -/
example (key : Vec 3 ℝ → List Char) : ∃ bs cc fc w, indexMesh3 (firstOri bs) key cc fc (tetsWith [1, 5, 4]) [300, 300] {} = .ok w ∧
    ∃ a b c d, w.cellVert[1]? = some [a, b, c, d] ∧
      0 < sixVolume (posAt (tetsWith [1, 5, 4]) a) (posAt (tetsWith [1, 5, 4]) b) (posAt (tetsWith [1, 5, 4]) c) (posAt (tetsWith [1, 5, 4]) d) := by
  obtain ⟨cs, bs, w, _, _, h, _, a, b, c, d, h1, _, h2, _⟩ := tetsWith_export [1, 5, 4] (.inl rfl) key
  exact ⟨bs, _, _, w, h, a, b, c, d, h1, h2 rfl⟩

/-- C56. The same mesh with another order of the edges of the common face: the second tetrahedron is exported with a negative volume, although all the
cells are not degenerate and the centers and orientations are those that the library computes. -/
theorem C56_inverted_tetrahedron (key : Vec 3 ℝ → List Char) : ∃ cs bs w, computeCenters (tetsWith [4, 1, 5]) = .ok cs ∧
    edgesOrientation (setCenters (tetsWithG [4, 1, 5]) cs) = .ok bs ∧
    indexMesh3 (firstOri bs) key (setCenters (tetsWithG [4, 1, 5]) cs).cellCenter (setCenters (tetsWithG [4, 1, 5]) cs).faceCenter
      (tetsWith [4, 1, 5]) [300, 300] {} = .ok w ∧
    ∃ a b c d, w.cellVert[1]? = some [a, b, c, d] ∧ [a, b, c, d].Perm [1, 2, 3, 4] ∧
      sixVolume (tetPos a) (tetPos b) (tetPos c) (tetPos d) < 0 := by
  obtain ⟨cs, bs, w, h1, h2, h3, _, a, b, c, d, h4, h5, _, h6⟩ := tetsWith_export [4, 1, 5] (.inr rfl) key
  refine ⟨cs, bs, w, h1, h2, h3, a, b, c, d, h4, h5, ?_⟩
  have hpos : ∀ v, v ∈ [a, b, c, d] → posAt (tetsWith [4, 1, 5]) v = tetPos v := by
    intro v hv
    have := h5.mem_iff.mp hv
    simp only [List.mem_cons, List.not_mem_nil, or_false] at this
    rcases this with rfl | rfl | rfl | rfl <;> rfl
  have := h6 rfl
  rwa [hpos a (by simp), hpos b (by simp), hpos c (by simp), hpos d (by simp)] at this

end GTMesh.Props
