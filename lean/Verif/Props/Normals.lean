import Verif.Props.Convex

/-! # C40: normals of faces -/

namespace GTMesh.Props
open GTMesh Spec Std' Vec Geo

/-! ## Two dimensions -/

/-- The unit normal of the segment `AB`, on the right of the direction from `A` to `B`. -/
structure IsNormal2 (A B ν : Vec 2 ℝ) : Prop where
  unit : Vec.norm ν = 1
  perpendicular : dot ν (B - A) = 0
  /-- a point is on the left of `AB` exactly when it is behind the normal -/
  side : ∀ P, 0 < turn P A B ↔ dot ν (P - A) < 0

theorem normal2_value (A B : Vec 2 ℝ) :
    divAssign (store (store raw 0 ((sub B A) 1)) 1 (-((sub B A) 0))) (.value (Vec.norm (sub B A))) =
      (Vec.norm (B - A))⁻¹ • (![B 1 - A 1, -(B 0 - A 0)] : Vec 2 ℝ) := by
  rw [divAssign_eq, Factor.get, sub_eq]
  congr 1
  funext k
  fin_cases k <;> simp [store, Pi.sub_apply]

theorem normal2_spec {A B : Vec 2 ℝ} (h : A ≠ B) : IsNormal2 A B ((Vec.norm (B - A))⁻¹ • (![B 1 - A 1, -(B 0 - A 0)] : Vec 2 ℝ)) := by
  have hz : B - A ≠ 0 := fun e => h (sub_eq_zero.mp e).symm
  have hp := norm_pos hz
  refine ⟨?_, ?_, ?_⟩
  · rw [norm_smul, abs_of_pos (inv_pos.mpr hp)]
    have : Vec.norm (![B 1 - A 1, -(B 0 - A 0)] : Vec 2 ℝ) = Vec.norm (B - A) := by
      simp only [norm_real]
      congr 1
      simp only [dot2, Pi.sub_apply, Matrix.cons_val_zero, Matrix.cons_val_one]
      ring
    rw [this, inv_mul_cancel₀ hp.ne']
  · rw [dot_smul, dot2]
    simp only [Pi.sub_apply, Matrix.cons_val_zero, Matrix.cons_val_one]
    ring
  · intro P
    rw [dot_smul]
    have : dot (![B 1 - A 1, -(B 0 - A 0)] : Vec 2 ℝ) (P - A) = - turn P A B := by
      rw [dot2, turn]
      simp only [Pi.sub_apply, Matrix.cons_val_zero, Matrix.cons_val_one]
      ring
    rw [this, mul_neg, neg_lt_zero, mul_pos_iff_of_pos_left (inv_pos.mpr hp)]

theorem perp_multiple {a b x y : ℝ} (hab : a * a + b * b ≠ 0) (h : x * a + y * b = 0) : ∃ s : ℝ, x = s * b ∧ y = - (s * a) := by
  refine ⟨(x * b - y * a) / (a * a + b * b), ?_, ?_⟩
  · rw [div_mul_eq_mul_div, eq_div_iff hab]
    linear_combination a * h
  · rw [div_mul_eq_mul_div, ← neg_div, eq_div_iff hab]
    linear_combination b * h

/-- The conditions determine the normal. -/
theorem IsNormal2.unique {A B ν ν' : Vec 2 ℝ} (h : A ≠ B) (h1 : IsNormal2 A B ν) (h2 : IsNormal2 A B ν') : ν = ν' := by
  have key : ∀ ν, IsNormal2 A B ν → ν = (Vec.norm (B - A))⁻¹ • (![B 1 - A 1, -(B 0 - A 0)] : Vec 2 ℝ) := by
    intro ν hν
    have hz : B - A ≠ 0 := fun e => h (sub_eq_zero.mp e).symm
    have hp := norm_pos hz
    have hu : ν 0 * ν 0 + ν 1 * ν 1 = 1 := by
      have := hν.unit
      simp only [norm_real] at this
      rw [Real.sqrt_eq_one, dot2] at this
      exact this
    have hd := norm_sq (B - A)
    rw [dot2] at hd
    have hperp := hν.perpendicular
    rw [dot2] at hperp
    simp only [Pi.sub_apply] at hd hperp
    set a := B 0 - A 0
    set b := B 1 - A 1
    -- ν = s (b, -a)
    have hs : ∃ s : ℝ, ν 0 = s * b ∧ ν 1 = - (s * a) := by
      have hab : a * a + b * b ≠ 0 := by rw [← hd]; exact (mul_pos hp hp).ne'
      exact perp_multiple hab hperp
    obtain ⟨s, s0, s1⟩ := hs
    have hsq : (s * Vec.norm (B - A)) ^ 2 = 1 := by
      rw [mul_pow, sq (Vec.norm (B - A)), hd]
      rw [s0, s1] at hu
      linear_combination hu
    have hpos : 0 < s := by
      have := (hν.side (A + ![-b, a])).mp (by
        simp only [turn, Pi.add_apply, Matrix.cons_val_zero, Matrix.cons_val_one]
        have : 0 < a * a + b * b := by rw [← hd]; exact mul_pos hp hp
        have e : (A 0 - (A 0 + -b)) * (B 1 - (A 1 + a)) - (B 0 - (A 0 + -b)) * (A 1 - (A 1 + a)) = a * a + b * b := by
          simp only [a, b]; ring
        rw [e]; exact this)
      rw [add_sub_cancel_left, dot2] at this
      simp only [Matrix.cons_val_zero, Matrix.cons_val_one] at this
      rw [s0, s1] at this
      have hab : 0 < a * a + b * b := by rw [← hd]; exact mul_pos hp hp
      by_contra hneg
      push Not at hneg
      have : s * (a * a + b * b) ≤ 0 := mul_nonpos_of_nonpos_of_nonneg hneg hab.le
      linarith
    have hone : s * Vec.norm (B - A) = 1 := by
      have hpp := mul_pos hpos hp
      nlinarith
    have hs' : s = (Vec.norm (B - A))⁻¹ := eq_inv_of_mul_eq_one_left hone
    funext k
    fin_cases k
    · simp only [Pi.smul_apply, smul_eq_mul]
      rw [← hs']; exact s0
    · simp only [Pi.smul_apply, smul_eq_mul]
      rw [← hs']
      show ν 1 = s * -a
      rw [s1]; ring
  rw [key ν h1, key ν' h2]

/-- C40. In 2D every edge with different ends has its unit normal, on the right of its direction. -/
theorem C40_normals_2d (m : Mesh (Vec 2 ℝ)) (bd : Idx → List Idx) (hv : ValidMesh m bd)
    (hd : ∀ e, e < m.edges.length → (ends m e).1 ≠ (ends m e).2) :
    ∃ ns, computeFaceNormals2 m = .ok ns ∧ ns.length = m.edges.length ∧
      ∀ (e : Nat) ν, ns[e]? = some ν → IsNormal2 (ends m e).1 (ends m e).2 ν := by
  refine ⟨(List.range m.edges.length).map fun e =>
    (Vec.norm ((ends m e).2 - (ends m e).1))⁻¹ • (![(ends m e).2 1 - (ends m e).1 1, -((ends m e).2 0 - (ends m e).1 0)] : Vec 2 ℝ), ?_, by simp, ?_⟩
  · apply forEach_ok
    intro e he
    rw [normal2, ends_ok hv (List.mem_range.mp he)]
    simp only [Res.bind]
    rw [normal2_value]
  · intro e ν hν
    rw [List.getElem?_map] at hν
    by_cases he : e < m.edges.length
    · rw [List.getElem?_range he] at hν
      simp only [Option.map_some, Option.some.injEq] at hν
      rw [← hν]
      exact normal2_spec (hd e he)
    · rw [List.getElem?_eq_none (by simp; omega)] at hν
      simp at hν

/-- C40. Reversing an edge reverses its normal. -/
theorem C40_reversal_2d (A B ν : Vec 2 ℝ) (h : IsNormal2 A B ν) : IsNormal2 B A (-ν) := by
  refine ⟨by rw [norm_neg]; exact h.unit, ?_, ?_⟩
  · have := h.perpendicular
    rw [dot2] at this ⊢
    simp only [Pi.sub_apply, Pi.neg_apply] at this ⊢
    linarith
  · intro P
    -- the mirror image of `P` on the other side of the edge
    have hperp := h.perpendicular
    have hmir := h.side (A + B - P)
    have e1 : turn P B A = turn (A + B - P) A B := by
      simp only [turn, Pi.sub_apply, Pi.add_apply]; ring
    rw [e1, hmir]
    rw [dot2] at hperp ⊢
    rw [dot2]
    simp only [Pi.sub_apply, Pi.neg_apply, Pi.add_apply] at hperp ⊢
    constructor <;> intro h <;> linarith

example : ∃ ns, computeFaceNormals2 square = .ok ns ∧ ns[0]? = some (![0, -1] : Vec 2 ℝ) := by
  obtain ⟨ns, h1, h2, h3⟩ := C40_normals_2d square _ square_valid (by
    intro e he
    have he : e < 5 := he
    have hne : ∀ i j : Nat, (∃ k, squarePos i k ≠ squarePos j k) → squarePos i ≠ squarePos j := by
      rintro i j ⟨k, hk⟩ h; rw [h] at hk; exact hk rfl
    interval_cases e
    · exact hne 0 1 ⟨0, by simp [squarePos]⟩
    · exact hne 1 2 ⟨1, by simp [squarePos]⟩
    · exact hne 2 0 ⟨1, by simp [squarePos]⟩
    · exact hne 2 3 ⟨0, by simp [squarePos]⟩
    · exact hne 3 0 ⟨1, by simp [squarePos]⟩)
  refine ⟨ns, h1, ?_⟩
  have hl : 0 < ns.length := by rw [h2]; simp [square, twoTriangles]
  have := List.getElem?_eq_getElem hl
  rw [this]
  congr 1
  have e : ends square 0 = (squarePos 0, squarePos 1) := rfl
  have hn := h3 0 _ this
  rw [e] at hn
  refine IsNormal2.unique ?_ hn ⟨?_, ?_, ?_⟩
  · intro h; have := congrFun h 0; simp [squarePos] at this
  · simp [norm_real, dot2]
  · simp [dot2, squarePos]
  · intro P
    rw [dot2, turn]
    simp only [squarePos, Pi.sub_apply, Matrix.cons_val_zero, Matrix.cons_val_one]
    constructor <;> intro h <;> linarith

/-! ## Three dimensions -/

/-- The face has an inner cell on the left, or, when there is none, on the right. -/
def HasInnerCell {n : Nat} {F : Type} (g : GMesh n F) (c : Conn) : Prop :=
  (c.left < g.mesh.cells.length ∧ c.left < BOUNDARY) ∨ (BOUNDARY ≤ c.left ∧ c.right < g.mesh.cells.length)

/-- The normal of the plane of `A`, `B` and the center `c` that points away from the left cell, or towards the right cell when there
is no inner cell on the left. -/
structure IsNormal3 (g : GMesh 3 ℝ) (conn : Conn) (c A B ν : Vec 3 ℝ) : Prop where
  unit : Vec.norm ν = 1
  orthA : dot ν (A - c) = 0
  orthB : dot ν (B - c) = 0
  away : conn.left < BOUNDARY → 0 < dot ν (c - g.cellCenter conn.left)
  towards : BOUNDARY ≤ conn.left → 0 < dot ν (g.cellCenter conn.right - c)

theorem directionCell_inner {c : Conn} (h : c.left < BOUNDARY) : directionCell ℝ c = (1, c.left) := by
  unfold directionCell
  have h1 : isBoundaryIndex c.left = false := by simp only [isBoundaryIndex, decide_eq_false_iff_not]; omega
  have h2 : isInvalidIndex c.left = false := by
    simp only [isInvalidIndex, beq_eq_false_iff_ne]
    intro e
    rw [e] at h
    exact absurd h (by decide +kernel)
  rw [h1, h2]; rfl

theorem directionCell_outer {c : Conn} (h : BOUNDARY ≤ c.left) : directionCell ℝ c = (-1, c.right) := by
  unfold directionCell
  have h1 : isBoundaryIndex c.left = true := by simp only [isBoundaryIndex, decide_eq_true_eq]; exact h
  rw [h1, Bool.or_true]; rfl

theorem direction_cases {n : Nat} {F : Type} {g : GMesh n F} {c : Conn} (h : HasInnerCell g c) :
    (directionCell ℝ c = (1, c.left) ∧ c.left < BOUNDARY ∧ c.left < g.mesh.cells.length) ∨
    (directionCell ℝ c = (-1, c.right) ∧ BOUNDARY ≤ c.left ∧ c.right < g.mesh.cells.length) := by
  rcases h with ⟨h1, h2⟩ | ⟨h1, h2⟩
  · exact .inl ⟨directionCell_inner h2, h2, h1⟩
  · exact .inr ⟨directionCell_outer h1, h1, h2⟩

theorem direction_lt {n : Nat} {F : Type} {g : GMesh n F} {c : Conn} (h : HasInnerCell g c) : (directionCell ℝ c).2 < g.mesh.cells.length := by
  rcases direction_cases h with ⟨e, _, h⟩ | ⟨e, _, h⟩ <;> rw [e] <;> exact h

/-- The third vector, with its sign. -/
theorem unit_third {c A B cc : Vec 3 ℝ} (h1 : cross (A - c) (B - c) ≠ 0) (h2 : dot (c - cc) (cross (A - c) (B - c)) ≠ 0) :
    ∃ u0 u1 u ns, gramSchmidtN [sub c A, sub c B, sub c cc] = .ok ([u0, u1, u], ns) ∧
      ns[0]? = some (Vec.norm (A - c)) ∧ ns[1]? = some (Vec.norm (cross (A - c) (B - c)) / Vec.norm (A - c)) ∧
      u = (SignType.sign (dot (c - cc) (cross (A - c) (B - c))) : ℝ) • (Vec.norm (cross (A - c) (B - c)))⁻¹ • cross (A - c) (B - c) ∧
      Vec.norm u = 1 ∧ dot u (A - c) = 0 ∧ dot u (B - c) = 0 ∧ 0 < dot u (c - cc) := by
  have e1 : cross (c - A) (c - B) = cross (A - c) (B - c) := by
    have h1 := cross_apply (c - A) (c - B)
    have h2 := cross_apply (A - c) (B - c)
    apply ext3 <;> simp only [h1, h2, Pi.sub_apply] <;> ring
  obtain ⟨u0, u1, h⟩ := gs3 (c - A) (c - B) (c - cc) (by rw [e1]; exact h1)
  rw [e1] at h
  set K := cross (A - c) (B - c) with hK
  have hp := norm_pos h1
  refine ⟨u0, u1, _, _, by rw [sub_eq, sub_eq, sub_eq]; exact h, ?_, ?_, rfl, ?_, ?_, ?_, ?_⟩
  · rw [norm_sub_comm]; rfl
  · rw [norm_sub_comm]; rfl
  · rw [norm_smul, norm_smul, abs_of_pos (inv_pos.mpr hp), inv_mul_cancel₀ hp.ne', mul_one]
    rcases lt_or_gt_of_ne h2 with h2 | h2
    · rw [sign_neg h2]; simp
    · rw [sign_pos h2]; simp
  · rw [dot_smul, dot_smul, hK, dot_cross_left]; ring
  · rw [dot_smul, dot_smul, hK, dot_cross_right]; ring
  · rw [dot_smul, dot_smul, dot_comm K]
    rcases lt_or_gt_of_ne h2 with h2 | h2
    · rw [sign_neg h2]
      simp only [SignType.coe_neg_one, neg_mul, one_mul, Left.neg_pos_iff]
      exact mul_neg_of_pos_of_neg (inv_pos.mpr hp) h2
    · rw [sign_pos h2]
      simp only [SignType.coe_one, one_mul]
      exact mul_pos (inv_pos.mpr hp) h2

/-- The position of the face is not degenerate: its first edge and its center span a plane, and the cell that gives the direction has its
center outside of this plane. -/
structure GoodFace (g : GMesh 3 ℝ) (i : Idx) (conn : Conn) : Prop where
  nonempty : faceEdges g.mesh i ≠ []
  inner : HasInnerCell g conn
  plane : cross ((firstSide g.mesh i).1 - g.faceCenter i) ((firstSide g.mesh i).2 - g.faceCenter i) ≠ 0
  left : conn.left < BOUNDARY → dot (g.faceCenter i - g.cellCenter conn.left)
    (cross ((firstSide g.mesh i).1 - g.faceCenter i) ((firstSide g.mesh i).2 - g.faceCenter i)) ≠ 0
  right : BOUNDARY ≤ conn.left → dot (g.faceCenter i - g.cellCenter conn.right)
    (cross ((firstSide g.mesh i).1 - g.faceCenter i) ((firstSide g.mesh i).2 - g.faceCenter i)) ≠ 0

theorem GoodFace.direction {g : GMesh 3 ℝ} {i : Idx} {conn : Conn} (h : GoodFace g i conn) :
    dot (g.faceCenter i - g.cellCenter (directionCell ℝ conn).2)
      (cross ((firstSide g.mesh i).1 - g.faceCenter i) ((firstSide g.mesh i).2 - g.faceCenter i)) ≠ 0 := by
  rcases direction_cases h.inner with ⟨e, h1, _⟩ | ⟨e, h1, _⟩
  · rw [e]; exact h.left h1
  · rw [e]; exact h.right h1

theorem isNormal3_of_unit {g : GMesh 3 ℝ} {conn : Conn} (h : HasInnerCell g conn) {c A B u : Vec 3 ℝ} (h1 : Vec.norm u = 1) (h2 : dot u (A - c) = 0)
    (h3 : dot u (B - c) = 0) (h4 : 0 < dot u (c - g.cellCenter (directionCell ℝ conn).2)) :
    IsNormal3 g conn c A B ((directionCell ℝ conn).1 • u) := by
  rcases direction_cases h with ⟨e, hl, _⟩ | ⟨e, hl, _⟩
  · rw [e] at h4 ⊢
    simp only [one_smul]
    exact ⟨h1, h2, h3, fun _ => h4, fun h => by omega⟩
  · rw [e] at h4 ⊢
    simp only [neg_smul, one_smul]
    have hneg : ∀ x, dot (-u) x = - dot u x := by intro x; rw [show -u = (-1 : ℝ) • u by simp, dot_smul]; ring
    refine ⟨by rw [norm_neg]; exact h1, by rw [hneg, h2, neg_zero], by rw [hneg, h3, neg_zero], fun h => by omega, fun _ => ?_⟩
    rw [hneg]
    rw [dot_sub_right] at h4 ⊢
    linarith

theorem firstEdge_ok {m : Mesh (Vec 3 ℝ)} {bd : Idx → List Idx} (hv : ValidMesh m bd) (h3 : m.dim = 3) {i : Nat} {f : Face}
    (hf : (m.midElems 2)[i]? = some f) (hne : faceEdges m i ≠ []) : firstEdge m i = .ok (firstSide m i) := by
  have hfe : faceEdges m i = f.sub.map (ends m) := by rw [faceEdges, hf]; rfl
  have hat : Res.at' (m.midElems 2) i = .ok f := Res.at'_eq_ok.mpr hf
  rw [firstEdge, hat]
  simp only [Res.bind]
  cases hs : f.sub with
  | nil => rw [hfe, hs] at hne; simp at hne
  | cons e es =>
    have : Res.idx (e :: es) 0 = .ok e := rfl
    rw [this]
    simp only
    rw [ends_ok hv ((face_edges_lt hv h3 hf).2.1 e (by rw [hs]; exact List.mem_cons_self)), firstSide, hfe, hs]
    rfl

/-- C40. In 3D every face gets the unit normal of the plane of its first edge and its center, directed away from the left cell (or
towards the right one, if there is no inner cell on the left). -/
theorem C40_normals_3d (g : GMesh 3 ℝ) (bd : Idx → List Idx) (hv : ValidMesh g.mesh bd) (h3 : g.mesh.dim = 3)
    (hg : ∀ (i : Nat) f, (g.mesh.midElems 2)[i]? = some f → GoodFace g i f.conn) :
    ∃ ns, computeFaceNormals3 g = .ok ns ∧ ns.length = (g.mesh.midElems 2).length ∧
      ∀ (i : Nat) f ν, (g.mesh.midElems 2)[i]? = some f → ns[i]? = some ν →
        IsNormal3 g f.conn (g.faceCenter i) (firstSide g.mesh i).1 (firstSide g.mesh i).2 ν := by
  have key : ∀ i, i < (g.mesh.midElems 2).length → ∃ ν, normal3 g i = .ok ν ∧ ∀ f, (g.mesh.midElems 2)[i]? = some f →
      IsNormal3 g f.conn (g.faceCenter i) (firstSide g.mesh i).1 (firstSide g.mesh i).2 ν := by
    intro i hi
    have hf := List.getElem?_eq_getElem hi
    set f := (g.mesh.midElems 2)[i]
    have h := hg i f hf
    have hat : Res.at' (g.mesh.midElems 2) i = .ok f := Res.at'_eq_ok.mpr hf
    have hc := direction_lt h.inner
    have hatc : Res.at' g.mesh.cells (directionCell ℝ f.conn).2 = .ok g.mesh.cells[(directionCell ℝ f.conn).2] :=
      Res.at'_eq_ok.mpr (List.getElem?_eq_getElem hc)
    obtain ⟨u0, u1, u, ns, e1, _, _, _, e2, e3, e4, e5⟩ := unit_third h.plane h.direction
    refine ⟨(directionCell ℝ f.conn).1 • u, ?_, ?_⟩
    · rw [normal3, hat]
      simp only [Res.bind]
      rw [hatc]
      simp only
      rw [firstEdge_ok hv h3 hf h.nonempty]
      simp only
      rw [e1]
      simp only
      have : Res.idx [u0, u1, u] 2 = .ok u := rfl
      rw [this]
      simp only [smul_eq]
    · intro f' hf'
      rw [hf] at hf'
      obtain rfl := Option.some.inj hf'
      exact isNormal3_of_unit h.inner e2 e3 e4 e5
  classical
  refine ⟨(List.range (g.mesh.midElems 2).length).map fun i => if hi : i < (g.mesh.midElems 2).length then (key i hi).choose else 0, ?_, by simp, ?_⟩
  · apply forEach_ok
    intro i hi
    rw [List.mem_range] at hi
    rw [dif_pos hi]
    exact (key i hi).choose_spec.1
  · intro i f ν hf hν
    have hi := (List.getElem?_eq_some_iff.mp hf).1
    rw [List.getElem?_map, List.getElem?_range hi] at hν
    simp only [Option.map_some, Option.some.injEq] at hν
    rw [dif_pos hi] at hν
    rw [← hν]
    exact (key i hi).choose_spec.2 f hf

/-- The conditions determine the normal. -/
theorem IsNormal3.unique {g : GMesh 3 ℝ} {conn : Conn} {c A B ν ν' : Vec 3 ℝ} (hp : cross (A - c) (B - c) ≠ 0)
    (h1 : IsNormal3 g conn c A B ν) (h2 : IsNormal3 g conn c A B ν') : ν = ν' := by
  set K := cross (A - c) (B - c) with hK
  have hKp := norm_pos hp
  have key : ∀ ν, IsNormal3 g conn c A B ν → ∃ s : ℝ, ν = s • K ∧ s * s * (Vec.norm K * Vec.norm K) = 1 := by
    intro ν h
    have hz : cross K ν = 0 := by
      rw [hK, triple, dot_comm, h.orthA, dot_comm, h.orthB]; simp
    have ht := triple K ν K
    have hz2 : cross (cross K ν) K = 0 := by
      rw [hz]
      have h := cross_apply (0 : Vec 3 ℝ) K
      apply ext3 <;> simp [h]
    rw [hz2] at ht
    have hKK : dot K K ≠ 0 := by rw [← norm_sq]; exact (mul_pos hKp hKp).ne'
    have e : ν = ((dot K K)⁻¹ * dot ν K) • K := by
      have := sub_eq_zero.mp ht.symm
      rw [mul_smul, ← this, smul_smul, inv_mul_cancel₀ hKK, one_smul]
    refine ⟨_, e, ?_⟩
    have hu := h.unit
    rw [e, norm_smul] at hu
    have := congrArg (fun x => x * x) hu
    beta_reduce at this
    rw [mul_mul_mul_comm, abs_mul_abs_self, one_mul] at this
    exact this
  obtain ⟨s, hs, s1⟩ := key ν h1
  obtain ⟨t, ht, t1⟩ := key ν' h2
  have hst : s * s = t * t := by
    have hz := (mul_pos hKp hKp).ne'
    exact mul_right_cancel₀ hz (s1.trans t1.symm)
  rcases mul_self_eq_mul_self_iff.mp hst with e | e
  · rw [hs, ht, e]
  · exfalso
    have hneg : ν = -ν' := by rw [hs, ht, e, neg_smul]
    have flip : ∀ x, dot ν x = - dot ν' x := by
      intro x; rw [hneg, show -ν' = (-1 : ℝ) • ν' by simp, dot_smul]; ring
    by_cases hl : conn.left < BOUNDARY
    · have a := h1.away hl
      have b := h2.away hl
      rw [flip] at a
      linarith
    · have a := h1.towards (by omega)
      have b := h2.towards (by omega)
      rw [flip] at a
      linarith

/-- C40. When both cells are inner and the right one is on the other side of the face, the normal points from the left center to the
right center. -/
theorem C40_left_to_right (g : GMesh 3 ℝ) (conn : Conn) (c A B ν : Vec 3 ℝ) (h : IsNormal3 g conn c A B ν) (hl : conn.left < BOUNDARY)
    (hopp : dot ν (g.cellCenter conn.right - c) * dot ν (g.cellCenter conn.left - c) < 0) :
    0 < dot ν (g.cellCenter conn.right - g.cellCenter conn.left) := by
  have h1 := h.away hl
  have e1 : dot ν (g.cellCenter conn.left - c) = - dot ν (c - g.cellCenter conn.left) := by
    rw [dot_sub_right, dot_sub_right]; ring
  rw [e1] at hopp
  have h2 : 0 < dot ν (g.cellCenter conn.right - c) := by
    by_contra hn
    push Not at hn
    have := mul_nonneg_of_nonpos_of_nonpos hn (neg_nonpos.mpr h1.le)
    linarith
  rw [dot_sub_right] at h1 h2 ⊢
  linarith

/-! ### Example -/

/-- The two tetrahedra with the centers of their faces and cells. -/
noncomputable def tetsC : GMesh 3 ℝ where
  mesh := tets
  faceCenter := edgeMean tets
  cellCenter := fun i => if i = 0 then ![1 / 4, 1 / 4, 1 / 4] else ![1 / 2, 1 / 2, 1 / 2]
  bCellCenter := 0

theorem triangle_good {i : Nat} {A B C : Vec 3 ℝ} (hf : faceEdges tets i = [(A, B), (B, C), (C, A)] ∨
    faceEdges tets i = [(A, B), (B, C), (A, C)] ∨ faceEdges tets i = [(A, B), (A, C), (B, C)]) {conn : Conn}
    (hl : conn.left < 2) (hc : dot (A - tetsC.cellCenter conn.left) (cross (A - C) (B - C)) ≠ 0) : GoodFace tetsC i conn := by
  have hK : cross (A - C) (B - C) ≠ 0 := by
    intro h; rw [h, dot_zero] at hc; exact hc rfl
  obtain ⟨h1, h2⟩ := triangle_first hf hK
  have hb : conn.left < BOUNDARY := by
    have : 2 < BOUNDARY := by decide +kernel
    omega
  refine ⟨h1, .inl ⟨hl, hb⟩, h2, ?_, fun h => by omega⟩
  intro _
  have hmean : edgeMean tets i = (3⁻¹ : ℝ) • (A + B + C) := by
    rcases hf with hf | hf | hf <;> rw [edgeMean, hf] <;> funext k <;> simp [mean] <;> ring
  have hfs : firstSide tets i = (A, B) := by rcases hf with hf | hf | hf <;> rw [firstSide, hf] <;> rfl
  show dot (edgeMean tets i - tetsC.cellCenter conn.left) (cross ((firstSide tets i).1 - edgeMean tets i) ((firstSide tets i).2 - edgeMean tets i)) ≠ 0
  rw [hfs, hmean]
  generalize tetsC.cellCenter conn.left = D at hc
  have e : dot ((3⁻¹ : ℝ) • (A + B + C) - D) (cross (A - (3⁻¹ : ℝ) • (A + B + C)) (B - (3⁻¹ : ℝ) • (A + B + C))) =
      1 / 3 * dot (A - D) (cross (A - C) (B - C)) := by
    have h1 := cross_apply (A - (3⁻¹ : ℝ) • (A + B + C)) (B - (3⁻¹ : ℝ) • (A + B + C))
    have h2 := cross_apply (A - C) (B - C)
    simp only [dot3, h1, h2, Pi.sub_apply, Pi.smul_apply, Pi.add_apply, smul_eq_mul]
    ring
  rw [e]
  exact mul_ne_zero (by norm_num) hc

theorem tetsC_good : ∀ (i : Nat) f, (tetsC.mesh.midElems 2)[i]? = some f → GoodFace tetsC i f.conn := by
  intro i f hf
  have hi : i < 7 := (List.getElem?_eq_some_iff.mp hf).1
  interval_cases i <;> obtain rfl := Option.some.inj hf
  · exact triangle_good (A := tetPos 0) (B := tetPos 1) (C := tetPos 2) (by left; rfl) (by decide) (by simp [tetsC, dot3, cross_apply, tetPos])
  · exact triangle_good (A := tetPos 0) (B := tetPos 1) (C := tetPos 3) (by right; left; rfl) (by decide) (by simp [tetsC, dot3, cross_apply, tetPos])
  · exact triangle_good (A := tetPos 2) (B := tetPos 0) (C := tetPos 3) (by right; left; rfl) (by decide) (by simp [tetsC, dot3, cross_apply, tetPos])
  · exact triangle_good (A := tetPos 1) (B := tetPos 2) (C := tetPos 3) (by right; left; rfl) (by decide)
      (by simp [tetsC, dot3, cross_apply, tetPos]; norm_num)
  · exact triangle_good (A := tetPos 1) (B := tetPos 2) (C := tetPos 4) (by right; left; rfl) (by decide)
      (by simp [tetsC, dot3, cross_apply, tetPos]; norm_num)
  · exact triangle_good (A := tetPos 2) (B := tetPos 3) (C := tetPos 4) (by right; left; rfl) (by decide)
      (by simp [tetsC, dot3, cross_apply, tetPos]; norm_num)
  · exact triangle_good (A := tetPos 1) (B := tetPos 3) (C := tetPos 4) (by right; right; rfl) (by decide)
      (by simp [tetsC, dot3, cross_apply, tetPos]; norm_num)

/-- The normal of the lower face of the first tetrahedron. -/
example : ∃ ns, computeFaceNormals3 tetsC = .ok ns ∧ ns[0]? = some (![0, 0, -1] : Vec 3 ℝ) := by
  obtain ⟨ns, h1, h2, h3⟩ := C40_normals_3d tetsC _ tets_valid rfl tetsC_good
  refine ⟨ns, h1, ?_⟩
  have hl : 0 < ns.length := by rw [h2]; simp [tetsC, tets, twoTets, Mesh.mapV, Mesh.midElems]
  have hg := List.getElem?_eq_getElem hl
  rw [hg]
  congr 1
  have hc : (tets.midElems 2)[0]? = some { index := 0, sub := [0, 1, 2], conn := { left := 0, nextL := 1 } } := rfl
  refine IsNormal3.unique (tetsC_good 0 _ hc).plane (h3 0 _ _ hc hg) ?_
  have e1 : tetsC.faceCenter 0 = (3⁻¹ : ℝ) • (tetPos 0 + tetPos 1 + tetPos 2) := by
    have hf : faceEdges tets 0 = [(tetPos 0, tetPos 1), (tetPos 1, tetPos 2), (tetPos 2, tetPos 0)] := rfl
    show edgeMean tets 0 = _
    rw [edgeMean, hf]; funext k; simp [mean]; ring
  have e2 : firstSide tets 0 = (tetPos 0, tetPos 1) := rfl
  have hb : ¬ BOUNDARY ≤ 0 := by decide +kernel
  rw [e1]
  refine ⟨by simp [norm_real, dot3], ?_, ?_, fun _ => ?_, fun h => absurd h hb⟩
  · show dot _ ((firstSide tets 0).1 - _) = 0
    rw [e2]; simp [dot3, tetPos]
  · show dot _ ((firstSide tets 0).2 - _) = 0
    rw [e2]; simp [dot3, tetPos]
  · simp [dot3, tetPos, tetsC]

/-! ### The tessellated version -/

/-- C40. In the tessellated version, the normal of a face is the mean of the unit normals of the triangles that join its edges to its
center, weighted by the areas of the triangles. -/
theorem C40_tessellated (g : GMesh 3 ℝ) (bd : Idx → List Idx) (hv : ValidMesh g.mesh bd) (h3 : g.mesh.dim = 3) (i : Nat) (f : Face)
    (hf : (g.mesh.midElems 2)[i]? = some f) (hin : HasInnerCell g f.conn)
    (hd : ∀ p ∈ faceEdges g.mesh i, dot (g.faceCenter i - g.cellCenter (directionCell ℝ f.conn).2)
      (cross (p.1 - g.faceCenter i) (p.2 - g.faceCenter i)) ≠ 0) :
    ∃ us, List.Forall₂ (fun p u => IsNormal3 g f.conn (g.faceCenter i) p.1 p.2 u) (faceEdges g.mesh i) us ∧
      normal3Tess g i = .ok (((faceEdges g.mesh i).map fun p => triangleArea p.1 p.2 (g.faceCenter i)).sum⁻¹ •
        (((faceEdges g.mesh i).zip us).map fun q => triangleArea q.1.1 q.1.2 (g.faceCenter i) • q.2).sum) := by
  set c := g.faceCenter i with hc
  set cc := g.cellCenter (directionCell ℝ f.conn).2 with hcc
  set U : Vec 3 ℝ × Vec 3 ℝ → Vec 3 ℝ := fun p => (SignType.sign (dot (c - cc) (cross (p.1 - c) (p.2 - c))) : ℝ) •
    (Vec.norm (cross (p.1 - c) (p.2 - c)))⁻¹ • cross (p.1 - c) (p.2 - c) with hU
  have hat : Res.at' (g.mesh.midElems 2) i = .ok f := Res.at'_eq_ok.mpr hf
  have hlt := direction_lt hin
  have hatc : Res.at' g.mesh.cells (directionCell ℝ f.conn).2 = .ok g.mesh.cells[(directionCell ℝ f.conn).2] :=
    Res.at'_eq_ok.mpr (List.getElem?_eq_getElem hlt)
  obtain ⟨hsub, hes, hn2⟩ := face_edges_lt hv h3 hf
  have hi := (List.getElem?_eq_some_iff.mp hf).1
  have happ := Mesh.applyOne_direct hv (d := 2) (i := i) (by omega) (by omega) (by rw [hn2]; exact hi)
  rw [hsub, show 2 - 1 = 1 from rfl] at happ
  have hfe : faceEdges g.mesh i = f.sub.map (ends g.mesh) := by rw [faceEdges, hf]; rfl
  have hK : ∀ p ∈ faceEdges g.mesh i, cross (p.1 - c) (p.2 - c) ≠ 0 := by
    intro p hp h0
    have := hd p hp
    rw [h0, dot_zero] at this
    exact this rfl
  have harea : ∀ p ∈ faceEdges g.mesh i, 1 / 2 * Vec.norm (p.1 - c) * (Vec.norm (cross (p.1 - c) (p.2 - c)) / Vec.norm (p.1 - c)) =
      triangleArea p.1 p.2 c := by
    intro p hp
    have hne : Vec.norm (p.1 - c) ≠ 0 := by
      intro h0
      apply hK p hp
      rw [norm_eq_zero.mp h0]
      have h := cross_apply (0 : Vec 3 ℝ) (p.2 - c)
      apply ext3 <;> simp [h]
    rw [triangleArea]
    field_simp
  have hts : forEach (tessNormalTerm g c cc) f.sub = .ok (f.sub.map fun e =>
      (triangleArea (ends g.mesh e).1 (ends g.mesh e).2 c, triangleArea (ends g.mesh e).1 (ends g.mesh e).2 c • U (ends g.mesh e))) := by
    apply forEach_ok
    intro e he
    have hm : ends g.mesh e ∈ faceEdges g.mesh i := by rw [hfe]; exact List.mem_map_of_mem he
    obtain ⟨u0, u1, u, ns, e1, e2, e3, e4, _⟩ := unit_third (hK _ hm) (hd _ hm)
    rw [tessNormalTerm, ends_ok hv (hes e he)]
    simp only [Res.bind]
    rw [e1]
    simp only
    have i0 : Res.idx [u0, u1, u] 2 = .ok u := rfl
    have i1 : Res.idx ns 0 = .ok _ := Res.idx_eq_ok.mpr e2
    have i2 : Res.idx ns 1 = .ok _ := Res.idx_eq_ok.mpr e3
    rw [i0, i1, i2]
    simp only
    rw [harea _ hm, smul_eq, smul_eq, smul_eq, smul_smul, smul_smul]
    congr 2
    rw [show Vec.norm (cross ((ends g.mesh e).1 - c) ((ends g.mesh e).2 - c)) / Vec.norm ((ends g.mesh e).1 - c) *
      Vec.norm ((ends g.mesh e).1 - c) * (1 / 2) = 1 / 2 * Vec.norm ((ends g.mesh e).1 - c) *
      (Vec.norm (cross ((ends g.mesh e).1 - c) ((ends g.mesh e).2 - c)) / Vec.norm ((ends g.mesh e).1 - c)) by ring, harea _ hm, e4]
  refine ⟨(faceEdges g.mesh i).map fun p => (directionCell ℝ f.conn).1 • U p, ?_, ?_⟩
  · rw [List.forall₂_map_right_iff, List.forall₂_same]
    intro p hp
    obtain ⟨u0, u1, u, ns, _, _, _, e4, e5, e6, e7, e8⟩ := unit_third (hK _ hp) (hd _ hp)
    rw [show U p = u from e4.symm]
    exact isNormal3_of_unit hin e5 e6 e7 e8
  · have fold1 : ∀ (l : List (ℝ × Vec 3 ℝ)) (a : Vec 3 ℝ), l.foldl (fun acc t => addAssign acc (.other t.2)) a = a + (l.map (·.2)).sum := by
      intro l
      induction l with
      | nil => intro a; simp
      | cons t l ih => intro a; rw [List.foldl_cons, ih, addAssign_eq, Operand.get, List.map_cons, List.sum_cons, add_assoc]
    have fold2 : ∀ (l : List (ℝ × Vec 3 ℝ)) (a : ℝ), l.foldl (fun acc t => acc + t.1) a = a + (l.map (·.1)).sum := by
      intro l
      induction l with
      | nil => intro a; simp
      | cons t l ih => intro a; rw [List.foldl_cons, ih, List.map_cons, List.sum_cons, add_assoc]
    have hsum1 : ((f.sub.map fun e => (triangleArea (ends g.mesh e).1 (ends g.mesh e).2 c,
        triangleArea (ends g.mesh e).1 (ends g.mesh e).2 c • U (ends g.mesh e))).map (·.1)).sum =
        ((faceEdges g.mesh i).map fun p => triangleArea p.1 p.2 c).sum := by
      rw [hfe, List.map_map, List.map_map]; rfl
    have hsum2 : (((faceEdges g.mesh i).zip ((faceEdges g.mesh i).map fun p => (directionCell ℝ f.conn).1 • U p)).map fun q =>
        triangleArea q.1.1 q.1.2 c • q.2).sum = (directionCell ℝ f.conn).1 • ((f.sub.map fun e => (triangleArea (ends g.mesh e).1 (ends g.mesh e).2 c,
        triangleArea (ends g.mesh e).1 (ends g.mesh e).2 c • U (ends g.mesh e))).map (·.2)).sum := by
      rw [hfe]
      generalize f.sub = es
      clear hts
      induction es with
      | nil => simp
      | cons e es ih =>
        simp only [List.map_cons, List.zip_cons_cons, List.sum_cons, smul_add] at ih ⊢
        rw [ih, smul_comm]
    rw [normal3Tess, hat]
    simp only [Res.bind]
    rw [hatc]
    simp only
    rw [happ]
    simp only
    rw [← hc, ← hcc, hts]
    simp only
    rw [fold1, fold2, zero_add, zero_add, hsum1, hsum2]
    congr 1
    rcases direction_cases hin with ⟨e, _⟩ | ⟨e, _⟩
    · rw [e, if_neg (by norm_num), one_smul, divAssign_eq, Factor.get]
    · rw [e, if_pos rfl, smulAssign_eq, divAssign_eq, Factor.get, smul_comm]

/-- C40. On a planar face the tessellated version gives the same unit normal as the default one. -/
theorem C40_tessellated_planar (g : GMesh 3 ℝ) (bd : Idx → List Idx) (hv : ValidMesh g.mesh bd) (h3 : g.mesh.dim = 3) (i : Nat) (f : Face)
    (hf : (g.mesh.midElems 2)[i]? = some f) (hin : HasInnerCell g f.conn) (hne : faceEdges g.mesh i ≠ [])
    (hd : ∀ p ∈ faceEdges g.mesh i, dot (g.faceCenter i - g.cellCenter (directionCell ℝ f.conn).2)
      (cross (p.1 - g.faceCenter i) (p.2 - g.faceCenter i)) ≠ 0)
    (ν : Vec 3 ℝ) (hν : ∀ p ∈ faceEdges g.mesh i, IsNormal3 g f.conn (g.faceCenter i) p.1 p.2 ν) : normal3Tess g i = .ok ν := by
  obtain ⟨us, h1, h2⟩ := C40_tessellated g bd hv h3 i f hf hin hd
  rw [h2]
  congr 1
  have hK : ∀ p ∈ faceEdges g.mesh i, cross (p.1 - g.faceCenter i) (p.2 - g.faceCenter i) ≠ 0 := by
    intro p hp h0
    have := hd p hp
    rw [h0, dot_zero] at this
    exact this rfl
  obtain ⟨p0, hp0⟩ := List.exists_mem_of_ne_nil _ hne
  have hS := area_sum_ne_zero p0 hp0 (hK p0 hp0)
  have key : ∀ {l : List (Vec 3 ℝ × Vec 3 ℝ)} {us : List (Vec 3 ℝ)}, (∀ p ∈ l, p ∈ faceEdges g.mesh i) →
      List.Forall₂ (fun p u => IsNormal3 g f.conn (g.faceCenter i) p.1 p.2 u) l us →
      ((l.zip us).map fun q => triangleArea q.1.1 q.1.2 (g.faceCenter i) • q.2).sum = (l.map fun p => triangleArea p.1 p.2 (g.faceCenter i)).sum • ν := by
    intro l us hl hf
    induction hf with
    | nil => simp
    | cons h _ ih =>
      rw [List.zip_cons_cons, List.map_cons, List.sum_cons, ih fun p hp => hl p (List.mem_cons_of_mem _ hp), List.map_cons, List.sum_cons, add_smul]
      have hm := hl _ List.mem_cons_self
      rw [h.unique (hK _ hm) (hν _ hm)]
  rw [key (fun p hp => hp) h1, smul_smul, inv_mul_cancel₀ hS, one_smul]

example : normal3Tess tetsC 0 = .ok (![0, 0, -1] : Vec 3 ℝ) := by
  have hf : (tets.midElems 2)[0]? = some { index := 0, sub := [0, 1, 2], conn := { left := 0, nextL := 1 } } := rfl
  have hfe : faceEdges tets 0 = [(tetPos 0, tetPos 1), (tetPos 1, tetPos 2), (tetPos 2, tetPos 0)] := rfl
  have e1 : tetsC.faceCenter 0 = (3⁻¹ : ℝ) • (tetPos 0 + tetPos 1 + tetPos 2) := by
    show edgeMean tets 0 = _
    rw [edgeMean, hfe]; funext k; simp [mean]; ring
  have hb : 0 < BOUNDARY := by decide +kernel
  have hdir : directionCell ℝ ({ left := 0, nextL := 1 } : Conn) = (1, 0) := directionCell_inner hb
  refine C40_tessellated_planar tetsC _ tets_valid rfl 0 _ hf (.inl ⟨by simp [tetsC, tets, twoTets], hb⟩) (by show faceEdges tets 0 ≠ []; rw [hfe]; simp) ?_ _ ?_
  · intro p hp
    have hp : p ∈ faceEdges tets 0 := hp
    rw [hfe] at hp
    rw [hdir, e1]
    simp only [List.mem_cons, List.not_mem_nil, or_false] at hp
    rcases hp with rfl | rfl | rfl <;> simp [tetsC, dot3, cross_apply, tetPos] <;> norm_num
  · intro p hp
    have hp : p ∈ faceEdges tets 0 := hp
    rw [hfe] at hp
    rw [e1]
    simp only [List.mem_cons, List.not_mem_nil, or_false] at hp
    have hb : ¬ BOUNDARY ≤ 0 := by decide +kernel
    rcases hp with rfl | rfl | rfl <;>
      exact ⟨by simp [norm_real, dot3], by simp [dot3, tetPos], by simp [dot3, tetPos], fun _ => by simp [dot3, tetPos, tetsC], fun h => absurd h hb⟩

/-! ## Higher dimensions -/

/-- C40, a defect of the version for dimensions above 3: the normal is orthogonal to the face, but it points to the opposite side than in
3D — towards the left cell (or away from the right one, if there is no inner cell on the left). -/
theorem C40_high_dimension_partial {n : Nat} (centers : List (List (Vec n ℝ))) (g : GMesh n ℝ) (i : Nat) (f : Face)
    (hf : (g.mesh.midElems (g.mesh.dim - 1))[i]? = some f) (hin : HasInnerCell g f.conn)
    (hcc : ∀ k, k < g.mesh.cells.length → (centers[g.mesh.dim - 1]?.getD [])[k]? = some (g.cellCenter k))
    (r0 : Vec n ℝ) (rs : List (Vec n ℝ)) (hres : getCenters centers g.mesh (g.mesh.dim - 1) i = .ok (r0 :: rs))
    (hlen : rs.length + 1 = g.mesh.dim)
    (hi : Independent (spanVectors (r0 :: rs) (g.cellCenter (directionCell ℝ f.conn).2))) :
    ∃ ν, normalHigh centers g.mesh i = .ok ν ∧ Vec.norm ν = 1 ∧ (∀ r ∈ rs, dot ν (r - r0) = 0) ∧
      (f.conn.left < BOUNDARY → 0 < dot ν (g.cellCenter f.conn.left - r0)) ∧
      (BOUNDARY ≤ f.conn.left → dot ν (g.cellCenter f.conn.right - r0) < 0) := by
  set cc := g.cellCenter (directionCell ℝ f.conn).2 with hccd
  have hvs : spanVectors (r0 :: rs) cc = (rs.map fun r => sub r r0) ++ [sub cc r0] := rfl
  rw [hvs] at hi
  obtain ⟨us, norms, e1, e2, _, e4, e5, e6, _⟩ := C37_normalized _ (by simp) hi
  have hl : us.length = rs.length + 1 := by rw [e2]; simp
  obtain ⟨u, hu⟩ : ∃ u, us[rs.length]? = some u := ⟨_, List.getElem?_eq_getElem (by omega)⟩
  obtain ⟨s1, _⟩ := C37_side _ us norms hi e1 rs.length (sub cc r0) u (by rw [List.getElem?_append_right (by simp)]; simp) hu
  have hunit : Vec.norm u = 1 := e5 u (List.mem_of_getElem? hu)
  have horth : ∀ r ∈ rs, dot u (r - r0) = 0 := by
    intro r hr
    have hspan : ∀ s ∈ Submodule.span ℝ {x | x ∈ us.take rs.length}, dot u s = 0 := by
      apply dot_span
      intro s hs
      obtain ⟨k, hk, rfl⟩ := List.getElem_of_mem (show s ∈ us.take rs.length from hs)
      have hk' : k < rs.length := by
        have := List.length_take_le rs.length us
        omega
      rw [List.getElem_take, dot_comm]
      have := (List.pairwise_iff_getElem.mp e4) k rs.length (by omega) (by omega) hk'
      obtain ⟨_, hg⟩ := List.getElem?_eq_some_iff.mp hu
      rw [hg] at this
      exact this
    apply hspan
    rw [e6 rs.length]
    apply Submodule.subset_span
    show r - r0 ∈ List.take rs.length _
    rw [List.take_append_of_le_length (by simp), List.take_of_length_le (by simp)]
    exact List.mem_map.mpr ⟨r, hr, sub_eq r r0⟩
  have hat : Res.at' (g.mesh.midElems (g.mesh.dim - 1)) i = .ok f := Res.at'_eq_ok.mpr hf
  have hatc : Res.at' (centers[g.mesh.dim - 1]?.getD []) (directionCell ℝ f.conn).2 = .ok cc :=
    Res.at'_eq_ok.mpr (hcc _ (direction_lt hin))
  have hidx : Res.idx us (g.mesh.dim - 1) = .ok u := Res.idx_eq_ok.mpr (by rw [show g.mesh.dim - 1 = rs.length by omega]; exact hu)
  refine ⟨(directionCell ℝ f.conn).1 • u, ?_, ?_, ?_, ?_, ?_⟩
  · rw [normalHigh, hat]
    simp only [Res.bind]
    rw [hatc]
    simp only
    rw [hres]
    simp only
    rw [hvs, e1]
    simp only
    rw [hidx]
    simp only [smul_eq]
  · rw [norm_smul, hunit, mul_one]
    rcases direction_cases hin with ⟨e, _⟩ | ⟨e, _⟩ <;> rw [e] <;> simp
  · intro r hr; rw [dot_smul, horth r hr, mul_zero]
  · intro hl'
    rw [directionCell_inner hl', one_smul]
    rw [hccd, directionCell_inner hl', sub_eq] at s1
    exact s1
  · intro hl'
    rw [directionCell_outer hl', neg_smul, one_smul, show -u = (-1 : ℝ) • u by simp, dot_smul]
    rw [hccd, directionCell_outer hl', sub_eq] at s1
    simp only at s1 ⊢
    linarith

/-- One face of a 4D cell, with a 2D sub-element and its edge. -/
noncomputable def fourD : GMesh 4 ℝ where
  mesh := { dim := 4, vertices := [![0, 1, 0, 0], ![0, 0, 1, 0]], edges := [{ index := 0, a := 0, b := 1 }],
            mids := [[{ index := 0, sub := [0] }], [{ index := 0, sub := [0], conn := { left := 0 } }]], cells := [{ index := 0, bElem := 0 }] }
  faceCenter := 0
  cellCenter := fun _ => ![0, 0, 0, 1]
  bCellCenter := 0

example : ∃ ν, normalHigh [[], [![1, 0, 0, 0]], [0], [![0, 0, 0, 1]]] fourD.mesh 0 = .ok ν ∧ 0 < dot ν (fourD.cellCenter 0 - 0) := by
  have hb : 0 < BOUNDARY := by decide +kernel
  obtain ⟨ν, h1, _, _, h2, _⟩ := C40_high_dimension_partial [[], [![1, 0, 0, 0]], [0], [![0, 0, 0, 1]]] fourD 0
    { index := 0, sub := [0], conn := { left := 0 } } rfl (.inl ⟨by simp [fourD], hb⟩)
    (by intro k hk; have : k = 0 := by simpa [fourD] using hk
        subst this; rfl)
    0 [![1, 0, 0, 0], ![0, 1, 0, 0], ![0, 0, 1, 0]] rfl rfl (by
      have e : spanVectors [0, ![1, 0, 0, 0], ![0, 1, 0, 0], ![0, 0, 1, 0]] (fourD.cellCenter (directionCell ℝ ({ left := 0 } : Conn)).2) =
          ([![1, 0, 0, 0], ![0, 1, 0, 0], ![0, 0, 1, 0], ![0, 0, 0, 1]] : List (Vec 4 ℝ)) := by
        simp [spanVectors, sub_eq, fourD]
      rw [e]
      refine Fintype.linearIndependent_iff.mpr ?_
      intro c hc
      have hc : ∑ k : Fin 4, c k • ([![1, 0, 0, 0], ![0, 1, 0, 0], ![0, 0, 1, 0], ![0, 0, 0, 1]] : List (Vec 4 ℝ)).get k = 0 := hc
      rw [Fin.sum_univ_four] at hc
      have z0 := congrFun hc 0
      have z1 := congrFun hc 1
      have z2 := congrFun hc 2
      have z3 := congrFun hc 3
      simp at z0 z1 z2 z3
      intro k
      have : k = 0 ∨ k = 1 ∨ k = 2 ∨ k = 3 := by
        obtain ⟨k, hk⟩ := k
        have hk : k < 4 := hk
        interval_cases k <;> simp
      rcases this with rfl | rfl | rfl | rfl
      · exact z0
      · exact z1
      · exact z2
      · exact z3)
  exact ⟨ν, h1, h2 hb⟩

end GTMesh.Props
