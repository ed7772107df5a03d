import Verif.Props.Rounding3
import Verif.Props.Normals

/-! # C71: normals -/

namespace GTMesh.Props
open GTMesh Spec Std' Vec Geo

variable {r : Rounding}

/-! ## In the plane -/

theorem normal2_close (A B : Vec 2 (Fl r)) (h : value A ≠ value B) :
    CloseV r 11 1 (divAssign (store (store raw 0 ((sub B A) 1)) 1 (-((sub B A) 0))) (.value (Vec.norm (sub B A))))
      ((Vec.norm (value B - value A))⁻¹ • (![value B 1 - value A 1, -(value B 0 - value A 0)] : Vec 2 ℝ)) := by
  have hz : value B - value A ≠ 0 := fun e => h (sub_eq_zero.mp e).symm
  have hp := norm_pos hz
  have hs := CloseV.sub_exact B A
  have hn := distance_close B A
  have hn' : Close r 4 |Vec.norm (value B - value A)| _ _ := hn.mono (le_refl _) (le_abs_self _)
  have hv : CloseV (n := 2) r 1 (Vec.norm (value B - value A)) (store (store raw 0 ((sub B A) 1)) 1 (-((sub B A) 0)))
      (store (store raw 0 ((sub (value B) (value A)) 1)) 1 (-((sub (value B) (value A)) 0))) := by
    have turn : ∀ x y : Vec 2 ℝ, y 0 = x 1 → y 1 = -x 0 → Vec.norm y = Vec.norm x := by
      intro x y e0 e1
      rw [norm_real, norm_real, dot_eq, dot_eq, Fin.sum_univ_two, Fin.sum_univ_two, e0, e1]
      congr 1; ring
    intro hu
    obtain ⟨h1, h2⟩ := hs hu
    refine ⟨?_, ?_⟩
    · rw [turn (value (sub B A) - sub (value B) (value A))]
      · exact h1
      · simp [store, value]
      · simp only [store, value, Pi.sub_apply]
        show -((sub B A) 0).val - -(_) = -(_ - _)
        ring
    · rw [turn (sub (value B) (value A))]
      · exact h2
      · simp [store]
      · simp [store]
  have := hv.divAssign hn' hp
  have e := normal2_value (value A) (value B)
  rw [← e]
  rw [show Vec.norm (sub (value B) (value A)) = Vec.norm (value B - value A) by rw [sub_eq]]
  refine this.mono (by omega) (le_of_eq ?_)
  field_simp

/-- The normals of the edges of every valid 2D mesh: the distance of the computed normal from the exact one is at most `γ₁₁`. -/
theorem C71_normals_2d (m : Mesh (Vec 2 (Fl r))) (bd : Idx → List Idx) (hv : ValidMesh m bd)
    (hd : ∀ e, e < m.edges.length → value (ends m e).1 ≠ value (ends m e).2) (hu : (11 : Nat) * r.u < 1) :
    ∃ ns, computeFaceNormals2 m = .ok ns ∧ ns.length = m.edges.length ∧
      ∀ (e : Nat) ν, ns[e]? = some ν → ∃ ν', IsNormal2 (value (ends m e).1) (value (ends m e).2) ν' ∧
        Vec.norm (value ν - ν') ≤ gamma r.u 11 := by
  refine ⟨(List.range m.edges.length).map fun e => divAssign (store (store raw 0 ((sub (ends m e).2 (ends m e).1) 1)) 1
      (-((sub (ends m e).2 (ends m e).1) 0))) (.value (Vec.norm (sub (ends m e).2 (ends m e).1))), ?_, by simp, ?_⟩
  · apply forEach_ok
    intro e he
    rw [normal2, ends_ok hv (List.mem_range.mp he)]
    rfl
  · intro e ν hν
    have hl : e < m.edges.length := by
      have := (List.getElem?_eq_some_iff.mp hν).1
      simpa using this
    rw [List.getElem?_map, List.getElem?_range hl] at hν
    obtain rfl := Option.some.inj hν
    refine ⟨_, normal2_spec (hd e hl), ?_⟩
    have := (normal2_close _ _ (hd e hl) hu).1
    rwa [Rounding.amp_sub_one hu, mul_one] at this

/-! ## In space -/

theorem direction_snd {F : Type} [One F] [Neg F] (c : Conn) : (directionCell F c).2 = (directionCell ℝ c).2 := by
  unfold directionCell; split <;> rfl

theorem direction_close (c : Conn) : Close r 0 1 (directionCell (Fl r) c).1 (directionCell ℝ c).1 := by
  intro _
  unfold directionCell
  split
  · constructor
    · show |(-1 : ℝ) - -1| ≤ _
      simp [Rounding.amp]
    · show |(-1 : ℝ)| ≤ 1
      norm_num
  · constructor
    · show |(1 : ℝ) - 1| ≤ _
      simp [Rounding.amp]
    · show |(1 : ℝ)| ≤ 1
      norm_num

theorem forEach_at {α β : Type} {f : α → Res β} : ∀ {l : List α} {bs : List β}, forEach f l = .ok bs → ∀ (i : Nat) {a : α}, l[i]? = some a →
    ∃ b, f a = .ok b ∧ bs[i]? = some b := by
  intro l
  induction l with
  | nil => intro bs _ i a h; simp at h
  | cons x l ih =>
    intro bs h i a hi
    rw [forEach] at h
    cases hx : f x with
    | throw e => rw [hx] at h; cases h
    | ub => rw [hx] at h; cases h
    | diverge => rw [hx] at h; cases h
    | ok b =>
      rw [hx] at h
      simp only [Res.bind] at h
      cases hl : forEach f l with
      | throw e => rw [hl] at h; cases h
      | ub => rw [hl] at h; cases h
      | diverge => rw [hl] at h; cases h
      | ok bs' =>
        rw [hl] at h
        obtain rfl := Res.ok.inj h
        cases i with
        | zero =>
          simp only [List.getElem?_cons_zero, Option.some.injEq] at hi
          rw [← hi]
          exact ⟨b, hx, rfl⟩
        | succ i =>
          rw [List.getElem?_cons_succ] at hi
          exact ih hl i hi

/-- The body of the loop for any kind of numbers. -/
theorem normal3_any {F : Type} [Add F] [Sub F] [Mul F] [Zero F] [One F] [Div F] [Neg F] [NatCast F] [HasSqrt F] {g : GMesh 3 F}
    {bd : Idx → List Idx} (hv : ValidMesh g.mesh bd) (h3 : g.mesh.dim = 3) {i : Nat} {f : Face} (hf : (g.mesh.midElems 2)[i]? = some f)
    {p : Vec 3 F × Vec 3 F} (hp : (faceEdges g.mesh i).head? = some p) (hc : (directionCell ℝ f.conn).2 < g.mesh.cells.length) :
    normal3 g i = .ok (smul (divAssign (thirdOf (sub (g.faceCenter i) p.1) (sub (g.faceCenter i) p.2)
        (sub (g.faceCenter i) (g.cellCenter (directionCell ℝ f.conn).2)))
      (.value (Vec.norm (thirdOf (sub (g.faceCenter i) p.1) (sub (g.faceCenter i) p.2)
        (sub (g.faceCenter i) (g.cellCenter (directionCell ℝ f.conn).2)))))) (directionCell F f.conn).1) := by
  have hat : Res.at' (g.mesh.midElems 2) i = .ok f := Res.at'_eq_ok.mpr hf
  have hatc : Res.at' g.mesh.cells (directionCell ℝ f.conn).2 = .ok g.mesh.cells[(directionCell ℝ f.conn).2] :=
    Res.at'_eq_ok.mpr (List.getElem?_eq_getElem hc)
  have hfe : faceEdges g.mesh i = f.sub.map (ends g.mesh) := by rw [faceEdges, hf]; rfl
  have hfirst : firstEdge g.mesh i = .ok p := by
    rw [firstEdge, hat]
    simp only [Res.bind]
    cases hs : f.sub with
    | nil => rw [hfe, hs] at hp; simp at hp
    | cons e es =>
      have : Res.idx (e :: es) 0 = .ok e := rfl
      rw [this]
      simp only
      rw [ends_ok hv ((face_edges_lt hv h3 hf).2.1 e (by rw [hs]; exact List.mem_cons_self))]
      rw [hfe, hs] at hp
      simpa using hp
  have e3 : ∀ v0 v1 v2 : Vec 3 F, gramSchmidtN [v0, v1, v2] = .ok (normLoop [divAssign v0 (.value (Vec.norm v0))] [Vec.norm v0] [v1, v2]) :=
    fun _ _ _ => rfl
  have hidx : ∀ a b c : Vec 3 F, Res.idx [a, b, c] 2 = .ok c := fun _ _ _ => rfl
  rw [normal3, hat]
  simp only [Res.bind, direction_snd, hatc, hfirst, e3, normLoop, List.cons_append, List.nil_append, hidx]
  rfl

/-- The normals of the faces of every valid 3D mesh: let `A`, `B` be the ends of the first edge of the face, `c` its center and `q` the
center of the cell that gives the direction. When the triangle `ABc` is not too flat (its area is at least a `κ`-th of the product of the
sides at `c`) and `q` is not too close to its plane (the distance from it is at least a `l`-th of the distance of `q` from `c`), the distance
of the computed normal from the exact one is at most `γ`, with `9 l (192 κ + 26) + 11` roundings. -/
theorem C71_normals_3d (g : GMesh 3 (Fl r)) (bd : Idx → List Idx) (hv : ValidMesh g.mesh bd) (h3 : g.mesh.dim = 3)
    (hg : ∀ (i : Nat) f, (g.mesh.midElems 2)[i]? = some f → GoodFace (exactly g) i f.conn) :
    ∃ ns, computeFaceNormals3 g = .ok ns ∧ ns.length = (g.mesh.midElems 2).length ∧
      ∀ (i : Nat) f ν A B (κ l : Nat), (g.mesh.midElems 2)[i]? = some f → ns[i]? = some ν → (faceEdges g.mesh i).head? = some (A, B) →
        1 ≤ κ → 1 ≤ l →
        Vec.norm (value A - value (g.faceCenter i)) * Vec.norm (value B - value (g.faceCenter i)) ≤
          κ * triangleArea (value A) (value B) (value (g.faceCenter i)) →
        (∀ q, (f.conn.left < BOUNDARY → q = g.cellCenter f.conn.left) → (BOUNDARY ≤ f.conn.left → q = g.cellCenter f.conn.right) →
          Vec.norm (value q - value (g.faceCenter i)) ≤ l * planeDistance (value q) (value A) (value B) (value (g.faceCenter i))) →
        (9 * l * (192 * κ + 26) + 11 : Nat) * r.u < 1 →
        ∃ ν', IsNormal3 (exactly g) f.conn (value (g.faceCenter i)) (value A) (value B) ν' ∧
          Vec.norm (value ν - ν') ≤ gamma r.u (9 * l * (192 * κ + 26) + 11) := by
  obtain ⟨ns', hx1, -, hx3⟩ := C40_normals_3d (exactly g) bd (hv.mapV value) h3 hg
  have hhead : ∀ i, faceEdges (exactly g).mesh i ≠ [] → ∃ p, (faceEdges g.mesh i).head? = some p := by
    intro i h
    rw [faceEdges_exactly] at h
    cases hl : faceEdges g.mesh i with
    | nil => rw [hl] at h; exact absurd rfl h
    | cons p l => exact ⟨p, rfl⟩
  have key : ∀ i, i < (g.mesh.midElems 2).length → ∃ ν, normal3 g i = .ok ν := by
    intro i hi
    have hf := List.getElem?_eq_getElem hi
    have h := hg i _ hf
    obtain ⟨p, hp⟩ := hhead i h.nonempty
    exact ⟨_, normal3_any hv h3 hf hp (direction_lt h.inner)⟩
  classical
  let N : Nat → Vec 3 (Fl r) := fun i => if hi : i < (g.mesh.midElems 2).length then (key i hi).choose else 0
  have hN : ∀ i ∈ List.range (g.mesh.midElems 2).length, normal3 g i = .ok (N i) := by
    intro i hi
    rw [List.mem_range] at hi
    simp only [N, dif_pos hi]
    exact (key i hi).choose_spec
  refine ⟨(List.range (g.mesh.midElems 2).length).map N, forEach_ok hN, by simp, ?_⟩
  intro i f ν A B κ l hf hν hp hκ1 hl1 hκ hq hu
  have hi := (List.getElem?_eq_some_iff.mp hf).1
  rw [List.getElem?_map, List.getElem?_range hi] at hν
  obtain rfl := Option.some.inj hν
  have hgood := hg i f hf
  have hdir := direction_lt hgood.inner
  have hfirst := firstSide_exactly g i (A, B) hp
  have hp' : (faceEdges (exactly g).mesh i).head? = some (value A, value B) := by rw [faceEdges_exactly, List.head?_map, hp]; rfl
  have hf' : ((exactly g).mesh.midElems 2)[i]? = some f := hf
  have hex := normal3_any (g := exactly g) (hv.mapV value) h3 hf' hp' hdir
  have hν' : ∃ ν', normal3 (exactly g) i = .ok ν' ∧ IsNormal3 (exactly g) f.conn (value (g.faceCenter i)) (value A) (value B) ν' := by
    obtain ⟨ν', e1, e2⟩ := forEach_at hx1 i (List.getElem?_range hi)
    have := hx3 i f ν' hf' e2
    rw [hfirst] at this
    exact ⟨ν', e1, this⟩
  obtain ⟨ν', n1, n2⟩ := hν'
  refine ⟨ν', n2, ?_⟩
  rw [hex] at n1
  obtain rfl := Res.ok.inj n1
  have hc := normal3_any hv h3 hf hp hdir
  rw [hN i (List.mem_range.mpr hi)] at hc
  rw [Res.ok.inj hc]
  set cc := g.cellCenter (directionCell ℝ f.conn).2 with hcc
  have ecc : (exactly g).cellCenter (directionCell ℝ f.conn).2 = value cc := rfl
  have efc : (exactly g).faceCenter i = value (g.faceCenter i) := rfl
  rw [ecc, efc]
  set c := g.faceCenter i with hcdef
  have hqq := hq cc (by
      intro h
      rw [hcc, directionCell_inner h]) (by
      intro h
      rw [hcc, directionCell_outer h])
  have h0 := CloseV.sub_exact c A
  have h1 := CloseV.sub_exact c B
  have h2 := CloseV.sub_exact c cc
  rw [← sub_eq] at h0 h1 h2
  have ecr : cross (sub (value c) (value A)) (sub (value c) (value B)) = cross (value A - value c) (value B - value c) := by
    rw [sub_eq, sub_eq]
    have h1 := cross_apply (value c - value A) (value c - value B)
    have h2 := cross_apply (value A - value c) (value B - value c)
    apply ext3 <;> simp only [h1, h2, Pi.sub_apply] <;> ring
  have hplane := hgood.plane
  rw [hfirst, efc] at hplane
  simp only at hplane
  have hcr : cross (sub (value c) (value A)) (sub (value c) (value B)) ≠ 0 := by rw [ecr]; exact hplane
  have ht := third_close h0 h1 h2 hcr hκ1 (by
    rw [ecr, sub_eq, sub_eq, norm_sub_comm (value c) (value A), norm_sub_comm (value c) (value B)]
    rw [triangleArea] at hκ
    linarith)
  have hnt : Vec.norm (thirdOf (sub (value c) (value A)) (sub (value c) (value B)) (sub (value c) (value cc))) =
      planeDistance (value cc) (value A) (value B) (value c) := by
    rw [thirdOf, norm_gs3 hcr, planeDistance, ecr, (cross_rel (value A) (value B) (value c)).1, sub_eq]
    congr 1
    have : dot (value cc - value A) (cross (value A - value c) (value B - value c)) =
        - dot (value c - value cc) (cross (value A - value c) (value B - value c)) := by
      have h2 := cross_apply (value A - value c) (value B - value c)
      rw [dot3, dot3]
      simp only [h2, Pi.sub_apply]
      ring
    rw [this, abs_neg]
  have hpos : 0 < planeDistance (value cc) (value A) (value B) (value c) := by
    have hd := hgood.direction
    rw [hfirst, efc, ecc] at hd
    rw [← hnt, thirdOf, norm_gs3 hcr, ecr]
    rw [sub_eq]
    exact div_pos (abs_pos.mpr hd) (norm_pos hplane)
  rw [← hnt] at hqq hpos
  have ht' := ht.cond (c := 3 * l) (by omega) (by
    rw [norm_sub_comm, ← sub_eq] at hqq
    push_cast
    linarith)
  generalize thirdOf (sub (value c) (value A)) (sub (value c) (value B)) (sub (value c) (value cc)) = w at *
  generalize thirdOf (sub c A) (sub c B) (sub c cc) = w' at *
  have hn := ht'.norm
  have hn' : Close r _ |Vec.norm w| _ _ := hn.mono (le_refl _) (le_abs_self _)
  have hu1 := (ht'.divAssign hn' hpos).mono (le_refl _)
    (le_of_eq (by rw [mul_one_div, div_self hpos.ne']) : Vec.norm w * (1 / Vec.norm w) ≤ 1)
  have hfin := (hu1.smul (direction_close (r := r) f.conn)).mono (by
    have : 3 * l * (192 * κ + 26) * 3 = 9 * l * (192 * κ + 26) := by ring
    omega : _ ≤ 9 * l * (192 * κ + 26) + 11) (le_of_eq (one_mul 1))
  have := (hfin hu).1
  rwa [Rounding.amp_sub_one hu, mul_one] at this

end GTMesh.Props
