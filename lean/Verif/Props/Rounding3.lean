import Verif.Props.Rounding

/-! # C71: areas and volumes in space -/

namespace GTMesh.Props
open GTMesh Spec Std' Vec Geo

variable {r : Rounding}

/-! ## Gram-Schmidt with two and three vectors -/

theorem norm_gs2 {v0 v1 : Vec 3 ℝ} (h0 : v0 ≠ 0) :
    Vec.norm (normStep [divAssign v0 (.value (Vec.norm v0))] v1) = Vec.norm (cross v0 v1) / Vec.norm v0 := by
  obtain ⟨us, h⟩ := gs2 v0 v1 h0
  have e : gramSchmidtN [v0, v1] = .ok (normLoop [divAssign v0 (.value (Vec.norm v0))] [Vec.norm v0] [v1]) := rfl
  rw [e, normLoop, normLoop] at h
  simp only [List.singleton_append, Res.ok.injEq, Prod.mk.injEq, List.cons.injEq, and_true, true_and] at h
  exact h.2

theorem norm_gs3 {v0 v1 v2 : Vec 3 ℝ} (h : cross v0 v1 ≠ 0) :
    Vec.norm (normStep [divAssign v0 (.value (Vec.norm v0)), divAssign (normStep [divAssign v0 (.value (Vec.norm v0))] v1)
      (.value (Vec.norm (normStep [divAssign v0 (.value (Vec.norm v0))] v1)))] v2) = |dot v2 (cross v0 v1)| / Vec.norm (cross v0 v1) := by
  obtain ⟨u0, u1, hg⟩ := gs3 v0 v1 v2 h
  have e : gramSchmidtN [v0, v1, v2] = .ok (normLoop [divAssign v0 (.value (Vec.norm v0))] [Vec.norm v0] [v1, v2]) := rfl
  rw [e, normLoop, normLoop, normLoop] at hg
  simp only [List.cons_append, List.nil_append, Res.ok.injEq, Prod.mk.injEq, List.cons.injEq, and_true, true_and] at hg
  exact hg.2.2

variable {a0 a1 a2 : Vec 3 (Fl r)} {v0 v1 v2 : Vec 3 ℝ}

theorem unit_close (h0 : CloseV r 1 (Vec.norm v0) a0 v0) (hv : v0 ≠ 0) :
    CloseV r 13 1 (divAssign a0 (.value (Vec.norm a0))) (divAssign v0 (.value (Vec.norm v0))) := by
  have hp := norm_pos hv
  have hn := h0.norm
  have hn' : Close r _ |Vec.norm v0| _ _ := hn.mono (le_refl _) (le_abs_self _)
  refine (h0.divAssign hn' hp).mono (by omega) (le_of_eq ?_)
  field_simp

theorem step_one {u : Vec 3 (Fl r)} {w : Vec 3 ℝ} {j : Nat} (hu : CloseV r 13 1 u w) (h1 : CloseV r j (Vec.norm v1) a1 v1) (hj : j ≤ 1) :
    CloseV r 32 (2 * Vec.norm v1) (subAssign a1 (.other (smul u (dot a1 u)))) (subAssign v1 (.other (smul w (dot v1 w)))) := by
  have h1' : CloseV r 1 (Vec.norm v1) a1 v1 := h1.mono hj (le_refl _)
  have hd := h1'.dot hu
  have hs := hu.smul hd
  refine ((h1'.mono (by omega : 1 ≤ 31) (le_refl _)).subAssign (hs.mono (by omega : _ ≤ 31) (le_refl _))).mono (by omega) (le_of_eq ?_)
  ring

theorem normStep_one {F : Type} [Mul F] [Add F] [Sub F] [Zero F] (u v : Vec 3 F) :
    normStep [u] v = subAssign v (.other (smul u (dot v u))) := rfl

theorem normStep_two {F : Type} [Mul F] [Add F] [Sub F] [Zero F] (u u' v : Vec 3 F) :
    normStep [u, u'] v = subAssign (subAssign v (.other (smul u (dot v u)))) (.other (smul u' (dot v u'))) := rfl

/-- The second vector before its normalization. -/
theorem gs2_close (h0 : CloseV r 1 (Vec.norm v0) a0 v0) (hv : v0 ≠ 0) (h1 : CloseV r 1 (Vec.norm v1) a1 v1) :
    CloseV r 32 (2 * Vec.norm v1) (normStep [divAssign a0 (.value (Vec.norm a0))] a1) (normStep [divAssign v0 (.value (Vec.norm v0))] v1) := by
  rw [normStep_one, normStep_one]
  exact step_one (unit_close h0 hv) h1 (le_refl 1)

/-- The third vector before its normalization. -/
def thirdOf {F : Type} [Add F] [Sub F] [Mul F] [Zero F] [One F] [Div F] [HasSqrt F] (v0 v1 v2 : Vec 3 F) : Vec 3 F :=
  normStep [divAssign v0 (.value (Vec.norm v0)), divAssign (normStep [divAssign v0 (.value (Vec.norm v0))] v1)
    (.value (Vec.norm (normStep [divAssign v0 (.value (Vec.norm v0))] v1)))] v2

/-- The third vector, when the second one is at least the `2/κ`-th part of what it was. -/
theorem third_close (h0 : CloseV r 1 (Vec.norm v0) a0 v0) (h1 : CloseV r 1 (Vec.norm v1) a1 v1)
    (h2 : CloseV r 1 (Vec.norm v2) a2 v2) (hc : cross v0 v1 ≠ 0) {κ : Nat} (hκ1 : 1 ≤ κ)
    (hκ : 2 * (Vec.norm v0 * Vec.norm v1) ≤ κ * Vec.norm (cross v0 v1)) :
    CloseV r (192 * κ + 26) (3 * Vec.norm v2) (thirdOf a0 a1 a2) (thirdOf v0 v1 v2) := by
  have hv : v0 ≠ 0 := by
    rintro rfl
    apply hc
    have h := cross_apply (0 : Vec 3 ℝ) v1
    apply ext3 <;> simp [h]
  have hp := norm_pos hv
  have hu0 := unit_close h0 hv
  have hw := gs2_close h0 hv h1
  have hwn := norm_gs2 (v1 := v1) hv
  unfold thirdOf
  rw [normStep_two, normStep_two]
  generalize divAssign a0 (.value (Vec.norm a0)) = b0 at *
  generalize divAssign v0 (.value (Vec.norm v0)) = u0 at *
  generalize normStep [b0] a1 = b1 at *
  generalize normStep [u0] v1 = w at *
  have hwp : 0 < Vec.norm w := by rw [hwn]; exact div_pos (norm_pos hc) hp
  have hw' := hw.cond hκ1 (by
    rw [hwn, mul_div_assoc', le_div_iff₀ hp]
    linarith)
  have hn := hw'.norm
  have hn' : Close r _ |Vec.norm w| _ _ := hn.mono (le_refl _) (le_abs_self _)
  have hu1 := (hw'.divAssign hn' hwp).mono (le_refl _)
    (le_of_eq (by rw [mul_one_div, div_self hwp.ne']) : Vec.norm w * (1 / Vec.norm w) ≤ 1)
  have hs1 := step_one hu0 h2 (le_refl 1)
  have hd := h2.dot hu1
  have hs2 := hu1.smul hd
  have hz := (hs1.mono (by omega : _ ≤ 192 * κ + 25) (le_refl _)).subAssign (hs2.mono (by omega : _ ≤ 192 * κ + 25) (le_refl _))
  refine hz.mono (by omega) (le_of_eq ?_)
  ring

/-- The third norm, when the second vector is at least the `2/κ`-th part of what it was. -/
theorem gs3_close (h0 : CloseV r 1 (Vec.norm v0) a0 v0) (h1 : CloseV r 1 (Vec.norm v1) a1 v1)
    (h2 : CloseV r 1 (Vec.norm v2) a2 v2) (hc : cross v0 v1 ≠ 0) {κ : Nat} (hκ1 : 1 ≤ κ)
    (hκ : 2 * (Vec.norm v0 * Vec.norm v1) ≤ κ * Vec.norm (cross v0 v1)) :
    Close r (192 * κ + 30) (3 * Vec.norm v2)
      (Vec.norm (normStep [divAssign a0 (.value (Vec.norm a0)), divAssign (normStep [divAssign a0 (.value (Vec.norm a0))] a1)
        (.value (Vec.norm (normStep [divAssign a0 (.value (Vec.norm a0))] a1)))] a2))
      (|dot v2 (cross v0 v1)| / Vec.norm (cross v0 v1)) := by
  rw [← norm_gs3 hc]
  exact (third_close h0 h1 h2 hc hκ1 hκ).norm.mono (by omega) (le_refl _)

/-! ## Faces -/

theorem half_close : Close r 1 (1 / 2) (1 / 2 : Fl r) (1 / 2) :=
  inv_nat_close (r := r) (c := 2) (by norm_num) (le_trans (by norm_num) r.small)

/-- What one edge adds to the area of a face. -/
theorem faceTerm_close (A B C : Vec 3 (Fl r)) (hAB : value A ≠ value B) {h : ℝ} (hb : Vec.norm (value A - value B) ≤ h)
    (hc : Vec.norm (value C - value A) ≤ h) :
    Close r 44 (h ^ 2) (1 / 2 * Vec.norm (normStep [divAssign (sub B A) (.value (Vec.norm (sub B A)))] (sub C A)) * Vec.norm (sub A B))
      (triangleArea (value A) (value B) (value C)) := by
  have hv : sub (value B) (value A) ≠ 0 := by rw [sub_eq]; exact sub_ne_zero.mpr (Ne.symm hAB)
  have h0 := CloseV.sub_exact B A
  have h1 := CloseV.sub_exact C A
  rw [← sub_eq] at h0 h1
  have hw := (gs2_close h0 hv h1).norm
  rw [norm_gs2 hv] at hw
  have hl := distance_close A B
  have := ((half_close (r := r)).mul hw).mul hl
  have e : triangleArea (value A) (value B) (value C) =
      1 / 2 * (Vec.norm (cross (sub (value B) (value A)) (sub (value C) (value A))) / Vec.norm (sub (value B) (value A))) *
        Vec.norm (value A - value B) := by
    rw [triangleArea, ← (cross_rel (value A) (value B) (value C)).1, sub_eq, sub_eq, norm_sub_comm (value A) (value B)]
    have : Vec.norm (value B - value A) ≠ 0 := by rw [← sub_eq]; exact (norm_pos hv).ne'
    field_simp
  rw [e]
  refine this.mono (by omega) ?_
  rw [sub_eq] at *
  have e2 : 1 / 2 * (2 * Vec.norm (value C - value A)) * Vec.norm (value A - value B) =
      Vec.norm (value C - value A) * Vec.norm (value A - value B) := by ring
  rw [e2, pow_two]
  exact mul_le_mul hc hb (norm_nonneg' _) (le_trans (norm_nonneg' _) hc)

/-- What is computed for a face. -/
noncomputable def faceSum (g : GMesh 3 (Fl r)) (f : Idx) : Fl r :=
  total ((faceEdges g.mesh f).map fun p =>
    1 / 2 * Vec.norm (normStep [divAssign (sub p.2 p.1) (.value (Vec.norm (sub p.2 p.1)))] (sub (g.faceCenter f) p.1)) * Vec.norm (sub p.1 p.2))

theorem faceEdges_exactly (g : GMesh 3 (Fl r)) (f : Idx) :
    faceEdges (exactly g).mesh f = (faceEdges g.mesh f).map fun p => (value p.1, value p.2) := by
  unfold faceEdges
  rw [List.map_map]
  apply List.map_congr_left
  intro e _
  exact ends_value e

theorem firstSide_exactly (g : GMesh 3 (Fl r)) (f : Idx) (p : Vec 3 (Fl r) × Vec 3 (Fl r)) (hp : (faceEdges g.mesh f).head? = some p) :
    firstSide (exactly g).mesh f = (value p.1, value p.2) := by
  unfold firstSide
  rw [faceEdges_exactly]
  cases h : faceEdges g.mesh f with
  | nil => rw [h] at hp; simp at hp
  | cons q l => rw [h] at hp; simp at hp; subst hp; rfl

/-- The points of face `f` are not farther from each other than `h`: the ends of its edges, and the center from them. -/
def FaceWithin (g : GMesh 3 (Fl r)) (f : Idx) (h : ℝ) : Prop :=
  ∀ p ∈ faceEdges g.mesh f, Vec.norm (value p.1 - value p.2) ≤ h ∧ Vec.norm (value (g.faceCenter f) - value p.1) ≤ h

theorem faceSum_close {g : GMesh 3 (Fl r)} {f : Idx} (hne : ∀ p ∈ faceEdges g.mesh f, value p.1 ≠ value p.2) {h : ℝ} (hh : FaceWithin g f h) :
    Close r (44 + (faceEdges g.mesh f).length) ((faceEdges g.mesh f).length * h ^ 2) (faceSum g f) (faceArea (exactly g) f) := by
  unfold faceSum faceArea
  rw [faceEdges_exactly, List.map_map, ← total_eq]
  have := Close.total (r := r) (k := 44) (M := h ^ 2)
    (l := (faceEdges g.mesh f).map fun p => 1 / 2 * Vec.norm (normStep [divAssign (sub p.2 p.1) (.value (Vec.norm (sub p.2 p.1)))] (sub (g.faceCenter f) p.1)) * Vec.norm (sub p.1 p.2))
    (l' := (faceEdges g.mesh f).map ((fun p => triangleArea p.1 p.2 ((exactly g).faceCenter f)) ∘ fun p => (value p.1, value p.2))) (by
      rw [List.forall₂_map_left_iff, List.forall₂_map_right_iff, List.forall₂_same]
      intro p hp
      exact faceTerm_close p.1 p.2 (g.faceCenter f) (hne p hp) (hh p hp).1 (hh p hp).2)
  rwa [List.length_map] at this

/-- What is computed for the face `f` with the first side `p` of a cell with the center `cc`. -/
noncomputable def pyramidTerm (g : GMesh 3 (Fl r)) (cc : Vec 3 (Fl r)) (f : Idx) : Fl r :=
  let p := (faceEdges g.mesh f).headD (0, 0)
  let u := divAssign (sub p.1 p.2) (.value (Vec.norm (sub p.1 p.2)))
  let w := normStep [u] (sub p.1 (g.faceCenter f))
  Vec.norm (normStep [u, divAssign w (.value (Vec.norm w))] (sub p.1 cc)) * faceSum g f / 3

theorem pyramidTerm_close {g : GMesh 3 (Fl r)} {f : Idx} {cc : Vec 3 (Fl r)} {p : Vec 3 (Fl r) × Vec 3 (Fl r)}
    (hp : (faceEdges g.mesh f).head? = some p) (hne : ∀ p ∈ faceEdges g.mesh f, value p.1 ≠ value p.2) {h : ℝ} (hh : FaceWithin g f h)
    (hcc : Vec.norm (value p.1 - value cc) ≤ h) {κ : Nat} (hκ1 : 1 ≤ κ)
    (ht : triangleArea (value p.1) (value p.2) (value (g.faceCenter f)) ≠ 0)
    (hκ : Vec.norm (value p.1 - value p.2) * Vec.norm (value p.1 - value (g.faceCenter f)) ≤
      κ * triangleArea (value p.1) (value p.2) (value (g.faceCenter f))) :
    Close r (192 * κ + 76 + (faceEdges g.mesh f).length) ((faceEdges g.mesh f).length * h ^ 3) (pyramidTerm g cc f)
      (pyramid (exactly g) (value cc) f) := by
  have hhd : (faceEdges g.mesh f).headD (0, 0) = p := by rw [List.headD_eq_head?_getD, hp]; rfl
  have hk := (cross_rel (value p.1) (value p.2) (value (g.faceCenter f))).2
  have hk' := (cross_rel (value p.1) (value p.2) (value (g.faceCenter f))).1
  have h0 := CloseV.sub_exact p.1 p.2
  have h1 := CloseV.sub_exact p.1 (g.faceCenter f)
  have h2 := CloseV.sub_exact p.1 cc
  rw [← sub_eq] at h0 h1 h2
  rw [triangleArea, ← hk] at hκ ht
  have hc : cross (sub (value p.1) (value p.2)) (sub (value p.1) (value (g.faceCenter f))) ≠ 0 := by
    rw [sub_eq, sub_eq]
    intro e
    rw [e, norm_zero, mul_zero] at ht
    exact ht rfl
  have hd := gs3_close h0 h1 h2 hc hκ1 (by
    rw [sub_eq, sub_eq]
    rw [show (κ : ℝ) * (1 / 2 * Vec.norm (cross (value p.1 - value p.2) (value p.1 - value (g.faceCenter f)))) =
      1 / 2 * (κ * Vec.norm (cross (value p.1 - value p.2) (value p.1 - value (g.faceCenter f)))) by ring] at hκ
    linarith)
  have ha := faceSum_close hne hh
  have h3 : Close r 0 |(3 : ℝ)| (3 : Fl r) 3 := by
    have := Close.nat (r := r) (m := 3) r.small
    exact_mod_cast this
  have := (hd.mul ha).div_exact h3 (by norm_num)
  have hpy : pyramid (exactly g) (value cc) f =
      |dot (sub (value p.1) (value cc)) (cross (sub (value p.1) (value p.2)) (sub (value p.1) (value (g.faceCenter f))))| /
        Vec.norm (cross (sub (value p.1) (value p.2)) (sub (value p.1) (value (g.faceCenter f)))) * faceArea (exactly g) f / 3 := by
    rw [pyramid, planeDistance, firstSide_exactly g f p hp]
    simp only [sub_eq]
    have e : (exactly g).faceCenter f = value (g.faceCenter f) := rfl
    rw [e, hk, hk']
    congr 3
    rw [← neg_sub (value cc), show -(value cc - value p.1) = (-1 : ℝ) • (value cc - value p.1) by simp, dot_smul, neg_one_mul, abs_neg]
  rw [hpy]
  have et : pyramidTerm g cc f = Vec.norm (normStep [divAssign (sub p.1 p.2) (.value (Vec.norm (sub p.1 p.2))),
      divAssign (normStep [divAssign (sub p.1 p.2) (.value (Vec.norm (sub p.1 p.2)))] (sub p.1 (g.faceCenter f)))
        (.value (Vec.norm (normStep [divAssign (sub p.1 p.2) (.value (Vec.norm (sub p.1 p.2)))] (sub p.1 (g.faceCenter f)))))] (sub p.1 cc)) *
      faceSum g f / 3 := by
    unfold pyramidTerm
    rw [hhd]
  rw [et]
  refine this.mono (by omega) ?_
  rw [sub_eq]
  have hl : (0 : ℝ) ≤ ((faceEdges g.mesh f).length : ℝ) := Nat.cast_nonneg _
  have h00 : 0 ≤ h := le_trans (norm_nonneg' _) hcc
  have e3 : 3 * Vec.norm (value p.1 - value cc) * ((faceEdges g.mesh f).length * h ^ 2) / 3 =
      Vec.norm (value p.1 - value cc) * ((faceEdges g.mesh f).length * h ^ 2) := by ring
  rw [e3, show ((faceEdges g.mesh f).length : ℝ) * h ^ 3 = h * ((faceEdges g.mesh f).length * h ^ 2) by ring]
  exact mul_le_mul_of_nonneg_right hcc (mul_nonneg hl (by positivity))

/-! ## The whole computation -/

/-- The computation in space with rounding, for every valid mesh without empty faces. -/
theorem computeMeasures3_fl (g : GMesh 3 (Fl r)) (bd : Idx → List Idx) (hv : ValidMesh g.mesh bd) (h3 : g.mesh.dim = 3)
    (hne : ∀ f, f < (g.mesh.midElems 2).length → faceEdges g.mesh f ≠ []) :
    computeMeasures3 g = .ok ((List.range g.mesh.edges.length).map fun e => Vec.norm (sub (ends g.mesh e).1 (ends g.mesh e).2),
      (List.range (g.mesh.midElems 2).length).map (faceSum g),
      (List.range g.mesh.cells.length).map fun i => total ((bd i).map (pyramidTerm g (g.cellCenter i)))) := by
  set lens : List (Fl r) := (List.range g.mesh.edges.length).map fun e => Vec.norm (sub (ends g.mesh e).1 (ends g.mesh e).2) with hlens
  have hls : edgeMeasures g.mesh = .ok lens := by
    apply forEach_ok
    intro e he
    rw [edgeMeasure, ends_ok hv (List.mem_range.mp he)]
    rfl
  have hn2 : g.mesh.numElems 2 = (g.mesh.midElems 2).length := by
    unfold Mesh.numElems; rw [if_neg (by omega), if_neg (by omega), if_neg (by omega)]
  have hlen : ∀ e, e < g.mesh.edges.length → Res.at' lens e = .ok (Vec.norm (sub (ends g.mesh e).1 (ends g.mesh e).2)) := by
    intro e he
    rw [Res.at'_eq_ok, hlens, List.getElem?_map, List.getElem?_range he]; rfl
  have hface : ∀ f ∈ List.range (g.mesh.midElems 2).length, faceMeasure3 g lens f = .ok (faceSum g f) := by
    intro f hf
    rw [List.mem_range] at hf
    have hg := List.getElem?_eq_getElem hf
    obtain ⟨_, d2, _⟩ := face_edges_lt hv h3 hg
    have hat : Res.at' (g.mesh.midElems 2) f = .ok (g.mesh.midElems 2)[f] := Res.at'_eq_ok.mpr hg
    rw [faceMeasure3, hat]
    simp only [Res.bind]
    rw [forEach_ok (f := fun e => 1 / 2 * Vec.norm (normStep [divAssign (sub (ends g.mesh e).2 (ends g.mesh e).1)
      (.value (Vec.norm (sub (ends g.mesh e).2 (ends g.mesh e).1)))] (sub (g.faceCenter f) (ends g.mesh e).1)) *
      Vec.norm (sub (ends g.mesh e).1 (ends g.mesh e).2))]
    · rw [faceSum, faceEdges, hg]
      simp only [Option.map_some, Option.getD_some, List.map_map]
      rfl
    · intro e he
      rw [faceTerm, ends_ok hv (d2 e he)]
      have e2 : ∀ v0 v1 : Vec 3 (Fl r), gramSchmidtN [v0, v1] = .ok (normLoop [divAssign v0 (.value (Vec.norm v0))] [Vec.norm v0] [v1]) :=
        fun _ _ => rfl
      simp only [Res.bind, e2, normLoop, hlen e (d2 e he)]
      rfl
  have hcell : ∀ i ∈ List.range g.mesh.cells.length,
      cellMeasure3 g ((List.range (g.mesh.midElems 2).length).map (faceSum g)) i =
        .ok (total ((bd i).map (pyramidTerm g (g.cellCenter i)))) := by
    intro i hi
    rw [List.mem_range] at hi
    have hc := List.getElem?_eq_getElem hi
    have hat : Res.at' g.mesh.cells i = .ok g.mesh.cells[i] := Res.at'_eq_ok.mpr hc
    rw [cellMeasure3, hat]
    simp only [Res.bind]
    rw [cellWalk_ok hv hc (f := pyramidTerm g (g.cellCenter i))]
    intro f hf
    have hlt := bd_lt hv hi f hf
    rw [h3, show 3 - 1 = 2 from rfl, hn2] at hlt
    have hg := List.getElem?_eq_getElem hlt
    obtain ⟨_, d2, _⟩ := face_edges_lt hv h3 hg
    have hfe : faceEdges g.mesh f = ((g.mesh.midElems 2)[f]).sub.map (ends g.mesh) := by rw [faceEdges, hg]; rfl
    have hne := hne f hlt
    cases hsub : ((g.mesh.midElems 2)[f]).sub with
    | nil => rw [hfe, hsub] at hne; simp at hne
    | cons e es =>
      have hfs : (faceEdges g.mesh f).headD (0, 0) = ends g.mesh e := by rw [hfe, hsub]; rfl
      have he : e < g.mesh.edges.length := d2 e (by rw [hsub]; exact List.mem_cons_self)
      have hat2 : Res.at' (g.mesh.midElems 2) f = .ok (g.mesh.midElems 2)[f] := Res.at'_eq_ok.mpr hg
      have hfirst : firstEdge g.mesh f = .ok (ends g.mesh e) := by
        rw [firstEdge, hat2]
        simp only [Res.bind, hsub]
        exact ends_ok hv he
      have harea : Res.at' ((List.range (g.mesh.midElems 2).length).map (faceSum g)) f = .ok (faceSum g f) := by
        rw [Res.at'_eq_ok, List.getElem?_map, List.getElem?_range hlt]; rfl
      have e3 : ∀ v0 v1 v2 : Vec 3 (Fl r), gramSchmidtN [v0, v1, v2] = .ok (normLoop [divAssign v0 (.value (Vec.norm v0))] [Vec.norm v0] [v1, v2]) :=
        fun _ _ _ => rfl
      have hidx : ∀ a b c : Fl r, Res.idx [a, b, c] 2 = .ok c := fun _ _ _ => rfl
      rw [cellTerm3, hfirst]
      simp only [Res.bind, e3, normLoop, List.cons_append, List.nil_append, hidx, harea]
      rw [pyramidTerm, hfs]
  rw [computeMeasures3, hls]
  simp only [Res.bind]
  rw [forEach_ok hface]
  simp only
  rw [forEach_ok hcell]

/-- The areas of the faces of every valid 3D mesh whose edges have different ends: when the points of a face with `k` edges are within `h`
of each other, the computed area differs from the sum of the areas of the triangles over its edges by at most `γ k h²`, with `k + 44`
roundings. It does not matter how close the center of the face is to an edge. -/
theorem C71_face_areas (g : GMesh 3 (Fl r)) (bd : Idx → List Idx) (hv : ValidMesh g.mesh bd) (h3 : g.mesh.dim = 3)
    (hne : ∀ f, f < (g.mesh.midElems 2).length → faceEdges g.mesh f ≠ [])
    (hed : ∀ e, e < g.mesh.edges.length → value (ends g.mesh e).1 ≠ value (ends g.mesh e).2) :
    ∃ ls fs cs, computeMeasures3 g = .ok (ls, fs, cs) ∧ fs.length = (g.mesh.midElems 2).length ∧
      ∀ (f : Nat) (h : ℝ), f < (g.mesh.midElems 2).length → FaceWithin g f h → ((faceEdges g.mesh f).length + 44 : Nat) * r.u < 1 →
        ∃ S, fs[f]? = some S ∧
          |S.val - ((faceEdges g.mesh f).map fun p => triangleArea (value p.1) (value p.2) (value (g.faceCenter f))).sum| ≤
            gamma r.u ((faceEdges g.mesh f).length + 44) * ((faceEdges g.mesh f).length * h ^ 2) := by
  refine ⟨_, _, _, computeMeasures3_fl g bd hv h3 hne, by simp, ?_⟩
  intro f h hf hh hu
  refine ⟨faceSum g f, by rw [List.getElem?_map, List.getElem?_range hf]; rfl, ?_⟩
  have hg := List.getElem?_eq_getElem hf
  obtain ⟨_, d2, _⟩ := face_edges_lt hv h3 hg
  have hfe : faceEdges g.mesh f = ((g.mesh.midElems 2)[f]).sub.map (ends g.mesh) := by rw [faceEdges, hg]; rfl
  have := (faceSum_close (g := g) (f := f) (by
    intro p hp
    rw [hfe] at hp
    obtain ⟨e, he, rfl⟩ := List.mem_map.mp hp
    exact hed e (d2 e he)) hh).mono (by omega : _ ≤ (faceEdges g.mesh f).length + 44) (le_refl _)
  have := this.bound hu
  rwa [faceArea, faceEdges_exactly, List.map_map] at this

/-- The volumes of the cells of every valid 3D mesh: when the points of cell `i` are within `h` of each other, its faces have at most `k`
edges, and in each face the triangle of the first edge and the center is not too flat (its area is at least a `κ`-th of the product of
two of its sides), the computed volume differs from the sum of the volumes of the pyramids over its `m` faces by at most `γ m k h³`, with
`192 κ + 76 + k + m` roundings. -/
theorem C71_volumes (g : GMesh 3 (Fl r)) (bd : Idx → List Idx) (hv : ValidMesh g.mesh bd) (h3 : g.mesh.dim = 3)
    (hd : NonDegenerate (exactly g)) :
    ∃ ls fs cs, computeMeasures3 g = .ok (ls, fs, cs) ∧ cs.length = g.mesh.cells.length ∧
      ∀ (i : Nat) (h : ℝ) (κ k : Nat), i < g.mesh.cells.length → 1 ≤ κ →
        (∀ f ∈ bd i, FaceWithin g f h ∧ (faceEdges g.mesh f).length ≤ k ∧ ∀ p, (faceEdges g.mesh f).head? = some p →
          Vec.norm (value p.1 - value (g.cellCenter i)) ≤ h ∧
          Vec.norm (value p.1 - value p.2) * Vec.norm (value p.1 - value (g.faceCenter f)) ≤
            κ * triangleArea (value p.1) (value p.2) (value (g.faceCenter f))) →
        (192 * κ + 76 + k + (bd i).length : Nat) * r.u < 1 →
        ∃ V, cs[i]? = some V ∧
          |V.val - ((bd i).map (pyramid (exactly g) (value (g.cellCenter i)))).sum| ≤
            gamma r.u (192 * κ + 76 + k + (bd i).length) * ((bd i).length * (k * h ^ 3)) := by
  have hne : ∀ f, f < (g.mesh.midElems 2).length → faceEdges g.mesh f ≠ [] := by
    intro f hf h
    apply hd.nonempty f hf
    rw [faceEdges_exactly, h]; rfl
  refine ⟨_, _, _, computeMeasures3_fl g bd hv h3 hne, by simp, ?_⟩
  intro i h κ k hi hκ hh hu
  refine ⟨_, by rw [List.getElem?_map, List.getElem?_range hi]; rfl, ?_⟩
  have hn2 : g.mesh.numElems 2 = (g.mesh.midElems 2).length := by
    unfold Mesh.numElems; rw [if_neg (by omega), if_neg (by omega), if_neg (by omega)]
  have := Close.total (r := r) (k := 192 * κ + 76 + k) (M := k * h ^ 3) (l := (bd i).map (pyramidTerm g (g.cellCenter i)))
    (l' := (bd i).map (pyramid (exactly g) (value (g.cellCenter i)))) (by
      rw [List.forall₂_map_left_iff, List.forall₂_map_right_iff, List.forall₂_same]
      intro f hf
      obtain ⟨hw, hk, hp⟩ := hh f hf
      have hlt := bd_lt hv hi f hf
      rw [h3, show 3 - 1 = 2 from rfl, hn2] at hlt
      have hg := List.getElem?_eq_getElem hlt
      obtain ⟨_, d2, _⟩ := face_edges_lt hv h3 hg
      have hfe : faceEdges g.mesh f = ((g.mesh.midElems 2)[f]).sub.map (ends g.mesh) := by rw [faceEdges, hg]; rfl
      obtain ⟨p, l, hpl⟩ := List.exists_cons_of_ne_nil (hne f hlt)
      have hhd : (faceEdges g.mesh f).head? = some p := by rw [hpl]; rfl
      obtain ⟨b1, b2⟩ := hp p hhd
      have h0 : 0 ≤ h := le_trans (norm_nonneg' _) b1
      have hfc := hd.faces f hlt
      rw [firstSide_exactly g f p hhd] at hfc
      refine (pyramidTerm_close hhd (by
        intro p hp
        rw [hfe] at hp
        obtain ⟨e, he, rfl⟩ := List.mem_map.mp hp
        have := hd.edges e (d2 e he)
        rw [show ends (exactly g).mesh e = _ from ends_value e] at this
        exact this) hw b1 hκ (by
          rw [triangleArea]
          have := norm_pos hfc
          positivity) b2).mono (by omega) ?_
      exact mul_le_mul_of_nonneg_right (by exact_mod_cast hk) (by positivity))
  rw [List.length_map, total_eq] at this
  exact this.bound hu

end GTMesh.Props
