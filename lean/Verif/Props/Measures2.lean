import Verif.Props.Measures

/-! # C39: measures are not negative and do not change under rigid motions -/

namespace GTMesh.Props
open GTMesh Spec Std' Vec Geo

/-! ## Sign -/

theorem normLoop_nonneg {n : Nat} : ∀ (vs us : List (Vec n ℝ)) (ns : List ℝ), (∀ x ∈ ns, 0 ≤ x) → ∀ x ∈ (normLoop us ns vs).2, 0 ≤ x := by
  intro vs
  induction vs with
  | nil => intro us ns h; exact h
  | cons v vs ih =>
    intro us ns h
    rw [normLoop]
    apply ih
    intro x hx
    rcases List.mem_append.mp hx with hx | hx
    · exact h x hx
    · rw [List.mem_singleton] at hx; rw [hx]; exact norm_nonneg' _

theorem gs_nonneg {n : Nat} {vs : List (Vec n ℝ)} {r : List (Vec n ℝ) × List ℝ} (h : gramSchmidtN vs = .ok r) {i : Nat} {x : ℝ}
    (hx : r.2[i]? = some x) : 0 ≤ x := by
  cases vs with
  | nil => simp [gramSchmidtN] at h
  | cons v vs =>
    have h : Res.ok (normLoop [divAssign v (.value (Vec.norm v))] [Vec.norm v] vs) = .ok r := h
    rw [← Res.ok.inj h] at hx
    exact normLoop_nonneg vs _ _ (by intro y hy; rw [List.mem_singleton] at hy; rw [hy]; exact norm_nonneg' _) x (List.mem_of_getElem? hx)

theorem cellLoop_forall {V β : Type} {m : Mesh V} {body : Idx → Res (List β)} {P : β → Prop}
    (h : ∀ f l, body f = .ok l → ∀ x ∈ l, P x) (cell start : Idx) : ∀ (k : Nat) (t : Idx) (l : List β),
    m.cellLoop body cell start k t = .ok l → ∀ x ∈ l, P x := by
  intro k
  induction k with
  | zero => intro t l hl; simp [Mesh.cellLoop] at hl
  | succ k ih =>
    intro t l hl
    rw [Mesh.cellLoop] at hl
    cases h1 : body t <;> rw [h1] at hl <;> simp only [Res.bind, reduceCtorEq] at hl
    rename_i r
    cases h2 : m.nextFace cell t <;> rw [h2] at hl <;> simp only [reduceCtorEq] at hl
    split at hl
    · rw [← Res.ok.inj hl]; exact h _ _ h1
    · rename_i nxt _
      cases h3 : m.cellLoop body cell start k nxt <;> rw [h3] at hl <;> simp only [reduceCtorEq] at hl
      rw [← Res.ok.inj hl]
      intro x hx
      rcases List.mem_append.mp hx with hx | hx
      · exact h _ _ h1 x hx
      · exact ih _ _ h3 x hx

theorem edgeMeasures_nonneg {n : Nat} {m : Mesh (Vec n ℝ)} {ls : List ℝ} (h : edgeMeasures m = .ok ls) : ∀ x ∈ ls, 0 ≤ x := by
  refine forall₂_right ?_ (forEach_eq_ok h)
  intro e x he
  rw [edgeMeasure] at he
  cases h1 : edgeEnds m e <;> rw [h1] at he <;> simp only [Res.bind, reduceCtorEq] at he
  rw [← Res.ok.inj he]
  exact norm_nonneg' _

theorem total_nonneg {l : List ℝ} (h : ∀ x ∈ l, 0 ≤ x) : 0 ≤ total l := by rw [total_eq]; exact sum_nonneg h

/-- C39. No measure computed in 2D is negative, on any mesh with any centers. -/
theorem C39_nonneg_2d (g : GMesh 2 ℝ) (ls cs : List ℝ) (h : computeMeasures2 g = .ok (ls, cs)) :
    (∀ x ∈ ls, 0 ≤ x) ∧ ∀ x ∈ cs, 0 ≤ x := by
  rw [computeMeasures2] at h
  cases h1 : edgeMeasures g.mesh <;> rw [h1] at h <;> simp only [Res.bind, reduceCtorEq] at h
  cases h2 : forEach (cellMeasure2 g) (List.range g.mesh.cells.length) <;> rw [h2] at h <;> simp only [reduceCtorEq, Res.ok.injEq, Prod.mk.injEq] at h
  obtain ⟨rfl, rfl⟩ := h
  refine ⟨edgeMeasures_nonneg h1, forall₂_right ?_ (forEach_eq_ok h2)⟩
  intro i x hx
  rw [cellMeasure2] at hx
  cases h3 : Res.at' g.mesh.cells i <;> rw [h3] at hx <;> simp only [Res.bind, reduceCtorEq] at hx
  rename_i c
  split at hx
  · rename_i ts h4
    rw [← Res.ok.inj hx]
    apply total_nonneg
    refine cellLoop_forall ?_ _ _ _ _ _ h4
    intro f l hl y hy
    split at hl <;> (try simp only [reduceCtorEq] at hl)
    rw [← Res.ok.inj hl, List.mem_singleton] at hy
    rw [hy]
    exact mul_nonneg (by norm_num) (abs_nonneg _)
  all_goals simp at hx

/-- C39. No measure computed in 3D is negative, on any mesh with any centers. -/
theorem C39_nonneg_3d (g : GMesh 3 ℝ) (ls fs cs : List ℝ) (h : computeMeasures3 g = .ok (ls, fs, cs)) :
    (∀ x ∈ ls, 0 ≤ x) ∧ (∀ x ∈ fs, 0 ≤ x) ∧ ∀ x ∈ cs, 0 ≤ x := by
  rw [computeMeasures3] at h
  cases h1 : edgeMeasures g.mesh <;> rw [h1] at h <;> simp only [Res.bind, reduceCtorEq] at h
  rename_i ls'
  cases h2 : forEach (faceMeasure3 g ls') (List.range (g.mesh.midElems 2).length) <;> rw [h2] at h <;> simp only [reduceCtorEq] at h
  rename_i fs'
  cases h3 : forEach (cellMeasure3 g fs') (List.range g.mesh.cells.length) <;> rw [h3] at h <;> simp only [reduceCtorEq, Res.ok.injEq, Prod.mk.injEq] at h
  obtain ⟨rfl, rfl, rfl⟩ := h
  have hl := edgeMeasures_nonneg h1
  have hf : ∀ x ∈ fs', 0 ≤ x := by
    refine forall₂_right ?_ (forEach_eq_ok h2)
    intro i x hx
    rw [faceMeasure3] at hx
    cases h4 : Res.at' (g.mesh.midElems 2) i <;> rw [h4] at hx <;> simp only [Res.bind, reduceCtorEq] at hx
    split at hx <;> (try simp only [reduceCtorEq] at hx)
    rename_i ts h5
    rw [← Res.ok.inj hx]
    apply total_nonneg
    refine forall₂_right ?_ (forEach_eq_ok h5)
    intro e y hy
    rw [faceTerm] at hy
    cases h6 : edgeEnds g.mesh e <;> rw [h6] at hy <;> simp only [Res.bind, reduceCtorEq] at hy
    split at hy <;> (try simp only [reduceCtorEq] at hy)
    rename_i r h7
    cases h8 : Res.idx r.2 1 <;> rw [h8] at hy <;> simp only [reduceCtorEq] at hy
    cases h9 : Res.at' ls' e <;> rw [h9] at hy <;> simp only [reduceCtorEq] at hy
    rw [← Res.ok.inj hy]
    exact mul_nonneg (mul_nonneg (by norm_num) (gs_nonneg h7 (Res.idx_eq_ok.mp h8))) (hl _ (List.mem_of_getElem? (Res.at'_eq_ok.mp h9)))
  refine ⟨hl, hf, forall₂_right ?_ (forEach_eq_ok h3)⟩
  intro i x hx
  rw [cellMeasure3] at hx
  cases h4 : Res.at' g.mesh.cells i <;> rw [h4] at hx <;> simp only [Res.bind, reduceCtorEq] at hx
  split at hx <;> (try simp only [reduceCtorEq] at hx)
  rename_i ts h5
  rw [← Res.ok.inj hx]
  apply total_nonneg
  refine cellLoop_forall ?_ _ _ _ _ _ h5
  intro f l hl y hy
  rw [cellTerm3] at hl
  cases h6 : firstEdge g.mesh f <;> rw [h6] at hl <;> simp only [Res.bind, reduceCtorEq] at hl
  split at hl <;> (try simp only [reduceCtorEq] at hl)
  rename_i r h7
  cases h8 : Res.idx r.2 2 <;> rw [h8] at hl <;> simp only [reduceCtorEq] at hl
  cases h9 : Res.at' fs' f <;> rw [h9] at hl <;> simp only [reduceCtorEq] at hl
  rw [← Res.ok.inj hl, List.mem_singleton] at hy
  rw [hy]
  exact div_nonneg (mul_nonneg (gs_nonneg h7 (Res.idx_eq_ok.mp h8)) (hf _ (List.mem_of_getElem? (Res.at'_eq_ok.mp h9)))) (by norm_num)

/-! ## Rigid motions -/

theorem edgeMeasures_move {n : Nat} {L : Vec n ℝ →ₗ[ℝ] Vec n ℝ} (hL : IsIsometry L) (t : Vec n ℝ) (m : Mesh (Vec n ℝ)) :
    edgeMeasures (m.mapV fun p => L p + t) = edgeMeasures m := by
  unfold edgeMeasures
  apply forEach_congr
  intro e
  rw [edgeMeasure, edgeMeasure, edgeEnds_map, bind_assoc']
  apply Res.bind_congr
  intro p _
  simp only [Res.bind]
  rw [sub_map, norm_map hL]

theorem dot2 (a b : Vec 2 ℝ) : dot a b = a 0 * b 0 + a 1 * b 1 := by
  rw [dot_eq, Fin.sum_univ_two]

theorem det_sqrt (a b : Vec 2 ℝ) : |a 0 * b 1 - a 1 * b 0| = Real.sqrt (dot a a * dot b b - dot a b ^ 2) := by
  rw [← Real.sqrt_sq_eq_abs]
  congr 1
  simp only [dot2]
  ring

theorem triangle2_move {L : Vec 2 ℝ →ₗ[ℝ] Vec 2 ℝ} (hL : IsIsometry L) (t c a b : Vec 2 ℝ) :
    triangle2 (L c + t) (L a + t) (L b + t) = triangle2 c a b := by
  have key : ∀ c a b : Vec 2 ℝ, triangle2 c a b = 1 / 2 * |(sub c a) 0 * (sub b a) 1 - (sub c a) 1 * (sub b a) 0| := by
    intro c a b; rw [sub_eq, sub_eq]; rfl
  rw [key, key, sub_map, sub_map, det_sqrt, det_sqrt, hL, hL, hL]

/-- C39. The measures of a 2D mesh do not change when the mesh, with its centers, is moved by a rigid motion. -/
theorem C39_rigid_2d (L : Vec 2 ℝ →ₗ[ℝ] Vec 2 ℝ) (hL : IsIsometry L) (t : Vec 2 ℝ) (g : GMesh 2 ℝ) :
    computeMeasures2 (move L t g) = computeMeasures2 g := by
  have hc : ∀ i, cellMeasure2 (move L t g) i = cellMeasure2 g i := by
    intro i
    rw [cellMeasure2, cellMeasure2]
    show Res.bind (Res.at' g.mesh.cells i) _ = _
    apply Res.bind_congr
    intro c _
    have e : (fun e => (edgeEnds (move L t g).mesh e).bind fun p => Res.ok [triangle2 ((move L t g).cellCenter i) p.1 p.2]) =
        fun e => (edgeEnds g.mesh e).bind fun p => Res.ok [triangle2 (g.cellCenter i) p.1 p.2] := by
      funext e
      show (edgeEnds (g.mesh.mapV _) e).bind _ = _
      rw [edgeEnds_map, bind_assoc']
      apply Res.bind_congr
      intro p _
      simp only [Res.bind]
      show Res.ok [triangle2 (L (g.cellCenter i) + t) _ _] = _
      rw [triangle2_move hL]
    rw [e]
    show ((g.mesh.mapV _).cellLoop _ _ _ ((g.mesh.mapV _).numFaces + 1) _).bind _ = _
    rw [Mesh.mapV_cellLoop, Mesh.mapV_numFaces]
  unfold computeMeasures2
  rw [forEach_congr hc]
  show (edgeMeasures (g.mesh.mapV _)).bind _ = _
  rw [edgeMeasures_move hL]
  rfl

theorem firstEdge_map {n : Nat} {F : Type} (f : Vec n F → Vec n F) (m : Mesh (Vec n F)) (i : Idx) :
    firstEdge (m.mapV f) i = (firstEdge m i).bind fun p => .ok (f p.1, f p.2) := by
  simp only [firstEdge, Mesh.mapV_midElems, edgeEnds_map, bind_assoc']

/-- C39. The measures of a 3D mesh do not change when the mesh, with its centers, is moved by a rigid motion. -/
theorem C39_rigid_3d (L : Vec 3 ℝ →ₗ[ℝ] Vec 3 ℝ) (hL : IsIsometry L) (t : Vec 3 ℝ) (g : GMesh 3 ℝ) :
    computeMeasures3 (move L t g) = computeMeasures3 g := by
  have hf : ∀ ls i, faceMeasure3 (move L t g) ls i = faceMeasure3 g ls i := by
    intro ls i
    rw [faceMeasure3, faceMeasure3]
    show Res.bind (Res.at' (g.mesh.midElems 2) i) _ = _
    apply Res.bind_congr
    intro f _
    congr 1
    apply forEach_congr
    intro e
    rw [faceTerm, faceTerm]
    show (edgeEnds (g.mesh.mapV _) e).bind _ = _
    rw [edgeEnds_map, bind_assoc']
    apply Res.bind_congr
    intro p _
    simp only [Res.bind]
    have : [sub (L p.2 + t) (L p.1 + t), sub ((move L t g).faceCenter i) (L p.1 + t)] = [sub p.2 p.1, sub (g.faceCenter i) p.1].map L := by
      rw [sub_map]
      show [_, sub (L (g.faceCenter i) + t) _] = _
      rw [sub_map]; rfl
    rw [this, gs_map hL]
    cases gramSchmidtN [sub p.2 p.1, sub (g.faceCenter i) p.1] <;> rfl
  have hc : ∀ fs i, cellMeasure3 (move L t g) fs i = cellMeasure3 g fs i := by
    intro fs i
    rw [cellMeasure3, cellMeasure3]
    show Res.bind (Res.at' g.mesh.cells i) _ = _
    apply Res.bind_congr
    intro c _
    have e : cellTerm3 (move L t g) fs ((move L t g).cellCenter i) = cellTerm3 g fs (g.cellCenter i) := by
      funext f
      rw [cellTerm3, cellTerm3]
      show (firstEdge (g.mesh.mapV _) f).bind _ = _
      rw [firstEdge_map, bind_assoc']
      apply Res.bind_congr
      intro p _
      simp only [Res.bind]
      have : [sub (L p.1 + t) (L p.2 + t), sub (L p.1 + t) ((move L t g).faceCenter f), sub (L p.1 + t) ((move L t g).cellCenter i)] =
          [sub p.1 p.2, sub p.1 (g.faceCenter f), sub p.1 (g.cellCenter i)].map L := by
        rw [sub_map]
        show [_, sub _ (L (g.faceCenter f) + t), sub _ (L (g.cellCenter i) + t)] = _
        rw [sub_map, sub_map]; rfl
      rw [this, gs_map hL]
      cases gramSchmidtN [sub p.1 p.2, sub p.1 (g.faceCenter f), sub p.1 (g.cellCenter i)] <;> rfl
    rw [e]
    show ((g.mesh.mapV _).cellLoop _ _ _ ((g.mesh.mapV _).numFaces + 1) _).bind _ = _
    rw [Mesh.mapV_cellLoop, Mesh.mapV_numFaces]
  have hc' : ∀ fs, cellMeasure3 (move L t g) fs = cellMeasure3 g fs := fun fs => funext (hc fs)
  have hf' : ∀ ls, faceMeasure3 (move L t g) ls = faceMeasure3 g ls := fun ls => funext (hf ls)
  unfold computeMeasures3
  simp only [hc', hf']
  show (edgeMeasures (g.mesh.mapV _)).bind _ = _
  rw [edgeMeasures_move hL]
  rfl

/-- C39. In particular the measures do not change when the mesh is translated. -/
theorem C39_translation_3d (t : Vec 3 ℝ) (g : GMesh 3 ℝ) : computeMeasures3 (translate t g) = computeMeasures3 g :=
  C39_rigid_3d LinearMap.id (fun _ _ => rfl) t g

theorem C39_translation_2d (t : Vec 2 ℝ) (g : GMesh 2 ℝ) : computeMeasures2 (translate t g) = computeMeasures2 g :=
  C39_rigid_2d LinearMap.id (fun _ _ => rfl) t g

/-! ## Examples -/

/-- The unit square with the centers of its edges and triangles. -/
noncomputable def squareG : GMesh 2 ℝ where
  mesh := square
  faceCenter := fun e => mean [(ends square e).1, (ends square e).2]
  cellCenter := fun i => if i = 0 then ![2 / 3, 1 / 3] else ![1 / 3, 2 / 3]
  bCellCenter := 0

/-- Each half of the unit square has the area 1/2. -/
example : ∃ ls cs, computeMeasures2 squareG = .ok (ls, cs) ∧ cs[0]? = some (1 / 2 : ℝ) := by
  have hs : shoelace [squarePos 0, squarePos 1, squarePos 2] = 1 / 2 := by
    simp [shoelace, sidesOf, squarePos, List.rotate]
  obtain ⟨ls, cs, h1, h2⟩ := C39_shoelace squareG _ square_valid rfl 0 (by simp [squareG, square, twoTriangles]) [0, 1, 2]
    [squarePos 0, squarePos 1, squarePos 2] (by
      refine ⟨by simp, by simp [NoRepetition], by simp [NoRepetition, twoTrianglesBd], [0, 1, 2], ?_, ?_⟩
      · simp [twoTrianglesBd]
      · refine ⟨rfl, ?_⟩
        intro j hj
        have hj : j < 3 := hj
        interval_cases j
        · exact ⟨0, 0, 1, rfl, rfl, rfl, _, rfl, by decide⟩
        · exact ⟨1, 1, 2, rfl, rfl, rfl, _, rfl, by decide⟩
        · exact ⟨2, 2, 0, rfl, rfl, rfl, _, rfl, by decide⟩)
    (by repeat' constructor) (by
      left
      simp [sidesOf, List.rotate, turn, squarePos, squareG]
      norm_num)
  refine ⟨ls, cs, h1, ?_⟩
  rw [h2, hs, abs_of_pos (by norm_num)]

end GTMesh.Props
