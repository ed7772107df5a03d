import Verif.Proofs.Similar

/-! # C77: the geometry of a mesh that was moved, rotated, reflected or scaled -/

namespace GTMesh.Props
open GTMesh Spec Std' Vec Geo

variable {n : Nat}

/-- C77. In 2D all lengths are scaled by `s` and all areas by `s²`; whether something is thrown does not change. For every mesh, with any
centers. -/
theorem C77_measures_2d (s : ℝ) (hs : 0 < s) (L : Vec 2 ℝ →ₗ[ℝ] Vec 2 ℝ) (hL : IsIsometry L) (t : Vec 2 ℝ) (g : GMesh 2 ℝ) :
    computeMeasures2 (move (s • L) t g) = (computeMeasures2 g).bind fun r => .ok (r.1.map (s * ·), r.2.map (s ^ 2 * ·)) := by
  have hc : ∀ i, cellMeasure2 (move (s • L) t g) i = (cellMeasure2 g i).bind fun x => .ok (s ^ 2 * x) := by
    intro i
    rw [cellMeasure2, cellMeasure2]
    show Res.bind (Res.at' g.mesh.cells i) _ = _
    rw [bind_assoc']
    apply Res.bind_congr
    intro c _
    show ((g.mesh.mapV _).cellLoop _ _ _ ((g.mesh.mapV _).numFaces + 1) _).bind _ = _
    rw [Mesh.mapV_cellLoop, Mesh.mapV_numFaces, cellLoop_map g.mesh (fun e => (edgeEnds g.mesh e).bind fun p => .ok [triangle2 (g.cellCenter i) p.1 p.2]) _ (s ^ 2 * ·),
      bind_assoc', bind_assoc']
    · apply Res.bind_congr
      intro ts _
      simp only [Res.bind]
      rw [total_scale]
    · intro e
      show (edgeEnds (g.mesh.mapV _) e).bind _ = _
      rw [edgeEnds_map, bind_assoc', bind_assoc']
      apply Res.bind_congr
      intro p _
      simp only [Res.bind]
      show Res.ok [triangle2 ((s • L) (g.cellCenter i) + t) _ _] = _
      rw [triangle2_similar hL]
      rfl
  unfold computeMeasures2
  rw [forEach_mapR _ _ _ _ fun i _ => hc i]
  show (edgeMeasures (g.mesh.mapV _)).bind _ = _
  rw [edgeMeasures_similar hs hL, bind_assoc', bind_assoc']
  apply Res.bind_congr
  intro ls _
  simp only [Res.bind]
  show Res.bind (Res.bind (forEach (cellMeasure2 g) (List.range g.mesh.cells.length)) _) _ = _
  cases forEach (cellMeasure2 g) (List.range g.mesh.cells.length) <;> rfl

/-- C77. In 3D the lengths, areas and volumes are scaled by `s`, `s²`, `s³`. -/
theorem C77_measures_3d (s : ℝ) (hs : 0 < s) (L : Vec 3 ℝ →ₗ[ℝ] Vec 3 ℝ) (hL : IsIsometry L) (t : Vec 3 ℝ) (g : GMesh 3 ℝ) :
    computeMeasures3 (move (s • L) t g) =
      (computeMeasures3 g).bind fun r => .ok (r.1.map (s * ·), r.2.1.map (s ^ 2 * ·), r.2.2.map (s ^ 3 * ·)) := by
  have hf : ∀ ls i, faceMeasure3 (move (s • L) t g) (ls.map (s * ·)) i = (faceMeasure3 g ls i).bind fun x => .ok (s ^ 2 * x) := by
    intro ls i
    rw [faceMeasure3, faceMeasure3]
    show Res.bind (Res.at' (g.mesh.midElems 2) i) _ = _
    rw [bind_assoc']
    apply Res.bind_congr
    intro f _
    rw [forEach_mapR (faceTerm g ls (g.faceCenter i)) _ (s ^ 2 * ·), bind_assoc', bind_assoc']
    · apply Res.bind_congr
      intro ts _
      simp only [Res.bind]
      rw [total_scale]
    · intro e _
      rw [faceTerm, faceTerm]
      show (edgeEnds (g.mesh.mapV _) e).bind _ = _
      rw [edgeEnds_map, bind_assoc', bind_assoc']
      apply Res.bind_congr
      intro p _
      have : [sub ((s • L) p.2 + t) ((s • L) p.1 + t), sub ((move (s • L) t g).faceCenter i) ((s • L) p.1 + t)] =
          [sub p.2 p.1, sub (g.faceCenter i) p.1].map (s • L) := by
        rw [sub_map]
        show [_, sub ((s • L) (g.faceCenter i) + t) _] = _
        rw [sub_map]; rfl
      simp only [Res.bind, this, gs_similar hs hL]
      cases gramSchmidtN [sub p.2 p.1, sub (g.faceCenter i) p.1] <;> simp only [Res.bind]
      rename_i r
      rw [idx_mapR]
      cases Res.idx r.2 1 <;> simp only [Res.bind]
      rw [at_map]
      cases Res.at' ls e <;> simp only [Res.bind]
      congr 1
      ring
  have hc : ∀ fs i, cellMeasure3 (move (s • L) t g) (fs.map (s ^ 2 * ·)) i = (cellMeasure3 g fs i).bind fun x => .ok (s ^ 3 * x) := by
    intro fs i
    rw [cellMeasure3, cellMeasure3]
    show Res.bind (Res.at' g.mesh.cells i) _ = _
    rw [bind_assoc']
    apply Res.bind_congr
    intro c _
    show ((g.mesh.mapV _).cellLoop _ _ _ ((g.mesh.mapV _).numFaces + 1) _).bind _ = _
    rw [Mesh.mapV_cellLoop, Mesh.mapV_numFaces, cellLoop_map g.mesh (cellTerm3 g fs (g.cellCenter i)) _ (s ^ 3 * ·), bind_assoc', bind_assoc']
    · apply Res.bind_congr
      intro ts _
      simp only [Res.bind]
      rw [total_scale]
    · intro f
      rw [cellTerm3, cellTerm3]
      show (firstEdge (g.mesh.mapV _) f).bind _ = _
      rw [firstEdge_map, bind_assoc', bind_assoc']
      apply Res.bind_congr
      intro p _
      have : [sub ((s • L) p.1 + t) ((s • L) p.2 + t), sub ((s • L) p.1 + t) ((move (s • L) t g).faceCenter f),
          sub ((s • L) p.1 + t) ((move (s • L) t g).cellCenter i)] =
          [sub p.1 p.2, sub p.1 (g.faceCenter f), sub p.1 (g.cellCenter i)].map (s • L) := by
        rw [sub_map]
        show [_, sub _ ((s • L) (g.faceCenter f) + t), sub _ ((s • L) (g.cellCenter i) + t)] = _
        rw [sub_map, sub_map]; rfl
      simp only [Res.bind, this, gs_similar hs hL]
      cases gramSchmidtN [sub p.1 p.2, sub p.1 (g.faceCenter f), sub p.1 (g.cellCenter i)] <;> simp only [Res.bind]
      rename_i r
      rw [idx_mapR]
      cases Res.idx r.2 2 <;> simp only [Res.bind]
      rw [at_map]
      cases Res.at' fs f <;> simp only [Res.bind, List.map_cons, List.map_nil]
      congr 2
      ring
  unfold computeMeasures3
  show (edgeMeasures (g.mesh.mapV _)).bind _ = _
  rw [edgeMeasures_similar hs hL, bind_assoc', bind_assoc']
  apply Res.bind_congr
  intro ls _
  simp only [Res.bind]
  rw [forEach_mapR _ _ _ _ fun i _ => hf ls i]
  show Res.bind (Res.bind (forEach (faceMeasure3 g ls) (List.range (g.mesh.midElems 2).length)) _) _ = _
  cases forEach (faceMeasure3 g ls) (List.range (g.mesh.midElems 2).length) <;> simp only [Res.bind]
  rename_i fs
  rw [forEach_mapR _ _ _ _ fun i _ => hc fs i]
  show Res.bind (Res.bind (forEach (cellMeasure3 g fs) (List.range g.mesh.cells.length)) _) _ = _
  cases forEach (cellMeasure3 g fs) (List.range g.mesh.cells.length) <;> rfl

/-! ## Higher dimensions -/

theorem getCenters_map (f : Vec n ℝ → Vec n ℝ) (centers : List (List (Vec n ℝ))) (m : Mesh (Vec n ℝ)) : ∀ (d : Nat) (i : Idx),
    getCenters (centers.map fun l => l.map f) (m.mapV f) d i = (getCenters centers m d i).bind fun r => .ok (r.map f)
  | 0, _ => rfl
  | 1, i => by
    rw [getCenters, getCenters]
    show (Res.idx m.edges i).bind _ = _
    rw [bind_assoc']
    apply Res.bind_congr
    intro e _
    rw [Mesh.mapV_vertices, idx_mapR, idx_mapR]
    cases Res.idx m.vertices e.a <;> cases Res.idx m.vertices e.b <;> rfl
  | d + 2, i => by
    rw [getCenters, getCenters]
    have : (centers.map fun l => l.map f)[d + 1]?.getD [] = (centers[d + 1]?.getD []).map f := by
      rw [List.getElem?_map]; cases centers[d + 1]? <;> rfl
    rw [this, idx_mapR, bind_assoc', bind_assoc']
    apply Res.bind_congr
    intro c _
    simp only [Res.bind, Mesh.mapV_midElems]
    cases Res.idx (m.midElems (d + 2)) i <;> simp only []
    rename_i fa
    cases Res.idx fa.sub 0 <;> simp only []
    rw [getCenters_map f centers m (d + 1)]
    cases getCenters centers m (d + 1) _ <;> rfl

theorem spanVectors_map (M : Vec n ℝ →ₗ[ℝ] Vec n ℝ) (t : Vec n ℝ) (res : List (Vec n ℝ)) (p : Vec n ℝ) :
    spanVectors (res.map fun x => M x + t) (M p + t) = (spanVectors res p).map M := by
  cases res with
  | nil => rfl
  | cons r0 rs =>
    simp only [spanVectors, List.map_cons, List.map_map, List.map_append, List.map_nil]
    rw [sub_map]
    congr 1
    apply List.map_congr_left
    intro r _
    exact sub_map t r r0

theorem highMeasure_similar {s : ℝ} (hs : 0 < s) {L : Vec n ℝ →ₗ[ℝ] Vec n ℝ} (hL : IsIsometry L) (t : Vec n ℝ) (centers : List (List (Vec n ℝ)))
    (m : Mesh (Vec n ℝ)) (prev : List ℝ) (d : Nat) (hd : 1 ≤ d) (i : Idx) :
    highMeasure (centers.map fun l => l.map fun x => (s • L) x + t) (m.mapV fun x => (s • L) x + t) (prev.map (s ^ (d - 1) * ·)) d i =
      (highMeasure centers m prev d i).bind fun x => .ok (s ^ d * x) := by
  rw [highMeasure, highMeasure]
  have : (centers.map fun l => l.map fun x => (s • L) x + t)[d - 1]?.getD [] = (centers[d - 1]?.getD []).map fun x => (s • L) x + t := by
    rw [List.getElem?_map]; cases centers[d - 1]? <;> rfl
  rw [this, idx_mapR, bind_assoc', bind_assoc']
  apply Res.bind_congr
  intro c _
  rw [Mesh.mapV_applyOne]
  simp only [Res.bind]
  show Res.bind (m.applyOne d (d - 1) i) _ = Res.bind (Res.bind (m.applyOne d (d - 1) i) _) _
  rw [bind_assoc']
  apply Res.bind_congr
  intro subs _
  rw [forEach_mapR (highTerm centers m prev d c) _ (s ^ d * ·)]
  · show Res.bind (Res.bind (forEach _ subs) _) _ = Res.bind (Res.bind (forEach _ subs) _) _
    rw [bind_assoc', bind_assoc']
    apply Res.bind_congr
    intro ts _
    simp only [Res.bind]
    rw [total_scale]
    congr 1
    ring
  · intro a _
    rw [highTerm, highTerm, getCenters_map, bind_assoc', bind_assoc']
    apply Res.bind_congr
    intro res _
    simp only [Res.bind]
    rw [spanVectors_map, gs_similar hs hL]
    cases gramSchmidtN (spanVectors res c) <;> simp only [Res.bind]
    rename_i r
    rw [idx_mapR]
    cases Res.idx r.2 (d - 1) <;> simp only [Res.bind]
    rw [idx_mapR]
    cases Res.idx prev a <;> simp only [Res.bind]
    obtain ⟨k, rfl⟩ : ∃ k, d = k + 1 := ⟨d - 1, by omega⟩
    congr 1
    rw [Nat.add_sub_cancel, pow_succ]
    ring

/-- The measures of the dimensions from `d` on, scaled with the power of the dimension. -/
def scaled (s : ℝ) : Nat → List (List ℝ) → List (List ℝ)
  | _, [] => []
  | d, l :: ls => l.map (s ^ d * ·) :: scaled s (d + 1) ls

theorem measuresFrom_similar {s : ℝ} (hs : 0 < s) {L : Vec n ℝ →ₗ[ℝ] Vec n ℝ} (hL : IsIsometry L) (t : Vec n ℝ) (centers : List (List (Vec n ℝ)))
    (m : Mesh (Vec n ℝ)) : ∀ (k d : Nat) (prev : List ℝ), 1 ≤ d →
    measuresFrom (centers.map fun l => l.map fun x => (s • L) x + t) (m.mapV fun x => (s • L) x + t) d (prev.map (s ^ (d - 1) * ·)) k =
      (measuresFrom centers m d prev k).bind fun ms => .ok (scaled s d ms) := by
  intro k
  induction k with
  | zero => intro d prev _; rfl
  | succ k ih =>
    intro d prev hd
    rw [measuresFrom, measuresFrom, forEach_mapR _ _ _ _ fun i _ => highMeasure_similar hs hL t centers m prev d hd i, Mesh.mapV_numElems,
      bind_assoc', bind_assoc']
    apply Res.bind_congr
    intro cur _
    simp only [Res.bind]
    have := ih (d + 1) cur (by omega)
    rw [Nat.add_sub_cancel] at this
    rw [this]
    cases measuresFrom centers m (d + 1) cur k <;> rfl

theorem scaled_get (s : ℝ) : ∀ (ms : List (List ℝ)) (d k : Nat), (scaled s d ms)[k]? = (ms[k]?).map fun l => l.map (s ^ (d + k) * ·) := by
  intro ms
  induction ms with
  | nil => intro d k; simp [scaled]
  | cons l ls ih =>
    intro d k
    cases k with
    | zero => simp [scaled]
    | succ k => simp [scaled, ih, Nat.add_right_comm, Nat.add_assoc]

/-- C77. In any dimension the measures of the elements of the dimension `d` are scaled by `s^d`. -/
theorem C77_measures_high (s : ℝ) (hs : 0 < s) (L : Vec n ℝ →ₗ[ℝ] Vec n ℝ) (hL : IsIsometry L) (t : Vec n ℝ) (centers : List (List (Vec n ℝ)))
    (m : Mesh (Vec n ℝ)) (ms : List (List ℝ)) (h : computeMeasuresHigh centers m = .ok ms) :
    ∃ ms', computeMeasuresHigh (centers.map fun l => l.map fun x => (s • L) x + t) (m.mapV fun x => (s • L) x + t) = .ok ms' ∧
      ∀ k : Nat, ms'[k]? = (ms[k]?).map fun l => l.map (s ^ (k + 1) * ·) := by
  have key : computeMeasuresHigh (centers.map fun l => l.map fun x => (s • L) x + t) (m.mapV fun x => (s • L) x + t) =
      (computeMeasuresHigh centers m).bind fun ms => .ok (scaled s 1 ms) := by
    rw [computeMeasuresHigh, computeMeasuresHigh, edgeMeasures_similar hs hL, bind_assoc', bind_assoc']
    apply Res.bind_congr
    intro ls _
    have := measuresFrom_similar hs hL t centers m (m.dim - 1) 2 ls (by omega)
    simp only [Nat.add_one_sub_one, pow_one] at this
    simp only [Res.bind, Mesh.mapV_dim, this]
    cases measuresFrom centers m 2 ls (m.dim - 1) <;> simp [scaled]
  rw [key, h]
  exact ⟨_, rfl, fun k => by rw [scaled_get, Nat.add_comm]⟩

/-! ## Normals -/

/-- C77. The normals in 3D turn with the mesh: the unit vectors are mapped by `L`, the factor does not matter. -/
theorem C77_normals_3d (s : ℝ) (hs : 0 < s) (L : Vec 3 ℝ →ₗ[ℝ] Vec 3 ℝ) (hL : IsIsometry L) (t : Vec 3 ℝ) (g : GMesh 3 ℝ) :
    computeFaceNormals3 (move (s • L) t g) = (computeFaceNormals3 g).bind fun ns => .ok (ns.map L) := by
  unfold computeFaceNormals3
  apply forEach_mapR
  intro i _
  rw [normal3, normal3]
  show Res.bind (Res.at' (g.mesh.midElems 2) i) _ = _
  rw [bind_assoc']
  apply Res.bind_congr
  intro f _
  show Res.bind (Res.at' g.mesh.cells _) _ = _
  rw [bind_assoc']
  apply Res.bind_congr
  intro c _
  show Res.bind (firstEdge (g.mesh.mapV _) i) _ = _
  rw [firstEdge_map, bind_assoc', bind_assoc']
  apply Res.bind_congr
  intro p _
  have : [sub ((move (s • L) t g).faceCenter i) ((s • L) p.1 + t), sub ((move (s • L) t g).faceCenter i) ((s • L) p.2 + t),
      sub ((move (s • L) t g).faceCenter i) ((move (s • L) t g).cellCenter (directionCell ℝ f.conn).2)] =
      [sub (g.faceCenter i) p.1, sub (g.faceCenter i) p.2, sub (g.faceCenter i) (g.cellCenter (directionCell ℝ f.conn).2)].map (s • L) := by
    show [sub ((s • L) (g.faceCenter i) + t) _, sub ((s • L) (g.faceCenter i) + t) _, sub ((s • L) (g.faceCenter i) + t) ((s • L) (g.cellCenter _) + t)] = _
    rw [sub_map, sub_map, sub_map]; rfl
  simp only [Res.bind, this, gs_similar hs hL]
  cases gramSchmidtN [sub (g.faceCenter i) p.1, sub (g.faceCenter i) p.2, sub (g.faceCenter i) (g.cellCenter (directionCell ℝ f.conn).2)] <;>
    simp only [Res.bind]
  rename_i r
  rw [idx_mapR]
  cases Res.idx r.1 2 <;> simp only [Res.bind]
  rw [smul_eq, smul_eq, map_smul]

theorem foldl_addAssign (ts : List (ℝ × Vec n ℝ)) : ∀ acc : Vec n ℝ, ts.foldl (fun acc t => addAssign acc (.other t.2)) acc = acc + (ts.map (·.2)).sum := by
  induction ts with
  | nil => intro acc; simp
  | cons a ts ih => intro acc; rw [List.foldl_cons, ih, addAssign_eq, Operand.get, List.map_cons, List.sum_cons, add_assoc]

theorem foldl_fst (ts : List (ℝ × Vec n ℝ)) : ∀ acc : ℝ, ts.foldl (fun acc t => acc + t.1) acc = acc + (ts.map (·.1)).sum := by
  induction ts with
  | nil => intro acc; simp
  | cons a ts ih => intro acc; rw [List.foldl_cons, ih, List.map_cons, List.sum_cons, add_assoc]

/-- C77. The same for the tessellated version. -/
theorem C77_normals_tessellated (s : ℝ) (hs : 0 < s) (L : Vec 3 ℝ →ₗ[ℝ] Vec 3 ℝ) (hL : IsIsometry L) (t : Vec 3 ℝ) (g : GMesh 3 ℝ) (i : Idx) :
    normal3Tess (move (s • L) t g) i = (normal3Tess g i).bind fun ν => .ok (L ν) := by
  rw [normal3Tess, normal3Tess]
  show Res.bind (Res.at' (g.mesh.midElems 2) i) _ = _
  rw [bind_assoc']
  apply Res.bind_congr
  intro f _
  show Res.bind (Res.at' g.mesh.cells _) _ = _
  rw [bind_assoc']
  apply Res.bind_congr
  intro c _
  show Res.bind ((g.mesh.mapV _).applyOne 2 1 i) _ = _
  rw [Mesh.mapV_applyOne, bind_assoc']
  apply Res.bind_congr
  intro es _
  rw [forEach_mapR (tessNormalTerm g (g.faceCenter i) (g.cellCenter (directionCell ℝ f.conn).2)) _ fun q => (s ^ 2 * q.1, (s ^ 2) • L q.2)]
  · rw [bind_assoc', bind_assoc']
    apply Res.bind_congr
    intro ts _
    simp only [Res.bind]
    have e1 : ((ts.map fun q => (s ^ 2 * q.1, (s ^ 2) • L q.2)).map (·.2)).sum = (s ^ 2) • L (ts.map (·.2)).sum := by
      rw [List.map_map]
      clear * -
      induction ts with
      | nil => simp
      | cons q ts ih => rw [List.map_cons, List.sum_cons, List.map_cons, List.sum_cons, ih, map_add, smul_add]; rfl
    have e2 : ((ts.map fun q => (s ^ 2 * q.1, (s ^ 2) • L q.2)).map (·.1)).sum = s ^ 2 * (ts.map (·.1)).sum := by
      rw [List.map_map, ← List.sum_map_mul_left]; rfl
    have hs2 : s ^ 2 ≠ 0 := (pow_pos hs 2).ne'
    rw [foldl_addAssign, foldl_addAssign, foldl_fst, foldl_fst, e1, e2, zero_add, zero_add, zero_add, zero_add, divAssign_eq, divAssign_eq, Factor.get,
      Factor.get, smul_smul, mul_inv, mul_comm (s ^ 2)⁻¹, mul_assoc, inv_mul_cancel₀ hs2, mul_one]
    congr 1
    split
    · rw [smulAssign_eq, smulAssign_eq, map_smul, map_smul]
    · rw [map_smul]
  · intro e _
    rw [tessNormalTerm, tessNormalTerm]
    show (edgeEnds (g.mesh.mapV _) e).bind _ = _
    rw [edgeEnds_map, bind_assoc', bind_assoc']
    apply Res.bind_congr
    intro p _
    have : [sub ((move (s • L) t g).faceCenter i) ((s • L) p.1 + t), sub ((move (s • L) t g).faceCenter i) ((s • L) p.2 + t),
        sub ((move (s • L) t g).faceCenter i) ((move (s • L) t g).cellCenter (directionCell ℝ f.conn).2)] =
        [sub (g.faceCenter i) p.1, sub (g.faceCenter i) p.2, sub (g.faceCenter i) (g.cellCenter (directionCell ℝ f.conn).2)].map (s • L) := by
      show [sub ((s • L) (g.faceCenter i) + t) _, sub ((s • L) (g.faceCenter i) + t) _, sub ((s • L) (g.faceCenter i) + t) ((s • L) (g.cellCenter _) + t)] = _
      rw [sub_map, sub_map, sub_map]; rfl
    simp only [Res.bind, this, gs_similar hs hL]
    cases gramSchmidtN [sub (g.faceCenter i) p.1, sub (g.faceCenter i) p.2, sub (g.faceCenter i) (g.cellCenter (directionCell ℝ f.conn).2)] <;>
      simp only [Res.bind]
    rename_i r
    rw [idx_mapR]
    cases Res.idx r.1 2 <;> simp only [Res.bind]
    rw [idx_mapR]
    cases Res.idx r.2 0 <;> simp only [Res.bind]
    rw [idx_mapR]
    cases Res.idx r.2 1 <;> simp only [Res.bind]
    simp only [smul_eq, map_smul, smul_smul]
    congr 2
    · ring
    · congr 1; ring

/-- C77. And for the version for higher dimensions. -/
theorem C77_normals_high (s : ℝ) (hs : 0 < s) (L : Vec n ℝ →ₗ[ℝ] Vec n ℝ) (hL : IsIsometry L) (t : Vec n ℝ) (centers : List (List (Vec n ℝ)))
    (m : Mesh (Vec n ℝ)) (i : Idx) :
    normalHigh (centers.map fun l => l.map fun x => (s • L) x + t) (m.mapV fun x => (s • L) x + t) i =
      (normalHigh centers m i).bind fun ν => .ok (L ν) := by
  rw [normalHigh, normalHigh]
  show Res.bind (Res.at' (m.midElems (m.dim - 1)) i) _ = _
  rw [bind_assoc']
  apply Res.bind_congr
  intro f _
  have : (centers.map fun l => l.map fun x => (s • L) x + t)[(m.mapV fun x => (s • L) x + t).dim - 1]?.getD [] =
      (centers[m.dim - 1]?.getD []).map fun x => (s • L) x + t := by
    rw [Mesh.mapV_dim, List.getElem?_map]; cases centers[m.dim - 1]? <;> rfl
  rw [this, at_map, bind_assoc', bind_assoc']
  apply Res.bind_congr
  intro cc _
  simp only [Res.bind, getCenters_map, Mesh.mapV_dim]
  cases getCenters centers m (m.dim - 1) i <;> simp only [Res.bind]
  rename_i res
  rw [spanVectors_map, gs_similar hs hL]
  cases gramSchmidtN (spanVectors res cc) <;> simp only [Res.bind]
  rename_i r
  rw [idx_mapR]
  cases Res.idx r.1 (m.dim - 1) <;> simp only [Res.bind]
  rw [smul_eq, smul_eq, map_smul]

/-- The determinant of a linear map of the plane. -/
def det2 (L : Vec 2 ℝ →ₗ[ℝ] Vec 2 ℝ) : ℝ := L ![1, 0] 0 * L ![0, 1] 1 - L ![0, 1] 0 * L ![1, 0] 1

theorem lin2 (L : Vec 2 ℝ →ₗ[ℝ] Vec 2 ℝ) (x : Vec 2 ℝ) (j : Fin 2) : L x j = x 0 * L ![1, 0] j + x 1 * L ![0, 1] j := by
  have : x = x 0 • ![1, 0] + x 1 • ![0, 1] := by
    funext i; fin_cases i <;> simp
  conv_lhs => rw [this]
  rw [map_add, map_smul, map_smul]; simp

theorem isometry2 {L : Vec 2 ℝ →ₗ[ℝ] Vec 2 ℝ} (hL : IsIsometry L) :
    L ![1, 0] 0 ^ 2 + L ![1, 0] 1 ^ 2 = 1 ∧ L ![0, 1] 0 ^ 2 + L ![0, 1] 1 ^ 2 = 1 ∧ L ![1, 0] 0 * L ![0, 1] 0 + L ![1, 0] 1 * L ![0, 1] 1 = 0 := by
  have h1 := hL ![1, 0] ![1, 0]
  have h2 := hL ![0, 1] ![0, 1]
  have h3 := hL ![1, 0] ![0, 1]
  simp only [dot2] at h1 h2 h3
  simp at h1 h2 h3
  exact ⟨by nlinarith, by nlinarith, by linarith⟩

/-- C77. In 2D a rotation turns the normals with the mesh, and a reflection moreover changes their direction: the normal is always on
the right of the direction of the edge. -/
theorem C77_normals_2d (s : ℝ) (hs : 0 < s) (L : Vec 2 ℝ →ₗ[ℝ] Vec 2 ℝ) (hL : IsIsometry L) (t : Vec 2 ℝ) (m : Mesh (Vec 2 ℝ)) :
    computeFaceNormals2 (m.mapV fun x => (s • L) x + t) = (computeFaceNormals2 m).bind fun ns => .ok (ns.map fun ν => det2 L • L ν) := by
  unfold computeFaceNormals2
  apply forEach_mapR
  intro e _
  rw [normal2, normal2, edgeEnds_map, bind_assoc', bind_assoc']
  apply Res.bind_congr
  intro p _
  simp only [Res.bind]
  rw [sub_map, norm_similar hs hL, divAssign_eq, divAssign_eq, Factor.get, Factor.get]
  generalize sub p.2 p.1 = d
  obtain ⟨h1, h2, h3⟩ := isometry2 hL
  have hs' := hs.ne'
  congr 1
  rw [map_smul, smul_smul, mul_comm (det2 L), ← smul_smul, mul_inv, mul_comm s⁻¹, ← smul_smul]
  congr 1
  funext j
  simp only [LinearMap.smul_apply, Pi.smul_apply, smul_eq_mul, store, raw]
  rw [lin2 L (fun i => _) j, lin2 L d 0, lin2 L d 1, det2]
  fin_cases j <;> simp [store] <;>
  generalize L ![1, 0] 0 = a at * <;>
  generalize L ![1, 0] 1 = c at * <;>
  generalize L ![0, 1] 0 = b at * <;>
  generalize L ![0, 1] 1 = e at *
  · rw [inv_mul_cancel_left₀ hs']
    linear_combination d 0 * (e * h3 - c * h2) + d 1 * (c * h3 - e * h1)
  · rw [inv_mul_cancel_left₀ hs']
    linear_combination d 0 * (a * h2 - b * h3) + d 1 * (b * h1 - a * h3)

/-! ## Distances and differences -/

theorem innerCenter_move (M : Vec n ℝ →ₗ[ℝ] Vec n ℝ) (t : Vec n ℝ) (g : GMesh n ℝ) (c : Idx) :
    innerCenter (move M t g) c = (innerCenter g c).bind fun x => .ok (M x + t) := by
  unfold innerCenter
  show Res.bind (Res.at' g.mesh.cells c) _ = _
  rw [bind_assoc']; rfl

theorem sideCenter_move (M : Vec n ℝ →ₗ[ℝ] Vec n ℝ) (t : Vec n ℝ) (g : GMesh n ℝ) (c : Idx) :
    sideCenter (move M t g) c = (sideCenter g c).bind fun x => .ok (M x + t) := by
  unfold sideCenter
  split
  · show Res.bind (Res.at' g.mesh.bCells _) _ = _
    rw [bind_assoc']; rfl
  · show Res.bind (Res.at' g.mesh.cells _) _ = _
    rw [bind_assoc']; rfl

/-- C77. The distances are scaled by `s`. -/
theorem C77_distances (s : ℝ) (hs : 0 < s) (L : Vec n ℝ →ₗ[ℝ] Vec n ℝ) (hL : IsIsometry L) (t : Vec n ℝ) (g : GMesh n ℝ) :
    computeCellsDistance (move (s • L) t g) = (computeCellsDistance g).bind fun ds => .ok (ds.map (s * ·)) := by
  unfold computeCellsDistance
  rw [show (move (s • L) t g).mesh.numFaces = g.mesh.numFaces from Mesh.mapV_numFaces _ _]
  apply forEach_mapR
  intro i _
  rw [show (move (s • L) t g).mesh.faceConn i = g.mesh.faceConn i from Mesh.mapV_faceConn _ _ _]
  rw [bind_assoc']
  apply Res.bind_congr
  intro c _
  have two : ∀ x y : Res (Vec n ℝ), ((x.bind fun a => .ok ((s • L) a + t)).bind fun P => (y.bind fun a => .ok ((s • L) a + t)).bind fun Q =>
      Res.ok (Vec.norm (sub P Q))) = (x.bind fun P => y.bind fun Q => Res.ok (Vec.norm (sub P Q))).bind fun d => .ok (s * d) := by
    intro x y
    cases x <;> simp only [Res.bind]
    cases y <;> simp only []
    rw [sub_map, norm_similar hs hL]
  have one : ∀ (x : Res (Vec n ℝ)) (q : Vec n ℝ), ((x.bind fun a => .ok ((s • L) a + t)).bind fun P => Res.ok (Vec.norm (sub P ((s • L) q + t)))) =
      (x.bind fun P => Res.ok (Vec.norm (sub P q))).bind fun d => .ok (s * d) := by
    intro x q
    cases x <;> simp only [Res.bind]
    rw [sub_map, norm_similar hs hL]
  unfold cellsDistance
  simp only [innerCenter_move, sideCenter_move, two]
  show (if g.mesh.bCells.isEmpty = true then _ else _) = _
  have hf : (move (s • L) t g).faceCenter i = (s • L) (g.faceCenter i) + t := rfl
  simp only [hf, one]
  repeat' split
  all_goals first | rfl | simp

/-- C77. The differences are mapped like the differences of two points. This holds for every affine map. -/
theorem C77_differences (M : Vec n ℝ →ₗ[ℝ] Vec n ℝ) (t : Vec n ℝ) (g : GMesh n ℝ) :
    computeCellsCenterDifference (move M t g) = (computeCellsCenterDifference g).bind fun ds => .ok (ds.map M) := by
  unfold computeCellsCenterDifference
  rw [show (move M t g).mesh.numFaces = g.mesh.numFaces from Mesh.mapV_numFaces _ _]
  apply forEach_mapR
  intro i _
  rw [show (move M t g).mesh.faceConn i = g.mesh.faceConn i from Mesh.mapV_faceConn _ _ _]
  rw [bind_assoc']
  apply Res.bind_congr
  intro c _
  have two : ∀ x y : Res (Vec n ℝ), ((x.bind fun a => .ok (M a + t)).bind fun P => (y.bind fun a => .ok (M a + t)).bind fun Q =>
      Res.ok (sub P Q)) = (x.bind fun P => y.bind fun Q => Res.ok (sub P Q)).bind fun d => .ok (M d) := by
    intro x y
    cases x <;> simp only [Res.bind]
    cases y <;> simp only []
    rw [sub_map]
  have two' : ∀ x y : Res (Vec n ℝ), ((x.bind fun a => .ok (M a + t)).bind fun P => (y.bind fun a => .ok (M a + t)).bind fun Q =>
      Res.ok (sub Q P)) = (x.bind fun P => y.bind fun Q => Res.ok (sub Q P)).bind fun d => .ok (M d) := by
    intro x y
    cases x <;> simp only [Res.bind]
    cases y <;> simp only []
    rw [sub_map]
  have one : ∀ (x : Res (Vec n ℝ)) (q : Vec n ℝ), ((x.bind fun a => .ok (M a + t)).bind fun P => Res.ok (sub (M q + t) P)) =
      (x.bind fun P => Res.ok (sub q P)).bind fun d => .ok (M d) := by
    intro x q
    cases x <;> simp only [Res.bind]
    rw [sub_map]
  unfold centerDifference
  simp only [innerCenter_move, sideCenter_move, two, two']
  show (if g.mesh.bCells.isEmpty = true then _ else _) = _
  have hf : (move M t g).faceCenter i = M (g.faceCenter i) + t := rfl
  simp only [hf, one]
  repeat' split
  all_goals first | rfl | simp

/-! ## Orientation -/

theorem edgeIsLeft2_similar {s : ℝ} (hs : 0 < s) {L : Vec 2 ℝ →ₗ[ℝ] Vec 2 ℝ} (hd : 0 < det2 L) (t c a b : Vec 2 ℝ) :
    edgeIsLeft2 ((s • L) c + t) ((s • L) a + t) ((s • L) b + t) = edgeIsLeft2 c a b := by
  unfold edgeIsLeft2
  simp only [sub_map]
  generalize sub a c = x
  generalize sub b c = y
  have : (s • L) x 0 * (s • L) y 1 - (s • L) y 0 * (s • L) x 1 = s ^ 2 * det2 L * (x 0 * y 1 - y 0 * x 1) := by
    simp only [LinearMap.smul_apply, Pi.smul_apply, smul_eq_mul]
    rw [lin2 L x 0, lin2 L x 1, lin2 L y 0, lin2 L y 1, det2]
    ring
  rw [this]
  exact decide_eq_decide.mpr (mul_pos_iff_of_pos_left (mul_pos (pow_pos hs 2) hd))

/-- C77. Whether an edge of a 2D cell runs counterclockwise does not change when the mesh is moved, turned or scaled, and in fact under any
affine map which preserves the orientation of the plane. -/
theorem C77_orientation_2d (s : ℝ) (hs : 0 < s) (L : Vec 2 ℝ →ₗ[ℝ] Vec 2 ℝ) (hd : 0 < det2 L) (t : Vec 2 ℝ) (g : GMesh 2 ℝ) (c e : Idx) :
    edgeIsLeft2At (move (s • L) t g) c e = edgeIsLeft2At g c e := by
  unfold edgeIsLeft2At
  show Res.bind (Res.at' g.mesh.edges e) _ = _
  apply Res.bind_congr
  intro _ _
  show Res.bind (Res.at' g.mesh.cells c) _ = _
  apply Res.bind_congr
  intro _ _
  show (edgeEnds (g.mesh.mapV _) e).bind _ = _
  rw [edgeEnds_map, bind_assoc']
  apply Res.bind_congr
  intro p _
  exact congrArg Res.ok (edgeIsLeft2_similar hs hd t (g.cellCenter c) p.1 p.2)

/-- The triple product. -/
def triple (x y z : Vec 3 ℝ) : ℝ :=
  x 0 * (y 1 * z 2 - y 2 * z 1) - x 1 * (y 0 * z 2 - y 2 * z 0) + x 2 * (y 0 * z 1 - y 1 * z 0)

/-- The determinant of a linear map of the space. -/
def det3 (L : Vec 3 ℝ →ₗ[ℝ] Vec 3 ℝ) : ℝ := triple (L ![1, 0, 0]) (L ![0, 1, 0]) (L ![0, 0, 1])

theorem lin3 (L : Vec 3 ℝ →ₗ[ℝ] Vec 3 ℝ) (x : Vec 3 ℝ) (j : Fin 3) :
    L x j = x 0 * L ![1, 0, 0] j + x 1 * L ![0, 1, 0] j + x 2 * L ![0, 0, 1] j := by
  have : x = x 0 • ![1, 0, 0] + x 1 • ![0, 1, 0] + x 2 • ![0, 0, 1] := by
    funext i; fin_cases i <;> simp
  conv_lhs => rw [this]
  rw [map_add, map_add, map_smul, map_smul, map_smul]; simp

theorem triple_map (L : Vec 3 ℝ →ₗ[ℝ] Vec 3 ℝ) (x y z : Vec 3 ℝ) : triple (L x) (L y) (L z) = det3 L * triple x y z := by
  unfold det3 triple
  rw [lin3 L x 0, lin3 L x 1, lin3 L x 2, lin3 L y 0, lin3 L y 1, lin3 L y 2, lin3 L z 0, lin3 L z 1, lin3 L z 2]
  ring

theorem edgeIsLeft3_triple (C A B N : Vec 3 ℝ) : edgeIsLeft3 C A B N = decide (0 < triple (sub A C) (sub B C) N) := by
  unfold edgeIsLeft3 triple
  generalize sub A C = x
  generalize sub B C = y
  have : (List.finRange 3).foldl (fun res i => res + (x i * y (i + 1) * N (i + 2) - x (i + 2) * y (i + 1) * N i)) 0 =
      x 0 * (y 1 * N 2 - y 2 * N 1) - x 1 * (y 0 * N 2 - y 2 * N 0) + x 2 * (y 0 * N 1 - y 1 * N 0) := by
    have e : List.finRange 3 = [0, 1, 2] := by decide
    rw [e]
    show 0 + (x 0 * y 1 * N 2 - x 2 * y 1 * N 0) + (x 1 * y 2 * N 0 - x 0 * y 2 * N 1) + (x 2 * y 0 * N 1 - x 1 * y 0 * N 2) = _
    ring
  simp only [this]

theorem edgeIsLeft3_similar {s : ℝ} (hs : 0 < s) {L : Vec 3 ℝ →ₗ[ℝ] Vec 3 ℝ} (hd : 0 < det3 L) (t C A B N : Vec 3 ℝ) :
    edgeIsLeft3 ((s • L) C + t) ((s • L) A + t) ((s • L) B + t) (L N) = edgeIsLeft3 C A B N := by
  rw [edgeIsLeft3_triple, edgeIsLeft3_triple, sub_map, sub_map]
  generalize sub A C = x
  generalize sub B C = y
  have : triple ((s • L) x) ((s • L) y) (L N) = s ^ 2 * det3 L * triple x y N := by
    rw [mul_assoc, ← triple_map]
    simp only [triple, LinearMap.smul_apply, Pi.smul_apply, smul_eq_mul]
    ring
  rw [this]
  exact decide_eq_decide.mpr (mul_pos_iff_of_pos_left (mul_pos (pow_pos hs 2) hd))

/-- C77. The orientations of all edges of all faces of a 3D mesh are the same after the mesh was moved, turned and scaled. -/
theorem C77_orientation_3d (s : ℝ) (hs : 0 < s) (L : Vec 3 ℝ →ₗ[ℝ] Vec 3 ℝ) (hL : IsIsometry L) (hd : 0 < det3 L) (t : Vec 3 ℝ) (g : GMesh 3 ℝ) :
    edgesOrientation (move (s • L) t g) = edgesOrientation g := by
  unfold edgesOrientation
  rw [C77_normals_3d s hs L hL, bind_assoc']
  apply Res.bind_congr
  intro ns _
  simp only [Res.bind]
  apply forEach_congr
  intro i
  rw [idx_mapR]
  cases Res.idx ns i <;> simp only [Res.bind]
  unfold faceOrientations
  show Res.bind (Res.at' (g.mesh.midElems 2) i) _ = _
  apply Res.bind_congr
  intro f _
  apply forEach_congr
  intro e
  show (edgeEnds (g.mesh.mapV _) e).bind _ = _
  rw [edgeEnds_map, bind_assoc']
  apply Res.bind_congr
  intro p _
  exact congrArg Res.ok (edgeIsLeft3_similar hs hd t (g.faceCenter i) p.1 p.2 _)

end GTMesh.Props
