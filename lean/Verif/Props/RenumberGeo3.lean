import Verif.Props.RenumberGeo

/-!
# C72: the numbers of the elements do not matter (3D, higher dimensions, normals, distances)
-/

namespace GTMesh.Props
open GTMesh Spec Std' Vec Geo
variable {n : Nat} {F : Type} {ρ : Nat → Equiv.Perm Nat}

section three
variable {g g' : GMesh 3 F}

theorem rn_mid2 {V : Type} {m m' : Mesh V} (h : Renumbered ρ m m') (h3 : 3 ≤ m.dim) (i : Idx) :
    Res.at' (m'.midElems 2) (ρ 2 i) = (Res.at' (m.midElems 2) i).rmap (renameFace (ρ 2) (ρ 1) (ρ m.dim) (ρ (m.dim - 1))) :=
  Res.at'_map (h.mids 2 i le_rfl (by omega))

theorem rn_mid2_length {V : Type} {m m' : Mesh V} (h : Renumbered ρ m m') (h3 : 3 ≤ m.dim) :
    (m'.midElems 2).length = (m.midElems 2).length :=
  length_of_carried (rn_fixed h (d := 2) (by omega) (Renumbered.numMids le_rfl (by omega))) fun i => h.mids 2 i le_rfl (by omega)

theorem rn_cells_length {V : Type} {m m' : Mesh V} (h : Renumbered ρ m m') : m'.cells.length = m.cells.length :=
  length_of_carried (rn_fixed h (d := m.dim) le_rfl Renumbered.numCells) h.cells

theorem rn_firstEdge {m m' : Mesh (Vec n F)} (h : Renumbered ρ m m') (h3 : 3 ≤ m.dim) (i : Idx) :
    firstEdge m' (ρ 2 i) = firstEdge m i := by
  unfold firstEdge
  refine Res.bind_same (rn_mid2 h h3 i) fun f => ?_
  refine Res.bind_same (Res.idx_map (f := ρ 1) (i := 0) (l := f.sub) ?_) fun e => rn_edgeEnds h e
  simp [renameFace]

variable [Add F] [Sub F] [Mul F] [Zero F] [One F] [Div F] [NatCast F] [HasSqrt F]

omit [Add F] [Sub F] [Mul F] [Zero F] [One F] [Div F] [NatCast F] [HasSqrt F] in
theorem rn_rmap_list {α : Type} (r : Res (List α)) : r.rmap (List.map fun a => a) = r := by cases r <;> simp

theorem rn_faceMeasure3 (h : RenumberedG ρ g g') (h3 : g.mesh.dim = 3) {ls ls' : List F} (hl : Carried (ρ 1) ls ls') (i : Idx) :
    faceMeasure3 g' ls' (ρ 2 i) = faceMeasure3 g ls i := by
  have hc := h.faceCenter i
  rw [h3] at hc
  unfold faceMeasure3
  refine Res.bind_same (rn_mid2 h.mesh (by omega) i) fun f => ?_
  simp only [renameFace]
  rw [forEach_map' (body := faceTerm g ls (g.faceCenter i))]
  intro e
  unfold faceTerm
  rw [rn_edgeEnds h.mesh, Res.at'_same (hl e), hc]

theorem rn_cellMeasure3 (h : RenumberedG ρ g g') (h3 : g.mesh.dim = 3) {as as' : List F} (ha : Carried (ρ 2) as as') (i : Idx) :
    cellMeasure3 g' as' (ρ 3 i) = cellMeasure3 g as i := by
  have hc := h.mesh.cells i
  have hcc := h.cellCenter i
  rw [h3] at hc hcc
  unfold cellMeasure3
  refine Res.bind_same (Res.at'_map hc) fun c => ?_
  have hl := h.mesh.cellLoop (g := fun a : F => a) (body := cellTerm3 g as (g.cellCenter i))
    (body' := cellTerm3 g' as' (g'.cellCenter (ρ 3 i)))
    (by
      intro f
      have hf := h.faceCenter f
      rw [h3] at hf ⊢
      show cellTerm3 g' as' _ (ρ 2 f) = _
      unfold cellTerm3
      rw [rn_firstEdge h.mesh (by omega), hcc, hf, Res.at'_same (ha f)]
      exact (rn_rmap_list _).symm) i c.bElem (g.mesh.numFaces + 1) c.bElem
  rw [h3] at hl
  simp only [renameCell, h.mesh.numFaces]
  refine Res.bind_same hl fun ts => ?_
  simp

/-- C72. The lengths, areas and volumes of a 3D mesh. -/
theorem C72_measures_3d (h : RenumberedG ρ g g') (h3 : g.mesh.dim = 3) (ls as vs : List F) (hm : computeMeasures3 g = .ok (ls, as, vs)) :
    ∃ ls' as' vs', computeMeasures3 g' = .ok (ls', as', vs') ∧ Carried (ρ 1) ls ls' ∧ Carried (ρ 2) as as' ∧ Carried (ρ 3) vs vs' := by
  unfold computeMeasures3 at hm
  cases e1 : edgeMeasures g.mesh <;> rw [e1] at hm <;> simp only [Res.bind, reduceCtorEq] at hm
  rename_i l0
  obtain ⟨ls', c1, c2⟩ := rn_edgeMeasures h.mesh e1
  cases e2 : forEach (faceMeasure3 g l0) (List.range (g.mesh.midElems 2).length) <;> rw [e2] at hm <;> simp only [reduceCtorEq] at hm
  rename_i a0
  cases e3 : forEach (cellMeasure3 g a0) (List.range g.mesh.cells.length) <;> rw [e3] at hm <;>
    simp only [Res.ok.injEq, reduceCtorEq, Prod.mk.injEq] at hm
  obtain ⟨rfl, rfl, rfl⟩ := hm
  have n2 : g.mesh.numElems 2 = (g.mesh.midElems 2).length := Renumbered.numMids le_rfl (by omega)
  have n3 : g.mesh.numElems 3 = g.mesh.cells.length := by simp [Mesh.numElems, h3]
  obtain ⟨as', a1, _, a3⟩ := forEach_carried_same (rn_fixed h.mesh (d := 2) (by omega) n2) (fun i _ => rn_faceMeasure3 h h3 c2 i) e2
  obtain ⟨vs', v1, _, v3⟩ := forEach_carried_same (rn_fixed h.mesh (d := 3) (by omega) n3) (fun i _ => rn_cellMeasure3 h h3 a3 i) e3
  refine ⟨ls', as', vs', ?_, c2, a3, v3⟩
  unfold computeMeasures3
  rw [c1, rn_mid2_length h.mesh (by omega), rn_cells_length h.mesh]
  simp only [Res.bind, a1, v1]

end three

section normals
variable [Add F] [Sub F] [Mul F] [Zero F] [One F] [Div F] [Neg F] [NatCast F] [HasSqrt F]

omit [Add F] [Sub F] [Mul F] [Zero F] [Div F] [NatCast F] [HasSqrt F] in
theorem rn_direction {V : Type} {m m' : Mesh V} (h : Renumbered ρ m m') (c : Conn) (face : Idx → Idx) :
    directionCell F (renameConn (ρ m.dim) face c) = ((directionCell F c).1, ρ m.dim (directionCell F c).2) := by
  have h1 : isInvalidIndex (ρ m.dim c.left) = isInvalidIndex c.left := by
    simp [isInvalidIndex, h.cell_invalid]
  have h2 : isBoundaryIndex (ρ m.dim c.left) = isBoundaryIndex c.left := by
    simp only [isBoundaryIndex, h.cell_boundary]
  unfold directionCell
  simp only [renameConn, h1, h2]
  split <;> rfl

/-- C72. The normals of a 2D mesh. -/
theorem C72_normals_2d {m m' : Mesh (Vec 2 F)} (h : Renumbered ρ m m') (ns : List (Vec 2 F)) (hm : computeFaceNormals2 m = .ok ns) :
    ∃ ns', computeFaceNormals2 m' = .ok ns' ∧ Carried (ρ 1) ns ns' := by
  have hd := h.dim_ge
  have hn : m'.edges.length = m.edges.length := length_of_carried (rn_fixed h (by omega) h.numEdges) h.edges
  obtain ⟨ls', c1, _, c3⟩ := forEach_carried_same (body' := normal2 m') (rn_fixed h (d := 1) (by omega) h.numEdges)
    (fun i _ => by unfold normal2; rw [rn_edgeEnds h]) hm
  exact ⟨ls', by unfold computeFaceNormals2; rw [hn]; exact c1, c3⟩

variable {g g' : GMesh 3 F}

theorem rn_cellsAt {V : Type} {m m' : Mesh V} (h : Renumbered ρ m m') {d : Nat} (hd : m.dim = d) (i : Idx) :
    Res.at' m'.cells (ρ d i) = (Res.at' m.cells i).rmap (renameCell (ρ d) (ρ (d - 1))) := by
  subst hd
  exact Res.at'_map (h.cells i)

theorem rn_normal3 (h : RenumberedG ρ g g') (h3 : g.mesh.dim = 3) (i : Idx) : normal3 g' (ρ 2 i) = normal3 g i := by
  have hf := h.faceCenter i
  have hc := h.cellCenter
  rw [h3] at hf hc
  unfold normal3
  refine Res.bind_same (rn_mid2 h.mesh (by omega) i) fun f => ?_
  simp only [renameFace]
  rw [rn_direction h.mesh, h3, rn_firstEdge h.mesh (by omega)]
  refine Res.bind_same (rn_cellsAt h.mesh h3 _) fun _ => ?_
  simp only [hf, hc]

/-- C72. The normals of a 3D mesh. -/
theorem C72_normals_3d (h : RenumberedG ρ g g') (h3 : g.mesh.dim = 3) (ns : List (Vec 3 F)) (hm : computeFaceNormals3 g = .ok ns) :
    ∃ ns', computeFaceNormals3 g' = .ok ns' ∧ Carried (ρ 2) ns ns' := by
  have n2 : g.mesh.numElems 2 = (g.mesh.midElems 2).length := Renumbered.numMids le_rfl (by omega)
  obtain ⟨ls', c1, _, c3⟩ := forEach_carried_same (body' := normal3 g') (rn_fixed h.mesh (d := 2) (by omega) n2)
    (fun i _ => rn_normal3 h h3 i) hm
  exact ⟨ls', by unfold computeFaceNormals3; rw [rn_mid2_length h.mesh (by omega)]; exact c1, c3⟩

/-- C72. The normal of a face by the tessellation. -/
theorem C72_normal_tessellated [DecidableEq F] (h : RenumberedG ρ g g') (h3 : g.mesh.dim = 3) (i : Idx) :
    normal3Tess g' (ρ 2 i) = normal3Tess g i := by
  have hf := h.faceCenter i
  have hc := h.cellCenter
  rw [h3] at hf hc
  unfold normal3Tess
  refine Res.bind_same (rn_mid2 h.mesh (by omega) i) fun f => ?_
  have hd : directionCell F (renameFace (ρ 2) (ρ 1) (ρ g.mesh.dim) (ρ (g.mesh.dim - 1)) f).conn = _ :=
    rn_direction (F := F) h.mesh f.conn (ρ (g.mesh.dim - 1))
  generalize directionCell F (renameFace (ρ 2) (ρ 1) (ρ g.mesh.dim) (ρ (g.mesh.dim - 1)) f).conn = D at hd ⊢
  subst hd
  rw [h3]
  refine Res.bind_same (rn_cellsAt h.mesh h3 _) fun _ => ?_
  refine Res.bind_same (h.mesh.applyOne (S := 2) (T := 1) (by omega) (by omega) i) fun es => ?_
  rw [forEach_map' (body := tessNormalTerm g (g.faceCenter i) (g.cellCenter (directionCell F f.conn).2))]
  intro e
  unfold tessNormalTerm
  rw [rn_edgeEnds h.mesh, hf, hc]

end normals

section distances
variable {g g' : GMesh n F}

theorem rn_innerCenter (h : RenumberedG ρ g g') (c : Idx) : innerCenter g' (ρ g.mesh.dim c) = innerCenter g c := by
  unfold innerCenter
  refine Res.bind_same (rn_cellsAt h.mesh rfl c) fun _ => ?_
  rw [h.cellCenter]

theorem rn_sideCenter (h : RenumberedG ρ g g') (c : Idx) : sideCenter g' (ρ g.mesh.dim c) = sideCenter g c := by
  unfold sideCenter
  have h2 : isBoundaryIndex (ρ g.mesh.dim c) = isBoundaryIndex c := by
    simp only [isBoundaryIndex, h.mesh.cell_boundary]
  rw [h2]
  split
  · rename_i hb
    have : ρ g.mesh.dim c = c := by
      have hb : BOUNDARY ≤ c := by simpa [isBoundaryIndex] using hb
      have := h.mesh.fits g.mesh.dim le_rfl
      exact h.mesh.fixed _ _ le_rfl (by omega)
    rw [this]
    refine Res.bind_same (f := renameCell id (ρ (g.mesh.dim - 1))) (Res.at'_map ?_) fun _ => ?_
    · rw [h.mesh.bCells, List.getElem?_map]
    · rw [h.bCellCenter]
  · refine Res.bind_same (rn_cellsAt h.mesh rfl c) fun _ => ?_
    rw [h.cellCenter]

theorem rn_bCells (h : RenumberedG ρ g g') : g'.mesh.bCells.isEmpty = g.mesh.bCells.isEmpty := by
  rw [h.mesh.bCells]; simp

/-- C72. The distances of the cells next to the faces. -/
theorem C72_distances [Add F] [Sub F] [Mul F] [Zero F] [HasSqrt F] (h : RenumberedG ρ g g') (ds : List F)
    (hm : computeCellsDistance g = .ok ds) : ∃ ds', computeCellsDistance g' = .ok ds' ∧ Carried (ρ (g.mesh.dim - 1)) ds ds' := by
  have hd := h.mesh.dim_ge
  obtain ⟨ls', c1, _, c3⟩ := forEach_carried_same (body' := fun i => (g'.mesh.faceConn i).bind fun c => cellsDistance g' i c)
    (rn_fixed h.mesh (d := g.mesh.dim - 1) (by omega) rfl)
    (fun i _ => by
      refine Res.bind_same (h.mesh.faceConn i) fun c => ?_
      unfold cellsDistance
      simp only [renameConn, rn_bCells h, rn_innerCenter h, rn_sideCenter h, h.faceCenter, ne_eq, h.mesh.cell_invalid]) hm
  exact ⟨ls', by unfold computeCellsDistance; rw [h.mesh.numFaces]; exact c1, c3⟩

/-- C72. The differences of the centers. -/
theorem C72_differences [Sub F] [Zero F] (h : RenumberedG ρ g g') (ds : List (Vec n F))
    (hm : computeCellsCenterDifference g = .ok ds) :
    ∃ ds', computeCellsCenterDifference g' = .ok ds' ∧ Carried (ρ (g.mesh.dim - 1)) ds ds' := by
  have hd := h.mesh.dim_ge
  have h1 : ∀ c, isInvalidIndex (ρ g.mesh.dim c) = isInvalidIndex c := fun c => by
    simp [isInvalidIndex, h.mesh.cell_invalid]
  obtain ⟨ls', c1, _, c3⟩ := forEach_carried_same (body' := fun i => (g'.mesh.faceConn i).bind fun c => centerDifference g' i c)
    (rn_fixed h.mesh (d := g.mesh.dim - 1) (by omega) rfl)
    (fun i _ => by
      refine Res.bind_same (h.mesh.faceConn i) fun c => ?_
      unfold centerDifference
      simp only [renameConn, rn_bCells h, rn_innerCenter h, rn_sideCenter h, h.faceCenter, h1]) hm
  exact ⟨ls', by unfold computeCellsCenterDifference; rw [h.mesh.numFaces]; exact c1, c3⟩

end distances

section orientation

/-- C72. The orientation of the edges of the faces of a 3D mesh: a value for every edge of a face, in their order. -/
theorem C72_orientation {g g' : GMesh 3 ℝ} (h : RenumberedG ρ g g') (h3 : g.mesh.dim = 3) (os : List (List Bool))
    (hm : edgesOrientation g = .ok os) : ∃ os', edgesOrientation g' = .ok os' ∧ Carried (ρ 2) os os' := by
  have n2 : g.mesh.numElems 2 = (g.mesh.midElems 2).length := Renumbered.numMids le_rfl (by omega)
  unfold edgesOrientation at hm
  cases e1 : computeFaceNormals3 g <;> rw [e1] at hm <;> simp only [Res.bind, reduceCtorEq] at hm
  rename_i ns
  obtain ⟨ns', c1, c2⟩ := C72_normals_3d h h3 ns e1
  obtain ⟨os', d1, _, d3⟩ := forEach_carried_same (body' := fun i => (Res.idx ns' i).bind fun nf => faceOrientations g' i nf)
    (rn_fixed h.mesh (d := 2) (by omega) n2)
    (fun i _ => by
      rw [Res.idx_same (c2 i)]
      refine Res.bind_same (Res.rmap_id _).symm fun nf => ?_
      unfold faceOrientations
      have hf := h.faceCenter i
      rw [h3] at hf
      refine Res.bind_same (rn_mid2 h.mesh (by omega) i) fun f => ?_
      simp only [renameFace, hf]
      exact forEach_map' (fun e => by rw [rn_edgeEnds h.mesh]) _) hm
  refine ⟨os', ?_, d3⟩
  unfold edgesOrientation
  rw [c1, rn_mid2_length h.mesh (by omega)]
  exact d1

end orientation

section high
variable {m m' : Mesh (Vec n F)}

theorem rn_centersAt {cs cs' : List (List (Vec n F))} (hc : CarriedAll ρ cs cs') (k : Nat) (hk : k < cs.length) (i : Idx) :
    (cs'[k]?.getD [])[ρ (k + 1) i]? = (cs[k]?.getD [])[i]? := by
  have k2 : k < cs'.length := by rw [hc.1]; omega
  have := hc.2 k _ _ (List.getElem?_eq_getElem hk) (List.getElem?_eq_getElem k2) i
  rw [List.getElem?_eq_getElem hk, List.getElem?_eq_getElem k2, Option.getD_some, Option.getD_some, this]

theorem rn_getCenters (h : Renumbered ρ m m') {cs cs' : List (List (Vec n F))} (hl : cs.length = m.dim) (hc : CarriedAll ρ cs cs') :
    ∀ d, d < m.dim → ∀ i, getCenters cs' m' d (ρ d i) = getCenters cs m d i := by
  intro d
  induction d using Nat.strong_induction_on with
  | _ d ih =>
    intro hd i
    match d with
    | 0 => rfl
    | 1 =>
      simp only [getCenters]
      refine Res.bind_same (Res.idx_map (h.edges i)) fun e => ?_
      have ha : Res.idx m'.vertices (ρ 0 e.a) = Res.idx m.vertices e.a := Res.idx_same (h.vertices _)
      have hb : Res.idx m'.vertices (ρ 0 e.b) = Res.idx m.vertices e.b := Res.idx_same (h.vertices _)
      simp only [renameEdge, ha, hb]
    | d + 2 =>
      simp only [getCenters]
      rw [Res.idx_same (rn_centersAt hc (d + 1) (by omega) i)]
      refine Res.bind_same (Res.rmap_id _).symm fun c => ?_
      refine Res.bind_same (Res.idx_map (h.mids (d + 2) i (by omega) hd)) fun f => ?_
      refine Res.bind_same (Res.idx_map (f := ρ (d + 1)) (i := 0) (l := f.sub) ?_) fun s => ?_
      · simp [renameFace]
      · rw [ih (d + 1) (by omega) (by omega)]

variable [Add F] [Sub F] [Mul F] [Zero F] [One F] [Div F] [NatCast F] [HasSqrt F]

theorem rn_highMeasure (h : Renumbered ρ m m') {cs cs' : List (List (Vec n F))} (hl : cs.length = m.dim) (hc : CarriedAll ρ cs cs')
    {d : Nat} (h1 : 2 ≤ d) (h2 : d ≤ m.dim) {prev prev' : List F} (hp : Carried (ρ (d - 1)) prev prev') (i : Idx) :
    highMeasure cs' m' prev' d (ρ d i) = highMeasure cs m prev d i := by
  unfold highMeasure
  have := rn_centersAt hc (d - 1) (by omega) i
  rw [show d - 1 + 1 = d by omega] at this
  rw [Res.idx_same this]
  refine Res.bind_same (Res.rmap_id _).symm fun c => ?_
  refine Res.bind_same (h.applyOne h2 (by omega) i) fun subs => ?_
  rw [forEach_map' (body := highTerm cs m prev d c)]
  intro s
  unfold highTerm
  rw [rn_getCenters h hl hc (d - 1) (by omega), Res.idx_same (hp s)]

theorem rn_measuresFrom (h : Renumbered ρ m m') {cs cs' : List (List (Vec n F))} (hl : cs.length = m.dim) (hc : CarriedAll ρ cs cs') :
    ∀ (k d : Nat), 2 ≤ d → d + k ≤ m.dim + 1 → ∀ {prev prev' : List F},
    Carried (ρ (d - 1)) prev prev' → ∀ {ms}, measuresFrom cs m d prev k = .ok ms →
    ∃ ms', measuresFrom cs' m' d prev' k = .ok ms' ∧ ms'.length = ms.length ∧
      ∀ (j : Nat) l l', ms[j]? = some l → ms'[j]? = some l' → Carried (ρ (d + j)) l l' := by
  intro k
  induction k with
  | zero => intro d _ _ prev prev' _ ms hm; cases hm; exact ⟨[], rfl, rfl, by simp⟩
  | succ k ih =>
    intro d h1 h2 prev prev' hp ms hm
    simp only [measuresFrom] at hm ⊢
    cases e1 : forEach (highMeasure cs m prev d) (List.range (m.numElems d)) <;> rw [e1] at hm <;> simp only [Res.bind, reduceCtorEq] at hm
    rename_i cur
    obtain ⟨cur', c1, c2, c3⟩ := forEach_carried_same (rn_fixed h (by omega) rfl) (fun i _ => rn_highMeasure h hl hc h1 (by omega) hp i) e1
    cases e2 : measuresFrom cs m (d + 1) cur k <;> rw [e2] at hm <;> simp only [Res.ok.injEq, reduceCtorEq] at hm
    rename_i rest
    obtain ⟨rest', r1, r2, r3⟩ := ih (d + 1) (by omega) (by omega) (by rw [Nat.add_sub_cancel]; exact c3) e2
    subst hm
    rw [h.numElems (by omega), c1]
    simp only [Res.bind, r1]
    refine ⟨cur' :: rest', rfl, by simp [r2], ?_⟩
    intro j l l' hl hl'
    cases j with
    | zero => cases hl; cases hl'; exact c3
    | succ j =>
      have := r3 j l l' (by simpa using hl) (by simpa using hl')
      rwa [show d + (j + 1) = d + 1 + j by omega]

/-- C72. The measures in dimension 4 and more. -/
theorem C72_measures_high (h : Renumbered ρ m m') (cs cs' : List (List (Vec n F))) (hl : cs.length = m.dim) (hc : CarriedAll ρ cs cs')
    (ms : List (List F)) (hm : computeMeasuresHigh cs m = .ok ms) :
    ∃ ms', computeMeasuresHigh cs' m' = .ok ms' ∧ CarriedAll ρ ms ms' := by
  have hd := h.dim_ge
  unfold computeMeasuresHigh at hm
  cases e1 : edgeMeasures m <;> rw [e1] at hm <;> simp only [Res.bind, reduceCtorEq] at hm
  rename_i es
  obtain ⟨es', c1, c3⟩ := rn_edgeMeasures h e1
  cases e2 : measuresFrom cs m 2 es (m.dim - 1) <;> rw [e2] at hm <;> simp only [Res.ok.injEq, reduceCtorEq] at hm
  rename_i rest
  obtain ⟨rest', r1, r2, r3⟩ := rn_measuresFrom h hl hc (m.dim - 1) 2 le_rfl (by omega) c3 e2
  subst hm
  refine ⟨es' :: rest', ?_, by simp [r2], ?_⟩
  · unfold computeMeasuresHigh
    rw [c1, h.dim]
    simp only [Res.bind, r1]
  · intro j l l' hl hl'
    cases j with
    | zero => cases hl; cases hl'; exact c3
    | succ j =>
      have := r3 j l l' (by simpa using hl) (by simpa using hl')
      rwa [show j + 1 + 1 = 2 + j by omega]

/-- C72. The normal of a face in dimension 4 and more. -/
theorem C72_normal_high [Neg F] (h : Renumbered ρ m m') (h4 : 4 ≤ m.dim) (cs cs' : List (List (Vec n F))) (hl : cs.length = m.dim)
    (hc : CarriedAll ρ cs cs') (i : Idx) : normalHigh cs' m' (ρ (m.dim - 1) i) = normalHigh cs m i := by
  unfold normalHigh
  rw [h.dim]
  refine Res.bind_same (Res.at'_map (h.mids (m.dim - 1) i (by omega) (by omega))) fun f => ?_
  simp only [renameFace]
  rw [rn_direction h]
  have := rn_centersAt hc (m.dim - 1) (by omega) (directionCell F f.conn).2
  rw [show m.dim - 1 + 1 = m.dim by omega] at this
  rw [Res.at'_same this, rn_getCenters h hl hc (m.dim - 1) (by omega)]

end high
end GTMesh.Props
