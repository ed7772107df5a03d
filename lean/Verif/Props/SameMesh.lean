import Verif.Proofs.SameMesh
import Verif.Props.Boundary

/-!
# C68: boundary cells change nothing else
-/

namespace GTMesh.Props
open GTMesh Spec Std' Vec Geo

section
variable {V : Type}

/-- The sides of a face after the boundary cells have been added: a side with a cell keeps it, a missing side gets an index that no cell has. -/
theorem setup_conn {m : Mesh V} (h : m.dim = 2 ∨ (3 ≤ m.dim ∧ m.dim - 3 < m.mids.length)) (f : Idx) :
    (m.faceConn f = .throw .outOfRange ∧ m.setupBoundaryCells.faceConn f = .throw .outOfRange) ∨
    ∃ c c', m.faceConn f = .ok c ∧ m.setupBoundaryCells.faceConn f = .ok c' ∧ c'.nextL = c.nextL ∧ c'.nextR = c.nextR ∧
      (c'.left = c.left ∨ (c.left = INVALID ∧ BOUNDARY ≤ c'.left)) ∧ (c'.right = c.right ∨ (c.right = INVALID ∧ BOUNDARY ≤ c'.right)) := by
  obtain ⟨_, e2, _, _⟩ := setup_faceList h
  obtain ⟨hl, hE⟩ := C07_effect m.bCells (faceList m)
  have hge : ∀ k, BOUNDARY ≤ makeBoundaryIndex k := by
    intro k; unfold makeBoundaryIndex; split <;> omega
  rw [faceConn_list, faceConn_list, e2]
  by_cases hf : f < (faceList m).length
  · right
    have hf' : f < (setupFaces m.bCells (faceList m)).2.length := by rw [hl]; exact hf
    obtain ⟨_, h2, h3, h4, h5⟩ := hE f hf hf'
    refine ⟨(faceList m)[f].2, (setupFaces m.bCells (faceList m)).2[f].2, ?_, ?_, h2, h3, ?_, ?_⟩
    · rw [Res.at'_eq_ok.mpr (List.getElem?_eq_getElem hf)]; rfl
    · rw [Res.at'_eq_ok.mpr (List.getElem?_eq_getElem hf')]; rfl
    · rw [h4]
      by_cases hi : (faceList m)[f].2.left = INVALID
      · rw [if_pos hi]; exact .inr ⟨hi, hge _⟩
      · rw [if_neg hi]; exact .inl rfl
    · rw [h5]
      by_cases hi : (faceList m)[f].2.right = INVALID
      · rw [if_pos hi]; exact .inr ⟨hi, hge _⟩
      · rw [if_neg hi]; exact .inl rfl
  · left
    have hf' : ¬ f < (setupFaces m.bCells (faceList m)).2.length := by rw [hl]; exact hf
    simp [Res.at', List.getElem?_eq_none (Nat.le_of_not_lt hf), List.getElem?_eq_none (Nat.le_of_not_lt hf')]

theorem setup_next {m : Mesh V} (h : m.dim = 2 ∨ (3 ≤ m.dim ∧ m.dim - 3 < m.mids.length)) (cell : Idx) (hc : cell < BOUNDARY) (f : Idx) :
    m.setupBoundaryCells.nextFace cell f = m.nextFace cell f := by
  unfold Mesh.nextFace
  rcases setup_conn h f with ⟨h1, h2⟩ | ⟨c, c', h1, h2, h3, h4, h5, h6⟩
  · rw [h1, h2]
  · rw [h1, h2]
    have hB : BOUNDARY < INVALID := by decide
    have e1 : cell = c'.right ↔ cell = c.right := by
      rcases h6 with h6 | ⟨h6, h6'⟩
      · rw [h6]
      · exact ⟨fun e => by omega, fun e => by omega⟩
    have e2 : cell = c'.left ↔ cell = c.left := by
      rcases h5 with h5 | ⟨h5, h5'⟩
      · rw [h5]
      · exact ⟨fun e => by omega, fun e => by omega⟩
    simp only [Res.bind, Conn.getNextBElem, e1, e2, h3, h4]

theorem setup_same {m : Mesh V} (h : m.dim = 2 ∨ (3 ≤ m.dim ∧ m.dim - 3 < m.mids.length)) (hc : m.cells.length ≤ BOUNDARY) :
    SameMesh m m.setupBoundaryCells where
  dim := (setup_faceList h).2.2.2
  vertices := by
    rcases h with h | ⟨h, h'⟩
    · exact (C07_mesh_2d m h).2.2.2.2.1
    · exact (C07_mesh_3d m h h').2.2.2.2.2.1
  cells := (setup_faceList h).2.2.1
  edges := by
    rcases h with h | ⟨h, h'⟩
    · exact (C07_mesh_2d m h).2.2.1
    · rw [(C07_mesh_3d m h h').2.2.2.2.2.2]
  mids := by
    intro d hd
    rcases h with h | ⟨h, h'⟩
    · unfold Mesh.midElems
      rw [(C07_mesh_2d m h).2.2.2.2.2]
    · obtain ⟨_, _, h3, h4, _⟩ := C07_mesh_3d m h h'
      by_cases hd' : d = m.dim - 1
      · rw [hd']; exact h3
      · rw [h4 d hd' hd]
  next := fun cell hcell f => setup_next h cell (by omega) f

/-- C68, topology. For every mesh, valid or not, with at most `2^63` cells: after `setupBoundaryCells()` the iteration over elements, the
connections, the neighbors and the colorings, from, through and to elements of any dimensions, are what they were: the same values in the
same order, the same exceptions, the same loops without end. -/
theorem C68_topology (m : Mesh V) (hd : m.dim = 2 ∨ (3 ≤ m.dim ∧ m.dim - 3 < m.mids.length)) (hc : m.cells.length ≤ BOUNDARY) (S T C : Nat) :
    m.setupBoundaryCells.apply S T = m.apply S T ∧
    (∀ i, m.setupBoundaryCells.applyOne S T i = m.applyOne S T i) ∧
    m.setupBoundaryCells.connectionsAsc S T = m.connectionsAsc S T ∧
    m.setupBoundaryCells.connectionsOrig S T = m.connectionsOrig S T ∧
    m.setupBoundaryCells.neighborsAsc S C T = m.neighborsAsc S C T ∧
    m.setupBoundaryCells.neighborsOrig S C T = m.neighborsOrig S C T ∧
    m.setupBoundaryCells.colorGreedy S C = m.colorGreedy S C ∧
    (∀ draw, m.setupBoundaryCells.colorRandom S C draw = m.colorRandom S C draw) ∧
    (∀ d, m.setupBoundaryCells.numElems d = m.numElems d) :=
  have s := setup_same hd hc
  ⟨s.apply S T, s.applyOne S T, s.connectionsAsc S T, s.connectionsOrig S T, s.neighborsAsc S C T, s.neighborsOrig S C T, s.colorGreedy S C,
    s.colorRandom S C, s.numElems⟩
end

/-! ## Geometry -/

section
variable {n : Nat} {F : Type}

theorem _root_.GTMesh.SameMesh.edgeEnds {m m' : Mesh (Vec n F)} (s : SameMesh m m') (e : Idx) : edgeEnds m' e = edgeEnds m e := by
  unfold Geo.edgeEnds
  rw [s.vertices]
  exact s.at_edge e fun a b => (Res.at' m.vertices a).bind fun A => (Res.at' m.vertices b).bind fun B => .ok (A, B)

theorem _root_.GTMesh.SameMesh.centersFrom [Field F] {m m' : Mesh (Vec n F)} (s : SameMesh m m') :
    ∀ k d prev, centersFrom m' d prev k = centersFrom m d prev k := by
  have he : ∀ d prev i, elemCenter m' d prev i = elemCenter m d prev i := by
    intro d prev i; unfold elemCenter; rw [s.applyOne]
  intro k
  induction k with
  | zero => intro d prev; rfl
  | succ k ih =>
    intro d prev
    rw [Geo.centersFrom, Geo.centersFrom, s.numElems, show elemCenter m' d prev = elemCenter m d prev from funext (he d prev)]
    simp only [ih]

theorem _root_.GTMesh.SameMesh.computeCenters [Field F] {m m' : Mesh (Vec n F)} (s : SameMesh m m') :
    computeCenters m' = computeCenters m := by
  unfold Geo.computeCenters
  rw [s.edges_length, s.dim, show edgeCenter m' = edgeCenter m from funext fun e => by unfold edgeCenter; rw [s.edgeEnds]]
  simp only [s.centersFrom]

theorem _root_.GTMesh.SameMesh.computeCentersTess {m m' : Mesh (Vec 3 ℝ)} (s : SameMesh m m') :
    computeCentersTess m' = computeCentersTess m := by
  have he : ∀ d prev, elemCenter m' d prev = elemCenter m d prev := by
    intro d prev; funext i; unfold elemCenter; rw [s.applyOne]
  have ht : ∀ es c, tessTerm m' es c = tessTerm m es c := by
    intro es c; funext e; unfold tessTerm; rw [s.edgeEnds]
  have hf : ∀ es, tessCenter m' es = tessCenter m es := by
    intro es; funext i; unfold tessCenter; simp only [he, s.applyOne, ht]
  unfold Geo.computeCentersTess
  rw [s.edges_length, show edgeCenter m' = edgeCenter m from funext fun e => by unfold edgeCenter; rw [s.edgeEnds]]
  simp only [hf, he, s.numElems]

theorem _root_.GTMesh.SameMesh.edgeMeasures {m m' : Mesh (Vec n ℝ)} (s : SameMesh m m') : edgeMeasures m' = edgeMeasures m := by
  unfold Geo.edgeMeasures
  rw [s.edges_length, show edgeMeasure m' = edgeMeasure m from funext fun e => by unfold edgeMeasure; rw [s.edgeEnds]]

theorem _root_.GTMesh.SameMesh.firstEdge {m m' : Mesh (Vec n F)} (s : SameMesh m m') (f : Idx) : firstEdge m' f = firstEdge m f := by
  unfold Geo.firstEdge
  rw [show Geo.edgeEnds m' = Geo.edgeEnds m from funext s.edgeEnds]
  exact s.at_mid 2 f (by omega) fun l => (Res.idx l 0).bind fun e => Geo.edgeEnds m e

theorem bind_assoc' {α β γ : Type} (x : Res α) (f : α → Res β) (g : β → Res γ) : (x.bind f).bind g = x.bind fun a => (f a).bind g := by
  cases x <;> rfl

theorem _root_.GTMesh.SameMesh.measures2 {g g' : GMesh 2 ℝ} (s : SameMesh g.mesh g'.mesh) (hc : g'.cellCenter = g.cellCenter) :
    computeMeasures2 g' = computeMeasures2 g := by
  have h : ∀ i, cellMeasure2 g' i = cellMeasure2 g i := by
    intro i
    unfold cellMeasure2
    rw [← bind_assoc', ← bind_assoc', s.cellWalk (body := fun e => (Geo.edgeEnds g.mesh e).bind fun p => .ok [triangle2 (g.cellCenter i) p.1 p.2])]
    intro e
    rw [s.edgeEnds, hc]
  unfold Geo.computeMeasures2
  rw [s.edgeMeasures, s.cells, show cellMeasure2 g' = cellMeasure2 g from funext h]

theorem _root_.GTMesh.SameMesh.measures3 {g g' : GMesh 3 ℝ} (s : SameMesh g.mesh g'.mesh) (hc : g'.cellCenter = g.cellCenter)
    (hf : g'.faceCenter = g.faceCenter) : computeMeasures3 g' = computeMeasures3 g := by
  have h1 : ∀ lens fc, faceTerm g' lens fc = faceTerm g lens fc := by
    intro lens fc; funext e; unfold faceTerm; rw [s.edgeEnds]
  have h2 : ∀ lens, faceMeasure3 g' lens = faceMeasure3 g lens := by
    intro lens
    funext i
    unfold faceMeasure3
    rw [h1, hf]
    exact s.at_mid 2 i (by omega) fun l => (forEach (faceTerm g lens (g.faceCenter i)) l).bind fun ts => .ok (total ts)
  have h3 : ∀ areas, cellMeasure3 g' areas = cellMeasure3 g areas := by
    intro areas
    funext i
    unfold cellMeasure3
    rw [← bind_assoc', ← bind_assoc', s.cellWalk (body := cellTerm3 g areas (g.cellCenter i))]
    intro f
    unfold cellTerm3
    rw [s.firstEdge, hf, hc]
  unfold Geo.computeMeasures3
  rw [s.edgeMeasures, s.cells, s.mids_length 2 (by omega)]
  simp only [h2, h3]

theorem _root_.GTMesh.SameMesh.getCenters {m m' : Mesh (Vec n F)} (s : SameMesh m m') (cs : List (List (Vec n F))) :
    ∀ d i, getCenters cs m' d i = getCenters cs m d i
  | 0, i => rfl
  | 1, i => by
    unfold Geo.getCenters
    rw [s.vertices]
    exact s.idx_edge i fun a b => (Res.idx m.vertices a).bind fun A => (Res.idx m.vertices b).bind fun B => .ok [A, B]
  | d + 2, i => by
    unfold Geo.getCenters
    simp only [SameMesh.getCenters s cs (d + 1)]
    congr 1
    funext c
    exact s.idx_mid (d + 2) i (by omega) fun l =>
      (Res.idx l 0).bind fun x => (Geo.getCenters cs m (d + 1) x).bind fun r => .ok (c :: r)

theorem _root_.GTMesh.SameMesh.measuresHigh {m m' : Mesh (Vec n ℝ)} (s : SameMesh m m') (cs : List (List (Vec n ℝ))) :
    computeMeasuresHigh cs m' = computeMeasuresHigh cs m := by
  have h1 : ∀ prev d c, highTerm cs m' prev d c = highTerm cs m prev d c := by
    intro prev d c; funext x; unfold highTerm; rw [s.getCenters]
  have h2 : ∀ prev d, highMeasure cs m' prev d = highMeasure cs m prev d := by
    intro prev d; funext x; unfold highMeasure; simp only [h1, s.applyOne]
  have h3 : ∀ k d prev, measuresFrom cs m' d prev k = measuresFrom cs m d prev k := by
    intro k
    induction k with
    | zero => intro d prev; rfl
    | succ k ih => intro d prev; simp only [measuresFrom, s.numElems, h2, ih]
  unfold Geo.computeMeasuresHigh
  simp only [s.edgeMeasures, s.dim, h3]

theorem direction_same {c c' : Conn} (h5 : c'.left = c.left ∨ (c.left = INVALID ∧ BOUNDARY ≤ c'.left))
    (h6 : c'.right = c.right ∨ (c.right = INVALID ∧ BOUNDARY ≤ c'.right)) :
    directionCell ℝ c' = directionCell ℝ c ∨ (BOUNDARY ≤ (directionCell ℝ c').2 ∧ BOUNDARY ≤ (directionCell ℝ c).2) := by
  have hB : BOUNDARY < INVALID := by decide
  have hl : (isInvalidIndex c'.left || isBoundaryIndex c'.left) = (isInvalidIndex c.left || isBoundaryIndex c.left) := by
    rcases h5 with h5 | ⟨h5, h5'⟩
    · rw [h5]
    · simp [isInvalidIndex, isBoundaryIndex, h5, h5']
  unfold directionCell
  rw [hl]
  split
  · rcases h6 with h6 | ⟨h6, h6'⟩
    · left; rw [h6]
    · right; simp only [h6]; omega
  · rename_i hn
    left
    rcases h5 with h5 | ⟨h5, h5'⟩
    · rw [h5]
    · simp [isInvalidIndex, h5] at hn

/-- The face `i` before and after. -/
theorem setup_mid {V : Type} {m : Mesh V} (h : 3 ≤ m.dim ∧ m.dim - 3 < m.mids.length) (i : Nat) :
    (Res.at' (m.midElems (m.dim - 1)) i = .throw .outOfRange ∧ Res.at' (m.setupBoundaryCells.midElems (m.dim - 1)) i = .throw .outOfRange) ∨
    ∃ f f', Res.at' (m.midElems (m.dim - 1)) i = .ok f ∧ Res.at' (m.setupBoundaryCells.midElems (m.dim - 1)) i = .ok f' ∧
      (directionCell ℝ f'.conn = directionCell ℝ f.conn ∨ (BOUNDARY ≤ (directionCell ℝ f'.conn).2 ∧ BOUNDARY ≤ (directionCell ℝ f.conn).2)) := by
  have hd : m.setupBoundaryCells.dim = m.dim := (setup_faceList (.inr h)).2.2.2
  have h2 : ¬ m.dim = 2 := by omega
  have hs := setup_conn (.inr h) i
  unfold Mesh.faceConn at hs
  rw [hd, if_neg h2, if_neg h2] at hs
  cases h1 : Res.at' (m.midElems (m.dim - 1)) i with
  | ok f =>
    cases h2 : Res.at' (m.setupBoundaryCells.midElems (m.dim - 1)) i with
    | ok f' =>
      rw [h1, h2] at hs
      rcases hs with ⟨hs, _⟩ | ⟨c, c', a, b, _, _, h5, h6⟩
      · cases hs
      · cases a; cases b
        exact .inr ⟨f, f', rfl, rfl, direction_same h5 h6⟩
    | _ => rw [h1, h2] at hs; simp at hs
  | throw e =>
    cases h2 : Res.at' (m.setupBoundaryCells.midElems (m.dim - 1)) i with
    | throw e' => rw [h1, h2] at hs; simp at hs; exact .inl ⟨by rw [hs.1], by rw [hs.2]⟩
    | _ => rw [h1, h2] at hs; simp at hs
  | _ => rw [h1] at hs; simp at hs

/-- A computation for a face that uses its direction after the cell has been looked up. -/
theorem setup_direction {V α β : Type} {m : Mesh V} (h : 3 ≤ m.dim ∧ m.dim - 3 < m.mids.length) (i : Nat) (l : List α) (hl : l.length ≤ BOUNDARY)
    (k : ℝ × Idx → α → Res β) :
    ((Res.at' (m.setupBoundaryCells.midElems (m.dim - 1)) i).bind fun f =>
      (Res.at' l (directionCell ℝ f.conn).2).bind fun c => k (directionCell ℝ f.conn) c) =
    (Res.at' (m.midElems (m.dim - 1)) i).bind fun f => (Res.at' l (directionCell ℝ f.conn).2).bind fun c => k (directionCell ℝ f.conn) c := by
  rcases setup_mid h i with ⟨h1, h2⟩ | ⟨f, f', h1, h2, h3⟩
  · rw [h1, h2]
  · rw [h1, h2]
    rcases h3 with h3 | ⟨h3, h4⟩
    · simp only [Res.bind, h3]
    · have a : l[(directionCell ℝ f'.conn).2]? = none := List.getElem?_eq_none (by omega)
      have b : l[(directionCell ℝ f.conn).2]? = none := List.getElem?_eq_none (by omega)
      simp [Res.at', a, b]

/-- C68, centers and measures: `computeCenters`, `computeMeasures` do the same, exceptions and undefined behaviour included, for every mesh
with at most `2^63` cells, before and after the boundary cells with their centers are added. -/
theorem C68_centers [Field F] (g : GMesh n F) (hd : g.mesh.dim = 2 ∨ (3 ≤ g.mesh.dim ∧ g.mesh.dim - 3 < g.mesh.mids.length))
    (hc : g.mesh.cells.length ≤ BOUNDARY) :
    computeCenters (withBoundary g).mesh = computeCenters g.mesh :=
  SameMesh.computeCenters (m := g.mesh) (setup_same hd hc)

/-- C68, the centers weighted by the triangles of the faces. -/
theorem C68_centers_tessellated (g : GMesh 3 ℝ) (hd : g.mesh.dim = 3) (hm : g.mesh.mids.length = 1) (hc : g.mesh.cells.length ≤ BOUNDARY) :
    computeCentersTess (withBoundary g).mesh = computeCentersTess g.mesh :=
  SameMesh.computeCentersTess (m := g.mesh) (setup_same (.inr (by omega)) hc)

/-- C68, lengths and areas in 2D. -/
theorem C68_measures_2d (g : GMesh 2 ℝ) (hd : g.mesh.dim = 2) (hc : g.mesh.cells.length ≤ BOUNDARY) :
    computeMeasures2 (withBoundary g) = computeMeasures2 g :=
  SameMesh.measures2 (g := g) (g' := withBoundary g) (setup_same (.inl hd) hc) rfl

/-- C68, lengths, areas and volumes in 3D. -/
theorem C68_measures_3d (g : GMesh 3 ℝ) (hd : g.mesh.dim = 3) (hm : g.mesh.mids.length = 1) (hc : g.mesh.cells.length ≤ BOUNDARY) :
    computeMeasures3 (withBoundary g) = computeMeasures3 g :=
  SameMesh.measures3 (g := g) (g' := withBoundary g) (setup_same (.inr (by omega)) hc) rfl rfl

/-- C68, measures of a mesh of dimension 3 or more by the general method. -/
theorem C68_measures_high (cs : List (List (Vec n ℝ))) (g : GMesh n ℝ) (hd : 3 ≤ g.mesh.dim ∧ g.mesh.dim - 3 < g.mesh.mids.length)
    (hc : g.mesh.cells.length ≤ BOUNDARY) :
    computeMeasuresHigh cs (withBoundary g).mesh = computeMeasuresHigh cs g.mesh :=
  SameMesh.measuresHigh (m := g.mesh) (setup_same (.inr hd) hc) cs

/-- C68, normals. `computeFaceNormals` in 2D. -/
theorem C68_normals_2d (g : GMesh 2 ℝ) (hd : g.mesh.dim = 2) (hc : g.mesh.cells.length ≤ BOUNDARY) :
    computeFaceNormals2 (withBoundary g).mesh = computeFaceNormals2 g.mesh := by
  have s : SameMesh g.mesh (withBoundary g).mesh := setup_same (.inl hd) hc
  unfold computeFaceNormals2
  rw [s.edges_length, show normal2 (withBoundary g).mesh = normal2 g.mesh from funext fun e => by unfold normal2; rw [s.edgeEnds]]

theorem setup_normal3 (g : GMesh 3 ℝ) (hd : g.mesh.dim = 3) (hm : g.mesh.mids.length = 1) (hc : g.mesh.cells.length ≤ BOUNDARY) :
    normal3 (withBoundary g) = normal3 g ∧ normal3Tess (withBoundary g) = normal3Tess g := by
  have s : SameMesh g.mesh (withBoundary g).mesh := setup_same (.inr (by omega)) hc
  have h2 : g.mesh.dim - 1 = 2 := by omega
  have hm' : (withBoundary g).mesh = g.mesh.setupBoundaryCells := rfl
  constructor
  · funext i
    unfold normal3
    rw [s.cells, s.firstEdge]
    have := setup_direction (m := g.mesh) (by omega) i g.mesh.cells hc fun p _ =>
      (Geo.firstEdge g.mesh i).bind fun q =>
      (gramSchmidtN [sub (g.faceCenter i) q.1, sub (g.faceCenter i) q.2, sub (g.faceCenter i) (g.cellCenter p.2)]).bind fun r =>
      (Res.idx r.1 2).bind fun u => .ok (smul u p.1)
    rw [h2] at this
    exact this
  · funext i
    have ht : ∀ fc cc, tessNormalTerm (withBoundary g) fc cc = tessNormalTerm g fc cc := by
      intro fc cc; funext e; unfold tessNormalTerm; rw [s.edgeEnds]
    unfold normal3Tess
    rw [s.cells, s.applyOne]
    simp only [ht]
    have := setup_direction (m := g.mesh) (by omega) i g.mesh.cells hc fun p _ =>
      (g.mesh.applyOne 2 1 i).bind fun es =>
      (forEach (tessNormalTerm g (g.faceCenter i) (g.cellCenter p.2)) es).bind fun ts =>
      let faceNormal := ts.foldl (fun acc t => addAssign acc (.other t.2)) 0
      let surfTotal := ts.foldl (fun acc t => acc + t.1) 0
      let faceNormal := divAssign faceNormal (.value surfTotal)
      .ok (if p.1 = -1 then smulAssign faceNormal (.value (-1)) else faceNormal)
    rw [h2] at this
    exact this

/-- C68, normals in 3D by both methods, and the orientations of the edges. -/
theorem C68_normals_3d (g : GMesh 3 ℝ) (hd : g.mesh.dim = 3) (hm : g.mesh.mids.length = 1) (hc : g.mesh.cells.length ≤ BOUNDARY) :
    computeFaceNormals3 (withBoundary g) = computeFaceNormals3 g ∧
    (∀ i, normal3Tess (withBoundary g) i = normal3Tess g i) ∧
    edgesOrientation (withBoundary g) = edgesOrientation g := by
  have s : SameMesh g.mesh (withBoundary g).mesh := setup_same (.inr (by omega)) hc
  obtain ⟨h1, h2⟩ := setup_normal3 g hd hm hc
  have hn : computeFaceNormals3 (withBoundary g) = computeFaceNormals3 g := by
    unfold computeFaceNormals3
    rw [h1, s.mids_length 2 (by omega)]
  refine ⟨hn, fun i => by rw [h2], ?_⟩
  have ho : ∀ i v, faceOrientations (withBoundary g) i v = faceOrientations g i v := by
    intro i v
    unfold faceOrientations
    simp only [s.edgeEnds]
    exact s.at_mid 2 i (by omega) fun l => forEach (fun e => (Geo.edgeEnds g.mesh e).bind fun p =>
      .ok (edgeIsLeft3 (g.faceCenter i) p.1 p.2 v)) l
  unfold edgesOrientation
  rw [hn, s.mids_length 2 (by omega)]
  simp only [ho]

/-- C68, normals in dimension 3 or more by the general method. -/
theorem C68_normals_high (cs : List (List (Vec n ℝ))) (g : GMesh n ℝ) (hd : 3 ≤ g.mesh.dim ∧ g.mesh.dim - 3 < g.mesh.mids.length)
    (hc : g.mesh.cells.length ≤ BOUNDARY) (hcs : (cs[g.mesh.dim - 1]?.getD []).length ≤ BOUNDARY) (i : Nat) :
    normalHigh cs (withBoundary g).mesh i = normalHigh cs g.mesh i := by
  have s : SameMesh g.mesh (withBoundary g).mesh := setup_same (.inr hd) hc
  have hm' : (withBoundary g).mesh = g.mesh.setupBoundaryCells := rfl
  unfold normalHigh
  rw [s.dim, s.getCenters, hm']
  exact setup_direction (m := g.mesh) hd i _ hcs fun p cc =>
    (Geo.getCenters cs g.mesh (g.mesh.dim - 1) i).bind fun res =>
    (gramSchmidtN (spanVectors res cc)).bind fun r =>
    (Res.idx r.1 (g.mesh.dim - 1)).bind fun u => .ok (smul u p.1)

end

example : computeMeasures3 (withBoundary tetsC) = computeMeasures3 tetsC ∧
    computeFaceNormals3 (withBoundary tetsC) = computeFaceNormals3 tetsC ∧
    (withBoundary tetsC).mesh.neighborsAsc 3 2 3 = tetsC.mesh.neighborsAsc 3 2 3 ∧ (withBoundary tetsC).mesh.bCells.length = 6 := by
  have h : tetsC.mesh.cells.length ≤ BOUNDARY := tetsC_open.cells_fit
  exact ⟨C68_measures_3d tetsC rfl rfl h, (C68_normals_3d tetsC rfl rfl h).1, (C68_topology tetsC.mesh tetsC_open.dim h 3 3 2).2.2.2.2.1, rfl⟩

end GTMesh.Props
