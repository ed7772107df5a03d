import Verif.Props.Similar
import Verif.Props.Convex
import Verif.Proofs.SameMesh

/-! # C77: the whole computation on a mesh that was moved, rotated, reflected or scaled

The vertices are mapped, and everything else is computed again: the centers, and from them the measures, normals, orientations and
distances. -/

namespace GTMesh.Props
open GTMesh Spec Std' Vec Geo

variable {n : Nat}

/-- The same mesh with the same centers of its faces, cells and boundary cells. (What is stored for numbers which no element has does not
matter.) -/
structure SameCenters (g g' : GMesh n ℝ) : Prop where
  mesh : g'.mesh = g.mesh
  face : ∀ i, i < g.mesh.numFaces → g'.faceCenter i = g.faceCenter i
  cell : ∀ i, i < g.mesh.cells.length → g'.cellCenter i = g.cellCenter i

theorem cellLoop_congr' {V β : Type} (m : Mesh V) {b b' : Idx → Res (List β)} (h : ∀ f, b' f = b f) (cell start : Idx) (k : Nat) (t : Idx) :
    m.cellLoop b' cell start k t = m.cellLoop b cell start k t := by
  rw [funext h]

theorem SameCenters.measures2 {g g' : GMesh 2 ℝ} (h : SameCenters g g') : computeMeasures2 g' = computeMeasures2 g := by
  unfold computeMeasures2
  rw [h.mesh]
  apply Res.bind_congr
  intro ls _
  rw [forEach_congr' (g := cellMeasure2 g)]
  intro i hi
  rw [cellMeasure2, cellMeasure2, h.mesh, h.cell i (List.mem_range.mp hi)]

theorem numFaces3 {m : Mesh (Vec n ℝ)} (hd : m.dim = 3) : m.numFaces = (m.midElems 2).length := by
  simp [Mesh.numFaces, Mesh.numElems, hd]

theorem firstEdge_lt {m : Mesh (Vec n ℝ)} {f : Idx} {p : Vec n ℝ × Vec n ℝ} (h : firstEdge m f = .ok p) : f < (m.midElems 2).length := by
  unfold firstEdge at h
  cases h1 : Res.at' (m.midElems 2) f <;> rw [h1] at h <;> simp only [Res.bind, reduceCtorEq] at h
  exact (List.getElem?_eq_some_iff.mp (Res.at'_eq_ok.mp h1)).1

theorem SameCenters.measures3 {g g' : GMesh 3 ℝ} (hd : g.mesh.dim = 3) (h : SameCenters g g') : computeMeasures3 g' = computeMeasures3 g := by
  unfold computeMeasures3
  rw [h.mesh]
  apply Res.bind_congr
  intro ls _
  have hf : ∀ fc e, faceTerm g' ls fc e = faceTerm g ls fc e := by
    intro fc e; rw [faceTerm, faceTerm, h.mesh]
  rw [forEach_congr' (f := faceMeasure3 g' ls) (g := faceMeasure3 g ls)]
  · apply Res.bind_congr
    intro fs _
    rw [forEach_congr' (f := cellMeasure3 g' fs) (g := cellMeasure3 g fs)]
    intro i hi
    rw [cellMeasure3, cellMeasure3, h.mesh, h.cell i (List.mem_range.mp hi)]
    apply Res.bind_congr
    intro c _
    rw [cellLoop_congr']
    intro f
    rw [cellTerm3, cellTerm3, h.mesh]
    apply Res.bind_congr
    intro p hp
    rw [h.face f (by rw [numFaces3 hd]; exact firstEdge_lt hp)]
  · intro i hi
    rw [faceMeasure3, faceMeasure3, h.mesh, h.face i (by rw [numFaces3 hd]; exact List.mem_range.mp hi), funext (hf (g.faceCenter i))]

theorem SameCenters.normals3 {g g' : GMesh 3 ℝ} (hd : g.mesh.dim = 3) (h : SameCenters g g') : computeFaceNormals3 g' = computeFaceNormals3 g := by
  unfold computeFaceNormals3
  rw [h.mesh]
  apply forEach_congr'
  intro i hi
  rw [normal3, normal3, h.mesh]
  apply Res.bind_congr
  intro f _
  apply Res.bind_congr
  intro c hc
  apply Res.bind_congr
  intro p _
  simp only [h.face i (by rw [numFaces3 hd]; exact List.mem_range.mp hi), h.cell _ (List.getElem?_eq_some_iff.mp (Res.at'_eq_ok.mp hc)).1]

theorem SameCenters.orientation3 {g g' : GMesh 3 ℝ} (hd : g.mesh.dim = 3) (h : SameCenters g g') : edgesOrientation g' = edgesOrientation g := by
  unfold edgesOrientation
  rw [h.normals3 hd, h.mesh]
  apply Res.bind_congr
  intro ns _
  apply forEach_congr'
  intro i hi
  apply Res.bind_congr
  intro nf _
  rw [faceOrientations, faceOrientations, h.mesh, h.face i (by rw [numFaces3 hd]; exact List.mem_range.mp hi)]

theorem SameCenters.differences {g g' : GMesh n ℝ} (hb : g.mesh.bCells = []) (h : SameCenters g g') :
    computeCellsCenterDifference g' = computeCellsCenterDifference g := by
  unfold computeCellsCenterDifference
  rw [h.mesh]
  apply forEach_congr'
  intro i hi
  apply Res.bind_congr
  intro c _
  have inner : ∀ k, innerCenter g' k = innerCenter g k := by
    intro k
    unfold innerCenter
    rw [h.mesh]
    apply Res.bind_congr
    intro _ hc
    rw [h.cell _ (List.getElem?_eq_some_iff.mp (Res.at'_eq_ok.mp hc)).1]
  have he : g.mesh.bCells.isEmpty = true := by rw [hb]; rfl
  simp only [centerDifference, h.mesh, if_pos he, inner, h.face i (List.mem_range.mp hi)]

theorem SameCenters.distances {g g' : GMesh n ℝ} (hb : g.mesh.bCells = []) (h : SameCenters g g') :
    computeCellsDistance g' = computeCellsDistance g := by
  unfold computeCellsDistance
  rw [h.mesh]
  apply forEach_congr'
  intro i hi
  apply Res.bind_congr
  intro c _
  have inner : ∀ k, innerCenter g' k = innerCenter g k := by
    intro k
    unfold innerCenter
    rw [h.mesh]
    apply Res.bind_congr
    intro _ hc
    rw [h.cell _ (List.getElem?_eq_some_iff.mp (Res.at'_eq_ok.mp hc)).1]
  have he : g.mesh.bCells.isEmpty = true := by rw [hb]; rfl
  simp only [cellsDistance, h.mesh, if_pos he, inner, h.face i (List.mem_range.mp hi)]

/-- The mesh `g` after its vertices were mapped; the stored centers are still the old ones. -/
def mapVertices (M : Vec n ℝ →ₗ[ℝ] Vec n ℝ) (t : Vec n ℝ) (g : GMesh n ℝ) : GMesh n ℝ := { g with mesh := g.mesh.mapV fun p => M p + t }

/-- C77. After the vertices were mapped by an affine map, `initializeCenters()` sets the mapped centers. -/
theorem C77_centers (M : Vec n ℝ →ₗ[ℝ] Vec n ℝ) (t : Vec n ℝ) (g : GMesh n ℝ) (bd : Idx → List Idx) (hv : ValidMesh g.mesh bd)
    (hne : NoEmptyElement g.mesh) (hd : 2 ≤ g.mesh.dim) :
    ∃ cs cs', computeCenters g.mesh = .ok cs ∧ computeCenters (mapVertices M t g).mesh = .ok cs' ∧
      SameCenters (move M t (setCenters g cs)) (setCenters (mapVertices M t g) cs') := by
  obtain ⟨cs, h1, h2⟩ := C38_affine g.mesh bd hv hne M t
  obtain ⟨cs', h1', h3⟩ := C38_centers g.mesh bd hv hne
  rw [h1] at h1'
  obtain rfl := Res.ok.inj h1'
  have key : ∀ (d : Nat), 1 ≤ d → d ≤ g.mesh.dim → ∀ i, i < g.mesh.numElems d →
      (((cs.map fun l => l.map fun p => M p + t)[d - 1]?.getD [])[i]?).getD 0 = M (((cs[d - 1]?.getD [])[i]?).getD 0) + t := by
    intro d h4 h5 i hi
    have hlt : d - 1 < cs.length := by rw [h3.dims]; omega
    have hs := h3.sizes d _ h4 (List.getElem?_eq_getElem hlt)
    rw [List.getElem?_map, List.getElem?_eq_getElem hlt]
    simp only [Option.map_some, Option.getD_some, List.getElem?_map]
    rw [List.getElem?_eq_getElem (by rw [hs]; exact hi)]
    rfl
  refine ⟨cs, _, h1, h2, rfl, ?_, ?_⟩
  · intro i hi
    have hi : i < g.mesh.numElems (g.mesh.dim - 1) := by
      have : (move M t (setCenters g cs)).mesh.numFaces = g.mesh.numFaces := Mesh.mapV_numFaces _ _
      rw [this] at hi; exact hi
    exact key (g.mesh.dim - 1) (by omega) (by omega) i hi
  · intro i hi
    exact key g.mesh.dim (by omega) le_rfl i (by
      have : g.mesh.numElems g.mesh.dim = g.mesh.cells.length := by simp [Mesh.numElems]
      rw [this]; exact hi)

/-- C77. Mapping the vertices of a valid 2D mesh and computing again gives the scaled lengths and areas. -/
theorem C77_recomputed_2d (s : ℝ) (hs : 0 < s) (L : Vec 2 ℝ →ₗ[ℝ] Vec 2 ℝ) (hL : IsIsometry L) (t : Vec 2 ℝ) (g : GMesh 2 ℝ) (bd : Idx → List Idx)
    (hv : ValidMesh g.mesh bd) (hne : NoEmptyElement g.mesh) (hd : g.mesh.dim = 2) :
    ∃ cs cs', computeCenters g.mesh = .ok cs ∧ computeCenters (mapVertices (s • L) t g).mesh = .ok cs' ∧
      computeMeasures2 (setCenters (mapVertices (s • L) t g) cs') =
        (computeMeasures2 (setCenters g cs)).bind fun r => .ok (r.1.map (s * ·), r.2.map (s ^ 2 * ·)) := by
  obtain ⟨cs, cs', h1, h2, h3⟩ := C77_centers (s • L) t g bd hv hne (by omega)
  exact ⟨cs, cs', h1, h2, by rw [h3.measures2, C77_measures_2d s hs L hL]⟩

/-- C77. Mapping the vertices of a valid 3D mesh and computing again gives the scaled lengths, areas and volumes and the normals mapped
by `L`; for a rotation the orientations of the edges stay. -/
theorem C77_recomputed_3d (s : ℝ) (hs : 0 < s) (L : Vec 3 ℝ →ₗ[ℝ] Vec 3 ℝ) (hL : IsIsometry L) (t : Vec 3 ℝ) (g : GMesh 3 ℝ) (bd : Idx → List Idx)
    (hv : ValidMesh g.mesh bd) (hne : NoEmptyElement g.mesh) (hd : g.mesh.dim = 3) :
    ∃ cs cs', computeCenters g.mesh = .ok cs ∧ computeCenters (mapVertices (s • L) t g).mesh = .ok cs' ∧
      computeMeasures3 (setCenters (mapVertices (s • L) t g) cs') =
        ((computeMeasures3 (setCenters g cs)).bind fun r => .ok (r.1.map (s * ·), r.2.1.map (s ^ 2 * ·), r.2.2.map (s ^ 3 * ·))) ∧
      computeFaceNormals3 (setCenters (mapVertices (s • L) t g) cs') =
        ((computeFaceNormals3 (setCenters g cs)).bind fun ns => .ok (ns.map L)) ∧
      (0 < det3 L → edgesOrientation (setCenters (mapVertices (s • L) t g) cs') = edgesOrientation (setCenters g cs)) := by
  obtain ⟨cs, cs', h1, h2, h3⟩ := C77_centers (s • L) t g bd hv hne (by omega)
  exact ⟨cs, cs', h1, h2, by rw [h3.measures3 (g := move (s • L) t (setCenters g cs)) hd, C77_measures_3d s hs L hL], by rw [h3.normals3 (g := move (s • L) t (setCenters g cs)) hd, C77_normals_3d s hs L hL],
    fun h => by rw [h3.orientation3 (g := move (s • L) t (setCenters g cs)) hd, C77_orientation_3d s hs L hL h]⟩

/-- C77. The same for the distances and differences of the centers, in any dimension, on a mesh without boundary cells. -/
theorem C77_recomputed_distances (s : ℝ) (hs : 0 < s) (L : Vec n ℝ →ₗ[ℝ] Vec n ℝ) (hL : IsIsometry L) (t : Vec n ℝ) (g : GMesh n ℝ)
    (bd : Idx → List Idx) (hv : ValidMesh g.mesh bd) (hne : NoEmptyElement g.mesh) (hd : 2 ≤ g.mesh.dim) (hb : g.mesh.bCells = []) :
    ∃ cs cs', computeCenters g.mesh = .ok cs ∧ computeCenters (mapVertices (s • L) t g).mesh = .ok cs' ∧
      computeCellsDistance (setCenters (mapVertices (s • L) t g) cs') =
        ((computeCellsDistance (setCenters g cs)).bind fun ds => .ok (ds.map (s * ·))) ∧
      computeCellsCenterDifference (setCenters (mapVertices (s • L) t g) cs') =
        (computeCellsCenterDifference (setCenters g cs)).bind fun ds => .ok (ds.map (s • L)) := by
  obtain ⟨cs, cs', h1, h2, h3⟩ := C77_centers (s • L) t g bd hv hne hd
  exact ⟨cs, cs', h1, h2, by rw [h3.distances (g := move (s • L) t (setCenters g cs)) hb, C77_distances s hs L hL], by rw [h3.differences (g := move (s • L) t (setCenters g cs)) hb, C77_differences]⟩

/-- C77. An isometry of the plane is a rotation or a reflection. -/
theorem C77_rotation_or_reflection (L : Vec 2 ℝ →ₗ[ℝ] Vec 2 ℝ) (hL : IsIsometry L) : det2 L = 1 ∨ det2 L = -1 := by
  obtain ⟨h1, h2, h3⟩ := isometry2 hL
  have : det2 L ^ 2 = 1 := by
    unfold det2
    generalize L ![1, 0] 0 = a at *
    generalize L ![1, 0] 1 = c at *
    generalize L ![0, 1] 0 = b at *
    generalize L ![0, 1] 1 = e at *
    linear_combination (b ^ 2 + e ^ 2) * h1 + h2 - (a * b + c * e) * h3
  have : (det2 L - 1) * (det2 L + 1) = 0 := by linear_combination this
  rcases mul_eq_zero.mp this with h | h
  · left; linarith
  · right; linarith

/-! ## Examples -/

namespace SimilarEx

/-- The rotation of the plane with the cosine 3/5 and the sine 4/5. -/
noncomputable def turn2 : Vec 2 ℝ →ₗ[ℝ] Vec 2 ℝ where
  toFun := fun x => ![3 / 5 * x 0 - 4 / 5 * x 1, 4 / 5 * x 0 + 3 / 5 * x 1]
  map_add' := by intro x y; funext i; fin_cases i <;> simp <;> ring
  map_smul' := by intro c x; funext i; fin_cases i <;> simp <;> ring

theorem turn2_isometry : IsIsometry turn2 := by
  intro x y
  rw [dot2, dot2]
  simp [turn2]
  ring

theorem turn2_det : det2 turn2 = 1 := by
  simp [det2, turn2]
  norm_num

/-- The same rotation around the third axis. -/
noncomputable def turn3 : Vec 3 ℝ →ₗ[ℝ] Vec 3 ℝ where
  toFun := fun x => ![3 / 5 * x 0 - 4 / 5 * x 1, 4 / 5 * x 0 + 3 / 5 * x 1, x 2]
  map_add' := by intro x y; funext i; fin_cases i <;> simp <;> ring
  map_smul' := by intro c x; funext i; fin_cases i <;> simp <;> ring

theorem turn3_isometry : IsIsometry turn3 := by
  intro x y
  rw [dot3, dot3]
  simp [turn3]
  ring

theorem turn3_det : det3 turn3 = 1 := by
  simp [det3, triple, turn3]
  norm_num

/-- The square, turned, twice as large and moved. -/
example : ∃ r, computeMeasures2 squareG = .ok r ∧ r.2.length = 2 ∧
    computeMeasures2 (move ((2 : ℝ) • turn2) ![7, 5] squareG) = .ok (r.1.map (2 * ·), r.2.map (2 ^ 2 * ·)) := by
  have h := C39_measures_2d squareG _ square_valid rfl
  refine ⟨_, h, by simp [squareG, square, Mesh.mapV, twoTriangles], ?_⟩
  rw [C77_measures_2d 2 (by norm_num) turn2 turn2_isometry, h]
  rfl

/-- A tetrahedron of volume 1/6, turned, three times as large and moved, has the volume 27 · 1/6. -/
example : ∃ cs' ls as vs, computeCenters (mapVertices ((3 : ℝ) • turn3) ![1, 2, 3] tetsG).mesh = .ok cs' ∧
    computeMeasures3 (setCenters (mapVertices ((3 : ℝ) • turn3) ![1, 2, 3] tetsG) cs') = .ok (ls, as, vs) ∧ vs[0]? = some (27 / 6 : ℝ) := by
  obtain ⟨cs, cs', h1, h2, h3, -, -⟩ := C77_recomputed_3d 3 (by norm_num) turn3 turn3_isometry ![1, 2, 3] tetsG _ tets_valid tets_noEmpty rfl
  obtain ⟨ls, as, vs, h4, h5, _⟩ := C39_convex_3d tetsG _ tets_valid tets_noEmpty rfl cs h1 (tets_nonDegenerate h1) 0
    (by simp [tetsG, tets, twoTets]) _ _ tets_convex
  rw [h4] at h3
  refine ⟨cs', _, _, _, h2, h3, ?_⟩
  simp only [List.getElem?_map, h5, Option.map_some]
  congr 1
  simp [polyhedronVolume, twoTetsBd, tetCycle, vectorArea, sidesOf, List.rotate, tetPos, dot3, cross_apply]
  norm_num

end SimilarEx
end GTMesh.Props
