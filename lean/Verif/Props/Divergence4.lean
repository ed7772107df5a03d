import Verif.Props.Divergence3

/-! # C73: tetrahedra, and a solid with trapezoids -/

namespace GTMesh.Props
open GTMesh Spec Std' Vec Geo

/-- C73. A VTK file of tetrahedra, none of them flat, in any of the two orientations and on different sides of their common triangles: the
flux of every linear field and the gradient of every linear function are exact on every cell. -/
theorem C73_tetrahedra (F : Vtk.File ℝ) (hn : ∀ vs ∈ F.cells, NoRepetition vs) (hfit : 12 * F.cells.length ≤ INVALID) (res : Nat)
    (hres : res = 0 ∨ 3 ≤ res) (hcodes : F.codes.length ≤ F.cells.length) (rest : List (Vtk.VTok ℝ))
    (types : List Nat) (m0 : Mesh (Vtk.Point3 ℝ)) (hd : m0.dim = 3)
    (htwo : ∀ vs ∈ F.cells, ∀ p ∈ Vtk.facePolygons vs, Vtk.AtMostTwoFace F p)
    (T : List (Vec 3 ℝ × Vec 3 ℝ × Vec 3 ℝ × Vec 3 ℝ)) (hT : List.Forall₂ (IsTet F.verts) F.cells T)
    (hdet : ∀ t ∈ T, det4 t.1 t.2.1 t.2.2.1 t.2.2.2 ≠ 0)
    (hapart : Apart Vtk.SameSides (F.cells.map Vtk.facePolygons) (T.map fun t => tetFaces t.1 t.2.1 t.2.2.1 t.2.2.2)) :
    ∃ m tys, Vtk.load3 res (F.tokens ++ rest) types m0 = .ok (m, tys) ∧
      ∀ g : GMesh 3 ℝ, g.mesh = m.mapV vec3 → ∃ cs ls as vols ns, computeCenters g.mesh = .ok cs ∧
        computeMeasures3 (setCenters g cs) = .ok (ls, as, vols) ∧ computeFaceNormals3 (setCenters g cs) = .ok ns ∧
        ∀ (c : Nat) t, T[c]? = some t → ∃ l, boundaryWalk g.mesh c = .ok l ∧ vols[c]? = some (|det4 t.1 t.2.1 t.2.2.1 t.2.2.2| / 6) ∧
          (∀ A b, flux g.mesh l as ns (setCenters g cs).faceCenter (linearField A b) c =
            divergence A * (|det4 t.1 t.2.1 t.2.2.1 t.2.2.2| / 6)) ∧
          ∀ a b, greenGauss g.mesh l as ns (setCenters g cs).faceCenter (fun x => dot a x + b) c = (|det4 t.1 t.2.1 t.2.2.1 t.2.2.2| / 6) • a := by
  obtain ⟨hF, hr, hres', hsol⟩ := tets_file F hn hfit res hres T hT hdet
  obtain ⟨m, tys, l1, he⟩ := C73_vtk_3d F hF res hres' hcodes rest types m0 hd htwo hr (T.map fun t => tetFaces t.1 t.2.1 t.2.2.1 t.2.2.2) hsol hapart
  obtain ⟨m', tys', l2, hg⟩ := C70_vtk_3d F hF res hres' hcodes rest types m0 hd htwo hr (T.map fun t => tetFaces t.1 t.2.1 t.2.2.1 t.2.2.2) hsol
  rw [l1] at l2
  cases l2
  refine ⟨m, tys, l1, fun g hgm => ?_⟩
  obtain ⟨cs, ls, as, vols, ns, k1, k2, k3, k4⟩ := he g hgm
  obtain ⟨cs', ls', as', vols', ns', q1, q2, _, _, q5, _⟩ := hg g hgm
  rw [k1] at q1
  cases q1
  rw [k2] at q2
  cases q2
  refine ⟨cs, ls, as, vols, ns, by rw [hgm]; exact k1, k2, k3, fun c t ht => ?_⟩
  obtain ⟨l, v, r1, r2, r3, r4⟩ := k4 c (tetFaces t.1 t.2.1 t.2.2.1 t.2.2.2) (by rw [List.getElem?_map, ht]; rfl) (by
    intro x hx
    unfold tetFaces at hx
    split at hx <;> simp only [List.mem_cons, List.not_mem_nil, or_false] at hx <;> rcases hx with rfl | rfl | rfl | rfl <;>
      exact C73_triangle _ _ _ _)
  have hv : v = |det4 t.1 t.2.1 t.2.2.1 t.2.2.2| / 6 := by
    rw [q5, List.getElem?_map, List.getElem?_map, ht, Option.map_some, Option.map_some, tetFaces_volume] at r2
    exact (Option.some.inj r2).symm
  subst hv
  refine ⟨l, by rw [hgm]; exact r1, r2, ?_, ?_⟩
  · intro A b; rw [hgm]; exact r3 A b
  · intro a b; rw [hgm]; exact r4 a b

/-! ## Trapezoids -/

/-- A corner of a room cut off by `2x + 2y + z = 4` and `z = 2`: three faces of it are trapezoids. -/
noncomputable def cutFile : Fpma.File ℝ where
  verts := [(0, 0, 0), (2, 0, 0), (0, 2, 0), (0, 0, 2), (1, 0, 2), (0, 1, 2)]
  faces := [[0, 2, 1], [3, 4, 5], [0, 3, 5, 2], [0, 1, 4, 3], [1, 2, 5, 4]]
  cells := [[0, 1, 2, 3, 4]]

noncomputable def cutPoint (i : Nat) : Vec 3 ℝ := [![0, 0, 0], ![2, 0, 0], ![0, 2, 0], ![0, 0, 2], ![1, 0, 2], ![0, 1, 2]].getD i 0

noncomputable def cutSolid : List (List (Vec 3 ℝ) × Vec 3 ℝ) :=
  [([0, 2, 1].map cutPoint, ![0, 0, -1]), ([3, 4, 5].map cutPoint, ![0, 0, 1]), ([0, 3, 5, 2].map cutPoint, ![-1, 0, 0]),
    ([0, 1, 4, 3].map cutPoint, ![0, -1, 0]), ([1, 2, 5, 4].map cutPoint, ![2 / 3, 2 / 3, 1 / 3])]

theorem cutSolid_convex : ConvexSolid cutSolid := by
  have hm : ∀ x ∈ cutSolid, x = ([![0, 0, 0], ![0, 2, 0], ![2, 0, 0]], ![0, 0, -1]) ∨ x = ([![0, 0, 2], ![1, 0, 2], ![0, 1, 2]], ![0, 0, 1]) ∨
      x = ([![0, 0, 0], ![0, 0, 2], ![0, 1, 2], ![0, 2, 0]], ![-1, 0, 0]) ∨ x = ([![0, 0, 0], ![2, 0, 0], ![1, 0, 2], ![0, 0, 2]], ![0, -1, 0]) ∨
      x = ([![2, 0, 0], ![0, 2, 0], ![0, 1, 2], ![1, 0, 2]], ![2 / 3, 2 / 3, 1 / 3]) := by
    intro x hx
    simpa [cutSolid, cutPoint] using hx
  have hq : ∀ x ∈ cutSolid, ∀ q ∈ x.1, q = ![0, 0, 0] ∨ q = ![2, 0, 0] ∨ q = ![0, 2, 0] ∨ q = ![0, 0, 2] ∨ q = ![1, 0, 2] ∨ q = ![0, 1, 2] := by
    intro x hx q hq
    rcases hm x hx with rfl | rfl | rfl | rfl | rfl <;> simp only [List.mem_cons, List.not_mem_nil, or_false] at hq <;> tauto
  constructor
  · intro x hx
    rcases hm x hx with rfl | rfl | rfl | rfl | rfl <;> rw [norm_real, Real.sqrt_eq_one] <;> simp [dot3] <;> norm_num
  · intro x hx p hp q hq
    rcases hm x hx with rfl | rfl | rfl | rfl | rfl <;> simp [sidesOf, List.rotate] at hp hq <;>
      rcases hp with rfl | rfl | rfl | rfl <;>
      rcases hq with rfl | rfl | rfl | rfl <;>
      refine ⟨?_, ?_⟩ <;> simp [dot3, cross_apply] <;> norm_num
  · intro x hx p hp
    rcases hm x hx with rfl | rfl | rfl | rfl | rfl <;> simp [sidesOf, List.rotate] at hp <;>
      rcases hp with rfl | rfl | rfl | rfl <;>
      simp [dot3, cross_apply] <;> norm_num
  · intro x hx y hy q hqx q' hqy
    have hq' := hq y hy q' hqy
    clear hqy hy
    rcases hm x hx with rfl | rfl | rfl | rfl | rfl <;> simp only [List.mem_cons, List.not_mem_nil, or_false] at hqx <;>
      rcases hqx with rfl | rfl | rfl | rfl <;>
      rcases hq' with rfl | rfl | rfl | rfl | rfl | rfl <;> simp [dot3] <;> norm_num
  · intro x hx q hqx
    have w0 : ∃ y ∈ cutSolid, (![0, 0, 0] : Vec 3 ℝ) ∈ y.1 := ⟨_, List.mem_cons_self, by simp [cutPoint]⟩
    have w1 : ∃ y ∈ cutSolid, (![2, 0, 0] : Vec 3 ℝ) ∈ y.1 := ⟨_, List.mem_cons_self, by simp [cutPoint]⟩
    have w2 : ∃ y ∈ cutSolid, (![0, 2, 0] : Vec 3 ℝ) ∈ y.1 := ⟨_, List.mem_cons_self, by simp [cutPoint]⟩
    have w3 : ∃ y ∈ cutSolid, (![0, 0, 2] : Vec 3 ℝ) ∈ y.1 := ⟨_, List.mem_cons_of_mem _ List.mem_cons_self, by simp [cutPoint]⟩
    have key : ∀ v : Vec 3 ℝ, (∃ y ∈ cutSolid, v ∈ y.1) → dot (v - q) x.2 < 0 → ∃ y ∈ cutSolid, ∃ q' ∈ y.1, dot (q' - q) x.2 < 0 := by
      rintro v ⟨y, h1, h2⟩ h3
      exact ⟨y, h1, v, h2, h3⟩
    rcases hm x hx with rfl | rfl | rfl | rfl | rfl <;> simp only [List.mem_cons, List.not_mem_nil, or_false] at hqx
    · apply key _ w3
      rcases hqx with rfl | rfl | rfl <;> simp [dot3]
    · apply key _ w0
      rcases hqx with rfl | rfl | rfl <;> simp [dot3]
    · apply key _ w1
      rcases hqx with rfl | rfl | rfl | rfl <;> simp [dot3]
    · apply key _ w2
      rcases hqx with rfl | rfl | rfl | rfl <;> simp [dot3]
    · apply key _ w0
      rcases hqx with rfl | rfl | rfl | rfl <;> simp [dot3] <;> norm_num
  · have : (cutSolid.flatMap fun x => sidesOf x.1) =
        ([[0, 2, 1], [3, 4, 5], [0, 3, 5, 2], [0, 1, 4, 3], [1, 2, 5, 4]].flatMap fun x : List Nat => sidesOf x).map fun p => (cutPoint p.1, cutPoint p.2) := by
      rfl
    rw [this, List.map_map]
    have hp : ([[0, 2, 1], [3, 4, 5], [0, 3, 5, 2], [0, 1, 4, 3], [1, 2, 5, 4]].flatMap fun x : List Nat => sidesOf x).Perm
        (([[0, 2, 1], [3, 4, 5], [0, 3, 5, 2], [0, 1, 4, 3], [1, 2, 5, 4]].flatMap fun x : List Nat => sidesOf x).map Prod.swap) := by decide
    have := hp.map fun p => (cutPoint p.1, cutPoint p.2)
    rw [List.map_map] at this
    exact this

/-- The field `(0, 0, z)`. -/
noncomputable def upField : Fin 3 → Vec 3 ℝ := ![0, 0, ![0, 0, 1]]

/-- C73, the claim is false for faces that do not have their center of gravity in the mean of their vertices: the flux of `(0, 0, z)`, whose
divergence is 1, out of the truncated corner is 5/2, and its volume is 7/3. -/
theorem C73_violated_3d : ∃ m, Fpma.load 4 (cutFile.tokens ++ []) { dim := 3 } = .ok m ∧ ∀ g : GMesh 3 ℝ, g.mesh = m.mapV vec3 →
    ∃ cs ls as ns l, computeCenters g.mesh = .ok cs ∧ computeMeasures3 (setCenters g cs) = .ok (ls, as, [7 / 3]) ∧
      computeFaceNormals3 (setCenters g cs) = .ok ns ∧ boundaryWalk g.mesh 0 = .ok l ∧
      flux g.mesh l as ns (setCenters g cs).faceCenter (linearField upField 0) 0 = 5 / 2 ∧ divergence upField = 1 := by
  have hw : cutFile.WellFormed := ⟨by decide, by simp only [NoRepetition]; decide, by decide, by
    intro f
    show ([[0, 1, 2, 3, 4]].filter fun l => decide (f ∈ l)).length ≤ 2
    exact le_trans (List.length_filter_le _ _) (by decide), by decide, by decide⟩
  have hres : ∀ vs ∈ cutFile.faces, 4 = 0 ∨ vs.length ≤ 4 := by decide
  have hr : ∀ vs ∈ cutFile.faces, ∀ v ∈ vs, v < cutFile.verts.length := by decide
  have hfit : cutFile.cells.length ≤ BOUNDARY := by decide
  have hpoly : ∀ vs ∈ cutFile.faces, 3 ≤ vs.length ∧ NoRepetition vs := by simp only [NoRepetition]; decide
  have hall : ∀ f, f < cutFile.faces.length → ∃ c, Lists cutFile f c := by
    intro f hf
    have hf : f < 5 := hf
    interval_cases f <;> exact ⟨0, _, rfl, by decide⟩
  have hpos : ∀ i, i < 6 → at3 cutFile.verts i = some (cutPoint i) := by
    intro i hi
    interval_cases i <;> rfl
  have hdrawn : ∀ p : List Nat, (∀ v ∈ p, v < 6) → Drawn (at3 cutFile.verts) p (p.map cutPoint) := by
    intro p hp
    refine ⟨p, .inl ⟨0, by simp⟩, ?_⟩
    rw [List.forall₂_map_right_iff, List.forall₂_same]
    exact fun v hv => hpos v (hp v hv)
  have hsol : List.Forall₂ (fun l faces => ConvexSolid faces ∧
      List.Forall₂ (fun (f : Nat) x => ∃ p, cutFile.faces[f]? = some p ∧ Drawn (at3 cutFile.verts) p x.1) l faces) cutFile.cells [cutSolid] :=
    .cons ⟨cutSolid_convex, .cons ⟨_, rfl, hdrawn _ (by decide)⟩ (.cons ⟨_, rfl, hdrawn _ (by decide)⟩ (.cons ⟨_, rfl, hdrawn _ (by decide)⟩
      (.cons ⟨_, rfl, hdrawn _ (by decide)⟩ (.cons ⟨_, rfl, hdrawn _ (by decide)⟩ .nil))))⟩ .nil
  have hapart : Apart Eq cutFile.cells [cutSolid] := by
    intro c c' ks ks' faces faces' hne _ _ h1 h2
    have h1 := (List.getElem?_eq_some_iff.mp h1).1
    have h2 := (List.getElem?_eq_some_iff.mp h2).1
    simp at h1 h2
    omega
  obtain ⟨m, l1, hv, h3, hb, hl, hS, hcov, hedge⟩ := fpma_shapes cutFile hw 4 hres [] hr hfit hpoly hall [cutSolid] hsol
  obtain ⟨m', l2, hc⟩ := C55_fpma cutFile hw 4 hres [] hr hfit hpoly hall [cutSolid] hsol hapart
  rw [l1] at l2
  cases l2
  have hg := hasGeometry_of hv h3 hb hl hS hcov hedge
  refine ⟨m, l1, fun g hgm => ?_⟩
  obtain ⟨cs, ls, as, vols, ns, k1, k2, k3, k4⟩ := fluxesOfFaces h3 (fun c faces hf => (hS c faces hf).1) hg hc g hgm
  obtain ⟨cs', ls', as', vols', ns', q1, q2, _, _, q5, _⟩ := hg g hgm
  rw [k1] at q1
  cases q1
  rw [k2] at q2
  cases q2
  obtain ⟨l, r1, r2, r3⟩ := k4 0 cutSolid rfl
  have hvol : solidVolume cutSolid = 7 / 3 := by
    simp [solidVolume, cutSolid, cutPoint, vectorArea, sidesOf, List.rotate, dot3, cross_apply]
    norm_num
  refine ⟨cs, ls, as, ns, l, by rw [hgm]; exact k1, ?_, k3, by rw [hgm]; exact r1, ?_, ?_⟩
  · rw [k2, q5, List.map_cons, List.map_nil, hvol]
  · rw [hgm, r3]
    simp [cutSolid, cutPoint, vectorArea, sidesOf, List.rotate, dot3, cross_apply, linearField, upField, mean]
    norm_num
  · simp [divergence, upField, Fin.sum_univ_three]

/-! ## Examples -/

/-- The two tetrahedra: the flux of the position out of the first one is half a unit, three times its volume. -/
example : ∃ m tys, Vtk.load3 3 (tetFile.tokens ++ []) [] { dim := 3 } = .ok (m, tys) ∧
    ∀ g : GMesh 3 ℝ, g.mesh = m.mapV vec3 → ∃ cs ls as vols ns, computeCenters g.mesh = .ok cs ∧
      computeMeasures3 (setCenters g cs) = .ok (ls, as, vols) ∧ computeFaceNormals3 (setCenters g cs) = .ok ns ∧
      ∃ l, boundaryWalk g.mesh 0 = .ok l ∧ flux g.mesh l as ns (setCenters g cs).faceCenter (linearField (fun k => Pi.single k 1) 0) 0 = 1 / 2 := by
  obtain ⟨m, tys, l1, h⟩ := C73_tetrahedra tetFile (by simp only [NoRepetition, tetFile]; decide) (by simp [tetFile]; decide) 3 (.inr (le_refl _))
    (le_refl _) [] [] { dim := 3 } rfl (by
      rintro _ _ p _ a b c ⟨_, ha, _⟩ ⟨_, hb, _⟩ ⟨_, hc, _⟩
      have ha := (List.getElem?_eq_some_iff.mp ha).1
      have hb := (List.getElem?_eq_some_iff.mp hb).1
      have hc := (List.getElem?_eq_some_iff.mp hc).1
      simp [tetFile] at ha hb hc
      omega) tetCorners tetFile_corners tetCorners_det tetFile_apart
  refine ⟨m, tys, l1, fun g hg => ?_⟩
  obtain ⟨cs, ls, as, vols, ns, k1, k2, k3, k4⟩ := h g hg
  obtain ⟨l, r1, _, r3, _⟩ := k4 0 _ rfl
  refine ⟨cs, ls, as, vols, ns, k1, k2, k3, l, r1, ?_⟩
  rw [r3]
  simp [divergence, det4_eq, vec3]
  norm_num

end GTMesh.Props
