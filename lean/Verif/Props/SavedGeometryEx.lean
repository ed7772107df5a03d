import Verif.Props.SavedGeometry3

/-! # C74: files, and examples -/

namespace GTMesh.Props
open Spec Std' Vec Geo
open Vtk (vec2)

/-- C74, VTK 2D, for the meshes that are read: a file of polygons as in C23 is read, written and read again. -/
theorem C74_vtk_2d_file (F : Vtk.File ℝ) (hF : F.Polygons) (hcodes : F.codes.length = F.cells.length)
    (hknown : ∀ code ∈ F.codes, ∃ t, Vtk.fromVtk2 code = some t) (htwo : ∀ u v, Vtk.AtMostTwo F u v)
    (hr : ∀ vs ∈ F.cells, ∀ v ∈ vs, v < F.verts.length) (title : List String) :
    ∃ m t ts m', Vtk.load2 F.tokens [] { dim := 2 } = .ok (m, t) ∧ Vtk.writeToStream2 0 m t = .ok ts ∧
      Vtk.load2 (Vtk.header title ++ ts) [] { dim := 2 } = .ok (m', t) ∧
      ∀ g g' : GMesh 2 ℝ, g.mesh = m.mapV vec2 → g'.mesh = m'.mapV vec2 →
        ∃ cs ls cs' ls' as, computeCenters g.mesh = .ok cs ∧ computeMeasures2 (setCenters g cs) = .ok (ls, as) ∧
          computeCenters g'.mesh = .ok cs' ∧ computeMeasures2 (setCenters g' cs') = .ok (ls', as) ∧
          ∀ c, c < F.cells.length → entry cs' 2 c = entry cs 2 c ∧ ∃ l l', boundaryWalk m c = .ok l ∧ boundaryWalk m' c = .ok l' ∧
            (l'.map (edgeData ls' cs')).Perm (l.map (edgeData ls cs)) := by
  obtain ⟨m, t, bd, h1, h2, h3⟩ := Vtk.C22_valid F hF (by omega) [] [] { dim := 2 } rfl htwo hr
  rw [List.append_nil] at h1
  obtain ⟨m1, t1, g1, g2, g3, g4, g5, g6, g7, g8, g9, g10⟩ := Vtk.C22_load F hF (by omega) [] [] { dim := 2 } rfl
  rw [List.append_nil, h1] at g1
  cases g1
  have hsome : ∀ (c : Nat), c < m.cells.length → F.cells[c]? = some ((F.cells[c]?).getD []) := by
    intro c hc
    rw [g7] at hc
    simp [hc]
  have hbd : ∀ c, c < m.cells.length → NoRepetition (bd c) := by
    intro c hc
    exact (h2.chain c m.cells[c] (by simp)).1.2.1
  obtain ⟨ts, m', w1, w2, w3⟩ := C74_vtk_2d m t bd (fun c => (F.cells[c]?).getD []) title g2 h2
    (by
      intro c cl hc
      have hlt := (List.getElem?_eq_some_iff.mp hc).1
      obtain ⟨cl', l, a1, a2, _⟩ := g8 c _ (hsome c hlt)
      rw [hc] at a1
      cases a1
      exact a2)
    (by
      intro c hc
      have hm := List.mem_of_getElem? (hsome c hc)
      have h3' := hF.three _ hm
      refine ⟨⟨?_, hF.nodup _ hm, hbd c hc, bd c, List.Perm.refl _, h3 c _ (hsome c hc)⟩, h3'⟩
      intro hnil
      rw [hnil] at h3'
      simp at h3')
    g5 (by rw [g7]; exact hF.fit)
    (by
      have : ((List.range m.cells.length).map fun c => ((F.cells[c]?).getD []).length) = F.cells.map List.length := by
        apply List.ext_getElem
        · simp [g7]
        · intro i a1 a2
          simp only [List.length_map] at a2
          simp [a2]
      rw [this]
      exact hF.edges_fit)
    (by rw [g9, g7])
    (by
      intro ty hty
      obtain ⟨c, hc⟩ := List.getElem?_of_mem hty
      have hlt := (List.getElem?_eq_some_iff.mp hc).1
      rw [g9, ← hcodes] at hlt
      obtain ⟨ty', hk⟩ := hknown F.codes[c] (List.getElem_mem hlt)
      have := g10 c _ ty' (by simp [hlt]) hk
      rw [hc] at this
      cases this
      exact Vtk.toVtk2_of_fromVtk2 hk)
    [] { dim := 2 } rfl
  rw [← g7]
  exact ⟨m, t, ts, m', h1, w1, w2, w3⟩

/-- C74, FPMA, for the meshes that are read: a file with flat faces is read, written and read again. -/
theorem C74_fpma_file (F : Fpma.File ℝ) (hF : F.WellFormed) (res : Nat)
    (hres : ∀ vs ∈ F.faces, res = 0 ∨ vs.length ≤ res) (rest : List (Tok ℝ))
    (hr : ∀ vs ∈ F.faces, ∀ v ∈ vs, v < F.verts.length)
    (hpoly : ∀ vs ∈ F.faces, 3 ≤ vs.length ∧ NoRepetition vs)
    (hflat : ∀ vs ∈ F.faces, ∃ ps ν, List.Forall₂ (fun v x => at3 F.verts v = some x) vs ps ∧ Flat ps ν) :
    ∃ m ts m', Fpma.load res (F.tokens ++ rest) { dim := 3 } = .ok m ∧ Fpma.write m = .ok ts ∧ Fpma.load 0 ts { dim := 3 } = .ok m' ∧
      ∀ g g' : GMesh 3 ℝ, g.mesh = m.mapV vec3 → g'.mesh = m'.mapV vec3 →
        ∃ cs ls cs' ls' as vols, computeCenters g.mesh = .ok cs ∧ computeMeasures3 (setCenters g cs) = .ok (ls, as, vols) ∧
          computeCenters g'.mesh = .ok cs' ∧ computeMeasures3 (setCenters g' cs') = .ok (ls', as, vols) ∧
          (∀ f, f < F.faces.length → entry cs' 2 f = entry cs 2 f) ∧ (∀ c, c < F.cells.length → entry cs' 3 c = entry cs 3 c) ∧
          ∀ (f : Nat) fa fa', (m.midElems 2)[f]? = some fa → (m'.midElems 2)[f]? = some fa' →
            (fa'.sub.map (edgeData ls' cs')).Perm (fa.sub.map (edgeData ls cs)) := by
  obtain ⟨m, l1, hv⟩ := Fpma.C18_valid F hF res hres rest hr
  obtain ⟨m', l2, g1, g2, _, g4, g5, g6, g7, g8, g9⟩ := Fpma.C18_load F hF res hres rest
  rw [l1] at l2
  cases l2
  have hpg : ∀ (i : Nat) vs f, F.faces[i]? = some vs → (m.midElems 2)[i]? = some f → IsPolygon m.edges f.sub vs := by
    intro i vs f hi hf
    obtain ⟨f', a1, _, a3⟩ := g7 i vs hi
    rw [hf] at a1
    cases a1
    obtain ⟨b1, b2⟩ := hpoly vs (List.mem_of_getElem? hi)
    exact ⟨by rintro rfl; simp at b1, b2, Vtk.EdgesOf.nodup a3 b2 b1, f.sub, .refl _, a3⟩
  have hat : ∀ i, i < (m.midElems 2).length → F.faces[i]? = some ((F.faces[i]?).getD []) ∧ (F.faces[i]?).getD [] ∈ F.faces := by
    intro i hi
    rw [g6] at hi
    rw [List.getElem?_eq_getElem hi]
    exact ⟨rfl, List.getElem_mem hi⟩
  obtain ⟨ts, m', w1, w2, w3⟩ := C74_fpma m _ (fun i => (F.faces[i]?).getD []) g1 hv (by
      intro i f hf
      have h := hat i (List.getElem?_eq_some_iff.mp hf).1
      exact ⟨hpg i _ f h.1 hf, (hpoly _ h.2).1⟩)
    (by rw [g8]; exact hF.cells_fit) (by rw [g6]; exact hF.faces_fit) (by
      intro i hi
      rw [g2]
      exact hflat _ (hat i hi).2) (by
      intro e he h0
      obtain ⟨vs, k1, j, k2, k3, k4⟩ := g5 e he
      obtain ⟨ps, ν, q1, q2⟩ := hflat vs k1
      rw [g2] at h0
      have hl := q1.length_eq
      have hj1 : j < ps.length := by omega
      have hget : ∀ (j : Nat) x, cyc vs j = some x → at3 F.verts x = ps[j % ps.length]? := by
        intro j x hx
        unfold cyc at hx
        rw [hl] at hx
        obtain ⟨y, y1, y2⟩ := Vtk.forall₂_get q1 hx
        rw [y1]; exact y2
      have e1 := hget j _ k3
      have e2 := hget (j + 1) _ k4
      rw [h0, e2, Nat.mod_eq_of_lt hj1] at e1
      have hm : (j + 1) % ps.length < ps.length := Nat.mod_lt _ (by omega)
      rw [List.getElem?_eq_getElem hm, List.getElem?_eq_getElem hj1] at e1
      have hside : (ps[j], ps[j]) ∈ sidesOf ps := by
        have := List.mem_of_getElem? (sidesOf_get ps j hj1)
        rwa [Option.some.inj e1] at this
      obtain ⟨r, r1, r2⟩ := q2.2 _ hside
      have hz : cross (ps[j] - mean ps) (ps[j] - mean ps) = 0 := by
        have h1 := cross_apply (ps[j] - mean ps) (ps[j] - mean ps)
        apply ext3 <;> simp only [h1, Pi.zero_apply] <;> ring
      rw [hz] at r2
      have := congrArg Vec.norm r2
      rw [norm_smul, q2.1, mul_one, norm_zero3] at this
      exact r1 (abs_eq_zero.mp this.symm))
  rw [g6, g8] at w3
  exact ⟨m, ts, m', l1, w1, w2, w3⟩

/-! ## Examples -/

/-- The quadrangle and the two triangles. -/
example : ∃ m t ts m', Vtk.load2 Vtk.exampleFileR.tokens [] { dim := 2 } = .ok (m, t) ∧ Vtk.writeToStream2 0 m t = .ok ts ∧
    Vtk.load2 (Vtk.header [] ++ ts) [] { dim := 2 } = .ok (m', t) ∧ ∀ g g' : GMesh 2 ℝ, g.mesh = m.mapV vec2 → g'.mesh = m'.mapV vec2 →
      ∃ cs ls cs' ls' as, computeCenters g.mesh = .ok cs ∧ computeMeasures2 (setCenters g cs) = .ok (ls, as) ∧
        computeCenters g'.mesh = .ok cs' ∧ computeMeasures2 (setCenters g' cs') = .ok (ls', as) ∧ entry cs' 2 2 = entry cs 2 2 := by
  obtain ⟨m, t, ts, m', h1, h2, h3, h4⟩ := C74_vtk_2d_file Vtk.exampleFileR
    ⟨Vtk.exampleFile_polygons.nodup, Vtk.exampleFile_polygons.three, Vtk.exampleFile_polygons.fit, Vtk.exampleFile_polygons.edges_fit⟩ rfl
    (by
      intro c hc
      have hc : c ∈ Vtk.exampleFile.codes := hc
      simp [Vtk.exampleFile] at hc; rcases hc with rfl | rfl <;> exact ⟨_, rfl⟩)
    (Vtk.Oriented.two Vtk.exampleFileR_oriented) (by
      show ∀ vs ∈ Vtk.exampleFile.cells, ∀ v ∈ vs, v < 6
      decide) []
  refine ⟨m, t, ts, m', h1, h2, h3, fun g g' hg hg' => ?_⟩
  obtain ⟨cs, ls, cs', ls', as, k1, k2, k3, k4, k5⟩ := h4 g g' hg hg'
  exact ⟨cs, ls, cs', ls', as, k1, k2, k3, k4, (k5 2 (by decide)).1⟩

/-- The two tetrahedra as an FPMA file. -/
example : ∃ m ts m', Fpma.load 3 (tetFpma.tokens ++ []) { dim := 3 } = .ok m ∧ Fpma.write m = .ok ts ∧ Fpma.load 0 ts { dim := 3 } = .ok m' ∧
    ∀ g g' : GMesh 3 ℝ, g.mesh = m.mapV vec3 → g'.mesh = m'.mapV vec3 →
      ∃ cs ls cs' ls' as vols, computeCenters g.mesh = .ok cs ∧ computeMeasures3 (setCenters g cs) = .ok (ls, as, vols) ∧
        computeCenters g'.mesh = .ok cs' ∧ computeMeasures3 (setCenters g' cs') = .ok (ls', as, vols) ∧ entry cs' 3 1 = entry cs 3 1 := by
  have hw : tetFpma.WellFormed := ⟨by decide, by simp only [NoRepetition]; decide, by decide, by
    intro f
    show ([[0, 1, 2, 3], [2, 4, 6, 5]].filter fun l => decide (f ∈ l)).length ≤ 2
    exact List.length_filter_le _ _, by decide, by decide⟩
  obtain ⟨m, ts, m', h1, h2, h3, h4⟩ := C74_fpma_file tetFpma hw 3 (by decide) [] (by decide) (by simp only [NoRepetition]; decide) (by
    intro vs hvs
    have fl : ∀ (a b c : Nat) (P Q R : Vec 3 ℝ), at3 tetFpma.verts a = some P → at3 tetFpma.verts b = some Q → at3 tetFpma.verts c = some R →
        cross (Q - P) (R - P) ≠ 0 → ∃ ps ν, List.Forall₂ (fun v x => at3 tetFpma.verts v = some x) [a, b, c] ps ∧ Flat ps ν :=
      fun a b c P Q R h1 h2 h3 hn => ⟨_, _, .cons h1 (.cons h2 (.cons h3 .nil)), tri_flat hn⟩
    have hne : ∀ {P Q R : Vec 3 ℝ} (k : Fin 3), cross (Q - P) (R - P) k ≠ 0 → cross (Q - P) (R - P) ≠ 0 := by
      intro P Q R k h h0; rw [h0] at h; exact h rfl
    have hc := fun P Q R : Vec 3 ℝ => cross_apply (Q - P) (R - P)
    simp only [tetFpma, List.mem_cons, List.not_mem_nil, or_false] at hvs
    rcases hvs with rfl | rfl | rfl | rfl | rfl | rfl | rfl
    · exact fl _ _ _ _ _ _ rfl rfl rfl (hne 2 (by rw [(hc _ _ _).2.2]; simp [vec3]))
    · exact fl _ _ _ _ _ _ rfl rfl rfl (hne 1 (by rw [(hc _ _ _).2.1]; simp [vec3]))
    · exact fl _ _ _ _ _ _ rfl rfl rfl (hne 0 (by rw [(hc _ _ _).1]; simp [vec3]))
    · exact fl _ _ _ _ _ _ rfl rfl rfl (hne 0 (by rw [(hc _ _ _).1]; simp [vec3]))
    · exact fl _ _ _ _ _ _ rfl rfl rfl (hne 0 (by rw [(hc _ _ _).1]; simp [vec3]))
    · exact fl _ _ _ _ _ _ rfl rfl rfl (hne 0 (by rw [(hc _ _ _).1]; simp [vec3]))
    · exact fl _ _ _ _ _ _ rfl rfl rfl (hne 0 (by rw [(hc _ _ _).1]; simp [vec3])))
  refine ⟨m, ts, m', h1, h2, h3, fun g g' hg hg' => ?_⟩
  obtain ⟨cs, ls, cs', ls', as, vols, k1, k2, k3, k4, k5, k6, _⟩ := h4 g g' hg hg'
  exact ⟨cs, ls, cs', ls', as, vols, k1, k2, k3, k4, k6 1 (by decide)⟩

/-! Two tetrahedra, the second one of an unknown type: it is split into 12 tetrahedra. -/

namespace SavedEx

/-- The file with the tetrahedra. -/
def tetFileI : Vtk.File Int where
  line1 := ["#", "vtk", "DataFile", "Version", "2.0"]
  line2 := ["tetrahedra"]
  precision := "double"
  verts := [(0, 0, 0), (1, 0, 0), (0, 1, 0), (0, 0, 1), (1, 1, 1)]
  total := 10
  cells := [[0, 1, 2, 3], [2, 1, 3, 4]]
  codes := [10, 10]

/-- The mesh. -/
def tetMeshI : Mesh (Vtk.Point3 Int) :=
  match Vtk.load3 3 tetFileI.tokens [] { dim := 3 } with
  | .ok (m, _) => m
  | _ => { dim := 3 }

/-- With real positions. -/
noncomputable def tetMeshR : Mesh (Vtk.Point3 ℝ) := tetMeshI.mapV fun p => ((p.1 : ℝ), (p.2.1 : ℝ), (p.2.2 : ℝ))

/-- The faces of the cells. -/
def tetBd (i : Idx) : List Idx := if i = 0 then [0, 1, 2, 3] else [2, 4, 5, 6]

/-- The vertices of the cells. -/
def tetVert (i : Idx) : List Idx := (tetFileI.cells[i]?).getD []

/-- The vertices of the faces. -/
def tetPoly (f : Idx) : List Idx := ([[0, 1, 2], [0, 1, 3], [1, 2, 3], [2, 0, 3], [2, 1, 4], [1, 3, 4], [3, 2, 4]][f]?).getD []

theorem tetMeshI_valid : ValidMesh tetMeshI tetBd := validB_sound (by decide +kernel)

theorem tetMeshI_numbered : Vtk.Numbered tetMeshI where
  cells := by
    intro i c h
    have hi := (List.getElem?_eq_some_iff.mp h).1
    have : ∀ (i : Nat) (hi : i < tetMeshI.cells.length), tetMeshI.cells[i].index = i := by decide +kernel
    have := this i hi
    simp [hi] at h
    rwa [h] at this
  faces := by
    intro i c h
    have hi := (List.getElem?_eq_some_iff.mp h).1
    have : ∀ (i : Nat) (hi : i < (tetMeshI.midElems 2).length), (tetMeshI.midElems 2)[i].index = i := by decide +kernel
    have := this i hi
    simp [hi] at h
    rwa [h] at this

theorem tetFileI_solids : tetFileI.Solids where
  known := by decide
  nodup := by simp only [NoRepetition]; decide
  fit := by decide

theorem tetFileI_two (p : List Idx) : Vtk.AtMostTwoFace tetFileI p := by
  rintro a b c ⟨_, ha, _⟩ ⟨_, hb, _⟩ ⟨_, hc, _⟩
  have ha := (List.getElem?_eq_some_iff.mp ha).1
  have hb := (List.getElem?_eq_some_iff.mp hb).1
  have hc := (List.getElem?_eq_some_iff.mp hc).1
  simp [tetFileI] at ha hb hc
  omega

theorem tetMeshI_load : ∃ t, Vtk.load3 3 tetFileI.tokens [] { dim := 3 } = .ok (tetMeshI, t) := ⟨[300, 300], by decide +kernel⟩

theorem tetMeshI_facts : (∀ i, i < 2 → Vtk.IsSolid tetMeshI (tetBd i) (tetVert i) 300) ∧ Vtk.NoDoubles tetMeshI ∧
    ∀ f, f < 7 → ∃ fa, (tetMeshI.midElems 2)[f]? = some fa ∧ IsPolygon tetMeshI.edges fa.sub (tetPoly f) := by
  obtain ⟨t, ht⟩ := tetMeshI_load
  obtain ⟨m, t', h1, _, _, _, _, h6, h7, _, _, _, h11, _⟩ := Vtk.C25_load tetFileI tetFileI_solids 3 (by decide)
    (by decide) [] [] { dim := 3 } rfl
  rw [List.append_nil, ht] at h1
  cases h1
  have hw : ∀ i < 2, boundaryWalk tetMeshI i = .ok (tetBd i) := by decide +kernel
  have hv : ∀ i < 2, tetFileI.cells[i]? = some (tetVert i) ∧ Vtk.vertexCount 300 = some (tetVert i).length := by decide +kernel
  have hS : ∀ i, i < 2 → Vtk.FacesOf tetMeshI.edges (tetMeshI.midElems 2) (tetBd i) (tetVert i) := by
    intro i hi
    obtain ⟨cl, l, _, _, a3, _, _, a6⟩ := h11 i _ (hv i hi).1
    have := a6 fun p _ => tetFileI_two p
    rw [hw i hi] at this
    cases this
    exact a3
  refine ⟨fun i hi => ⟨(hv i hi).2, tetFileI_solids.nodup _ (List.mem_of_getElem? (hv i hi).1), _, .refl _, hS i hi⟩, ⟨h6, h7⟩, ?_⟩
  intro f hf
  have key : ∀ f < 7, ∃ i < 2, ∃ j < 4, (tetBd i)[j]? = some f ∧ (Vtk.facePolygons (tetVert i))[j]? = some (tetPoly f) := by decide +kernel
  obtain ⟨i, hi, j, _, k1, k2⟩ := key f hf
  obtain ⟨f', x, a1, a2, a3⟩ := (hS i hi).2 j _ k2
  rw [k1] at a1
  cases a1
  exact ⟨x, a2, a3⟩

theorem tetPolyhedra : Vtk.SplitPolyhedra tetMeshR tetBd [300, 304] tetPoly where
  polygon := by
    intro i f hi hs hf
    have hi : i < 2 := hi
    have hlt : ∀ i < 2, ∀ f ∈ tetBd i, f < 7 ∧ 3 ≤ (tetPoly f).length := by decide
    obtain ⟨fa, h1, h2⟩ := tetMeshI_facts.2.2 f (hlt i hi f hf).1
    refine ⟨?_, (hlt i hi f hf).2⟩
    have : Vtk.edgesOfFace tetMeshR f = fa.sub := by
      show (((tetMeshI.midElems 2)[f]?).map (·.sub)).getD [] = _
      rw [h1]; rfl
    rw [this]
    exact h2
  closed := by
    intro i e f f' f'' hi hs h1 h2 h3 e1 e2 e3
    have hi : i < 2 := hi
    have key : ∀ i < 2, ∀ f ∈ tetBd i, ∀ e ∈ Vtk.edgesOfFace tetMeshI f, ∀ f' ∈ tetBd i, e ∈ Vtk.edgesOfFace tetMeshI f' →
      ∀ f'' ∈ tetBd i, e ∈ Vtk.edgesOfFace tetMeshI f'' → f = f' ∨ f' = f'' ∨ f = f'' := by decide +kernel
    exact key i hi f h1 e e1 f' h2 e2 f'' h3 e3

/-- The positions of the vertices. -/
noncomputable def tetPts (v : Idx) : Vec 3 ℝ := vec3 (([(0, 0, 0), (1, 0, 0), (0, 1, 0), (0, 0, 1), (1, 1, 1)][v]?).getD (0, 0, 0))

theorem tetMeshR_at (v : Nat) (hv : v < 5) : at3 tetMeshR.vertices v = some (tetPts v) := by
  have h : tetMeshI.vertices = [(0, 0, 0), (1, 0, 0), (0, 1, 0), (0, 0, 1), (1, 1, 1)] := by decide +kernel
  have h' : tetMeshR.vertices = [(0, 0, 0), (1, 0, 0), (0, 1, 0), (0, 0, 1), (1, 1, 1)] := by
    rw [show tetMeshR.vertices = tetMeshI.vertices.map fun p => ((p.1 : ℝ), (p.2.1 : ℝ), (p.2.2 : ℝ)) from rfl, h]
    simp
  rw [h', at3]
  interval_cases v <;> simp [tetPts]

/-- The faces as triangles with normals. -/
noncomputable def tetShape (f : Idx) : List (Vec 3 ℝ) × Vec 3 ℝ :=
  tri (tetPts ((tetPoly f)[0]?.getD 0)) (tetPts ((tetPoly f)[1]?.getD 0)) (tetPts ((tetPoly f)[2]?.getD 0))

/-- The centers of the faces. -/
noncomputable def tetFc (f : Idx) : Vtk.Point3 ℝ :=
  ([(1 / 3, 1 / 3, 0), (1 / 3, 0, 1 / 3), (1 / 3, 1 / 3, 1 / 3), (0, 1 / 3, 1 / 3), (2 / 3, 2 / 3, 1 / 3), (2 / 3, 1 / 3, 2 / 3), (1 / 3, 2 / 3, 2 / 3)][f]?).getD (0, 0, 0)

/-- The centers of the cells. -/
noncomputable def tetCc (i : Idx) : Vtk.Point3 ℝ := if i = 0 then (1 / 4, 1 / 4, 1 / 4) else (1 / 2, 1 / 2, 1 / 2)

open Classical in
/-- A text for these positions. -/
noncomputable def tetKey (p : Vtk.Point3 ℝ) : List Char :=
  [p.1, p.2.1, p.2.2].map fun x => if x = 1 / 3 then '3' else if x = 2 / 3 then '6' else '5'

theorem tetCenters : Vtk.DistinctCenters tetKey tetCc tetFc tetMeshR tetBd [300, 304] where
  cells := by
    intro i i' hi hi' hs hs' _
    have : ∀ i < 2, Vtk.isSplit [300, 304] i = true → i = 1 := by decide
    rw [this i hi hs, this i' hi' hs']
  faces := by
    have one : ∀ i < 2, Vtk.isSplit [300, 304] i = true → i = 1 := by decide
    intro i i' f f' hi hi' hs hs' hf hf' h
    obtain rfl := one i hi hs
    obtain rfl := one i' hi' hs'
    have hf : f = 2 ∨ f = 4 ∨ f = 5 ∨ f = 6 := by simpa [tetBd] using hf
    have hf' : f' = 2 ∨ f' = 4 ∨ f' = 5 ∨ f' = 6 := by simpa [tetBd] using hf'
    rcases hf with rfl | rfl | rfl | rfl <;> rcases hf' with rfl | rfl | rfl | rfl <;> first | rfl | (exfalso; revert h; norm_num [tetKey, tetFc] <;> decide)
  both := by
    have one : ∀ i < 2, Vtk.isSplit [300, 304] i = true → i = 1 := by decide
    intro i i' f hi hi' hs hs' hf
    obtain rfl := one i hi hs
    obtain rfl := one i' hi' hs'
    have hf : f = 2 ∨ f = 4 ∨ f = 5 ∨ f = 6 := by simpa [tetBd] using hf
    rcases hf with rfl | rfl | rfl | rfl <;> norm_num [tetKey, tetFc, tetCc] <;> decide

theorem tetShape_cross (f : Nat) (hf : f < 7) : cross (tetPts ((tetPoly f)[1]?.getD 0) - tetPts ((tetPoly f)[0]?.getD 0))
    (tetPts ((tetPoly f)[2]?.getD 0) - tetPts ((tetPoly f)[0]?.getD 0)) ≠ 0 := by
  intro h0
  have h := cross_apply (tetPts ((tetPoly f)[1]?.getD 0) - tetPts ((tetPoly f)[0]?.getD 0)) (tetPts ((tetPoly f)[2]?.getD 0) - tetPts ((tetPoly f)[0]?.getD 0))
  rw [h0] at h
  interval_cases f <;> simp [tetPoly, tetPts, vec3] at h

theorem tetShape_flat (f : Nat) (hf : f < 7) : FaceShape (tetMeshR.mapV vec3) f (tetShape f).1 ∧ Flat (tetShape f).1 (tetShape f).2 := by
  refine ⟨?_, tri_flat (tetShape_cross f hf)⟩
  obtain ⟨fa, h1, h2⟩ := tetMeshI_facts.2.2 f hf
  refine ⟨fa, tetPoly f, h1, h2, ?_⟩
  have hv : ∀ v, v < 5 → (tetMeshR.mapV vec3).vertices[v]? = some (tetPts v) := by
    intro v hv
    rw [show (tetMeshR.mapV vec3).vertices = tetMeshR.vertices.map vec3 from rfl, List.getElem?_map]
    exact tetMeshR_at v hv
  have hp : ∀ f < 7, tetPoly f = [(tetPoly f)[0]?.getD 0, (tetPoly f)[1]?.getD 0, (tetPoly f)[2]?.getD 0] ∧ (tetPoly f)[0]?.getD 0 < 5 ∧
      (tetPoly f)[1]?.getD 0 < 5 ∧ (tetPoly f)[2]?.getD 0 < 5 := by decide
  obtain ⟨q0, q1, q2, q3⟩ := hp f hf
  rw [q0]
  exact .cons (hv _ q1) (.cons (hv _ q2) (.cons (hv _ q3) .nil))

theorem tetEdges : ∀ e ∈ tetMeshR.edges, at3 tetMeshR.vertices e.a ≠ at3 tetMeshR.vertices e.b := by
  intro e he
  have hall : ∀ e ∈ tetMeshI.edges, e.a < 5 ∧ e.b < 5 ∧ e.a ≠ e.b := by decide +kernel
  obtain ⟨h1, h2, h3⟩ := hall e he
  rw [tetMeshR_at _ h1, tetMeshR_at _ h2]
  generalize e.a = a at *
  generalize e.b = b at *
  intro h
  have h := Option.some.inj h
  have e0 := congrFun h 0
  have e1 := congrFun h 1
  have e2 := congrFun h 2
  interval_cases a <;> interval_cases b <;> first | exact h3 rfl | simp [tetPts, vec3] at e0 e1 e2

theorem v2 (a b c : ℝ) : (![a, b, c] : Vec 3 ℝ) 2 = c := rfl

theorem tetMeans : ∀ cs, computeCenters (tetMeshR.mapV vec3) = .ok cs →
    (∀ i, i < tetMeshR.cells.length → entry cs 3 i = some (vec3 (tetCc i))) ∧ ∀ f, f < (tetMeshR.midElems 2).length → entry cs 2 f = some (vec3 (tetFc f)) := by
  intro cs hcs
  have hv : ValidMesh (tetMeshR.mapV vec3) tetBd := (tetMeshI_valid.mapV _).mapV vec3
  have hm : (tetMeshR.midElems 2).length = 7 := by
    show (tetMeshI.midElems 2).length = 7
    decide +kernel
  have hc : tetMeshR.cells.length = 2 := by
    show tetMeshI.cells.length = 2
    decide +kernel
  have hd : (tetMeshR.mapV vec3).dim = 3 := by
    show tetMeshI.dim = 3
    decide +kernel
  obtain ⟨cs', ls, as, vols, a1, _, _, _, _, _, _, a7, a8⟩ := flat_geometry ⟨tetMeshR.mapV vec3, fun _ => 0, fun _ => 0, fun _ => 0⟩ tetBd hv hd
    (fun f hf => ⟨_, _, tetShape_flat f (by rw [← hm]; exact hf)⟩) (by
      intro e he
      have hed0 := List.getElem?_eq_getElem he
      obtain ⟨A, B, hA, hB⟩ := exists_ends hv hed0
      rw [ends, hed0]
      simp only [Option.map_some, Option.getD_some, hA, hB]
      rintro rfl
      refine tetEdges _ (List.getElem_mem he) ?_
      rw [show (tetMeshR.mapV vec3).vertices = tetMeshR.vertices.map vec3 from rfl, List.getElem?_map] at hA hB
      exact hA.trans hB.symm)
  rw [hcs] at a1
  cases a1
  have hmean : ∀ f, f < 7 → mean (tetShape f).1 = vec3 (tetFc f) := by
    intro f hf
    have m3 : ∀ (P Q R : Vec 3 ℝ) k, mean [P, Q, R] k = (P k + Q k + R k) / 3 := by intro P Q R k; simp [mean]; ring
    rw [tetShape, tri]
    interval_cases f <;> apply ext3 <;> simp only [m3] <;> norm_num [tetPoly, tetPts, tetFc, vec3, v2]
  rw [hm, hc]
  constructor
  · intro i hi
    have hL : List.Forall₂ (fun f x => FaceShape (tetMeshR.mapV vec3) f x.1 ∧ Flat x.1 x.2) (tetBd i) ((tetBd i).map tetShape) := by
      rw [List.forall₂_map_right_iff, List.forall₂_same]
      have : ∀ i < 2, ∀ f ∈ tetBd i, f < 7 := by decide
      exact fun f hf => tetShape_flat f (this i hi f hf)
    rw [(a8 i (tetBd i) _ (by show i < tetMeshR.cells.length; omega) (.refl _) hL).1]
    congr 1
    interval_cases i
    · simp only [tetBd, if_true, List.map_cons, List.map_nil, hmean 0 (by omega), hmean 1 (by omega), hmean 2 (by omega), hmean 3 (by omega)]
      apply ext3 <;> norm_num [mean, tetFc, tetCc, vec3, v2]
    · simp only [tetBd, one_ne_zero, if_false, List.map_cons, List.map_nil, hmean 2 (by omega), hmean 4 (by omega), hmean 5 (by omega), hmean 6 (by omega)]
      apply ext3 <;> norm_num [mean, tetFc, tetCc, vec3, v2]
  · intro f hf
    rw [(a7 f _ (tetShape_flat f hf).1).1, hmean f hf]

/-- The first tetrahedron keeps its volume, the volumes of the twelve pieces of the second one add up to its volume. -/
example : ∃ w ts m' t', Vtk.writeToStream3 (fun _ => false) tetKey tetCc tetFc 1 tetMeshR [300, 304] {} = .ok (w, ts) ∧
    Vtk.load3 4 (Vtk.header [] ++ ts) [] { dim := 3 } = .ok (m', t') ∧ ∀ g g' : GMesh 3 ℝ, g.mesh = tetMeshR.mapV vec3 → g'.mesh = m'.mapV vec3 →
      ∃ cs ls as vols cs' ls' as' vols', computeCenters g.mesh = .ok cs ∧ computeMeasures3 (setCenters g cs) = .ok (ls, as, vols) ∧
        computeCenters g'.mesh = .ok cs' ∧ computeMeasures3 (setCenters g' cs') = .ok (ls', as', vols') ∧ vols'.length = 13 ∧
        vols'[0]? = vols[0]? ∧ vols[1]? = some (partsOf (Vtk.exported tetMeshR tetBd [300, 304]) vols' 1).sum ∧ vols'.sum = vols.sum := by
  have hex : Vtk.exported tetMeshR tetBd [300, 304] = Vtk.exported tetMeshI tetBd [300, 304] := rfl
  have hlen : (Vtk.exported tetMeshI tetBd [300, 304]).length = 13 ∧ (Vtk.exported tetMeshI tetBd [300, 304])[0]? = some (.whole 0) := by decide +kernel
  have hc : tetMeshR.cells.length = 2 := by
    show tetMeshI.cells.length = 2
    decide +kernel
  have hm : (tetMeshR.midElems 2).length = 7 := by
    show (tetMeshI.midElems 2).length = 7
    decide +kernel
  obtain ⟨w, ts, m', t', h1, h2, h3⟩ := C74_vtk_3d (fun _ => false) tetKey tetCc tetFc 1 tetMeshR tetBd tetVert tetPoly [300, 304] {} (by decide)
    (by show tetMeshI.dim = 3; decide +kernel) (tetMeshI_valid.mapV _) ⟨tetMeshI_numbered.cells, tetMeshI_numbered.faces⟩ (by rw [hc]; rfl) (by
      intro i t hi hs
      have hlt : i < 2 := (List.getElem?_eq_some_iff.mp hi).1
      obtain rfl | rfl : i = 0 ∨ i = 1 := by omega
      · cases hi
        obtain ⟨b1, b2, b3⟩ := tetMeshI_facts.1 0 (by omega)
        exact ⟨b1, b2, b3⟩
      · simp [Vtk.isSplit] at hs) ⟨tetMeshI_facts.2.1.edges, tetMeshI_facts.2.1.faces⟩ tetPolyhedra tetCenters (by rw [hex, hlen.1]; decide)
    tetShape (fun f hf => tetShape_flat f (by rw [← hm]; exact hf)) tetEdges tetMeans (by
      intro i f hi hs hf
      rw [hc] at hi
      have one : ∀ i < 2, Vtk.isSplit [300, 304] i = true → i = 1 := by decide
      obtain rfl := one i hi hs
      have hf : f = 2 ∨ f = 4 ∨ f = 5 ∨ f = 6 := by simpa [tetBd] using hf
      have hf7 : f < 7 := by omega
      rw [tetShape, tri_dot]
      have hn := normal_pos (tetShape_cross f hf7)
      refine mul_ne_zero hn.1.ne' ?_
      have h := cross_apply (tetPts ((tetPoly f)[1]?.getD 0) - tetPts ((tetPoly f)[0]?.getD 0)) (tetPts ((tetPoly f)[2]?.getD 0) - tetPts ((tetPoly f)[0]?.getD 0))
      rw [dot3, h.1, h.2.1, h.2.2]
      rcases hf with rfl | rfl | rfl | rfl <;> norm_num [tetPoly, tetPts, vec3, tetCc, tetFc, v2]) 4 (.inr (le_refl 4)) [] [] { dim := 3 } rfl
  refine ⟨w, ts, m', t', h1, h2, fun g g' hg hg' => ?_⟩
  obtain ⟨cs, ls, as, vols, cs', ls', as', vols', k1, k2, k3, k4, k5, k6, k7, k8⟩ := h3 g g' hg hg'
  exact ⟨cs, ls, as, vols, cs', ls', as', vols', k1, k2, k3, k4, by rw [k7, hex, hlen.1], (k5 0 0 hlen.2).2, k6 1 (by omega), k8⟩

end SavedEx

end GTMesh.Props
