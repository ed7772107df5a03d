import Verif.Props.Flux2
import Verif.Props.Vtk3

/-! # C55: a balance of fluxes over the cells is a balance over the boundary of the mesh -/

namespace GTMesh.Spec

/-- The outer fluxes of all cells together, when a flux `φ f` goes through face `f` from its left to its right cell. -/
noncomputable def totalOutflow {V : Type} (m : Mesh V) (bd : Idx → List Idx) (φ : Idx → ℝ) : ℝ :=
  ((List.range m.cells.length).map fun i => ((bd i).map fun f => outwards (cellsOfFace m f) i * φ f).sum).sum

/-- `1` for a cell of the mesh, `0` for a missing cell or a boundary cell. -/
noncomputable def inside {V : Type} (m : Mesh V) (c : Idx) : ℝ := if c < m.cells.length then 1 else 0

end GTMesh.Spec

namespace GTMesh.Props
open GTMesh Spec Std' Vec Geo Vtk

theorem list_sum_comm {α β : Type} (l : List α) (k : List β) (f : α → β → ℝ) :
    (l.map fun a => (k.map fun b => f a b).sum).sum = (k.map fun b => (l.map fun a => f a b).sum).sum := by
  induction l with
  | nil => simp
  | cons a l ih => simp [List.sum_map_add, ih]

/-- A sum over a list without repetition of numbers below `n`, as a sum over all numbers below `n`. -/
theorem sum_over_range {l : List Idx} {n : Nat} (hn : l.Nodup) (hlt : ∀ x ∈ l, x < n) (g : Idx → ℝ) (h0 : ∀ x, x < n → x ∉ l → g x = 0) :
    (l.map g).sum = ((List.range n).map g).sum := by
  have h1 := List.sum_toFinset (f := g) hn
  have h2 := List.sum_toFinset (f := g) (List.nodup_range (n := n))
  rw [← h1, ← h2]
  refine Finset.sum_subset ?_ ?_
  · intro x hx
    simp only [List.mem_toFinset, List.mem_range] at hx ⊢
    exact hlt x hx
  · intro x hx hxl
    simp only [List.mem_toFinset, List.mem_range] at hx hxl
    exact h0 x hx hxl

theorem sum_outwards (c : Conn) (n : Nat) (hd : c.left < n → c.left ≠ c.right) (y : ℝ) :
    ((List.range n).map fun i => outwards c i * y).sum = ((if c.left < n then 1 else 0) - (if c.right < n then 1 else 0)) * y := by
  have hpt : ∀ i, i ∈ List.range n → outwards c i * y =
      (if i = c.left then y else 0) + (if i = c.right then -y else 0) := by
    intro i hi
    have hi := List.mem_range.mp hi
    unfold outwards
    by_cases h1 : c.left = i
    · subst h1
      have := hd hi
      simp [this]
    · by_cases h2 : c.right = i
      · have h1' : ¬ i = c.left := fun h => h1 h.symm
        simp [h1, h1', h2]
      · have h1' : ¬ i = c.left := fun h => h1 h.symm
        have h2' : ¬ i = c.right := fun h => h2 h.symm
        simp [h1, h2, h1', h2']
  rw [List.map_congr_left hpt, List.sum_map_add]
  have hone : ∀ (a : Idx) (z : ℝ), ((List.range n).map fun i => if i = a then z else 0).sum = if a < n then z else 0 := by
    intro a z
    rw [← List.sum_toFinset (f := fun i => if i = a then z else 0) (List.nodup_range (n := n)), Finset.sum_ite_eq']
    simp
  rw [hone, hone]
  by_cases h1 : c.left < n <;> by_cases h2 : c.right < n <;> simp [h1, h2]

/-- C55. The fluxes through faces between two cells cancel: the outer fluxes of all cells add up to the fluxes through the faces with a
cell on one side only. -/
theorem C55_balance {V : Type} (m : Mesh V) (bd : Idx → List Idx) (hv : ValidMesh m bd)
    (hall : ∀ f c, f < m.numFaces → c < m.cells.length → ((cellsOfFace m f).left = c ∨ (cellsOfFace m f).right = c) → f ∈ bd c)
    (hdiff : ∀ f, f < m.numFaces → (cellsOfFace m f).left < m.cells.length → (cellsOfFace m f).left ≠ (cellsOfFace m f).right)
    (φ : Idx → ℝ) :
    totalOutflow m bd φ = ((List.range m.numFaces).map fun f =>
      (inside m (cellsOfFace m f).left - inside m (cellsOfFace m f).right) * φ f).sum := by
  have hrow : ∀ i ∈ List.range m.cells.length, ((bd i).map fun f => outwards (cellsOfFace m f) i * φ f).sum =
      ((List.range m.numFaces).map fun f => outwards (cellsOfFace m f) i * φ f).sum := by
    intro i hi
    have hi := List.mem_range.mp hi
    have hc := hv.chain i _ (List.getElem?_eq_getElem hi)
    refine sum_over_range hc.1.2.1 (fun f hf => bd_lt hv hi f hf) _ ?_
    intro f hf hnot
    have hno := fun h => hnot (hall f i hf hi h)
    unfold outwards
    rw [if_neg (fun h => hno (.inl h)), if_neg (fun h => hno (.inr h)), zero_mul]
  rw [totalOutflow, List.map_congr_left hrow, list_sum_comm]
  congr 1
  apply List.map_congr_left
  intro f hf
  exact sum_outwards _ _ (hdiff f (List.mem_range.mp hf)) (φ f)

/-- C55. The same when every face has a left cell and the right one is another cell or is missing. -/
theorem C55_balance_open {V : Type} (m : Mesh V) (bd : Idx → List Idx) (hv : ValidMesh m bd) (hI : m.cells.length ≤ INVALID)
    (hall : ∀ f c, f < m.numFaces → c < m.cells.length → ((cellsOfFace m f).left = c ∨ (cellsOfFace m f).right = c) → f ∈ bd c)
    (hfl : ∀ f, f < m.numFaces → (cellsOfFace m f).left < m.cells.length ∧ (cellsOfFace m f).left ≠ (cellsOfFace m f).right ∧
      ((cellsOfFace m f).right = INVALID ∨ (cellsOfFace m f).right < m.cells.length))
    (φ : Idx → ℝ) :
    totalOutflow m bd φ = (((List.range m.numFaces).filter fun f => decide ((cellsOfFace m f).right = INVALID)).map φ).sum := by
  rw [C55_balance m bd hv hall (fun f hf _ => (hfl f hf).2.1) φ]
  have hpt : ∀ l : List Idx, (∀ f ∈ l, f < m.numFaces) → (l.map fun f =>
      (inside m (cellsOfFace m f).left - inside m (cellsOfFace m f).right) * φ f).sum =
      ((l.filter fun f => decide ((cellsOfFace m f).right = INVALID)).map φ).sum := by
    intro l
    induction l with
    | nil => intro _; rfl
    | cons f l ih =>
      intro h
      obtain ⟨h1, _, h3⟩ := hfl f (h f (by simp))
      rw [List.map_cons, List.sum_cons, ih (fun x hx => h x (by simp [hx]))]
      by_cases hr : (cellsOfFace m f).right = INVALID
      · rw [List.filter_cons_of_pos (by simpa using hr), List.map_cons, List.sum_cons]
        unfold inside
        rw [if_pos h1, if_neg (by omega), sub_zero, one_mul]
      · rw [List.filter_cons_of_neg (by simpa using hr)]
        unfold inside
        rw [if_pos h1, if_pos (by omega)]
        simp
  exact hpt _ fun f hf => List.mem_range.mp hf

end GTMesh.Props

namespace GTMesh.Vtk
open Spec GTMesh.Props
variable {R : Type}

/-- C55. In a mesh read from a 2D file, the outer fluxes of all cells add up to the fluxes through the edges with one cell. -/
theorem C55_balance_vtk2 [Zero R] (F : File R) (hF : F.Polygons) (hcodes : F.codes.length ≤ F.cells.length) (rest : List (VTok R))
    (types : List Nat) (m0 : Mesh (Point2 R)) (hd : m0.dim = 2) (htwo : ∀ u v, AtMostTwo F u v)
    (hr : ∀ vs ∈ F.cells, ∀ v ∈ vs, v < F.verts.length) :
    ∃ m t bd, load2 (F.tokens ++ rest) types m0 = .ok (m, t) ∧ (∀ i, i < F.cells.length → boundaryWalk m i = .ok (bd i)) ∧
      ∀ φ : Idx → ℝ, totalOutflow m bd φ =
        (((List.range m.edges.length).filter fun f => decide ((cellsOfFace m f).right = INVALID)).map φ).sum := by
  obtain ⟨m, t, bd, h1, hv, h3⟩ := C22_valid F hF hcodes rest types m0 hd htwo hr
  obtain ⟨m', t', h1', k2, _, _, k5, k6, k7, k8, _⟩ := C22_load F hF hcodes rest types m0 hd
  rw [h1] at h1'
  have h1' := Res.ok.inj h1'
  simp only [Prod.mk.injEq] at h1'
  obtain ⟨rfl, rfl⟩ := h1'
  have hnum : m.numFaces = m.edges.length := by
    unfold Mesh.numFaces Mesh.numElems; rw [k2]; simp
  have hof : ∀ (f : Nat) e, m.edges[f]? = some e → cellsOfFace m f = e.conn := by
    intro f e he; unfold cellsOfFace; rw [if_pos k2, he]; rfl
  have huse : ∀ (f : Nat) e (c : Nat), m.edges[f]? = some e → Uses F c e.a e.b → c < F.cells.length ∧ f ∈ bd c := by
    rintro f e c he ⟨vs, hvs, j, a, b, hj, ha, hb, hp⟩
    refine ⟨(List.getElem?_eq_some_iff.mp hvs).1, ?_⟩
    obtain ⟨e', u, v, x1, x2, x3, ed, x4, x5⟩ := (h3 c vs hvs).2 j hj
    rw [ha] at x2; rw [hb] at x3
    obtain rfl := Option.some.inj x2
    obtain rfl := Option.some.inj x3
    have := k5 e' f ed e x4 he (SamePair.trans x5 hp)
    subst this
    exact List.mem_of_getElem? x1
  refine ⟨m, t, bd, h1, ?_, ?_⟩
  · intro i hi
    have hi' : i < m.cells.length := by omega
    rw [C09_walk_iff_chain m (by omega) i _ (List.getElem?_eq_getElem hi')]
    exact hv.chain i _ (List.getElem?_eq_getElem hi')
  intro φ
  have hfl : ∀ f, f < m.edges.length → ∃ e, m.edges[f]? = some e ∧ cellsOfFace m f = e.conn ∧
      FirstAndLast (fun c => Uses F c e.a e.b) e.conn.left e.conn.right := fun f hf =>
    ⟨_, List.getElem?_eq_getElem hf, hof f _ (List.getElem?_eq_getElem hf), k6 _ (List.getElem_mem hf)⟩
  have hI := hF.fit
  rw [← hnum]
  refine C55_balance_open m bd hv (by omega) ?_ ?_ φ
  · intro f c hf hc hlr
    rw [hnum] at hf
    obtain ⟨e, he, heq, hfst⟩ := hfl f hf
    rw [heq] at hlr
    rcases hlr with hl | hl
    · exact (huse f e c he (hl ▸ hfst.1)).2
    · rcases hfst.2.2 with ⟨hx, _⟩ | ⟨_, hx, _⟩
      · omega
      · exact (huse f e c he (hl ▸ hx)).2
  · intro f hf
    rw [hnum] at hf
    obtain ⟨e, he, heq, hfst⟩ := hfl f hf
    rw [heq, k7]
    have hl := (huse f e _ he hfst.1).1
    rcases hfst.2.2 with ⟨hx, _⟩ | ⟨hx0, hx, _⟩
    · exact ⟨hl, by omega, .inl hx⟩
    · exact ⟨hl, by omega, .inr (huse f e _ he hx).1⟩

/-- C55. The same for 3D files. -/
theorem C55_balance_vtk3 [Zero R] (F : File R) (hF : F.Solids) (res : Nat)
    (hres : ∀ vs ∈ F.cells, ∀ p ∈ facePolygons vs, res = 0 ∨ p.length ≤ res)
    (hcodes : F.codes.length ≤ F.cells.length) (rest : List (VTok R))
    (types : List Nat) (m0 : Mesh (Point3 R)) (hd : m0.dim = 3)
    (htwo : ∀ vs ∈ F.cells, ∀ p ∈ facePolygons vs, AtMostTwoFace F p)
    (hr : ∀ vs ∈ F.cells, ∀ v ∈ vs, v < F.verts.length) :
    ∃ m t bd, load3 res (F.tokens ++ rest) types m0 = .ok (m, t) ∧ (∀ i, i < F.cells.length → boundaryWalk m i = .ok (bd i)) ∧
      ∀ φ : Idx → ℝ, totalOutflow m bd φ =
        (((List.range (m.midElems 2).length).filter fun f => decide ((cellsOfFace m f).right = INVALID)).map φ).sum := by
  obtain ⟨m, t, bd, h1, hv, h3⟩ := C25_valid F hF res hres hcodes rest types m0 hd htwo hr
  obtain ⟨m', t', h1', k2, _, _, _, k5', k5, k6, _, k7, k8, _⟩ := C25_load F hF res hres hcodes rest types m0 hd
  rw [h1] at h1'
  have h1' := Res.ok.inj h1'
  simp only [Prod.mk.injEq] at h1'
  obtain ⟨rfl, rfl⟩ := h1'
  have hnum : m.numFaces = (m.midElems 2).length := by
    unfold Mesh.numFaces Mesh.numElems; rw [k2]; simp
  have hof : ∀ (f : Nat) e, (m.midElems 2)[f]? = some e → cellsOfFace m f = e.conn := by
    intro f e he; unfold cellsOfFace; rw [if_neg (by omega), k2, he]; rfl
  have huse : ∀ (f : Nat) e p (c : Nat), (m.midElems 2)[f]? = some e → IsPolygon m.edges e.sub p → UsesFace F c p →
      c < F.cells.length ∧ f ∈ bd c := by
    rintro f e p c he hp ⟨vs, hvs, q, hq, hs⟩
    refine ⟨(List.getElem?_eq_some_iff.mp hvs).1, ?_⟩
    obtain ⟨j, hj⟩ := List.getElem?_of_mem hq
    obtain ⟨i, x, x1, x2, x3⟩ := (h3 c vs hvs).2 j q hj
    have := k5 f i e x p q he x2 hp x3 hs
    subst this
    exact List.mem_of_getElem? x1
  refine ⟨m, t, bd, h1, ?_, ?_⟩
  · intro i hi
    have hi' : i < m.cells.length := by omega
    rw [C09_walk_iff_chain m (by omega) i _ (List.getElem?_eq_getElem hi')]
    exact hv.chain i _ (List.getElem?_eq_getElem hi')
  intro φ
  have hfl : ∀ f, f < (m.midElems 2).length → ∃ e p, (m.midElems 2)[f]? = some e ∧ cellsOfFace m f = e.conn ∧ IsPolygon m.edges e.sub p ∧
      FirstAndLast (fun c => UsesFace F c p) e.conn.left e.conn.right := fun f hf => by
    obtain ⟨p, p1, p2⟩ := k6 _ (List.getElem_mem hf)
    exact ⟨_, p, List.getElem?_eq_getElem hf, hof f _ (List.getElem?_eq_getElem hf), p1, p2⟩
  have hI := hF.fit
  rw [← hnum]
  refine C55_balance_open m bd hv (by omega) ?_ ?_ φ
  · intro f c hf hc hlr
    rw [hnum] at hf
    obtain ⟨e, p, he, heq, hp, hfst⟩ := hfl f hf
    rw [heq] at hlr
    rcases hlr with hl | hl
    · exact (huse f e p c he hp (hl ▸ hfst.1)).2
    · rcases hfst.2.2 with ⟨hx, _⟩ | ⟨_, hx, _⟩
      · omega
      · exact (huse f e p c he hp (hl ▸ hx)).2
  · intro f hf
    rw [hnum] at hf
    obtain ⟨e, p, he, heq, hp, hfst⟩ := hfl f hf
    rw [heq, k7]
    have hl := (huse f e p _ he hp hfst.1).1
    rcases hfst.2.2 with ⟨hx, _⟩ | ⟨hx0, hx, _⟩
    · exact ⟨hl, by omega, .inl hx⟩
    · exact ⟨hl, by omega, .inr (huse f e p _ he hp hx).1⟩

/-! ### Examples -/

example : ∃ m t bd, load2 (exampleFile.tokens ++ []) [] { dim := 2 } = .ok (m, t) ∧ (∀ i, i < 3 → boundaryWalk m i = .ok (bd i)) ∧
    ∀ φ : Idx → ℝ, totalOutflow m bd φ =
      (((List.range m.edges.length).filter fun f => decide ((cellsOfFace m f).right = INVALID)).map φ).sum :=
  C55_balance_vtk2 exampleFile exampleFile_polygons (by decide) [] [] _ rfl exampleFile_two (by decide)

example : ∃ m t bd, load3 4 (exampleFile3.tokens ++ []) [] { dim := 3 } = .ok (m, t) ∧ (∀ i, i < 2 → boundaryWalk m i = .ok (bd i)) ∧
    ∀ φ : Idx → ℝ, totalOutflow m bd φ =
      (((List.range (m.midElems 2).length).filter fun f => decide ((cellsOfFace m f).right = INVALID)).map φ).sum :=
  C55_balance_vtk3 exampleFile3 exampleFile3_solids 4 (by decide) (by decide) [] [] _ rfl (fun _ _ p _ => exampleFile3_two p) (by decide)

/-- In the example with a hexahedron and a pyramid, one of the ten faces has two cells and nine are open. -/
example : ∃ m t, load3 4 exampleFile3.tokens [] { dim := 3 } = .ok (m, t) ∧
    ((List.range (m.midElems 2).length).filter fun f => decide ((cellsOfFace m f).right = INVALID)) = [0, 1, 2, 3, 4, 6, 7, 8, 9] :=
  ⟨_, _, rfl, by decide⟩

end GTMesh.Vtk
