import Verif.Spec.Geometry
import Verif.Proofs.Apply
import Verif.Proofs.Connections
import Verif.Proofs.Vector
import Mathlib.Analysis.Convex.Combination

/-! # Centers -/

namespace GTMesh
open Spec Std' Vec

variable {V W : Type}

namespace Mesh

@[simp] theorem mapV_dim (f : V → W) (m : Mesh V) : (m.mapV f).dim = m.dim := rfl
@[simp] theorem mapV_edges (f : V → W) (m : Mesh V) : (m.mapV f).edges = m.edges := rfl
@[simp] theorem mapV_cells (f : V → W) (m : Mesh V) : (m.mapV f).cells = m.cells := rfl
@[simp] theorem mapV_bCells (f : V → W) (m : Mesh V) : (m.mapV f).bCells = m.bCells := rfl
@[simp] theorem mapV_vertices (f : V → W) (m : Mesh V) : (m.mapV f).vertices = m.vertices.map f := rfl
@[simp] theorem mapV_midElems (f : V → W) (m : Mesh V) (d : Nat) : (m.mapV f).midElems d = m.midElems d := rfl
@[simp] theorem mapV_faceConn (f : V → W) (m : Mesh V) (i : Idx) : (m.mapV f).faceConn i = m.faceConn i := rfl
@[simp] theorem mapV_numElems (f : V → W) (m : Mesh V) (d : Nat) : (m.mapV f).numElems d = m.numElems d := by
  simp [numElems]
@[simp] theorem mapV_numFaces (f : V → W) (m : Mesh V) : (m.mapV f).numFaces = m.numFaces := by
  simp [numFaces]

theorem mapV_cellLoop {β : Type} (f : V → W) (m : Mesh V) (body : Idx → Res (List β)) (cell start : Idx) (k : Nat) (t : Idx) :
    (m.mapV f).cellLoop body cell start k t = m.cellLoop body cell start k t := by
  induction k generalizing t with
  | zero => rfl
  | succ k ih => simp only [cellLoop, ih]; rfl

theorem mapV_meshRun (f : V → W) (m : Mesh V) (t : Nat) : ∀ (k : Nat) (i : Idx), (m.mapV f).meshRun t k i = m.meshRun t k i := by
  intro k
  induction k with
  | zero => intro i; rfl
  | succ k ih =>
    intro i
    have : (m.mapV f).meshRun t k = m.meshRun t k := funext ih
    simp only [meshRun, this, mapV_dim, mapV_cells, mapV_edges, mapV_midElems, mapV_numFaces, mapV_cellLoop]

@[simp] theorem mapV_applyOne (f : V → W) (m : Mesh V) (S T : Nat) (i : Idx) : (m.mapV f).applyOne S T i = m.applyOne S T i :=
  mapV_meshRun f m T _ i

@[simp] theorem mapV_directSubs (f : V → W) (m : Mesh V) (bd : Idx → List Idx) (d i : Nat) :
    directSubs (m.mapV f) bd d i = directSubs m bd d i := rfl

theorem _root_.GTMesh.Spec.ValidMesh.mapV {m : Mesh V} {bd : Idx → List Idx} (h : ValidMesh m bd) (f : V → W) : ValidMesh (m.mapV f) bd :=
  ⟨h.dim_ge, h.chain, fun d i h1 h2 h3 s hs => by
    rw [mapV_numElems] at h3 ⊢
    exact h.range d i h1 h2 h3 s hs⟩

/-- The direct sub-elements are what the iteration over one dimension visits. -/
theorem applyOne_direct {m : Mesh V} {bd : Idx → List Idx} (hv : ValidMesh m bd) {d i : Nat} (h1 : 1 ≤ d) (h2 : d ≤ m.dim)
    (hi : i < m.numElems d) : m.applyOne d (d - 1) i = .ok (directSubs m bd d i) := by
  have hr := meshRun_descend hv (d - 1) 1 (by omega) i (by rw [show d - 1 + 1 = d by omega]; exact hi)
  unfold applyOne
  rw [show d - (d - 1) = 1 by omega, hr]
  congr 1
  simp only [descend, Nat.add_zero]
  rw [show d - 1 + 0 + 1 = d by omega]
  simp

theorem directSubs_ne_nil {m : Mesh V} {bd : Idx → List Idx} (hv : ValidMesh m bd) (hne : NoEmptyElement m) {d i : Nat} (h1 : 2 ≤ d)
    (h2 : d ≤ m.dim) (hi : i < m.numElems d) : directSubs m bd d i ≠ [] := by
  unfold numElems at hi
  unfold directSubs
  by_cases hd : d = m.dim
  · rw [if_pos hd] at hi ⊢
    exact (hv.chain i _ (List.getElem?_eq_getElem hi)).1.1
  · rw [if_neg hd, if_neg (by omega), if_neg (by omega)] at hi
    rw [if_neg hd, if_neg (by omega), List.getElem?_eq_getElem hi]
    exact hne d i _ h1 (by omega) (List.getElem?_eq_getElem hi)

end Mesh

namespace Geo
variable {n : Nat} {F : Type} [Field F]

omit [Field F] in
theorem edgeEnds_ok {m : Mesh (Vec n F)} {e : Idx} {ed : Edge} {A B : Vec n F} (h : m.edges[e]? = some ed)
    (hA : m.vertices[ed.a]? = some A) (hB : m.vertices[ed.b]? = some B) : edgeEnds m e = .ok (A, B) := by
  have h1 : Res.at' m.edges e = .ok ed := Res.at'_eq_ok.mpr h
  have h2 : Res.at' m.vertices ed.a = .ok A := Res.at'_eq_ok.mpr hA
  have h3 : Res.at' m.vertices ed.b = .ok B := Res.at'_eq_ok.mpr hB
  simp only [edgeEnds, h1, h2, h3, Res.bind]

omit [Field F] in
/-- The ends of an edge of a valid mesh. -/
theorem exists_ends {m : Mesh (Vec n F)} {bd : Idx → List Idx} (hv : ValidMesh m bd) {e : Idx} {ed : Edge} (h : m.edges[e]? = some ed) :
    ∃ A B, m.vertices[ed.a]? = some A ∧ m.vertices[ed.b]? = some B := by
  have hlt := (List.getElem?_eq_some_iff.mp h).1
  have h2 := hv.dim_ge
  have hn : m.numElems 1 = m.edges.length := by
    unfold Mesh.numElems; rw [if_neg (by omega), if_neg (by omega), if_pos rfl]
  have hn0 : m.numElems 0 = m.vertices.length := by
    unfold Mesh.numElems; rw [if_neg (by omega), if_pos rfl]
  have hr := hv.range 1 e (le_refl 1) (by omega) (by rw [hn]; exact hlt)
  have hds : directSubs m bd 1 e = [ed.a, ed.b] := by
    unfold directSubs; rw [if_neg (by omega), if_pos rfl, h]; rfl
  rw [hds, Nat.sub_self, hn0] at hr
  exact ⟨_, _, List.getElem?_eq_getElem (hr ed.a (by simp)), List.getElem?_eq_getElem (hr ed.b (by simp))⟩

theorem sumAt_ok {prev : List (Vec n F)} : ∀ {ss : List Idx} {ps : List (Vec n F)},
    List.Forall₂ (fun (s : Nat) p => prev[s]? = some p) ss ps → ∀ acc, sumAt prev ss acc = .ok (acc + ps.sum) := by
  intro ss ps h
  induction h with
  | nil => intro acc; simp [sumAt]
  | cons h1 _ ih =>
    intro acc
    have := Res.at'_eq_ok.mpr h1
    simp only [sumAt, this, Res.bind, ih, addAssign_eq, Operand.get, List.sum_cons, add_assoc]

/-- Points found at all positions below the length. -/
theorem exists_points {α : Type} {prev : List α} : ∀ {ss : List Idx}, (∀ s ∈ ss, s < prev.length) →
    ∃ ps, List.Forall₂ (fun (s : Nat) p => prev[s]? = some p) ss ps := by
  intro ss
  induction ss with
  | nil => intro _; exact ⟨[], List.Forall₂.nil⟩
  | cons s ss ih =>
    intro h
    obtain ⟨ps, hp⟩ := ih fun x hx => h x (List.mem_cons_of_mem s hx)
    exact ⟨_, List.Forall₂.cons (List.getElem?_eq_getElem (h s List.mem_cons_self)) hp⟩

theorem elemCenter_ok {m : Mesh (Vec n F)} {bd : Idx → List Idx} (hv : ValidMesh m bd) {d i : Nat} (h1 : 1 ≤ d) (h2 : d ≤ m.dim)
    (hi : i < m.numElems d) {prev ps : List (Vec n F)}
    (hp : List.Forall₂ (fun (s : Nat) p => prev[s]? = some p) (directSubs m bd d i) ps) :
    elemCenter m d prev i = .ok (mean ps) := by
  rw [elemCenter, Mesh.applyOne_direct hv h1 h2 hi]
  simp only [Res.bind]
  rw [sumAt_ok hp]
  simp only [Res.bind, divAssign_eq, Factor.get, zero_add, mean, hp.length_eq]

/-- The recursion over the dimensions succeeds and each level consists of the means of the level below. -/
theorem centersFrom_ok {m : Mesh (Vec n F)} {bd : Idx → List Idx} (hv : ValidMesh m bd) (hne : NoEmptyElement m) :
    ∀ (k d : Nat) (prev : List (Vec n F)), 2 ≤ d → d + k = m.dim + 1 → prev.length = m.numElems (d - 1) →
    ∃ cs, centersFrom m d prev k = .ok cs ∧ cs.length = k ∧
      (∀ (j : Nat) l, cs[j]? = some l → l.length = m.numElems (d + j)) ∧
      ∀ (j i : Nat), j < k → i < m.numElems (d + j) → ∃ ps : List (Vec n F), ∃ below cur, (prev :: cs)[j]? = some below ∧ cs[j]? = some cur ∧
        List.Forall₂ (fun (s : Nat) p => below[s]? = some p) (directSubs m bd (d + j) i) ps ∧ ps ≠ [] ∧ cur[i]? = some (mean ps) := by
  intro k
  induction k with
  | zero => intro d prev _ _ _; exact ⟨[], rfl, rfl, by simp, by intro j i h; omega⟩
  | succ k ih =>
    intro d prev hd hk hl
    have hex : ∀ i, i < m.numElems d → ∃ ps, List.Forall₂ (fun (s : Nat) p => prev[s]? = some p) (directSubs m bd d i) ps :=
      fun i hi => exists_points fun s hs => by rw [hl]; exact hv.range d i (by omega) (by omega) hi s hs
    classical
    let f : Nat → Vec n F := fun i => if hi : i < m.numElems d then mean (hex i hi).choose else 0
    have hf : ∀ i ∈ List.range (m.numElems d), elemCenter m d prev i = .ok (f i) := by
      intro i hi
      rw [List.mem_range] at hi
      simp only [f, dif_pos hi]
      exact elemCenter_ok hv (by omega) (by omega) hi (hex i hi).choose_spec
    obtain ⟨cs, h1, h2, h3, h4⟩ := ih (d + 1) ((List.range (m.numElems d)).map f) (by omega) (by omega) (by simp)
    refine ⟨(List.range (m.numElems d)).map f :: cs, ?_, by simp [h2], ?_, ?_⟩
    · rw [centersFrom, forEach_ok hf]
      simp only [Res.bind, h1]
    · intro j l hj
      cases j with
      | zero => simp at hj; rw [← hj]; simp
      | succ j =>
        rw [List.getElem?_cons_succ] at hj
        rw [h3 j l hj]; congr 1; omega
    · intro j i hj hi
      cases j with
      | zero =>
        rw [Nat.add_zero] at hi ⊢
        refine ⟨(hex i hi).choose, prev, (List.range (m.numElems d)).map f, rfl, rfl, (hex i hi).choose_spec, ?_, ?_⟩
        · intro h0
          have := (hex i hi).choose_spec.length_eq
          rw [h0, List.length_nil] at this
          exact Mesh.directSubs_ne_nil hv hne hd (by omega) hi (List.length_eq_zero_iff.mp this)
        · rw [List.getElem?_map, List.getElem?_range hi]
          simp only [Option.map_some, f, dif_pos hi]
      | succ j =>
        obtain ⟨ps, below, cur, p1, p2, p3, p4, p5⟩ := h4 j i (by omega) (by rw [show d + 1 + j = d + (j + 1) by omega]; exact hi)
        refine ⟨ps, below, cur, by rw [List.getElem?_cons_succ]; exact p1, by rw [List.getElem?_cons_succ]; exact p2, ?_, p4, p5⟩
        rw [show d + (j + 1) = d + 1 + j by omega]; exact p3

theorem edgeCenter_ok {m : Mesh (Vec n F)} {e : Idx} {ed : Edge} {A B : Vec n F} (h : m.edges[e]? = some ed)
    (hA : m.vertices[ed.a]? = some A) (hB : m.vertices[ed.b]? = some B) : edgeCenter m e = .ok (mean [A, B]) := by
  rw [edgeCenter, edgeEnds_ok h hA hB]
  simp only [Res.bind, smul_eq, add_eq, mean]
  congr 1
  simp

omit [Field F] in
theorem edges_of_valid {m : Mesh (Vec n F)} {bd : Idx → List Idx} (hv : ValidMesh m bd) : m.numElems 1 = m.edges.length := by
  have := hv.dim_ge
  unfold Mesh.numElems; rw [if_neg (by omega), if_neg (by omega), if_pos rfl]

omit [Field F] in
theorem ends_ok [Zero F] {m : Mesh (Vec n F)} {bd : Idx → List Idx} (hv : ValidMesh m bd) {e : Idx} (h : e < m.edges.length) :
    edgeEnds m e = .ok (ends m e) := by
  have hg := List.getElem?_eq_getElem h
  obtain ⟨A, B, hA, hB⟩ := exists_ends hv hg
  rw [edgeEnds_ok hg hA hB, ends, hg]
  simp [hA, hB]

theorem edgeCenter_ends {m : Mesh (Vec n F)} {bd : Idx → List Idx} (hv : ValidMesh m bd) {e : Idx} (h : e < m.edges.length) :
    edgeCenter m e = .ok (mean [(ends m e).1, (ends m e).2]) := by
  rw [edgeCenter, ends_ok hv h]
  simp only [Res.bind, smul_eq, add_eq, mean]
  congr 1
  simp

theorem edgeCenters_ok {m : Mesh (Vec n F)} {bd : Idx → List Idx} (hv : ValidMesh m bd) :
    forEach (edgeCenter m) (List.range m.edges.length) =
      .ok ((List.range m.edges.length).map fun e => mean [(ends m e).1, (ends m e).2]) :=
  forEach_ok fun _ he => edgeCenter_ends hv (List.mem_range.mp he)

omit [Field F] in
/-- The edges of a face of a valid 3D mesh exist. -/
theorem face_edges_lt {m : Mesh (Vec n F)} {bd : Idx → List Idx} (hv : ValidMesh m bd) (h3 : m.dim = 3) {i : Nat} {f : Face}
    (hf : (m.midElems 2)[i]? = some f) : directSubs m bd 2 i = f.sub ∧ (∀ e ∈ f.sub, e < m.edges.length) ∧ m.numElems 2 = (m.midElems 2).length := by
  have hn : m.numElems 2 = (m.midElems 2).length := by
    unfold Mesh.numElems; rw [if_neg (by omega), if_neg (by omega), if_neg (by omega)]
  have hd : directSubs m bd 2 i = f.sub := by
    unfold directSubs; rw [if_neg (by omega), if_neg (by omega), hf]; rfl
  refine ⟨hd, ?_, hn⟩
  have := hv.range 2 i (by omega) (by omega) (by rw [hn]; exact (List.getElem?_eq_some_iff.mp hf).1)
  rw [hd, show 2 - 1 = 1 from rfl, edges_of_valid hv] at this
  exact this

end Geo
end GTMesh
