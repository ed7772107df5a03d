import Verif.Spec.Loaded
import Verif.Props.SameExport
import Verif.Props.Coloring
import Verif.Proofs.Solid5

/-!
# C69: a loaded mesh answers as the file says
-/

namespace GTMesh.Props
open Spec Std'
open Vtk (hasSide_mem mem_hasSide HasSide)

section
variable {V : Type}

/-- `setupBoundaryCells` gives the same mesh up to the boundary, in every dimension. -/
theorem setup_same' {m : Mesh V} (h : 2 ≤ m.dim) (hc : m.cells.length ≤ BOUNDARY) : SameMesh m m.setupBoundaryCells := by
  by_cases h2 : m.dim = 2
  · exact setup_same (.inl h2) hc
  by_cases hm : m.dim - 3 < m.mids.length
  · exact setup_same (.inr ⟨by omega, hm⟩) hc
  · have hf : m.midElems (m.dim - 1) = [] := by
      unfold Mesh.midElems
      rw [List.getElem?_eq_none (by omega)]
      rfl
    have e : m.setupBoundaryCells = m := by
      unfold Mesh.setupBoundaryCells
      rw [if_neg h2, hf]
      simp only [List.map_nil, setupFaces, List.zipWith_nil_left]
      rw [List.set_eq_of_length_le (by omega)]
    rw [e]
    exact ⟨rfl, rfl, rfl, rfl, fun _ _ => rfl, fun _ _ _ => rfl⟩

theorem incident_self (m : Mesh V) (bd : Idx → List Idx) (S : Nat) (s t : Idx) : Incident m bd S S s t ↔ s = t := by
  unfold Incident
  simp only [Nat.le_refl, if_true, Nat.sub_self]
  constructor
  · rintro h; cases h; rfl
  · rintro rfl; exact .refl _

theorem incident_step (m : Mesh V) (bd : Idx → List Idx) (S T : Nat) (h : T ≤ S) (s t : Idx) :
    Incident m bd (S + 1) T s t ↔ ∃ x ∈ directSubs m bd (S + 1) s, Incident m bd S T x t := by
  unfold Incident
  rw [if_pos (by omega)]
  simp only [if_pos h]
  rw [show S + 1 - T = (S - T) + 1 by omega]
  constructor
  · intro h
    cases h with
    | step h1 h2 =>
      rw [show T + (S - T) + 1 = S + 1 by omega] at h1
      exact ⟨_, h1, h2⟩
  · rintro ⟨x, h1, h2⟩
    refine .step ?_ h2
    rwa [show T + (S - T) + 1 = S + 1 by omega]

theorem table_connections {m : Mesh V} {bd : Idx → List Idx} (hv : ValidMesh m bd) {S T : Nat} (hS : S ≤ m.dim) (hT : T ≤ m.dim)
    {rel : Idx → Idx → Prop} (h : ∀ s t, s < m.numElems S → ((t < m.numElems T ∧ Incident m bd S T s t) ↔ rel s t)) :
    ∃ r, m.connectionsAsc S T = .ok r ∧ IsTable r (m.numElems S) rel := by
  obtain ⟨r, h1, h2, h3⟩ := C11_ascending m bd hv S T hS hT
  refine ⟨r, h1, h2, fun s l hl => ?_⟩
  obtain ⟨h4, h5⟩ := h3 s l hl
  refine ⟨h4, fun t => ?_⟩
  rw [h5, h s t (h2 ▸ (List.getElem?_eq_some_iff.mp hl).1)]

theorem table_neighbors {m : Mesh V} {bd : Idx → List Idx} (hv : ValidMesh m bd) {S C T : Nat} (hS : S ≤ m.dim) (hC : C ≤ m.dim) (hT : T ≤ m.dim)
    {rel : Idx → Idx → Prop} (h : ∀ s t, s < m.numElems S → ((t < m.numElems T ∧ Share m bd S C T s t ∧ ¬ (S = T ∧ s = t)) ↔ rel s t)) :
    ∃ r, m.neighborsAsc S C T = .ok r ∧ IsTable r (m.numElems S) rel := by
  obtain ⟨⟨r, h1, h2, h3⟩, _⟩ := C13_neighborhood m bd hv S C T hS hC hT
  refine ⟨r, h1, h2, fun s l hl => ?_⟩
  obtain ⟨h4, h5⟩ := h3 s l hl
  refine ⟨h4, fun t => ?_⟩
  rw [h5, h s t (h2 ▸ (List.getElem?_eq_some_iff.mp hl).1)]

theorem separates_greedy {m : Mesh V} {bd : Idx → List Idx} (hv : ValidMesh m bd) {S C : Nat} (hS : S ≤ m.dim) (hC : C ≤ m.dim)
    {rel : Idx → Idx → Prop} (h : ∀ s t, s < m.numElems S → t < m.numElems S → rel s t → Share m bd S C S s t) :
    ∃ cs, m.colorGreedy S C = .ok cs ∧ Separates cs (m.numElems S) rel := by
  obtain ⟨cs, h1, h2, h3⟩ := C14_greedy_proper m bd hv S C hS hC
  exact ⟨cs, h1, h2, fun s t k hs ht hn hr hk => h3 s t k hs ht hn (h s t hs ht hr) hk⟩

theorem separates_random {m : Mesh V} {bd : Idx → List Idx} (hv : ValidMesh m bd) {S C : Nat} (hS : S ≤ m.dim) (hC : C ≤ m.dim)
    {rel : Idx → Idx → Prop} (h : ∀ s t, s < m.numElems S → t < m.numElems S → rel s t → Share m bd S C S s t)
    (draw : Nat → Nat → Nat) (hdraw : ∀ i n, draw i n ≤ n) (hne : 0 < m.numElems S) :
    ∃ cs, m.colorRandom S C draw = .ok cs ∧ Separates cs (m.numElems S) rel := by
  obtain ⟨_, cs, _, h1, h2, h3, _⟩ := C16_random_proper m bd hv S C hS hC draw hdraw hne
  exact ⟨cs, h1, h2, fun s t k hs ht hn hr hk => h3 s t k hs ht hn (h s t hs ht hr) hk⟩

/-! ## Edges and vertices -/

theorem incident_edge_vertex (m : Mesh V) (bd : Idx → List Idx) (hd : 2 ≤ m.dim) (e v : Idx) :
    Incident m bd 1 0 e v ↔ ∃ ed, m.edges[e]? = some ed ∧ (v = ed.a ∨ v = ed.b) := by
  rw [incident_step m bd 0 0 (by omega)]
  unfold directSubs
  rw [if_neg (by omega), if_pos rfl]
  simp only [incident_self]
  cases m.edges[e]? with
  | none => simp
  | some ed => simp

theorem edgesOf_mem {edges : List Edge} {es vs : List Idx} (h : EdgesOf edges es vs) {e : Idx} (he : e ∈ es) :
    ∃ ed, edges[e]? = some ed ∧ HasSide vs ed.a ed.b := by
  obtain ⟨hl, hj⟩ := h
  obtain ⟨k, hk⟩ := List.getElem?_of_mem he
  have hkl := (List.getElem?_eq_some_iff.mp hk).1
  obtain ⟨e', u, v, h1, h2, h3, ed, h4, h5⟩ := hj k (by omega)
  rw [hk] at h1
  cases h1
  exact ⟨ed, h4, k, u, v, by omega, h2, h3, SamePair.symm h5⟩

theorem edgesOf_side {edges : List Edge} {es vs : List Idx} (h : EdgesOf edges es vs) {u v : Idx} (hs : HasSide vs u v) :
    ∃ e ∈ es, Joins edges e u v := by
  obtain ⟨hl, hj⟩ := h
  obtain ⟨j, a, b, h1, h2, h3, h4⟩ := hs
  obtain ⟨e, u', v', g1, g2, g3, g4⟩ := hj j h1
  rw [h2] at g2
  rw [h3] at g3
  cases g2; cases g3
  exact ⟨e, List.mem_of_getElem? g1, Vtk.joins_congr g4 h4⟩

/-- The ends of the edges of a polygon are its vertices. -/
theorem edgesOf_vertex {edges : List Edge} {es vs : List Idx} (h : EdgesOf edges es vs) (v : Idx) :
    (∃ e ∈ es, ∃ ed, edges[e]? = some ed ∧ (v = ed.a ∨ v = ed.b)) ↔ v ∈ vs := by
  constructor
  · rintro ⟨e, he, ed, h1, h2⟩
    obtain ⟨ed', h3, h4⟩ := edgesOf_mem h he
    rw [h1] at h3
    cases h3
    have := hasSide_mem h4
    rcases h2 with rfl | rfl
    · exact this.1
    · exact this.2
  · intro hv
    obtain ⟨w, hw⟩ := mem_hasSide hv
    obtain ⟨e, he, ed, h1, h2⟩ := edgesOf_side h hw
    refine ⟨e, he, ed, h1, ?_⟩
    rcases h2 with h2 | h2
    · simp only [Prod.mk.injEq] at h2; exact .inl h2.1.symm
    · simp only at h2; exact .inr h2.2.symm

/-- The answers follow from the incidences of cells with vertices, of cells with faces and of edges with vertices. -/
theorem answers_of {m : Mesh V} {bd : Idx → List Idx} (hv : ValidMesh m bd) {nc nv : Nat} (hnc : m.cells.length = nc) (hnv : m.vertices.length = nv)
    {hasVertex adjacent joined : Idx → Idx → Prop}
    (h1 : ∀ c v, hasVertex c v ↔ c < nc ∧ v < nv ∧ Incident m bd m.dim 0 c v)
    (h2 : ∀ c c', adjacent c c' ↔ c < nc ∧ c' < nc ∧ ∃ f, f < m.numElems (m.dim - 1) ∧ f ∈ bd c ∧ f ∈ bd c')
    (h3 : ∀ u v, joined u v ∧ u ≠ v ↔ u ≠ v ∧ u < nv ∧ v < nv ∧ ∃ (e : Nat) (ed : Edge), m.edges[e]? = some ed ∧ (u = ed.a ∨ u = ed.b) ∧ (v = ed.a ∨ v = ed.b)) :
    Answers m nc nv hasVertex adjacent joined := by
  have hd := hv.dim_ge
  have e1 : m.numElems m.dim = nc := by unfold Mesh.numElems; rw [if_pos rfl, hnc]
  have e0 : m.numElems 0 = nv := by unfold Mesh.numElems; rw [if_neg (by omega), if_pos rfl, hnv]
  have ee : m.numElems 1 = m.edges.length := by unfold Mesh.numElems; rw [if_neg (by omega), if_neg (by omega), if_pos rfl]
  have hF : ∀ c f, Incident m bd m.dim (m.dim - 1) c f ↔ f ∈ bd c := by
    intro c f
    have := incident_step m bd (m.dim - 1) (m.dim - 1) (Nat.le_refl _) c f
    rw [show m.dim - 1 + 1 = m.dim by omega] at this
    rw [this]
    simp [directSubs, incident_self]
  have s2 : ∀ c c', c < nc → c' < nc → (Share m bd m.dim (m.dim - 1) m.dim c c' ↔ adjacent c c') := by
    intro c c' hc hc'
    rw [h2]
    unfold Share
    constructor
    · rintro ⟨f, a, b, d⟩
      rw [incident_comm, hF] at d
      rw [hF] at b
      exact ⟨hc, hc', f, a, b, d⟩
    · rintro ⟨_, _, f, a, b, d⟩
      refine ⟨f, a, (hF _ _).mpr b, ?_⟩
      rw [incident_comm, hF]
      exact d
  have s0 : ∀ c c', c < nc → c' < nc → (Share m bd m.dim 0 m.dim c c' ↔ ∃ v, hasVertex c v ∧ hasVertex c' v) := by
    intro c c' hc hc'
    unfold Share
    rw [e0]
    constructor
    · rintro ⟨v, a, b, d⟩
      rw [incident_comm] at d
      exact ⟨v, (h1 _ _).mpr ⟨hc, a, b⟩, (h1 _ _).mpr ⟨hc', a, d⟩⟩
    · rintro ⟨v, a, b⟩
      refine ⟨v, ((h1 _ _).mp a).2.1, ((h1 _ _).mp a).2.2, ?_⟩
      rw [incident_comm]
      exact ((h1 _ _).mp b).2.2
  refine ⟨?_, ?_, ?_, ?_, ?_, ?_, ?_, ?_⟩
  · rw [← e1]
    exact table_connections hv (by omega) (by omega) fun c v hc => by
      rw [h1, e0]; rw [e1] at hc; simp [hc]
  · rw [← e0]
    exact table_connections hv (by omega) (by omega) fun v c hc => by
      rw [h1, e1, incident_comm]
      rw [e0] at hc; simp [hc]
  · rw [← e1]
    refine table_neighbors hv (by omega) (by omega) (by omega) fun c c' hc => ?_
    rw [e1] at hc ⊢
    constructor
    · rintro ⟨a, b, d⟩
      exact ⟨(s2 _ _ hc a).mp b, fun e => d ⟨rfl, e⟩⟩
    · rintro ⟨a, b⟩
      have hc' := ((h2 _ _).mp a).2.1
      exact ⟨hc', (s2 _ _ hc hc').mpr a, fun e => b e.2⟩
  · rw [← e1]
    refine table_neighbors hv (by omega) (by omega) (by omega) fun c c' hc => ?_
    rw [e1] at hc ⊢
    constructor
    · rintro ⟨a, b, d⟩
      exact ⟨(s0 _ _ hc a).mp b, fun e => d ⟨rfl, e⟩⟩
    · rintro ⟨⟨v, a, a'⟩, b⟩
      have hc' := ((h1 _ _).mp a').1
      exact ⟨hc', (s0 _ _ hc hc').mpr ⟨v, a, a'⟩, fun e => b e.2⟩
  · rw [← e0]
    refine table_neighbors hv (by omega) (by omega) (by omega) fun u v hu => ?_
    rw [h3]
    rw [e0] at hu ⊢
    unfold Share
    constructor
    · rintro ⟨a, ⟨e, b1, b2, b3⟩, d⟩
      rw [incident_comm, incident_edge_vertex m bd hd] at b2
      rw [incident_edge_vertex m bd hd] at b3
      obtain ⟨ed, c1, c2⟩ := b2
      obtain ⟨ed', c3, c4⟩ := b3
      rw [c1] at c3
      cases c3
      exact ⟨fun e => d ⟨rfl, e⟩, hu, a, e, ed, c1, c2, c4⟩
    · rintro ⟨a, _, hv', e, ed, b1, b2, b3⟩
      refine ⟨hv', ⟨e, ?_, ?_, ?_⟩, fun h => a h.2⟩
      · rw [ee]; exact (List.getElem?_eq_some_iff.mp b1).1
      · rw [incident_comm, incident_edge_vertex m bd hd]; exact ⟨ed, b1, b2⟩
      · rw [incident_edge_vertex m bd hd]; exact ⟨ed, b1, b3⟩
  · rw [← e1]
    exact separates_greedy hv (by omega) (by omega) fun c c' hc hc' h => (s2 _ _ (e1 ▸ hc) (e1 ▸ hc')).mpr h
  · rw [← e1]
    exact separates_greedy hv (by omega) (by omega) fun c c' hc hc' h => (s0 _ _ (e1 ▸ hc) (e1 ▸ hc')).mpr h
  · intro hpos draw hdraw
    rw [← e1] at hpos ⊢
    exact separates_random hv (by omega) (by omega) (fun c c' hc hc' h => (s2 _ _ (e1 ▸ hc) (e1 ▸ hc')).mpr h) draw hdraw hpos

/-- The answers do not change when boundary cells are added. -/
theorem answers_same {m m' : Mesh V} (s : SameMesh m m') {nc nv : Nat} {p q r : Idx → Idx → Prop} (h : Answers m nc nv p q r) :
    Answers m' nc nv p q r := by
  obtain ⟨a1, a2, a3, a4, a5, a6, a7, a8⟩ := h
  refine ⟨?_, ?_, ?_, ?_, ?_, ?_, ?_, ?_⟩
  all_goals first | simpa only [s.dim, s.connectionsAsc, s.neighborsAsc, s.colorGreedy] | skip
  intro hp draw hd
  rw [s.dim, s.colorRandom]
  exact a8 hp draw hd

/-- Edges that are different join different vertices: two vertices are joined by one edge only. -/
theorem joins_unique {edges : List Edge}
    (h : ∀ (i j : Nat) e e', edges[i]? = some e → edges[j]? = some e' → SamePair (e.a, e.b) (e'.a, e'.b) → i = j)
    {i j u v : Idx} (hi : Joins edges i u v) (hj : Joins edges j u v) : i = j := by
  obtain ⟨e, a1, a2⟩ := hi
  obtain ⟨e', b1, b2⟩ := hj
  refine h i j e e' a1 b1 ?_
  rcases a2 with a2 | a2 <;> rcases b2 with b2 | b2 <;> simp_all [SamePair]

theorem pair_ends {u v a b : Idx} (h : SamePair (a, b) (u, v)) : (u = a ∨ u = b) ∧ (v = a ∨ v = b) := by
  unfold SamePair at h
  simp only [Prod.mk.injEq] at h
  omega

theorem ends_pair {u v a b : Idx} (h : u ≠ v) (hu : u = a ∨ u = b) (hv : v = a ∨ v = b) : SamePair (a, b) (u, v) := by
  unfold SamePair
  simp only [Prod.mk.injEq]
  omega

end

/-! ## VTK in 2D -/

section
open Vtk
variable {R V : Type}

/-- C69, VTK in 2D. A file of polygons of which no three have a common side, read into any 2D mesh by a reader in any state, gives a mesh that
answers as the file says, right after loading and after `setupBoundaryCells()`: the vertices of a cell are those in its line, two cells are
neighbors through edges when they have a common side, and so on (`Answers`). -/
theorem C69_vtk_2d [Zero R] (F : Vtk.File R) (hF : F.Polygons) (hcodes : F.codes.length ≤ F.cells.length) (rest : List (VTok R))
    (types : List Nat) (m0 : Mesh (Point2 R)) (hd : m0.dim = 2) (htwo : ∀ u v, AtMostTwo F u v)
    (hr : ∀ vs ∈ F.cells, ∀ v ∈ vs, v < F.verts.length) (hfit : F.cells.length ≤ BOUNDARY) :
    ∃ m t, load2 (F.tokens ++ rest) types m0 = .ok (m, t) ∧
      Answers m F.cells.length F.verts.length (HasVertex F) (ShareSide F) (fun u v => ∃ c, Uses F c u v) ∧
      Answers m.setupBoundaryCells F.cells.length F.verts.length (HasVertex F) (ShareSide F) (fun u v => ∃ c, Uses F c u v) := by
  obtain ⟨m, t, bd, l1, hv, hE⟩ := C22_valid F hF hcodes rest types m0 hd htwo hr
  obtain ⟨m', t', l2, g1, g2, _, g4, g5, g6, _⟩ := C22_load F hF hcodes rest types m0 hd
  rw [l1] at l2
  cases l2
  refine ⟨m, t, l1, ?_⟩
  have hA : Answers m F.cells.length F.verts.length (HasVertex F) (ShareSide F) (fun u v => ∃ c, Uses F c u v) := by
    have hr' : ∀ {c vs v}, F.cells[c]? = some vs → v ∈ vs → v < F.verts.length := fun hc hvv => hr _ (List.mem_of_getElem? hc) _ hvv
    have hcell : ∀ {c}, c < F.cells.length → ∃ vs, F.cells[c]? = some vs ∧ EdgesOf m.edges (bd c) vs := by
      intro c hc
      exact ⟨_, List.getElem?_eq_getElem hc, hE c _ (List.getElem?_eq_getElem hc)⟩
    refine answers_of hv g6 (by rw [g2, List.length_map]) ?_ ?_ ?_
    · intro c v
      rw [g1, incident_step m bd 1 0 (by omega)]
      simp only [directSubs, if_pos g1.symm, incident_edge_vertex m bd hv.dim_ge]
      constructor
      · rintro ⟨vs, h1, h2⟩
        exact ⟨(List.getElem?_eq_some_iff.mp h1).1, hr' h1 h2, (edgesOf_vertex (hE c vs h1) v).mpr h2⟩
      · rintro ⟨h1, _, h3⟩
        obtain ⟨vs, h4, h5⟩ := hcell h1
        exact ⟨vs, h4, (edgesOf_vertex h5 v).mp h3⟩
    · intro c c'
      constructor
      · rintro ⟨u, v, ⟨vs, h1, h2⟩, vs', h3, h4⟩
        refine ⟨(List.getElem?_eq_some_iff.mp h1).1, (List.getElem?_eq_some_iff.mp h3).1, ?_⟩
        obtain ⟨e, a1, a2⟩ := edgesOf_side (hE c vs h1) h2
        obtain ⟨e', b1, b2⟩ := edgesOf_side (hE c' vs' h3) h4
        have := joins_unique g4 a2 b2
        subst this
        obtain ⟨ed, a3, _⟩ := a2
        refine ⟨e, ?_, a1, b1⟩
        rw [g1]
        unfold Mesh.numElems
        rw [if_neg (by omega), if_neg (by omega), if_pos rfl]
        exact (List.getElem?_eq_some_iff.mp a3).1
      · rintro ⟨h1, h2, e, _, h3, h4⟩
        obtain ⟨vs, a1, a2⟩ := hcell h1
        obtain ⟨vs', b1, b2⟩ := hcell h2
        obtain ⟨ed, a3, a4⟩ := edgesOf_mem a2 h3
        obtain ⟨ed', b3, b4⟩ := edgesOf_mem b2 h4
        rw [a3] at b3
        cases b3
        exact ⟨ed.a, ed.b, ⟨vs, a1, a4⟩, vs', b1, b4⟩
    · intro u v
      constructor
      · rintro ⟨⟨c, vs, h1, h2⟩, hne⟩
        obtain ⟨e, _, ed, a2, a3⟩ := edgesOf_side (hE c vs h1) h2
        refine ⟨hne, hr' h1 (hasSide_mem h2).1, hr' h1 (hasSide_mem h2).2, e, ed, a2, ?_⟩
        exact pair_ends a3
      · rintro ⟨hne, _, _, e, ed, h1, h2, h3⟩
        refine ⟨⟨ed.conn.left, ?_⟩, hne⟩
        obtain ⟨vs, h4, j, a, b, h5, h6, h7, h8⟩ := (g5 ed (List.mem_of_getElem? h1)).1
        refine ⟨vs, h4, j, a, b, h5, h6, h7, ?_⟩
        have := ends_pair hne h2 h3
        rcases this with this | this <;> rcases h8 with h8 | h8 <;> simp_all [SamePair]
  exact ⟨hA, answers_same (setup_same' hv.dim_ge (by omega)) hA⟩

/-! ## VTK in 3D -/

theorem facePolygons_mem {vs p : List Idx} (hk : vs.length = 4 ∨ vs.length = 5 ∨ vs.length = 6 ∨ vs.length = 8) (hp : p ∈ facePolygons vs)
    {v : Idx} (hv : v ∈ p) : v ∈ vs := by
  obtain ⟨q, hq, rfl⟩ := List.mem_map.mp hp
  obtain ⟨i, hi, rfl⟩ := List.mem_map.mp hv
  have hlt := (cellPolygons_closed hk).1 q hq i hi
  rw [List.getElem?_eq_getElem hlt]
  exact List.getElem_mem hlt

theorem mem_facePolygons {vs : List Idx} (hk : vs.length = 4 ∨ vs.length = 5 ∨ vs.length = 6 ∨ vs.length = 8) {v : Idx} (hv : v ∈ vs) :
    ∃ p ∈ facePolygons vs, ∃ w, HasSide p v w := by
  obtain ⟨i, hi⟩ := List.getElem?_of_mem hv
  have hlt := (List.getElem?_eq_some_iff.mp hi).1
  obtain ⟨p, h1, b, _, h3⟩ := every_vertex hk i hlt
  refine ⟨_, List.mem_map.mpr ⟨p, h1, rfl⟩, ent vs b, ?_⟩
  have := hasSide_map_ent vs h3
  rw [show ent vs i = v by simp [ent, hi]] at this
  exact this

/-- The edges of a face in the incidence of a 3D mesh. -/
theorem incident_face_vertex (m : Mesh V) (bd : Idx → List Idx) (hd : m.dim = 3) (f v : Idx) :
    Incident m bd 2 0 f v ↔ ∃ x, (m.midElems 2)[f]? = some x ∧ ∃ e ∈ x.sub, ∃ ed, m.edges[e]? = some ed ∧ (v = ed.a ∨ v = ed.b) := by
  rw [incident_step m bd 1 0 (by omega)]
  simp only [incident_edge_vertex m bd (by omega : 2 ≤ m.dim)]
  unfold directSubs
  rw [if_neg (by omega), if_neg (by omega)]
  cases (m.midElems 2)[f]? with
  | none => simp
  | some x => simp

theorem numElems_faces {m : Mesh V} (hd : m.dim = 3) : m.numElems (m.dim - 1) = (m.midElems 2).length := by
  rw [hd]
  unfold Mesh.numElems
  rw [if_neg (by omega), if_neg (by omega), if_neg (by omega)]

/-- C69, VTK in 3D: the same for a file of tetrahedra, pyramids, wedges and hexahedra of which no three have a common face, in a mesh with a
reserve that is large enough. -/
theorem C69_vtk_3d [Zero R] (F : Vtk.File R) (hF : F.Solids) (res : Nat)
    (hres : ∀ vs ∈ F.cells, ∀ p ∈ facePolygons vs, res = 0 ∨ p.length ≤ res)
    (hcodes : F.codes.length ≤ F.cells.length) (rest : List (VTok R))
    (types : List Nat) (m0 : Mesh (Point3 R)) (hd : m0.dim = 3)
    (htwo : ∀ vs ∈ F.cells, ∀ p ∈ facePolygons vs, AtMostTwoFace F p)
    (hr : ∀ vs ∈ F.cells, ∀ v ∈ vs, v < F.verts.length) (hfit : F.cells.length ≤ BOUNDARY) :
    ∃ m t, load3 res (F.tokens ++ rest) types m0 = .ok (m, t) ∧
      Answers m F.cells.length F.verts.length (HasVertex F) (ShareFace F) (HasEdge3 F) ∧
      Answers m.setupBoundaryCells F.cells.length F.verts.length (HasVertex F) (ShareFace F) (HasEdge3 F) := by
  obtain ⟨m, t, bd, l1, hv, hE⟩ := C25_valid F hF res hres hcodes rest types m0 hd htwo hr
  obtain ⟨m', t', l2, g1, g2, _, _, g5, g6, g7, g8, g9, _⟩ := C25_load F hF res hres hcodes rest types m0 hd
  rw [l1] at l2
  cases l2
  refine ⟨m, t, l1, ?_⟩
  have hA : Answers m F.cells.length F.verts.length (HasVertex F) (ShareFace F) (HasEdge3 F) := by
    have hk : ∀ {c : Nat} {vs}, F.cells[c]? = some vs → vs.length = 4 ∨ vs.length = 5 ∨ vs.length = 6 ∨ vs.length = 8 :=
      fun hc => hF.known _ (List.mem_of_getElem? hc)
    have hr' : ∀ {c : Nat} {vs v}, F.cells[c]? = some vs → v ∈ vs → v < F.verts.length := fun hc hvv => hr _ (List.mem_of_getElem? hc) _ hvv
    have hcell : ∀ {c}, c < F.cells.length → ∃ vs, F.cells[c]? = some vs ∧ FacesOf m.edges (m.midElems 2) (bd c) vs := by
      intro c hc
      exact ⟨_, List.getElem?_eq_getElem hc, hE c _ (List.getElem?_eq_getElem hc)⟩
    have hface : ∀ {c vs p}, F.cells[c]? = some vs → p ∈ facePolygons vs → ∃ f x, f ∈ bd c ∧ (m.midElems 2)[f]? = some x ∧ IsPolygon m.edges x.sub p := by
      intro c vs p hc hp
      obtain ⟨j, hj⟩ := List.getElem?_of_mem hp
      obtain ⟨f, x, a1, a2, a3⟩ := (hE c vs hc).2 j p hj
      exact ⟨f, x, List.mem_of_getElem? a1, a2, a3⟩
    have hpoly : ∀ {c vs f}, F.cells[c]? = some vs → f ∈ bd c → ∃ p x, p ∈ facePolygons vs ∧ (m.midElems 2)[f]? = some x ∧ IsPolygon m.edges x.sub p := by
      intro c vs f hc hf
      obtain ⟨j, hj⟩ := List.getElem?_of_mem hf
      have hjl := (List.getElem?_eq_some_iff.mp hj).1
      have hq := List.getElem?_eq_getElem (l := facePolygons vs) (i := j) (by rw [← (hE c vs hc).1]; exact hjl)
      obtain ⟨f', x, a1, a2, a3⟩ := (hE c vs hc).2 j _ hq
      rw [hj] at a1
      cases a1
      exact ⟨_, x, List.mem_of_getElem? hq, a2, a3⟩
    refine answers_of hv g9 (by rw [g2]) ?_ ?_ ?_
    · intro c v
      rw [g1, incident_step m bd 2 0 (by omega)]
      simp only [directSubs, if_pos g1.symm, incident_face_vertex m bd g1]
      constructor
      · rintro ⟨vs, h1, h2⟩
        refine ⟨(List.getElem?_eq_some_iff.mp h1).1, hr' h1 h2, ?_⟩
        obtain ⟨p, a1, w, a2⟩ := mem_facePolygons (hk h1) h2
        obtain ⟨f, x, b1, b2, b3⟩ := hface h1 a1
        obtain ⟨e, c1, ed, c2, c3⟩ := Vtk.polygon_side b3 a2
        refine ⟨f, b1, x, b2, e, c1, ed, c2, ?_⟩
        rcases c3 with c3 | c3
        · simp only [Prod.mk.injEq] at c3; exact .inl c3.1.symm
        · simp only at c3; exact .inr c3.2.symm
      · rintro ⟨h1, _, f, h3, x, h4, e, h5, ed, h6, h7⟩
        obtain ⟨vs, a1, _⟩ := hcell h1
        obtain ⟨p, x', b1, b2, b3⟩ := hpoly a1 h3
        rw [h4] at b2
        cases b2
        obtain ⟨ed', c1, c2⟩ := polygon_edge b3 h5
        rw [h6] at c1
        cases c1
        refine ⟨vs, a1, facePolygons_mem (hk a1) b1 ?_⟩
        rcases h7 with rfl | rfl
        · exact (hasSide_mem c2).1
        · exact (hasSide_mem c2).2
    · intro c c'
      rw [numElems_faces g1]
      constructor
      · rintro ⟨p, ⟨vs, h1, q, h2, h3⟩, vs', h4, q', h5, h6⟩
        refine ⟨(List.getElem?_eq_some_iff.mp h1).1, (List.getElem?_eq_some_iff.mp h4).1, ?_⟩
        obtain ⟨f, x, a1, a2, a3⟩ := hface h1 h2
        obtain ⟨f', x', b1, b2, b3⟩ := hface h4 h5
        have := g6 f f' x x' q q' a2 b2 a3 b3 (h3.symm.trans h6)
        subst this
        exact ⟨f, (List.getElem?_eq_some_iff.mp a2).1, a1, b1⟩
      · rintro ⟨h1, h2, f, _, h3, h4⟩
        obtain ⟨vs, a1, _⟩ := hcell h1
        obtain ⟨vs', b1, _⟩ := hcell h2
        obtain ⟨p, x, a2, a3, a4⟩ := hpoly a1 h3
        obtain ⟨p', x', b2, b3, b4⟩ := hpoly b1 h4
        rw [a3] at b3
        cases b3
        exact ⟨p, ⟨vs, a1, p, a2, fun _ _ => Iff.rfl⟩, vs', b1, p', b2, sameSides_of_subs a4 b4⟩
    · intro u v
      constructor
      · rintro ⟨⟨vs, h1, p, h2, h3⟩, hne⟩
        obtain ⟨c, hc⟩ := List.getElem?_of_mem h1
        obtain ⟨f, x, _, _, b3⟩ := hface hc h2
        obtain ⟨e, _, ed, a2, a3⟩ := Vtk.polygon_side b3 h3
        refine ⟨hne, hr' hc (facePolygons_mem (hk hc) h2 (hasSide_mem h3).1), hr' hc (facePolygons_mem (hk hc) h2 (hasSide_mem h3).2), e, ed, a2, ?_⟩
        exact pair_ends a3
      · rintro ⟨hne, _, _, e, ed, h1, h2, h3⟩
        obtain ⟨vs, a1, _, p, a2, j, a, b, h5, h6, h7, h8⟩ := g8 ed (List.mem_of_getElem? h1)
        exact ⟨⟨vs, a1, p, a2, j, a, b, h5, h6, h7, SamePair.trans h8 (ends_pair hne h2 h3)⟩, hne⟩
  exact ⟨hA, answers_same (setup_same' hv.dim_ge (by omega)) hA⟩

end

/-! ## FPMA -/

section
open Fpma
variable {R : Type}

/-- C69, FPMA: the same for a well-formed file read into a new mesh. Besides the answers: the faces of the cells and the vertices of the faces. -/
theorem C69_fpma (F : Fpma.File R) (hF : F.WellFormed) (res : Nat)
    (hres : ∀ vs ∈ F.faces, res = 0 ∨ vs.length ≤ res) (rest : List (Tok R))
    (hr : ∀ vs ∈ F.faces, ∀ v ∈ vs, v < F.verts.length) (hfit : F.cells.length ≤ BOUNDARY) :
    ∃ m, Fpma.load res (F.tokens ++ rest) { dim := 3 } = .ok m ∧
      Answers m F.cells.length F.verts.length (HasVertex F) (ShareFace F) (HasEdge F) ∧
      Answers m.setupBoundaryCells F.cells.length F.verts.length (HasVertex F) (ShareFace F) (HasEdge F) ∧
      (∃ r, m.connectionsAsc 3 2 = .ok r ∧ m.setupBoundaryCells.connectionsAsc 3 2 = .ok r ∧ IsTable r F.cells.length (HasFace F)) ∧
      (∃ r, m.connectionsAsc 2 3 = .ok r ∧ m.setupBoundaryCells.connectionsAsc 2 3 = .ok r ∧ IsTable r F.faces.length fun f c => HasFace F c f) ∧
      (∃ r, m.connectionsAsc 2 0 = .ok r ∧ m.setupBoundaryCells.connectionsAsc 2 0 = .ok r ∧ IsTable r F.faces.length (FaceVertex F)) := by
  obtain ⟨m, l1, hv⟩ := C18_valid F hF res hres rest hr
  obtain ⟨m', l2, g1, g2, _, g4, g5, g6, g7, g8, g9⟩ := C18_load F hF res hres rest
  rw [l1] at l2
  cases l2
  refine ⟨m, l1, ?_⟩
  have s := setup_same' (m := m) hv.dim_ge (by omega)
  have hr' : ∀ {f : Nat} {vs v}, F.faces[f]? = some vs → v ∈ vs → v < F.verts.length := fun hc hvv => hr _ (List.mem_of_getElem? hc) _ hvv
  have hbd : ∀ c f, f ∈ (F.cells[c]?).getD [] ↔ HasFace F c f := by
    intro c f
    unfold HasFace
    cases F.cells[c]? <;> simp
  have hfl : ∀ {c f}, HasFace F c f → f < F.faces.length := by
    rintro c f ⟨fs, h1, h2⟩
    exact hF.cells_range fs (List.mem_of_getElem? h1) f h2
  have hcl : ∀ {c f}, HasFace F c f → c < F.cells.length := fun ⟨fs, h1, _⟩ => (List.getElem?_eq_some_iff.mp h1).1
  have hsub : ∀ f v, f < F.faces.length → (Incident m (fun i => (F.cells[i]?).getD []) 2 0 f v ↔ FaceVertex F f v) := by
    intro f v hf
    rw [incident_face_vertex m _ g1]
    obtain ⟨x, a1, _, a3⟩ := g7 f _ (List.getElem?_eq_getElem hf)
    unfold FaceVertex
    rw [a1, List.getElem?_eq_getElem hf]
    constructor
    · rintro ⟨x', h1, h2⟩
      cases h1
      exact ⟨_, rfl, (edgesOf_vertex a3 v).mp h2⟩
    · rintro ⟨vs, h1, h2⟩
      cases h1
      exact ⟨_, rfl, (edgesOf_vertex a3 v).mpr h2⟩
  have e2 : m.numElems 2 = F.faces.length := by rw [← g6]; exact (g1 ▸ numElems_faces g1 : m.numElems 2 = _)
  have e3 : m.numElems 3 = F.cells.length := by unfold Mesh.numElems; rw [if_pos g1.symm, g8]
  have e0 : m.numElems 0 = F.verts.length := by unfold Mesh.numElems; rw [if_neg (by omega), if_pos rfl, g2]
  have h32 : ∀ c f, Incident m (fun i => (F.cells[i]?).getD []) 3 2 c f ↔ HasFace F c f := by
    intro c f
    rw [incident_step m _ 2 2 (by omega)]
    simp [directSubs, g1, incident_self, hbd]
  have hA : Answers m F.cells.length F.verts.length (HasVertex F) (ShareFace F) (HasEdge F) := by
    refine answers_of hv g8 (by rw [g2]) ?_ ?_ ?_
    · intro c v
      rw [g1, incident_step m _ 2 0 (by omega)]
      simp only [directSubs, if_pos g1.symm, hbd]
      constructor
      · rintro ⟨f, h1, h2⟩
        refine ⟨hcl h1, ?_, f, h1, (hsub f v (hfl h1)).mpr h2⟩
        obtain ⟨vs, h3, h4⟩ := h2
        exact hr' h3 h4
      · rintro ⟨_, _, f, h1, h2⟩
        exact ⟨f, h1, (hsub f v (hfl h1)).mp h2⟩
    · intro c c'
      rw [numElems_faces g1, g6]
      simp only [hbd]
      constructor
      · rintro ⟨f, h1, h2⟩
        exact ⟨hcl h1, hcl h2, f, hfl h1, h1, h2⟩
      · rintro ⟨_, _, f, _, h1, h2⟩
        exact ⟨f, h1, h2⟩
    · intro u v
      constructor
      · rintro ⟨⟨vs, h1, h3⟩, hne⟩
        obtain ⟨f, hf⟩ := List.getElem?_of_mem h1
        obtain ⟨x, _, _, a3⟩ := g7 f _ hf
        obtain ⟨e, _, ed, b2, b3⟩ := edgesOf_side a3 h3
        refine ⟨hne, hr' hf (hasSide_mem h3).1, hr' hf (hasSide_mem h3).2, e, ed, b2, ?_⟩
        exact pair_ends b3
      · rintro ⟨hne, _, _, e, ed, h1, h2, h3⟩
        obtain ⟨vs, a1, j, a2, a3, a4⟩ := g5 ed (List.mem_of_getElem? h1)
        exact ⟨⟨vs, a1, j, ed.a, ed.b, a2, a3, a4, ends_pair hne h2 h3⟩, hne⟩
  refine ⟨hA, answers_same s hA, ?_, ?_, ?_⟩
  · obtain ⟨r, h1, h2⟩ := table_connections hv (S := 3) (T := 2) (by omega) (by omega) (rel := HasFace F) fun c f hc => by
      rw [e2, h32]
      exact ⟨fun h => h.2, fun h => ⟨hfl h, h⟩⟩
    exact ⟨r, h1, by rw [s.connectionsAsc, h1], e3 ▸ h2⟩
  · obtain ⟨r, h1, h2⟩ := table_connections hv (S := 2) (T := 3) (by omega) (by omega) (rel := fun f c => HasFace F c f) fun f c hc => by
      rw [e3, incident_comm, h32]
      exact ⟨fun h => h.2, fun h => ⟨hcl h, h⟩⟩
    exact ⟨r, h1, by rw [s.connectionsAsc, h1], e2 ▸ h2⟩
  · obtain ⟨r, h1, h2⟩ := table_connections hv (S := 2) (T := 0) (by omega) (by omega) (rel := FaceVertex F) fun f v hf => by
      rw [e0, hsub f v (e2 ▸ hf)]
      exact ⟨fun h => h.2, fun h => ⟨by obtain ⟨vs, h3, h4⟩ := h; exact hr' h3 h4, h⟩⟩
    exact ⟨r, h1, by rw [s.connectionsAsc, h1], e2 ▸ h2⟩

end
/-- The example files meet the conditions. -/
example : ∃ m t, Vtk.load2 (Vtk.exampleFile.tokens ++ []) [] { dim := 2 } = .ok (m, t) ∧
    Answers m 3 6 (Vtk.HasVertex Vtk.exampleFile) (Vtk.ShareSide Vtk.exampleFile) (fun u v => ∃ c, Vtk.Uses Vtk.exampleFile c u v) := by
  obtain ⟨m, t, h1, h2, _⟩ := C69_vtk_2d Vtk.exampleFile Vtk.exampleFile_polygons (by decide) [] [] { dim := 2 } rfl Vtk.exampleFile_two
    (by decide) (by decide +kernel)
  exact ⟨m, t, h1, h2⟩

/-- The quadrangle 0-1-2-3 has the triangle 2-1-4 as a neighbor, which has the triangle 1-5-4 as another one. -/
example : exampleVtk2.neighborsAsc 2 1 2 = .ok [[1], [0, 2], [1]] ∧ exampleVtk2.setupBoundaryCells.neighborsAsc 2 1 2 = .ok [[1], [0, 2], [1]] ∧
    exampleVtk2.connectionsAsc 2 0 = .ok [[0, 1, 2, 3], [1, 2, 4], [1, 4, 5]] := by
  decide +kernel

example : ∃ m t, Vtk.load3 4 (Vtk.exampleFile3.tokens ++ []) [] { dim := 3 } = .ok (m, t) ∧
    Answers m.setupBoundaryCells 2 9 (Vtk.HasVertex Vtk.exampleFile3) (Vtk.ShareFace Vtk.exampleFile3) (Vtk.HasEdge3 Vtk.exampleFile3) := by
  obtain ⟨m, t, h1, _, h2⟩ := C69_vtk_3d Vtk.exampleFile3 Vtk.exampleFile3_solids 4 (by decide) (by decide) [] [] { dim := 3 } rfl
    (fun _ _ p _ => Vtk.exampleFile3_two p) (by decide) (by decide +kernel)
  exact ⟨m, t, h1, h2⟩

example : ∃ m, Fpma.load 0 (Fpma.exampleFile.tokens ++ []) { dim := 3 } = .ok m ∧
    Answers m 2 5 (Fpma.HasVertex Fpma.exampleFile) (Fpma.ShareFace Fpma.exampleFile) (Fpma.HasEdge Fpma.exampleFile) := by
  obtain ⟨m, h1, h2, _⟩ := C69_fpma Fpma.exampleFile Fpma.exampleFile_wellFormed 0 (by decide) [] (by decide) (by decide +kernel)
  exact ⟨m, h1, h2⟩

example : exampleFpma.neighborsAsc 3 2 3 = .ok [[1], [0]] ∧ exampleFpma.connectionsAsc 3 0 = .ok [[0, 1, 2, 3], [1, 2, 3, 4]] := by
  decide +kernel

end GTMesh.Props
