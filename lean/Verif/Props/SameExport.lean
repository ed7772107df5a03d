import Verif.Props.SameMesh
import Verif.Props.Vtk3w
import Verif.Props.Fpma

/-!
# C68: boundary cells do not change the exported files
-/

namespace GTMesh.Props
open GTMesh Spec Std'

section
variable {V P R : Type}

theorem forEach_map {α β γ : Type} (f : β → Res γ) (g : α → β) (l : List α) : forEach f (l.map g) = forEach (fun x => f (g x)) l := by
  induction l with
  | nil => rfl
  | cons x xs ih => simp only [List.map_cons, forEach, ih]

/-- C68, FPMA: the text written after `setupBoundaryCells()` is the text written before, for every mesh. -/
theorem C68_fpma (m : Mesh (GTMesh.Point R)) (hd : m.dim = 3) (hm : m.mids.length = 1) (hc : m.cells.length ≤ BOUNDARY) :
    Fpma.write m.setupBoundaryCells = Fpma.write m := by
  have s := setup_same (m := m) (.inr (by omega)) hc
  have he : m.setupBoundaryCells.edges = m.edges := (C07_mesh_3d m (by omega) (by omega)).2.2.2.2.2.2
  have hf : forEach (fun f : Face => Fpma.indexFace m.edges f.sub) (m.setupBoundaryCells.midElems 2) =
      forEach (fun f : Face => Fpma.indexFace m.edges f.sub) (m.midElems 2) := by
    have h1 := forEach_map (fun l => Fpma.indexFace m.edges l) (fun f : Face => f.sub) (m.setupBoundaryCells.midElems 2)
    have h2 := forEach_map (fun l => Fpma.indexFace m.edges l) (fun f : Face => f.sub) (m.midElems 2)
    rw [← h1, ← h2, s.mids 2 (by omega)]
  unfold Fpma.write
  rw [s.vertices, s.connectionsOrig, he, hf]

/-- The sides of a face, seen from a cell. -/
def SameSeen (c c' : Conn) : Prop := ∀ cell, cell < BOUNDARY → c'.getNextBElem cell = c.getNextBElem cell ∧ (c'.left = cell ↔ c.left = cell)

theorem seen_of_sides {c c' : Conn} (h3 : c'.nextL = c.nextL) (h4 : c'.nextR = c.nextR)
    (h5 : c'.left = c.left ∨ (c.left = INVALID ∧ BOUNDARY ≤ c'.left)) (h6 : c'.right = c.right ∨ (c.right = INVALID ∧ BOUNDARY ≤ c'.right)) :
    SameSeen c c' := by
  intro cell hc
  have hB : BOUNDARY < INVALID := by decide
  have e1 : cell = c'.right ↔ cell = c.right := by
    rcases h6 with h6 | ⟨h6, h6'⟩
    · rw [h6]
    · exact ⟨fun e => by omega, fun e => by omega⟩
  have e2 : cell = c'.left ↔ cell = c.left := by
    rcases h5 with h5 | ⟨h5, h5'⟩
    · rw [h5]
    · exact ⟨fun e => by omega, fun e => by omega⟩
  refine ⟨by simp only [Conn.getNextBElem, e1, e2, h3, h4], ?_⟩
  rw [eq_comm, e2, eq_comm]

theorem setup_edge {m : Mesh V} (h : m.dim = 2) (i : Nat) :
    (Res.at' m.edges i = .throw .outOfRange ∧ Res.at' m.setupBoundaryCells.edges i = .throw .outOfRange) ∨
    ∃ e e', Res.at' m.edges i = .ok e ∧ Res.at' m.setupBoundaryCells.edges i = .ok e' ∧ e'.a = e.a ∧ e'.b = e.b ∧ SameSeen e.conn e'.conn := by
  have hd : m.setupBoundaryCells.dim = m.dim := (setup_faceList (.inl h)).2.2.2
  have hs := setup_conn (.inl h) i
  unfold Mesh.faceConn at hs
  rw [hd, if_pos h, if_pos h] at hs
  have hab := (C07_mesh_2d m h).2.2.1
  have hi := congrArg (fun l : List (Idx × Idx) => l[i]?) hab
  simp only [List.getElem?_map] at hi
  unfold Res.at' at hs ⊢
  cases h1 : m.edges[i]? with
  | none =>
    cases h2 : m.setupBoundaryCells.edges[i]? with
    | none => exact .inl ⟨rfl, rfl⟩
    | some e' => rw [h1, h2] at hi; simp at hi
  | some e =>
    cases h2 : m.setupBoundaryCells.edges[i]? with
    | none => rw [h1, h2] at hi; simp at hi
    | some e' =>
      rw [h1, h2] at hi hs
      simp only [Option.map_some, Option.some.injEq, Prod.mk.injEq] at hi
      rcases hs with ⟨hs, _⟩ | ⟨c, c', a, b, h3, h4, h5, h6⟩
      · cases hs
      · cases a; cases b
        exact .inr ⟨e, e', rfl, rfl, hi.1, hi.2, seen_of_sides h3 h4 h5 h6⟩

theorem setup_walkStep {m : Mesh V} (h : m.dim = 2) (cell : Idx) (hc : cell < BOUNDARY) (s : Vtk.WalkState) :
    Vtk.walkStep m.setupBoundaryCells.edges cell s = Vtk.walkStep m.edges cell s := by
  unfold Vtk.walkStep
  rcases setup_edge h s.tmp with ⟨h1, h2⟩ | ⟨e, e', h1, h2, h3, h4, h5⟩
  · rw [h1, h2]
  · rw [h1, h2]
    simp only [Res.bind, h3, h4, (h5 cell hc).1]

/-- C68, VTK in 2D. -/
theorem C68_vtk_2d (zero : R) (m : Mesh (Vtk.Point2 R)) (types : List Nat) (hd : m.dim = 2) (hc : m.cells.length ≤ BOUNDARY)
    (hi : ∀ c ∈ m.cells, c.index < BOUNDARY) :
    Vtk.writeToStream2 zero m.setupBoundaryCells types = Vtk.writeToStream2 zero m types := by
  have s := setup_same (m := m) (.inl hd) hc
  have hl : ∀ cell start, cell < BOUNDARY → ∀ n st, Vtk.walkLoop m.setupBoundaryCells.edges cell start n st = Vtk.walkLoop m.edges cell start n st := by
    intro cell start hcell n
    induction n with
    | zero => intro st; rfl
    | succ n ih => intro st; simp only [Vtk.walkLoop, setup_walkStep hd cell hcell, ih]
  have hic : Vtk.indexMesh2 m.setupBoundaryCells = Vtk.indexMesh2 m := by
    unfold Vtk.indexMesh2
    rw [s.cells]
    refine forEach_congr' fun c hcm => ?_
    have hcell := hi c hcm
    unfold Vtk.indexCell
    rw [s.edges_length]
    rcases setup_edge hd c.bElem with ⟨h1, h2⟩ | ⟨e, e', h1, h2, h3, h4, h5⟩
    · rw [h1, h2]; rfl
    · rw [h1, h2]
      simp only [Res.bind, h3, h4, (h5 _ hcell).2, hl _ _ hcell]
  unfold Vtk.writeToStream2
  rw [hic, s.vertices, s.cells]

/-- Faces that the 3D writer takes for the same. -/
def SameFace (f f' : Face) : Prop := f'.index = f.index ∧ f'.sub = f.sub ∧ SameSeen f.conn f'.conn

theorem setup_face {m : Mesh V} (h : m.dim = 3) (hm : m.mids.length = 1) (i : Nat) :
    (Res.at' (m.midElems 2) i = .throw .outOfRange ∧ Res.at' (m.setupBoundaryCells.midElems 2) i = .throw .outOfRange) ∨
    ∃ f f', Res.at' (m.midElems 2) i = .ok f ∧ Res.at' (m.setupBoundaryCells.midElems 2) i = .ok f' ∧ SameFace f f' := by
  have hh : m.dim = 2 ∨ (3 ≤ m.dim ∧ m.dim - 3 < m.mids.length) := .inr (by omega)
  have hd : m.setupBoundaryCells.dim = m.dim := (setup_faceList hh).2.2.2
  have hs := setup_conn hh i
  unfold Mesh.faceConn at hs
  rw [hd, if_neg (by omega), if_neg (by omega), show m.dim - 1 = 2 by omega] at hs
  obtain ⟨_, hidx, hsub, _⟩ := C07_mesh_3d m (by omega) (by omega)
  rw [show m.dim - 1 = 2 by omega] at hidx hsub
  have hi := congrArg (fun l : List (List Idx) => l[i]?) hsub
  have hx := congrArg (fun l : List (Idx × Conn) => l[i]?) hidx
  simp only [List.getElem?_map] at hi hx
  obtain ⟨hl, hE⟩ := C07_effect m.bCells ((m.midElems 2).map fun f => (f.index, f.conn))
  unfold Res.at' at hs ⊢
  cases h1 : (m.midElems 2)[i]? with
  | none =>
    cases h2 : (m.setupBoundaryCells.midElems 2)[i]? with
    | none => exact .inl ⟨rfl, rfl⟩
    | some e' => rw [h1, h2] at hi; simp at hi
  | some f =>
    cases h2 : (m.setupBoundaryCells.midElems 2)[i]? with
    | none => rw [h1, h2] at hi; simp at hi
    | some f' =>
      rw [h1, h2] at hi hs
      rw [h2] at hx
      simp only [Option.map_some, Option.some.injEq] at hi hx
      have hlt : i < ((m.midElems 2).map fun f => (f.index, f.conn)).length := by
        rw [List.length_map]; exact (List.getElem?_eq_some_iff.mp h1).1
      have hlt' := (List.getElem?_eq_some_iff.mp hx.symm).1
      have hq := (hE i hlt hlt').1
      rw [(List.getElem?_eq_some_iff.mp hx.symm).2] at hq
      have hf : ((m.midElems 2).map fun f => (f.index, f.conn))[i] = (f.index, f.conn) := by
        rw [List.getElem_map, (List.getElem?_eq_some_iff.mp h1).2]
      rw [hf] at hq
      rcases hs with ⟨hs, _⟩ | ⟨c, c', a, b, h3, h4, h5, h6⟩
      · cases hs
      · cases a; cases b
        exact .inr ⟨f, f', rfl, rfl, hq, hi, seen_of_sides h3 h4 h5 h6⟩

theorem sameFace_index {f f' : Face} (h : SameFace f f') (ori : Idx → Bool) (edges : List Edge) (cell : Idx) (hc : cell < BOUNDARY) :
    Vtk.indexFace3 ori edges f' cell = Vtk.indexFace3 ori edges f cell := by
  obtain ⟨h1, h2, h3⟩ := h
  have e : (cell = f'.conn.left) ↔ (cell = f.conn.left) := by rw [eq_comm, (h3 cell hc).2, eq_comm]
  unfold Vtk.indexFace3
  simp only [h1, h2, e]

/-- Two lists of faces, two results that are lists of faces. -/
def SameFaces : List Face → List Face → Prop := List.Forall₂ SameFace

/-- Two results of which the second is the first up to the sides. -/
def SameRes (r r' : Res (List Face)) : Prop :=
  match r, r' with
  | .ok l, .ok l' => SameFaces l l'
  | .throw e, .throw e' => e = e'
  | .ub, .ub => True
  | .diverge, .diverge => True
  | _, _ => False

theorem sameRes_bind {β : Type} {r r' : Res (List Face)} (h : SameRes r r') (k k' : List Face → Res β)
    (hk : ∀ l l', SameFaces l l' → k' l' = k l) : r'.bind k' = r.bind k := by
  cases r <;> cases r' <;> simp only [SameRes] at h
  · exact hk _ _ h
  · rw [h]; rfl
  · rfl
  · rfl

theorem setup_forEach {m : Mesh V} (h : m.dim = 3) (hm : m.mids.length = 1) (l : List Idx) :
    SameRes (forEach (Res.at' (m.midElems 2)) l) (forEach (Res.at' (m.setupBoundaryCells.midElems 2)) l) := by
  induction l with
  | nil => exact .nil
  | cons x xs ih =>
    rw [forEach, forEach]
    rcases setup_face h hm x with ⟨h1, h2⟩ | ⟨f, f', h1, h2, h3⟩
    · rw [h1, h2]; rfl
    · rw [h1, h2]
      simp only [Res.bind]
      cases a : forEach (Res.at' (m.midElems 2)) xs <;> cases b : forEach (Res.at' (m.setupBoundaryCells.midElems 2)) xs <;>
        rw [a, b] at ih <;> simp only [SameRes] at ih ⊢ <;> first | exact ih | exact List.Forall₂.cons h3 ih

theorem rbind_ok {α β : Type} (x : α) (g : α → Res β) : (Res.ok x).bind g = g x := rfl

theorem sameRes_cons {r r' : Res (List Face)} (h : SameRes r r') {f f' : Face} (hf : SameFace f f') :
    SameRes (r.bind fun rest => .ok ([f] ++ rest)) (r'.bind fun rest => .ok ([f'] ++ rest)) := by
  cases r <;> cases r' <;> simp only [SameRes] at h
  · exact .cons hf h
  · exact h
  · trivial
  · trivial

theorem setup_loop {m : Mesh V} (h : m.dim = 3) (hm : m.mids.length = 1) (cell start : Idx) (hc : cell < BOUNDARY) :
    ∀ n tmp, SameRes (m.cellLoop (fun f => (Res.at' (m.midElems 2) f).bind fun x => .ok [x]) cell start n tmp)
      (m.setupBoundaryCells.cellLoop (fun f => (Res.at' (m.setupBoundaryCells.midElems 2) f).bind fun x => .ok [x]) cell start n tmp) := by
  intro n
  induction n with
  | zero => intro tmp; trivial
  | succ n ih =>
    intro tmp
    rw [Mesh.cellLoop, Mesh.cellLoop, setup_next (.inr (by omega)) cell hc tmp]
    rcases setup_face h hm tmp with ⟨h1, h2⟩ | ⟨f, f', h1, h2, h3⟩
    · rw [h1, h2]; rfl
    · rw [h1, h2]
      simp only [rbind_ok]
      cases m.nextFace cell tmp with
      | ok nxt =>
        simp only [rbind_ok]
        by_cases he : nxt = start
        · rw [if_pos he, if_pos he]; exact .cons h3 .nil
        · rw [if_neg he, if_neg he]
          exact sameRes_cons (ih nxt) h3
      | throw e => rfl
      | ub => trivial
      | diverge => trivial

theorem foldRes_same {β : Type} (k k' : β → Face → Res β) (hk : ∀ s f f', SameFace f f' → k' s f' = k s f) :
    ∀ l l', SameFaces l l' → ∀ s, Vtk.foldRes k' s l' = Vtk.foldRes k s l := by
  intro l l' h
  induction h with
  | nil => intro s; rfl
  | cons h1 _ ih =>
    intro s
    rw [Vtk.foldRes, Vtk.foldRes, hk _ _ _ h1]
    simp only [ih]

/-- The same face or none. -/
def SameOpt : Option Face → Option Face → Prop
  | some f, some f' => SameFace f f'
  | none, none => True
  | _, _ => False

theorem base_same {l l' : List Face} (h : SameFaces l l') (k : Option Face → Face → Bool)
    (hk : ∀ o o' f f', SameOpt o o' → SameFace f f' → k o' f' = k o f) : ∀ o o', SameOpt o o' →
    SameOpt (l.foldl (fun face f => if k face f then some f else face) o) (l'.foldl (fun face f => if k face f then some f else face) o') := by
  induction h with
  | nil => intro o o' h; exact h
  | cons h1 _ ih =>
    intro o o' h
    rw [List.foldl_cons, List.foldl_cons]
    apply ih
    rw [hk _ _ _ _ h h1]
    split
    · exact h1
    · exact h

theorem pyramidBase_same {l l' : List Face} (h : SameFaces l l') : SameOpt (Vtk.pyramidBase l) (Vtk.pyramidBase l') := by
  have := base_same h (fun _ f => decide (3 < f.sub.length)) (fun _ _ f f' _ hf => by simp [hf.2.1]) none none trivial
  simpa [Vtk.pyramidBase] using this

theorem wedgeBase_same {l l' : List Face} (h : SameFaces l l') : SameOpt (Vtk.wedgeBase l) (Vtk.wedgeBase l') := by
  have := base_same h (fun o f => decide (f.sub.length = 3 ∧ o = none))
    (fun o o' f f' ho hf => by
      rw [hf.2.1]
      cases o <;> cases o' <;> simp only [SameOpt] at ho <;> simp_all) none none trivial
  simpa [Vtk.wedgeBase] using this

theorem deref_bind {β : Type} {o o' : Option Face} (h : SameOpt o o') (k k' : Face → Res β) (hk : ∀ f f', SameFace f f' → k' f' = k f) :
    (Vtk.deref o').bind k' = (Vtk.deref o).bind k := by
  cases o <;> cases o' <;> simp only [SameOpt] at h
  · rfl
  · exact hk _ _ h

/-- C68, VTK in 3D: for every mesh whose cells have indices below `2^63`, any orientations of edges, centers and texts of positions, any
state of the writer: the same text and the same new state. -/
theorem C68_vtk_3d (ori : Idx → Bool) (key : Vtk.Point3 R → List Char) (cc fc : Idx → Vtk.Point3 R) (hash : Nat) (m : Mesh (Vtk.Point3 R))
    (types : List Nat) (w : Vtk.Writer3 (Vtk.Point3 R)) (hd : m.dim = 3) (hm : m.mids.length = 1) (hc : m.cells.length ≤ BOUNDARY)
    (hi : ∀ c ∈ m.cells, c.index < BOUNDARY) :
    Vtk.writeToStream3 ori key cc fc hash m.setupBoundaryCells types w = Vtk.writeToStream3 ori key cc fc hash m types w := by
  have s := setup_same (m := m) (.inr (by omega)) hc
  have he : m.setupBoundaryCells.edges = m.edges := (C07_mesh_3d m (by omega) (by omega)).2.2.2.2.2.2
  have hpyr : ∀ cell f f', cell < BOUNDARY → SameFace f f' → Vtk.indexPyramid ori m.setupBoundaryCells cell f' = Vtk.indexPyramid ori m cell f := by
    intro cell f f' hcell hf
    unfold Vtk.indexPyramid
    rw [he, sameFace_index hf ori _ cell hcell, s.applyOne]
  have hlin : ∀ cell f f', cell < BOUNDARY → SameFace f f' → Vtk.indexLinear ori m.setupBoundaryCells cell f' = Vtk.indexLinear ori m cell f := by
    intro cell f f' hcell hf
    unfold Vtk.indexLinear
    rw [he, sameFace_index hf ori _ cell hcell, s.applyOne]
  have hvis : ∀ cell, SameRes (Vtk.visitedFaces m cell) (Vtk.visitedFaces m.setupBoundaryCells cell) := by
    intro cell
    unfold Vtk.visitedFaces
    rw [s.applyOne]
    cases m.applyOne 3 2 cell with
    | ok l => exact setup_forEach hd hm l
    | throw e => rfl
    | ub => trivial
    | diverge => trivial
  have hat : ∀ {β : Type} (i : Idx) (k k' : Face → Res β), (∀ f f', SameFace f f' → k' f' = k f) →
      (Res.at' (m.setupBoundaryCells.midElems 2) i).bind k' = (Res.at' (m.midElems 2) i).bind k := by
    intro β i k k' hk
    rcases setup_face hd hm i with ⟨h1, h2⟩ | ⟨f, f', h1, h2, h3⟩
    · rw [h1, h2]; rfl
    · rw [h1, h2]; exact hk _ _ h3
  have hcell : ∀ st c, c.index < BOUNDARY →
      Vtk.indexCell3 ori key cc fc m.setupBoundaryCells types st c = Vtk.indexCell3 ori key cc fc m types st c := by
    intro st c hcc
    unfold Vtk.indexCell3
    congr 1
    funext t
    split
    · exact hat _ _ _ fun f f' hf => by rw [hpyr _ _ _ hcc hf]
    split
    · exact sameRes_bind (hvis _) _ _ fun l l' hl => deref_bind (pyramidBase_same hl) _ _ fun f f' hf => by rw [hpyr _ _ _ hcc hf]
    split
    · exact sameRes_bind (hvis _) _ _ fun l l' hl => deref_bind (wedgeBase_same hl) _ _ fun f f' hf => by rw [hlin _ _ _ hcc hf]
    split
    · exact hat _ _ _ fun f f' hf => by rw [hlin _ _ _ hcc hf]
    · unfold Vtk.tessCell
      rw [s.vertices, he]
      have hb : SameRes (Vtk.boundaryFaces m c) (Vtk.boundaryFaces m.setupBoundaryCells c) := by
        unfold Vtk.boundaryFaces
        rw [s.numFaces]
        exact setup_loop hd hm c.index c.bElem hcc _ _
      exact sameRes_bind hb _ _ fun l l' hl => foldRes_same _ _ (fun st f f' hf => by rw [hf.1, hf.2.1]) l l' hl _
  have hfold : ∀ (l : List Cell), (∀ c ∈ l, c.index < BOUNDARY) → ∀ st,
      Vtk.foldRes (Vtk.indexCell3 ori key cc fc m.setupBoundaryCells types) st l = Vtk.foldRes (Vtk.indexCell3 ori key cc fc m types) st l := by
    intro l
    induction l with
    | nil => intro _ st; rfl
    | cons c l ih =>
      intro hl st
      rw [Vtk.foldRes, Vtk.foldRes, hcell st c (hl c (by simp))]
      simp only [ih fun c hc => hl c (by simp [hc])]
  have hidx : Vtk.indexMesh3 ori key cc fc m.setupBoundaryCells types w = Vtk.indexMesh3 ori key cc fc m types w := by
    unfold Vtk.indexMesh3
    rw [s.connectionsAsc, s.cells, hfold m.cells hi]
  unfold Vtk.writeToStream3
  rw [hidx, s.vertices]

end

/-- The mesh of the FPMA example file. -/
def exampleFpma : Mesh (GTMesh.Point Int) :=
  match Fpma.load 0 Fpma.exampleFile.tokens { dim := 3 } with
  | .ok m => m
  | _ => { dim := 3 }

/-- The mesh of the 2D VTK example file. -/
def exampleVtk2 : Mesh (Vtk.Point2 Int) :=
  match Vtk.load2 Vtk.exampleFile.tokens [] { dim := 2 } with
  | .ok m => m.1
  | _ => { dim := 2 }

/-- A loaded FPMA file, a loaded 2D and a loaded 3D VTK file: six, six and nine boundary cells, and the same exports. -/
example : Fpma.write exampleFpma ≠ .ok [] ∧ Fpma.write exampleFpma ≠ .ub ∧ exampleFpma.setupBoundaryCells.bCells.length = 6 ∧
    Fpma.write exampleFpma.setupBoundaryCells = Fpma.write exampleFpma :=
  ⟨by decide +kernel, by decide +kernel, by decide +kernel, C68_fpma _ (by decide +kernel) (by decide +kernel) (by decide +kernel)⟩

example : Vtk.writeToStream2 0 exampleVtk2 [201, 200, 200] ≠ .ub ∧ exampleVtk2.setupBoundaryCells.bCells.length = 6 ∧
    Vtk.writeToStream2 0 exampleVtk2.setupBoundaryCells [201, 200, 200] = Vtk.writeToStream2 0 exampleVtk2 [201, 200, 200] :=
  ⟨by decide +kernel, by decide +kernel, C68_vtk_2d 0 _ _ (by decide +kernel) (by decide +kernel) (by decide +kernel)⟩

example : Vtk.exampleMesh3.setupBoundaryCells.bCells.length = 9 ∧ ∀ w,
    Vtk.writeToStream3 (fun _ => false) Vtk.exampleKey (fun i => (5, i, i)) (fun i => (7, i, i)) 0 Vtk.exampleMesh3.setupBoundaryCells [301, 304] w =
      Vtk.writeToStream3 (fun _ => false) Vtk.exampleKey (fun i => (5, i, i)) (fun i => (7, i, i)) 0 Vtk.exampleMesh3 [301, 304] w :=
  ⟨by decide +kernel, fun w => C68_vtk_3d _ _ _ _ _ _ _ w (by decide +kernel) (by decide +kernel) (by decide +kernel) (by decide +kernel)⟩

end GTMesh.Props
