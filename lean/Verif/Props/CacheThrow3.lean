import Verif.Props.CacheThrow

/-! # C29: writes that end with an exception, the FPMA writer and the 3D VTK writer -/

namespace GTMesh.Props
open GTMesh Std' Vtk
variable {I W T R V P S α : Type}

/-! ### FPMA -/

/-- `FPMAMeshWriter<3>` -/
def machineF (H : Hasher (GTMesh.Point R)) (reserves : List Nat) : Machine (Mesh (GTMesh.Point R)) Fpma.FWriter (GTMesh.Tok R) where
  hash m := signature H reserves m
  last w := w.lastHash
  setLast h w := { w with lastHash := h }
  index m w := Fpma.indexRanF m w
  text m w := Fpma.textRanF m w

theorem tracePass_ran (edges : List Edge) : ∀ (subs : List Idx) (s : Fpma.TraceState),
    Ran.res id (Ran.each (Ran.step (Fpma.traceStep edges)) s subs) = Fpma.tracePass edges subs s := by
  intro subs
  induction subs with
  | nil => intro s; rfl
  | cons e es ih =>
    intro s
    simp only [Ran.each, Fpma.tracePass, Ran.step]
    cases Fpma.traceStep edges s e with
    | ok s' => simpa using ih s'
    | throw e => rfl
    | ub => rfl
    | diverge => rfl

theorem traceRan_res (edges : List Edge) (subs : List Idx) (start : Idx) : ∀ (n : Nat) (s : Fpma.TraceState),
    Ran.res (·.out) (Fpma.traceRan edges subs start n s) = Fpma.traceLoop edges subs start n s := by
  intro n
  induction n with
  | zero => intro s; rfl
  | succ n ih =>
    intro s
    simp only [Fpma.traceRan, Fpma.traceLoop]
    split
    · rw [← tracePass_ran]
      cases Ran.each (Ran.step (Fpma.traceStep edges)) s subs with
      | ok s' => simpa [Ran.res] using ih s'
      | threw e s' => rfl
      | ub => rfl
      | diverge => rfl
    · rfl

theorem indexFaceRan_eq (edges : List Edge) (w : Fpma.FWriter) (i : Nat) (subs : List Idx) :
    (∃ s, Fpma.indexFace edges subs = .ok s ∧ Fpma.indexFaceRan edges w i subs = .ok { w with faceVert := w.faceVert.set i s }) ∨
    (∃ e fv, Fpma.indexFace edges subs = .throw e ∧ Fpma.indexFaceRan edges w i subs = .threw e { w with faceVert := fv }) ∨
    (Fpma.indexFace edges subs = .ub ∧ Fpma.indexFaceRan edges w i subs = .ub) ∨
    (Fpma.indexFace edges subs = .diverge ∧ Fpma.indexFaceRan edges w i subs = .diverge) := by
  unfold Fpma.indexFace Fpma.indexFaceRan
  cases h0 : Res.idx subs 0 with
  | ok e0 =>
    simp only [Res.bind]
    cases h1 : Res.at' edges e0 with
    | ok e =>
      simp only [Ran.reads_ok]
      rw [← traceRan_res]
      cases Fpma.traceRan edges subs e.b (2 * subs.length + 2) { last := e0, next := e.a, out := [e.b] } with
      | ok s => exact Or.inl ⟨_, rfl, rfl⟩
      | threw x s => exact Or.inr (Or.inl ⟨_, _, rfl, rfl⟩)
      | ub => exact Or.inr (Or.inr (Or.inl ⟨rfl, rfl⟩))
      | diverge => exact Or.inr (Or.inr (Or.inr ⟨rfl, rfl⟩))
    | throw x => exact Or.inr (Or.inl ⟨_, w.faceVert, rfl, rfl⟩)
    | ub => exact Or.inr (Or.inr (Or.inl ⟨rfl, rfl⟩))
    | diverge => exact Or.inr (Or.inr (Or.inr ⟨rfl, rfl⟩))
  | ub => exact Or.inr (Or.inr (Or.inl ⟨rfl, rfl⟩))
  | throw x => simp only [Res.idx] at h0; split at h0 <;> simp at h0
  | diverge => simp only [Res.idx] at h0; split at h0 <;> simp at h0

theorem indexFacesRan_eq (edges : List Edge) : ∀ (fs : List Face) (done : List (List Idx)) (w : Fpma.FWriter),
    (∃ fv, forEach (fun f : Face => Fpma.indexFace edges f.sub) fs = .ok fv ∧
      Fpma.indexFacesRan edges done.length fs { w with faceVert := done ++ fs.map fun _ => [] } = .ok { w with faceVert := done ++ fv }) ∨
    (∃ e fv, forEach (fun f : Face => Fpma.indexFace edges f.sub) fs = .throw e ∧
      Fpma.indexFacesRan edges done.length fs { w with faceVert := done ++ fs.map fun _ => [] } = .threw e { w with faceVert := fv }) ∨
    (forEach (fun f : Face => Fpma.indexFace edges f.sub) fs = .ub ∧
      Fpma.indexFacesRan edges done.length fs { w with faceVert := done ++ fs.map fun _ => [] } = .ub) ∨
    (forEach (fun f : Face => Fpma.indexFace edges f.sub) fs = .diverge ∧
      Fpma.indexFacesRan edges done.length fs { w with faceVert := done ++ fs.map fun _ => [] } = .diverge) := by
  intro fs
  induction fs with
  | nil => intro done w; exact Or.inl ⟨[], rfl, by simp [Fpma.indexFacesRan]⟩
  | cons f fs ih =>
    intro done w
    simp only [forEach, Fpma.indexFacesRan]
    rcases indexFaceRan_eq edges { w with faceVert := done ++ List.map (fun _ => []) (f :: fs) } done.length f.sub with
      ⟨s, h1, h2⟩ | ⟨e, fv, h1, h2⟩ | ⟨h1, h2⟩ | ⟨h1, h2⟩
    · have e1 : (done ++ List.map (fun _ => ([] : List Idx)) (f :: fs)).set done.length s = (done ++ [s]) ++ fs.map fun _ => [] := by
        simp
      rw [h1, h2]
      simp only [Res.bind, Ran.bind_ok, e1]
      have e2 : done.length + 1 = (done ++ [s]).length := by simp
      rw [e2]
      rcases ih (done ++ [s]) w with ⟨fv, k1, k2⟩ | ⟨e, fv, k1, k2⟩ | ⟨k1, k2⟩ | ⟨k1, k2⟩ <;> rw [k1, k2]
      · exact Or.inl ⟨_, rfl, by simp⟩
      · exact Or.inr (Or.inl ⟨_, _, rfl, rfl⟩)
      · exact Or.inr (Or.inr (Or.inl ⟨rfl, rfl⟩))
      · exact Or.inr (Or.inr (Or.inr ⟨rfl, rfl⟩))
    · rw [h1, h2]; exact Or.inr (Or.inl ⟨_, _, rfl, rfl⟩)
    · rw [h1, h2]; exact Or.inr (Or.inr (Or.inl ⟨rfl, rfl⟩))
    · rw [h1, h2]; exact Or.inr (Or.inr (Or.inr ⟨rfl, rfl⟩))

theorem indexRanF_eq (m : Mesh V) (w : Fpma.FWriter) :
    (∃ w1, Fpma.indexMeshF m w = .ok w1 ∧ Fpma.indexRanF m w = .ok w1) ∨
    (∃ e w1, Fpma.indexMeshF m w = .throw e ∧ Fpma.indexRanF m w = .threw e w1 ∧ w1.lastHash = w.lastHash ∧ w1.cellFace = w.cellFace) ∨
    (Fpma.indexMeshF m w = .ub ∧ Fpma.indexRanF m w = .ub) ∨
    (Fpma.indexMeshF m w = .diverge ∧ Fpma.indexRanF m w = .diverge) := by
  unfold Fpma.indexMeshF Fpma.indexRanF
  have := indexFacesRan_eq m.edges (m.midElems 2) [] w
  simp only [List.length_nil, List.nil_append] at this
  rcases this with ⟨fv, k1, k2⟩ | ⟨e, fv, k1, k2⟩ | ⟨k1, k2⟩ | ⟨k1, k2⟩ <;> rw [k1, k2]
  · simp only [Res.bind, Ran.bind_ok]
    cases m.connectionsOrig 3 2 with
    | ok cf => exact Or.inl ⟨_, rfl, rfl⟩
    | throw e => exact Or.inr (Or.inl ⟨_, _, rfl, rfl, rfl, rfl⟩)
    | ub => exact Or.inr (Or.inr (Or.inl ⟨rfl, rfl⟩))
    | diverge => exact Or.inr (Or.inr (Or.inr ⟨rfl, rfl⟩))
  · exact Or.inr (Or.inl ⟨_, _, rfl, rfl, rfl, rfl⟩)
  · exact Or.inr (Or.inr (Or.inl ⟨rfl, rfl⟩))
  · exact Or.inr (Or.inr (Or.inr ⟨rfl, rfl⟩))

theorem linesRan_eq (index : List (List Idx)) : ∀ (l : List Nat) (t : List (GTMesh.Tok R)),
    Ran.res id (Ran.each (fun t i => Ran.reads (Res.at' index i) t fun l => .ok (t ++ Fpma.line l)) t l) =
      (forEach (fun i => Res.at' index i) l).bind fun ls => .ok (t ++ ls.flatMap Fpma.line) := by
  intro l
  induction l with
  | nil => intro t; simp [Ran.each, Ran.res, forEach]
  | cons i is ih =>
    intro t
    simp only [Ran.each, forEach]
    cases h : Res.at' index i with
    | ok x =>
      simp only [Ran.reads_ok, Ran.bind_ok, Res.bind]
      rw [ih]
      cases forEach (fun i => Res.at' index i) is <;> simp
    | throw e => rfl
    | ub => rfl
    | diverge => rfl

theorem res_bind (r : Ran S) (f : S → Ran S) (g : S → α) :
    Ran.res g (r.bind f) = (Ran.res id r).bind fun s => Ran.res g (f s) := by cases r <;> rfl

theorem res_ok_iff (r : Ran S) (s : S) : Ran.res id r = .ok s ↔ r = .ok s := by
  cases r <;> simp [Ran.res]

theorem textRanF_eq (m : Mesh (GTMesh.Point R)) (w : Fpma.FWriter) :
    Ran.res id (Fpma.textRanF m w) =
      (forEach (fun i => Res.at' w.faceVert i) (List.range (m.midElems 2).length)).bind fun fv =>
      (forEach (fun i => Res.at' w.cellFace i) (List.range m.cells.length)).bind fun cf =>
      .ok (.num m.vertices.length :: (m.vertices.flatMap fun p => [.real p.1, .real p.2.1, .real p.2.2])
        ++ .num (m.midElems 2).length :: fv.flatMap Fpma.line
        ++ .num m.cells.length :: cf.flatMap Fpma.line ++ [.num 0]) := by
  unfold Fpma.textRanF Fpma.linesRan
  rw [res_bind, linesRan_eq]
  cases forEach (fun i => Res.at' w.faceVert i) (List.range (m.midElems 2).length) <;> simp only [Res.bind]
  rw [res_bind, linesRan_eq]
  cases forEach (fun i => Res.at' w.cellFace i) (List.range m.cells.length) <;> simp [Ran.res]

theorem writeCached_text (hash : Nat) (m : Mesh (GTMesh.Point R)) (w : Fpma.FWriter) (h : w.lastHash ≠ hash) :
    textOf (Fpma.writeCached hash m w) = (Fpma.indexMeshF m w).bind fun w1 => Ran.res id (Fpma.textRanF m w1) := by
  unfold Fpma.writeCached textOf
  rw [if_pos h]
  cases Fpma.indexMeshF m w <;> simp only [Res.bind]
  rename_i w1
  rw [textRanF_eq]
  cases forEach (fun i => Res.at' w1.faceVert i) (List.range (m.midElems 2).length) <;> simp only [Res.bind]
  cases forEach (fun i => Res.at' w1.cellFace i) (List.range m.cells.length) <;> simp only [Res.bind]

theorem write_eq_textOf (hash : Nat) (m : Mesh (GTMesh.Point R)) (hd : m.dim = 3) (w : Fpma.FWriter) (h : w.lastHash ≠ hash) :
    Fpma.write m = textOf (Fpma.writeCached hash m w) := by
  rw [writeCached_fresh hash m hd w h]
  unfold Fpma.indexMeshF Fpma.write textOf
  cases forEach (fun f : Face => Fpma.indexFace m.edges f.sub) (m.midElems 2) <;> try rfl
  simp only [Res.bind]
  cases m.connectionsOrig 3 2 <;> rfl

theorem rightF (H : Hasher (GTMesh.Point R)) (reserves : List Nat) (m : Mesh (GTMesh.Point R)) (hd : m.dim = 3) (limit : Option Nat)
    (w : Fpma.FWriter) (h : w.lastHash ≠ signature H reserves m) :
    Right (Fpma.write m) limit (seen ((machineF H reserves).write limit m w)) := by
  rw [write_eq_textOf _ m hd w h, writeCached_text _ m w h]
  unfold Machine.write
  rw [if_pos (by exact h)]
  simp only [machineF]
  rcases indexRanF_eq m w with ⟨w1, k1, k2⟩ | ⟨e, w1, k1, k2, _⟩ | ⟨k1, k2⟩ | ⟨k1, k2⟩ <;> rw [k1, k2]
  · exact right_toStream _ _ _ _ fun t => res_ok_iff _ _
  · simp [Right, seen]
  · simp [Right, seen]
  · simp [Right, seen]

theorem indexMeshF_any (m : Mesh V) (w w' : Fpma.FWriter) :
    Fpma.indexMeshF m w = (Fpma.indexMeshF m w').bind fun w1 => .ok { w1 with lastHash := w.lastHash } := by
  unfold Fpma.indexMeshF
  cases forEach (fun f : Face => Fpma.indexFace m.edges f.sub) (m.midElems 2) <;> try rfl
  simp only [Res.bind]
  cases m.connectionsOrig 3 2 <;> rfl

/-- C29 for FPMA, with exceptions: as `C29_vtk2_exceptions_partial`. -/
theorem C29_fpma_exceptions_partial (H : Hasher (GTMesh.Point R)) (reserves : List Nat) (garbage : Nat)
    (ms : List (Mesh (GTMesh.Point R) × Option Nat)) (hd : ∀ p ∈ ms, p.1.dim = 3)
    (hc : Clean (fun m => signature H reserves m) (fun m => ∃ w, Fpma.indexMeshF m { lastHash := 0 } = .ok w) (fun a b => a = b)
      garbage none (ms.map (·.1))) :
    ∃ outs, session (machineF H reserves) { lastHash := garbage } ms = untilUndefined outs ∧
      List.Forall₂ (fun p o => Right (Fpma.write p.1) p.2 o) ms outs := by
  have aft : ∀ (m : Mesh (GTMesh.Point R)) (w : Fpma.FWriter), after (machineF H reserves) ((machineF H reserves).index m w) =
      (Fpma.indexMeshF m { lastHash := 0 }).bind fun w1 => .ok fun k => Fpma.textRanF k w1 := by
    intro m w
    rcases indexRanF_eq m w with ⟨w1, k1, k2⟩ | ⟨e, w1, k1, k2, _⟩ | ⟨k1, k2⟩ | ⟨k1, k2⟩ <;>
      simp only [machineF, k2, after] <;> rw [indexMeshF_any m { lastHash := 0 } w, k1] <;> rfl
  refine ⟨_, session_fresh (machineF H reserves) _ _ (fun m => { lastHash := signature H reserves m + 1 }) (by intro i; simp [machineF]) ?_
    (by intro h w; rfl) ?_ (fun m w w' => by rw [aft, aft]) (by intro i h w; rfl) (fun i j w h => by rw [h]) ms _ none (by simp) hc, ?_⟩
  · intro m
    rw [aft]
    cases Fpma.indexMeshF m { lastHash := 0 } <;> simp
  · intro m w e w' h
    simp only [machineF] at h ⊢
    rcases indexRanF_eq m w with ⟨w1, k1, k2⟩ | ⟨e, w1, k1, k2, k3, _⟩ | ⟨k1, k2⟩ | ⟨k1, k2⟩ <;> rw [k2] at h <;>
      simp only [reduceCtorEq, Ran.threw.injEq] at h
    rw [← h.2, k3]
  · rw [List.forall₂_map_right_iff, List.forall₂_same]
    exact fun p hp => rightF H reserves p.1 (hd p hp) p.2 _ (by simp)

/-! ### VTK in 3D -/

/-- Inputs of the 3D VTK writer when the orientation of the edges may throw. -/
structure Input3' (R : Type) where
  mesh : Mesh (Point3 R)
  types : List Nat
  ori : Res (Idx → Bool)
  key : Point3 R → List Char
  cc : Idx → Point3 R
  fc : Idx → Point3 R

/-- The text that a new writer writes, `writeToStream3`. -/
def Input3'.full (i : Input3' R) (hash : Nat) : Res (List (VTok R)) :=
  i.ori.bind fun o => textOf (writeToStream3 o i.key i.cc i.fc hash i.mesh i.types { lastHash := hash + 1 })

/-- `VTKMeshWriter<3>` -/
def machine3 (H : Hasher (Point3 R)) (reserves : List Nat) : Machine (Input3' R) (Writer3 (Point3 R)) (VTok R) where
  hash i := signature H reserves i.mesh
  last w := w.lastHash
  setLast h w := { w with lastHash := h }
  index i w := indexRan3 i.ori i.key i.cc i.fc i.mesh i.types w
  text i w := textRan3 i.mesh w

/-- The state with another signature and another total. -/
def IndexState.sig (l t : Nat) (s : IndexState P) : IndexState P := { s with w := { s.w with lastHash := l, total := t } }

/-- A function applied to the state. -/
def Ran.map (f : S → W) : Ran S → Ran W
  | .ok s => .ok (f s)
  | .threw e s => .threw e (f s)
  | .ub => .ub
  | .diverge => .diverge

theorem point_sig (key : P → List Char) (n : Nat) (s : IndexState P) (p : P) (l t : Nat) :
    (IndexState.sig l t s).point key n p = ((s.point key n p).1, IndexState.sig l t (s.point key n p).2) := by
  unfold IndexState.point
  simp only [IndexState.sig]
  cases s.dict.find? (fun e => e.1 == key p) <;> rfl

theorem tessEdge_sig (key : P → List Char) (n : Nat) (edges : List Edge) (cell cc : Idx) (fcp : P) (s : IndexState P) (sube : Idx)
    (l t : Nat) : tessEdge key n edges cell cc fcp (IndexState.sig l t s) sube =
      (tessEdge key n edges cell cc fcp s sube).bind fun s => .ok (IndexState.sig l t s) := by
  unfold tessEdge
  cases Res.at' edges sube <;> simp only [Res.bind, point_sig]
  rfl

theorem map_bind (r : Ran S) (f : S → Ran S) (g : S → S) (f' : S → Ran S) (h : ∀ s, f' (g s) = Ran.map g (f s)) :
    (Ran.map g r).bind f' = Ran.map g (r.bind f) := by
  cases r <;> simp only [Ran.map, Ran.bind_ok, Ran.bind_threw, Ran.bind_ub, Ran.bind_diverge, h]

theorem each_map (f : S → α → Ran S) (g : S → S) (h : ∀ s a, f (g s) a = Ran.map g (f s a)) : ∀ (l : List α) (s : S),
    Ran.each f (g s) l = Ran.map g (Ran.each f s l) := by
  intro l
  induction l with
  | nil => intro s; rfl
  | cons a as ih =>
    intro s
    simp only [Ran.each, h]
    exact map_bind _ _ g _ fun s => ih s

theorem reads_map (r : Res α) (s : S) (f f' : α → Ran S) (g : S → S) (h : ∀ a, f' a = Ran.map g (f a)) :
    Ran.reads r (g s) f' = Ran.map g (Ran.reads r s f) := by
  cases r <;> simp [Ran.map, h]

theorem step_map (f : S → α → Res S) (g : S → S) (h : ∀ s a, f (g s) a = (f s a).bind fun s => .ok (g s)) (s : S) (a : α) :
    Ran.step f (g s) a = Ran.map g (Ran.step f s a) := by
  unfold Ran.step
  rw [h]
  cases f s a <;> rfl

theorem tessLoop_sig (key : P → List Char) (fc : Idx → P) (m : Mesh V) (c : Cell) (cc : Idx) (l t : Nat) :
    ∀ (n : Nat) (tmp : Idx) (s : IndexState P),
      tessLoop key fc m c cc n tmp (IndexState.sig l t s) = Ran.map (IndexState.sig l t) (tessLoop key fc m c cc n tmp s) := by
  intro n
  induction n with
  | zero => intro tmp s; rfl
  | succ n ih =>
    intro tmp s
    simp only [tessLoop]
    refine reads_map _ _ _ _ _ fun f => ?_
    rw [each_map _ (IndexState.sig l t) (step_map _ _ fun s a => tessEdge_sig _ _ _ _ _ _ s a l t)]
    refine map_bind _ _ _ _ fun s => ?_
    refine reads_map _ _ _ _ _ fun nxt => ?_
    split
    · rfl
    · exact ih nxt s

theorem foldRes_map (f : S → α → Res S) (g : S → S) (h : ∀ s a, f (g s) a = (f s a).bind fun s => .ok (g s)) :
    ∀ (l : List α) (s : S), foldRes f (g s) l = (foldRes f s l).bind fun s => .ok (g s) := by
  intro l
  induction l with
  | nil => intro s; rfl
  | cons a as ih =>
    intro s
    simp only [foldRes, h]
    cases f s a <;> simp only [Res.bind]
    exact ih _

theorem indexCell3_sig (ori : Idx → Bool) (key : P → List Char) (cc fc : Idx → P) (m : Mesh V) (types : List Nat)
    (s : IndexState P) (c : Cell) (l t : Nat) :
    indexCell3 ori key cc fc m types (IndexState.sig l t s) c =
      (indexCell3 ori key cc fc m types s c).bind fun s => .ok (IndexState.sig l t s) := by
  unfold indexCell3
  cases Res.at' types c.index <;> simp only [Res.bind]
  rename_i ty
  split
  · cases Res.at' (m.midElems 2) c.bElem <;> simp only
    rename_i f
    cases indexPyramid ori m c.index f <;> rfl
  split
  · cases visitedFaces m c.index <;> simp only
    rename_i fs
    cases deref (pyramidBase fs) <;> simp only
    rename_i f
    cases indexPyramid ori m c.index f <;> rfl
  split
  · cases visitedFaces m c.index <;> simp only
    rename_i fs
    cases deref (wedgeBase fs) <;> simp only
    rename_i f
    cases indexLinear ori m c.index f <;> rfl
  split
  · cases Res.at' (m.midElems 2) c.bElem <;> simp only
    rename_i f
    cases indexLinear ori m c.index f <;> rfl
  · unfold tessCell
    simp only [point_sig]
    cases boundaryFaces m c <;> simp only [Res.bind]
    rw [foldRes_map _ (IndexState.sig l t)]
    · rfl
    · intro s f
      exact foldRes_map _ _ (fun s a => tessEdge_sig _ _ _ _ _ _ s a l t) _ _

theorem indexCellRan3_sig (ori : Idx → Bool) (key : P → List Char) (cc fc : Idx → P) (m : Mesh V) (types : List Nat)
    (s : IndexState P) (c : Cell) (l t : Nat) :
    indexCellRan3 ori key cc fc m types (IndexState.sig l t s) c =
      Ran.map (IndexState.sig l t) (indexCellRan3 ori key cc fc m types s c) := by
  unfold indexCellRan3
  refine reads_map _ _ _ _ _ fun ty => ?_
  split
  · exact step_map _ _ (fun s a => indexCell3_sig ori key cc fc m types s a l t) _ _
  · simp only [point_sig]
    exact tessLoop_sig _ _ _ _ _ _ _ _ _ _

/-- The index is rebuilt from nothing. -/
theorem indexRan3_eq (ori : Res (Idx → Bool)) (key : P → List Char) (cc fc : Idx → P) (m : Mesh V) (types : List Nat) (w : Writer3 P) :
    indexRan3 ori key cc fc m types w =
      match indexRan3 ori key cc fc m types {} with
      | .ok w1 => .ok { w1 with lastHash := w.lastHash }
      | .threw e w1 => .threw e { w1 with lastHash := w.lastHash, total := w.total }
      | .ub => .ub
      | .diverge => .diverge := by
  unfold indexRan3
  cases m.connectionsAsc 3 0 <;> simp only [Ran.reads_ok, Ran.reads_throw, Ran.reads_ub, Ran.reads_diverge]
  cases ori <;> simp only [Ran.reads_ok, Ran.reads_throw, Ran.reads_ub, Ran.reads_diverge]
  rename_i o
  have e1 : ({ w := { lastHash := w.lastHash, total := w.total } } : IndexState P) =
      IndexState.sig w.lastHash w.total { w := {} } := rfl
  rw [e1, each_map _ _ (fun s c => indexCellRan3_sig o key cc fc m types s c w.lastHash w.total)]
  have e2 : ({ w := { lastHash := ({} : Writer3 P).lastHash, total := ({} : Writer3 P).total } } : IndexState P) = { w := {} } := rfl
  rw [e2]
  cases Ran.each (indexCellRan3 o key cc fc m types) { w := {} } m.cells <;> rfl

theorem each_step_ok (f : S → α → Ran S) (g : S → α → Res S) (h : ∀ s a s', f s a = .ok s' ↔ g s a = .ok s') :
    ∀ (l : List α) (s s' : S), Ran.each f s l = .ok s' ↔ foldRes g s l = .ok s' := by
  intro l
  induction l with
  | nil => intro s s'; simp [Ran.each, foldRes]
  | cons a as ih =>
    intro s s'
    simp only [Ran.each, foldRes]
    constructor
    · intro k
      cases k1 : f s a <;> rw [k1] at k <;> simp only [Ran.bind_ok, Ran.bind_threw, Ran.bind_ub, Ran.bind_diverge, reduceCtorEq] at k
      rw [(h _ _ _).mp k1]
      exact (ih _ _).mp k
    · intro k
      cases k1 : g s a <;> rw [k1] at k <;> simp only [Res.bind, reduceCtorEq] at k
      rw [(h _ _ _).mpr k1]
      exact (ih _ _).mpr k

theorem step_ok (f : S → α → Res S) (s : S) (a : α) (s' : S) : Ran.step f s a = .ok s' ↔ f s a = .ok s' := by
  unfold Ran.step
  cases f s a <;> simp

theorem rb_ok {β : Type} (a : α) (f : α → Res β) : (Res.ok a).bind f = f a := rfl
theorem rb_throw {β : Type} (e : Exc) (f : α → Res β) : (Res.throw e : Res α).bind f = .throw e := rfl
theorem rb_ub {β : Type} (f : α → Res β) : (Res.ub : Res α).bind f = .ub := rfl
theorem rb_diverge {β : Type} (f : α → Res β) : (Res.diverge : Res α).bind f = .diverge := rfl

theorem tessLoop_ok (key : P → List Char) (fc : Idx → P) (m : Mesh V) (c : Cell) (cc : Idx) :
    ∀ (n : Nat) (tmp : Idx) (s s' : IndexState P),
      tessLoop key fc m c cc n tmp s = .ok s' ↔
      ((m.cellLoop (fun f => (Res.at' (m.midElems 2) f).bind fun x => .ok [x]) c.index c.bElem n tmp).bind fun fs =>
        foldRes (fun s f => foldRes (tessEdge key m.vertices.length m.edges c.index cc (fc f.index)) s f.sub) s fs) = .ok s' := by
  intro n
  induction n with
  | zero => intro tmp s s'; simp [tessLoop, Mesh.cellLoop]
  | succ n ih =>
    intro tmp s s'
    simp only [tessLoop, Mesh.cellLoop]
    cases h1 : Res.at' (m.midElems 2) tmp <;>
      simp only [Ran.reads_ok, Ran.reads_throw, Ran.reads_ub, Ran.reads_diverge, rb_ok, rb_throw, rb_ub, rb_diverge, reduceCtorEq]
    rename_i f
    have key1 : ∀ s1, Ran.each (Ran.step (tessEdge key m.vertices.length m.edges c.index cc (fc f.index))) s f.sub = .ok s1 ↔
        foldRes (tessEdge key m.vertices.length m.edges c.index cc (fc f.index)) s f.sub = .ok s1 :=
      each_step_ok _ _ (fun s a s' => step_ok _ s a s') _ s
    generalize hE : Ran.each (Ran.step (tessEdge key m.vertices.length m.edges c.index cc (fc f.index))) s f.sub = E at key1
    generalize hF : foldRes (tessEdge key m.vertices.length m.edges c.index cc (fc f.index)) s f.sub = F at key1
    cases h2 : m.nextFace c.index tmp with
    | ok nxt =>
      simp only [rb_ok, Ran.reads_ok]
      by_cases hn : nxt = c.bElem
      · simp only [hn, if_true, rb_ok, foldRes, hF]
        cases E with
        | ok s1 => rw [(key1 s1).mp rfl]; simp
        | threw e s1 =>
          cases F with
          | ok s2 => exact absurd ((key1 s2).mpr rfl) (by simp)
          | throw e => simp
          | ub => simp
          | diverge => simp
        | ub =>
          cases F with
          | ok s2 => exact absurd ((key1 s2).mpr rfl) (by simp)
          | throw e => simp
          | ub => simp
          | diverge => simp
        | diverge =>
          cases F with
          | ok s2 => exact absurd ((key1 s2).mpr rfl) (by simp)
          | throw e => simp
          | ub => simp
          | diverge => simp
      · simp only [hn, if_false]
        have ih' := fun s => ih nxt s s'
        generalize m.cellLoop (fun f => (Res.at' (m.midElems 2) f).bind fun x => .ok [x]) c.index c.bElem n nxt = L at ih' ⊢
        cases E with
        | ok s1 =>
          rw [Ran.bind_ok, ih']
          cases L with
          | ok fs => simp only [rb_ok, List.singleton_append, foldRes, hF, (key1 s1).mp rfl]
          | throw e => simp
          | ub => simp
          | diverge => simp
        | threw e s1 =>
          cases L with
          | ok fs =>
            cases F with
            | ok s2 => exact absurd ((key1 s2).mpr rfl) (by simp)
            | throw e => simp [foldRes, hF]
            | ub => simp [foldRes, hF]
            | diverge => simp [foldRes, hF]
          | throw e => simp
          | ub => simp
          | diverge => simp
        | ub =>
          cases L with
          | ok fs =>
            cases F with
            | ok s2 => exact absurd ((key1 s2).mpr rfl) (by simp)
            | throw e => simp [foldRes, hF]
            | ub => simp [foldRes, hF]
            | diverge => simp [foldRes, hF]
          | throw e => simp
          | ub => simp
          | diverge => simp
        | diverge =>
          cases L with
          | ok fs =>
            cases F with
            | ok s2 => exact absurd ((key1 s2).mpr rfl) (by simp)
            | throw e => simp [foldRes, hF]
            | ub => simp [foldRes, hF]
            | diverge => simp [foldRes, hF]
          | throw e => simp
          | ub => simp
          | diverge => simp
    | throw e => cases E <;> simp
    | ub => cases E <;> simp
    | diverge => cases E <;> simp

theorem indexCellRan3_ok (ori : Idx → Bool) (key : P → List Char) (cc fc : Idx → P) (m : Mesh V) (types : List Nat)
    (s : IndexState P) (c : Cell) (s' : IndexState P) :
    indexCellRan3 ori key cc fc m types s c = .ok s' ↔ indexCell3 ori key cc fc m types s c = .ok s' := by
  unfold indexCellRan3
  cases h : Res.at' types c.index with
  | ok t =>
    simp only [Ran.reads_ok]
    split
    · exact step_ok _ _ _ _
    · rename_i ht
      push Not at ht
      unfold indexCell3 tessCell boundaryFaces
      rw [h]
      simp only [Res.bind, ht, if_false]
      exact tessLoop_ok _ _ _ _ _ _ _ _ _
  | throw e => simp [indexCell3, h]
  | ub => simp [indexCell3, h]
  | diverge => simp [indexCell3, h]

theorem indexRan3_ok (ori : Res (Idx → Bool)) (key : P → List Char) (cc fc : Idx → P) (m : Mesh V) (types : List Nat) (w w' : Writer3 P) :
    indexRan3 ori key cc fc m types w = .ok w' ↔
      (ori.bind fun o => indexMesh3 o key cc fc m types w) = .ok w' := by
  unfold indexRan3 indexMesh3
  cases ori with
  | ok o =>
    simp only [Res.bind]
    cases m.connectionsAsc 3 0 <;> simp only [Ran.reads_ok, Ran.reads_throw, Ran.reads_ub, Ran.reads_diverge, reduceCtorEq]
    have e1 : ({ w := { lastHash := w.lastHash, total := w.total } } : IndexState P) =
      IndexState.sig w.lastHash w.total { w := {} } := rfl
    rw [e1, each_map _ _ (fun s c => indexCellRan3_sig o key cc fc m types s c w.lastHash w.total)]
    have k := each_step_ok (indexCellRan3 o key cc fc m types) (indexCell3 o key cc fc m types)
      (fun s a s' => indexCellRan3_ok o key cc fc m types s a s') m.cells { w := {} }
    constructor
    · intro h
      cases h1 : Ran.each (indexCellRan3 o key cc fc m types) { w := {} } m.cells <;> rw [h1] at h <;>
        simp only [Ran.map, reduceCtorEq, Ran.ok.injEq] at h
      rw [(k _).mp h1]
      simp only [Res.ok.injEq]
      rw [← h]
      rfl
    · intro h
      cases h1 : foldRes (indexCell3 o key cc fc m types) { w := {} } m.cells <;> rw [h1] at h <;>
        simp only [reduceCtorEq, Res.ok.injEq] at h
      rw [(k _).mpr h1]
      simp only [Ran.map, Ran.ok.injEq]
      rw [← h]
      rfl
  | throw e => cases m.connectionsAsc 3 0 <;> simp
  | ub => cases m.connectionsAsc 3 0 <;> simp
  | diverge => cases m.connectionsAsc 3 0 <;> simp

theorem textRan3_ok (m : Mesh (Point3 R)) (w : Writer3 (Point3 R)) (t : List (VTok R)) :
    textRan3 m w = .ok t ↔ ((codes toVtk3 w.cellTypes).bind fun cs => .ok (pointsSection (m.vertices ++ w.appended) ++
      (.word "CELLS" :: .num w.cellVert.length :: .num w.total :: .nl :: w.cellVert.flatMap cellLine ++ [.nl]) ++
      typesSection w.cellTypes.length cs)) = .ok t := by
  simp only [textRan3, typesRan_eq]
  rcases codes_no toVtk3 w.cellTypes with ⟨cs, hcs⟩ | hcs <;> rw [hcs] <;>
    simp [Ran.bind, typesSection]

theorem right3 (H : Hasher (Point3 R)) (reserves : List Nat) (i : Input3' R) (limit : Option Nat) (w : Writer3 (Point3 R))
    (h : w.lastHash ≠ signature H reserves i.mesh) (hash : Nat) :
    Right (i.full hash) limit (seen ((machine3 H reserves).write limit i w)) := by
  have full : ∀ t, i.full hash = .ok t ↔ ∃ w1, indexRan3 i.ori i.key i.cc i.fc i.mesh i.types w = .ok w1 ∧ textRan3 i.mesh w1 = .ok t := by
    intro t
    unfold Input3'.full
    have any : ∀ o, indexMesh3 o i.key i.cc i.fc i.mesh i.types w = (indexMesh3 o i.key i.cc i.fc i.mesh i.types { lastHash := hash + 1 }).bind
        fun w1 => .ok { w1 with lastHash := w.lastHash } := by
      intro o
      unfold indexMesh3
      cases i.mesh.connectionsAsc 3 0 <;> try rfl
      simp only [Res.bind]
      cases foldRes (indexCell3 o i.key i.cc i.fc i.mesh i.types) { w := {} } i.mesh.cells <;> rfl
    simp only [indexRan3_ok]
    cases i.ori with
    | ok o =>
      simp only [Res.bind, any o, textOf, writeToStream3]
      rw [if_pos (by simp)]
      cases indexMesh3 o i.key i.cc i.fc i.mesh i.types { lastHash := hash + 1 } with
      | ok w1 =>
        simp only [Res.bind, Res.ok.injEq, exists_eq_left']
        rw [textRan3_ok]
        simp only
        cases codes toVtk3 w1.cellTypes <;> simp [Res.bind]
      | throw e => simp
      | ub => simp
      | diverge => simp
    | throw e => simp
    | ub => simp
    | diverge => simp
  unfold Machine.write
  rw [if_pos (by exact h)]
  simp only [machine3]
  cases hx : indexRan3 i.ori i.key i.cc i.fc i.mesh i.types w with
  | ok w1 => exact right_toStream _ _ _ _ fun t => by rw [full, hx]; simp
  | threw e w1 => simp [Right, seen, full, hx]
  | ub => simp [Right, seen, full, hx]
  | diverge => simp [Right, seen, full, hx]

/-- C29 in 3D, with exceptions: as `C29_vtk2_exceptions_partial`. -/
theorem C29_vtk3_exceptions_partial (H : Hasher (Point3 R)) (reserves : List Nat) (is : List (Input3' R × Option Nat))
    (hc : Clean (fun i : Input3' R => signature H reserves i.mesh)
      (fun i => ∃ o, i.ori = .ok o ∧ ∃ w, indexMesh3 o i.key i.cc i.fc i.mesh i.types {} = .ok w) (fun a b => a = b)
      0 none (is.map (·.1))) :
    ∃ outs, session (machine3 H reserves) {} is = untilUndefined outs ∧
      List.Forall₂ (fun p o => Right (p.1.full (signature H reserves p.1.mesh)) p.2 o) is outs := by
  refine ⟨_, session_fresh (machine3 H reserves) _ _ (fun i => { lastHash := signature H reserves i.mesh + 1 }) (by intro i; simp [machine3]) ?_
    (by intro h w; rfl) ?_ ?_ (by intro i h w; rfl) (fun i j w h => by rw [h]) is _ none (by simp) hc, ?_⟩
  · intro i
    have k := fun w' => indexRan3_ok i.ori i.key i.cc i.fc i.mesh i.types {} w'
    simp only [machine3]
    rw [indexRan3_eq]
    constructor
    · rintro ⟨o, ho, w, hw⟩
      rw [(k w).mpr (by rw [ho]; exact hw)]
      exact ⟨_, rfl⟩
    · rintro ⟨f, hf⟩
      cases hx : indexRan3 i.ori i.key i.cc i.fc i.mesh i.types {} <;> rw [hx] at hf <;> simp only [after, reduceCtorEq] at hf
      have k1 := (k _).mp hx
      cases ho : i.ori <;> rw [ho] at k1 <;> simp only [Res.bind, reduceCtorEq] at k1
      exact ⟨_, rfl, _, k1⟩
  · intro i w e w' h
    simp only [machine3] at h ⊢
    rw [indexRan3_eq] at h
    cases hx : indexRan3 i.ori i.key i.cc i.fc i.mesh i.types {} <;> rw [hx] at h <;> simp only [reduceCtorEq, Ran.threw.injEq] at h
    rw [← h.2]
  · intro i w w'
    simp only [machine3]
    rw [indexRan3_eq _ _ _ _ _ _ w, indexRan3_eq _ _ _ _ _ _ w']
    cases indexRan3 i.ori i.key i.cc i.fc i.mesh i.types {} <;> rfl
  · rw [List.forall₂_map_right_iff, List.forall₂_same]
    exact fun p hp => right3 H reserves p.1 p.2 _ (by simp) _

end GTMesh.Props
