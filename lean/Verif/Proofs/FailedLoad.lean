import Verif.Model.FailedLoad
import Verif.Proofs.VtkAny

/-! # The functions of Model/FailedLoad.lean are those of the models of the readers -/

namespace GTMesh

namespace Run
variable {S T α β : Type}

@[simp] theorem res_ok (a : α) : (ok a : Run S α).res = .ok a := rfl
@[simp] theorem res_throw (e : Exc) (s : S) : (throw e s : Run S α).res = .throw e := rfl
@[simp] theorem res_lift (s : S) (x : Res α) : (lift s x).res = x := by cases x <;> rfl
@[simp] theorem res_within (f : S → T) (x : Run S α) : (x.within f).res = x.res := by cases x <;> rfl
@[simp] theorem res_bind (x : Run S α) (f : α → Run S β) : (x.bind f).res = x.res.bind fun a => (f a).res := by cases x <;> rfl

theorem bind_throw {x : Run S α} {f : α → Run S β} {e : Exc} {s : S} :
    x.bind f = throw e s ↔ x = throw e s ∨ ∃ a, x = ok a ∧ f a = throw e s := by
  cases x <;> simp [bind]

theorem within_throw {f : S → T} {x : Run S α} {e : Exc} {t : T} : x.within f = throw e t ↔ ∃ s, x = throw e s ∧ f s = t := by
  cases x <;> simp [within]

theorem within_ok {f : S → T} {x : Run S α} {a : α} : x.within f = ok a ↔ x = ok a := by
  cases x <;> simp [within]

theorem lift_throw {s s' : S} {x : Res α} {e : Exc} : lift s x = throw e s' ↔ x = .throw e ∧ s = s' := by
  cases x <;> simp [lift]

theorem lift_ok {s : S} {x : Res α} {a : α} : lift s x = ok a ↔ x = .ok a := by
  cases x <;> simp [lift]

theorem eq_of_res_ok {x : Run S α} {a : α} (h : x.res = .ok a) : x = ok a := by
  cases x <;> simp_all [res]

theorem eq_of_res_throw {x : Run S α} {e : Exc} (h : x.res = .throw e) : ∃ s, x = throw e s := by
  cases x <;> simp_all [res]

end Run

theorem Res.bind_congr' {α β : Type} {x : Res α} {f g : α → Res β} (h : ∀ a, f a = g a) : x.bind f = x.bind g := by
  cases x <;> simp [Res.bind, h]

namespace Fpma
variable {R : Type}

theorem addFaceEdgesRun_res (res : Nat) (ps : List (Idx × Idx)) : ∀ (f : Face) (d : Dict) (es : List Edge),
    (addFaceEdgesRun res f d es ps).res = addFaceEdges res f d es ps := by
  induction ps with
  | nil => intro f d es; rfl
  | cons p ps ih =>
    intro f d es
    obtain ⟨a, b⟩ := p
    simp only [addFaceEdgesRun, addFaceEdges]
    split
    · rfl
    · exact ih _ _ _

theorem loadFaceListRun_res (res : Nat) (fs : List Face) : ∀ (i : Nat) (d : Dict) (es : List Edge) (ts : List (Tok R)),
    (loadFaceListRun res fs i d es ts).res = loadFaceList res fs i d es ts := by
  induction fs with
  | nil => intros; rfl
  | cons f fs ih =>
    intro i d es ts
    simp only [loadFaceListRun, loadFaceList, Run.res_bind, Run.res_lift, Run.res_within, addFaceEdgesRun_res, ih, Run.res_ok]

theorem linkFacesRun_res (cell first : Idx) (l : List Idx) : ∀ (prev : Idx) (fs : List Face),
    (linkFacesRun cell first prev l fs).res = linkFaces cell first prev l fs := by
  induction l with
  | nil => intros; rfl
  | cons f l ih =>
    intro prev fs
    simp only [linkFacesRun, linkFaces, Run.res_bind, Run.res_lift, ih]

theorem loadCellListRun_res (cs : List Cell) : ∀ (i : Nat) (fs : List Face) (ts : List (Tok R)),
    (loadCellListRun cs i fs ts).res = loadCellList cs i fs ts := by
  induction cs with
  | nil => intros; rfl
  | cons c cs ih =>
    intro i fs ts
    simp only [loadCellListRun, loadCellList, Run.res_bind, Run.res_lift, Run.res_within, linkFacesRun_res, ih, Run.res_ok]

/-- The reader of FPMA files is the one of Model/Fpma.lean. -/
theorem loadRun_res (res : Nat) (ts : List (Tok R)) (m : Mesh (Point R)) : (loadRun res ts m).res = load res ts m := by
  simp only [loadRun, load, loadFacesRun, loadFaces, loadCellsRun, loadCells, Run.res_bind, Run.res_lift, Run.res_within, loadFaceListRun_res,
    loadCellListRun_res, Run.res_ok]

/-! ## The number of edges that a file adds -/

theorem lookup_isSome_keys : ∀ (d d' : Dict), d.map Prod.fst = d'.map Prod.fst → ∀ k, (d.find k).isSome = (d'.find k).isSome := by
  intro d
  induction d with
  | nil => intro d' h k; rw [List.map_nil, eq_comm, List.map_eq_nil_iff] at h; rw [h]
  | cons a d ih =>
    intro d' h k
    obtain ⟨b, d', rfl⟩ : ∃ b e, d' = b :: e := by
      cases d' with
      | nil => simp at h
      | cons b e => exact ⟨b, e, rfl⟩
    obtain ⟨a1, a2⟩ := a
    obtain ⟨b1, b2⟩ := b
    simp only [List.map_cons, List.cons.injEq] at h
    obtain ⟨rfl, h⟩ := h
    have := ih d' h k
    simp only [Dict.find, List.lookup_cons] at this ⊢
    cases k == a1 <;> simp [this]

theorem findOrAddEdge_count {d d' : Dict} {es es' : List Edge} (h : d.map Prod.fst = d'.map Prod.fst) (a b : Idx) :
    (findOrAddEdge d es a b).1.map Prod.fst = (findOrAddEdge d' es' a b).1.map Prod.fst ∧
    (findOrAddEdge d es a b).2.1.length + es'.length = (findOrAddEdge d' es' a b).2.1.length + es.length := by
  have hk := lookup_isSome_keys d d' h (edgeKey a b)
  unfold findOrAddEdge
  cases h1 : d.find (edgeKey a b) <;> cases h2 : d'.find (edgeKey a b) <;> rw [h1, h2] at hk <;> simp at hk
  · refine ⟨by simp [Dict.put, h], by simp; omega⟩
  · exact ⟨h, Nat.add_comm _ _⟩

theorem addFaceEdges_count (ps : List (Idx × Idx)) : ∀ (f f' : Face) (d d' : Dict) (es es' : List Edge), d.map Prod.fst = d'.map Prod.fst →
    ∃ r r', addFaceEdges 0 f d es ps = .ok r ∧ addFaceEdges 0 f' d' es' ps = .ok r' ∧ r.2.1.map Prod.fst = r'.2.1.map Prod.fst ∧
      r.2.2.length + es'.length = r'.2.2.length + es.length := by
  induction ps with
  | nil => intro f f' d d' es es' h; exact ⟨_, _, rfl, rfl, h, Nat.add_comm _ _⟩
  | cons p ps ih =>
    intro f f' d d' es es' h
    obtain ⟨a, b⟩ := p
    obtain ⟨h1, h2⟩ := findOrAddEdge_count (es := es) (es' := es') h a b
    simp only [addFaceEdges]
    rw [if_neg (by omega), if_neg (by omega)]
    obtain ⟨r, r', e1, e2, e3, e4⟩ := ih { f with sub := f.sub ++ [(findOrAddEdge d es a b).2.2.1] }
      { f' with sub := f'.sub ++ [(findOrAddEdge d' es' a b).2.2.1] } _ _ _ _ h1
    exact ⟨r, r', e1, e2, e3, by omega⟩

theorem loadFaceList_count : ∀ (fs fs' : List Face) (i : Nat) (d d' : Dict) (es es' : List Edge) (ts : List (Tok R)),
    d.map Prod.fst = d'.map Prod.fst → fs.length = fs'.length → ∀ r r', loadFaceList 0 fs i d es ts = .ok r → loadFaceList 0 fs' i d' es' ts = .ok r' →
      r.2.1.length + es'.length = r'.2.1.length + es.length ∧ r.2.2 = r'.2.2 ∧ r.1.length = r'.1.length := by
  intro fs
  induction fs with
  | nil =>
    intro fs' i d d' es es' ts _ hl r r' h h'
    rw [List.length_nil, eq_comm, List.length_eq_zero_iff] at hl
    subst hl
    cases h; cases h'
    exact ⟨Nat.add_comm _ _, rfl, rfl⟩
  | cons f fs ih =>
    intro fs' i d d' es es' ts hd hl r r' h h'
    obtain ⟨f', fs', rfl⟩ : ∃ f' gs, fs' = f' :: gs := by
      cases fs' with
      | nil => simp at hl
      | cons f' gs => exact ⟨f', gs, rfl⟩
    simp only [loadFaceList] at h h'
    cases h1 : readNum ts <;> rw [h1] at h h' <;> simp only [Res.bind, reduceCtorEq] at h h'
    rename_i p
    cases h2 : readNumsZ p.1 p.2 <;> rw [h2] at h h' <;> simp only [reduceCtorEq] at h h'
    rename_i q
    obtain ⟨a, a', e1, e2, e3, e4⟩ := addFaceEdges_count (consecutive q.1) { f with index := i } { f' with index := i } d d' es es' hd
    rw [e1] at h
    rw [e2] at h'
    simp only at h h'
    cases h3 : loadFaceList 0 fs (i + 1) a.2.1 a.2.2 q.2 <;> rw [h3] at h <;> simp only [reduceCtorEq] at h
    cases h4 : loadFaceList 0 fs' (i + 1) a'.2.1 a'.2.2 q.2 <;> rw [h4] at h' <;> simp only [reduceCtorEq] at h'
    cases h; cases h'
    obtain ⟨g1, g2, g3⟩ := ih fs' (i + 1) _ _ _ _ q.2 e3 (by simpa using hl) _ _ h3 h4
    exact ⟨by simp only; omega, g2, by simp [g3]⟩

theorem bind_ok' {α β : Type} {x : Res α} {f : α → Res β} {b : β} (h : x.bind f = .ok b) : ∃ a, x = .ok a ∧ f a = .ok b := by
  cases x with
  | ok a => exact ⟨a, rfl, h⟩
  | throw e => cases h
  | ub => cases h
  | diverge => cases h

theorem load_faces_of {res : Nat} {ts : List (Tok R)} {m r : Mesh (Point R)} (h : load res ts m = .ok r) :
    ∃ n ts' p u, (readNum ts).bind (fun p => (readPoints p.1 p.2).bind fun q => readNum q.2) = .ok (n, ts') ∧
      p = resize (m.midElems 2) n {} ∧ loadFaceList res p 0 [] m.edges ts' = .ok u ∧ r.edges = u.2.1 := by
  obtain ⟨a, a1, h⟩ := bind_ok' h
  obtain ⟨b, b1, h⟩ := bind_ok' h
  obtain ⟨c, c1, h⟩ := bind_ok' h
  cases h
  obtain ⟨x, x1, a1⟩ := bind_ok' a1
  obtain ⟨y, y1, a1⟩ := bind_ok' a1
  cases a1
  obtain ⟨z, z1, b1⟩ := bind_ok' b1
  obtain ⟨w, w1, b1⟩ := bind_ok' b1
  cases b1
  obtain ⟨k, k1, c1⟩ := bind_ok' c1
  obtain ⟨l, l1, c1⟩ := bind_ok' c1
  cases c1
  refine ⟨z.1, z.2, _, w, ?_, rfl, w1, rfl⟩
  rw [x1, Res.bind, y1, Res.bind]
  exact z1

/-- A file adds as many edges to a mesh as it has. -/
theorem load_count (ts : List (Tok R)) (m m0 r r0 : Mesh (Point R)) (h : load 0 ts m = .ok r) (h0 : load 0 ts m0 = .ok r0) :
    r.edges.length + m0.edges.length = r0.edges.length + m.edges.length := by
  obtain ⟨n, ts', p, u, g1, g2, g3, g4⟩ := load_faces_of h
  obtain ⟨n', ts'', p', u', k1, k2, k3, k4⟩ := load_faces_of h0
  rw [g1] at k1
  cases k1
  rw [g4, k4]
  exact (loadFaceList_count _ _ 0 [] [] _ _ ts' rfl (by rw [g2, k2]; simp only [resize, List.length_append, List.length_take, List.length_replicate]; omega) _ _ g3 k3).1

end Fpma

namespace Vtk
variable {R V : Type}

theorem loadFromStreamRun_res (conv : Nat → Option Nat) (loadV loadC : List (VTok R) → Mesh V → Res (Mesh V × List (VTok R)))
    (loadCR : List (VTok R) → Mesh V → Run (Mesh V) (Mesh V × List (VTok R))) (h : ∀ ts m, (loadCR ts m).res = loadC ts m)
    (ts : List (VTok R)) (types : List Nat) (m : Mesh V) :
    (loadFromStreamRun conv loadV loadCR ts types m).res = loadFromStream conv loadV loadC ts types m := by
  simp only [loadFromStreamRun, loadFromStream]
  split
  · rfl
  · split
    · rfl
    · split
      · rfl
      · simp only [Run.res_bind, Run.res_lift, Run.res_ok]
        refine Res.bind_congr' fun p => ?_
        split
        · rw [h]
        · rfl

/-- The 2D reader is the one of Model/Vtk.lean. -/
theorem load2Run_res [Zero R] (ts : List (VTok R)) (types : List Nat) (m : Mesh (Point2 R)) : (load2Run ts types m).res = load2 ts types m :=
  loadFromStreamRun_res _ _ _ _ (fun _ _ => Run.res_lift _ _) ts types m

theorem templateEdgesRun_res (vs : List Idx) (ps : List (Nat × Nat)) : ∀ (d : Dict) (es : List Edge),
    (templateEdgesRun vs d es ps).res = templateEdges vs d es ps := by
  induction ps with
  | nil => intros; rfl
  | cons p ps ih =>
    intro d es
    obtain ⟨a, b⟩ := p
    simp only [templateEdgesRun, templateEdges, Run.res_bind, Run.res_lift, ih, Run.res_ok]

theorem findOrAddFaceRun_res (res : Nat) (d : Dict) (fs : List Face) (sub : List Idx) :
    (findOrAddFaceRun res d fs sub).res = findOrAddFace res d fs sub := by
  unfold findOrAddFaceRun findOrAddFace
  cases d.find (faceKey sub) with
  | none => simp only; split <;> rfl
  | some i => rfl

theorem addCellFacesRun_res (res : Nat) (cell : Idx) (eidx : List Idx) (ps : List (List Nat)) :
    ∀ (prev : Idx) (first : Option Idx) (d : Dict) (fs : List Face),
    (addCellFacesRun res cell eidx prev first d fs ps).res = addCellFaces res cell eidx prev first d fs ps := by
  induction ps with
  | nil => intros; rfl
  | cons p ps ih =>
    intro prev first d fs
    simp only [addCellFacesRun, addCellFaces, Run.res_bind, Run.res_lift, Run.res_within, findOrAddFaceRun_res, ih]

theorem loadCellList3Run_res (res : Nat) (cs : List Cell) : ∀ (i : Nat) (de df : Dict) (es : List Edge) (fs : List Face) (ts : List (VTok R)),
    (loadCellList3Run res cs i de df es fs ts).res = loadCellList3 res cs i de df es fs ts := by
  induction cs with
  | nil => intros; rfl
  | cons c cs ih =>
    intro i de df es fs ts
    simp only [loadCellList3Run, loadCellList3, Run.res_bind, Run.res_lift]
    refine Res.bind_congr' fun p => Res.bind_congr' fun q => ?_
    cases template p.1 with
    | none => rfl
    | some T => simp only [Run.res_bind, Run.res_within, templateEdgesRun_res, addCellFacesRun_res, ih, Run.res_ok]

/-- The 3D reader is the one of Model/Vtk3.lean. -/
theorem load3Run_res [Zero R] (res : Nat) (ts : List (VTok R)) (types : List Nat) (m : Mesh (Point3 R)) :
    (load3Run res ts types m).res = load3 res ts types m := by
  refine loadFromStreamRun_res _ _ _ _ (fun ts m => ?_) ts types m
  simp only [loadCells3Run, loadCells3, Run.res_bind, Run.res_lift, Run.res_within, loadCellList3Run_res, Run.res_ok]

/-! ## What does not throw -/

theorem readNumInto_nothrow (v : Option Nat) (ts : List (VTok R)) (e : Exc) : readNumInto v ts ≠ .throw e := by
  unfold readNumInto
  split
  · simp
  · simp
  · cases v <;> simp
  · simp

theorem readNum_nothrow (ts : List (VTok R)) (e : Exc) : readNum ts ≠ .throw e := readNumInto_nothrow none ts e

theorem readReal_nothrow [Zero R] (ts : List (VTok R)) (e : Exc) : readReal ts ≠ .throw e := by
  unfold readReal
  split <;> simp

theorem bind_nothrow {α β : Type} {x : Res α} {f : α → Res β} {e : Exc} (h1 : x ≠ .throw e) (h2 : ∀ a, x = .ok a → f a ≠ .throw e) :
    x.bind f ≠ .throw e := by
  cases x with
  | ok a => exact h2 a rfl
  | throw e' => simpa [Res.bind] using h1
  | ub => simp [Res.bind]
  | diverge => simp [Res.bind]

theorem readNums_nothrow (n : Nat) (ts : List (VTok R)) (e : Exc) : readNums n ts ≠ .throw e := by
  induction n generalizing ts with
  | zero => simp [readNums]
  | succ n ih =>
    rw [readNums]
    exact bind_nothrow (readNumInto_nothrow _ ts e) fun a _ => bind_nothrow (ih a.2) fun b _ => by simp

theorem readPoints_nothrow [Zero R] (n : Nat) (ts : List (VTok R)) (e : Exc) : readPoints n ts ≠ .throw e := by
  induction n generalizing ts with
  | zero => simp [readPoints]
  | succ n ih =>
    rw [readPoints]
    exact bind_nothrow (readReal_nothrow ts e) fun a _ => bind_nothrow (readReal_nothrow _ e) fun b _ =>
      bind_nothrow (readReal_nothrow _ e) fun c _ => bind_nothrow (ih _) fun d _ => by simp

theorem loadVertices_nothrow [Zero R] (proj : R × R × R → V) (ts : List (VTok R)) (m : Mesh V) (e : Exc) : loadVertices proj ts m ≠ .throw e := by
  unfold loadVertices
  exact bind_nothrow (readNum_nothrow ts e) fun a _ => bind_nothrow (readPoints_nothrow _ _ e) fun b _ => by simp

theorem loadCellList2_nothrow (cs : List Cell) (e : Exc) : ∀ (i : Nat) (d : Dict) (es : List Edge) (ts : List (VTok R)), DictIn d es.length →
    loadCellList2 cs i d es ts ≠ .throw e := by
  induction cs with
  | nil => intros; simp [loadCellList2]
  | cons c cs ih =>
    intro i d es ts h
    rw [loadCellList2]
    refine bind_nothrow (readNum_nothrow ts e) fun p _ => bind_nothrow (readNums_nothrow _ _ e) fun q _ => ?_
    obtain ⟨r, r1, r2⟩ := addCellEdges_any i (consecutive q.1) INVALID none d es h (.inl rfl)
    rw [r1, Res.bind]
    exact bind_nothrow (ih (i + 1) r.2.1 r.2.2 q.2 r2) fun s _ => by simp

/-- Reading the cells of a 2D file throws nothing, whatever the file contains. -/
theorem loadCells2_nothrow (ts : List (VTok R)) (m : Mesh V) (e : Exc) : loadCells2 ts m ≠ .throw e := by
  unfold loadCells2
  exact bind_nothrow (readNum_nothrow ts e) fun p _ =>
    bind_nothrow (loadCellList2_nothrow _ e _ _ _ _ (DictIn.nil _)) fun q _ => by simp

/-! ## What no failed load changes -/

/-- The dimension, the number of lists of elements and the boundary cells. -/
def Same (m s : Mesh V) : Prop := s.dim = m.dim ∧ s.mids.length = m.mids.length ∧ s.bCells = m.bCells

theorem Same.clear (m : Mesh V) : Same m m.clear := ⟨rfl, by simp [Mesh.clear], rfl⟩

theorem loadVertices_same [Zero R] {proj : R × R × R → V} {ts : List (VTok R)} {m : Mesh V} {r : Mesh V × List (VTok R)}
    (h : loadVertices proj ts m = .ok r) : Same m r.1 := by
  unfold loadVertices at h
  cases h1 : readNum ts <;> rw [h1] at h <;> simp only [Res.bind, reduceCtorEq] at h
  rename_i p
  cases h2 : readPoints p.1 (ignoreLine p.2) <;> rw [h2] at h <;> simp only [reduceCtorEq] at h
  cases h
  exact ⟨rfl, rfl, rfl⟩

theorem loadCells3Run_same {res : Nat} {ts : List (VTok R)} {m : Mesh V} (hm : m.mids.length = 1) :
    (∀ r, loadCells3Run res ts m = .ok r → Same m r.1) ∧ ∀ e s, loadCells3Run res ts m = .throw e s → Same m s := by
  constructor
  · intro r h
    have h' := congrArg Run.res h
    simp only [loadCells3Run, Run.res_bind, Run.res_lift, Run.res_within, Run.res_ok] at h'
    cases h1 : readNum ts <;> rw [h1] at h' <;> simp only [Res.bind, reduceCtorEq] at h'
    rename_i p
    cases h2 : (loadCellList3Run res (resize m.cells p.1 {}) 0 [] [] m.edges (m.midElems 2) (ignoreLine p.2)).res <;> rw [h2] at h' <;>
      simp only [reduceCtorEq] at h'
    cases h'
    exact ⟨rfl, hm.symm, rfl⟩
  · intro e s h
    unfold loadCells3Run at h
    rcases Run.bind_throw.mp h with h | ⟨p, -, h⟩
    · exact absurd (Run.lift_throw.mp h).1 (readNum_nothrow _ _)
    · rcases Run.bind_throw.mp h with h | ⟨q, -, h⟩
      · obtain ⟨u, -, rfl⟩ := Run.within_throw.mp h
        exact ⟨rfl, hm.symm, rfl⟩
      · cases h

/-- After an exception the mesh is either as it was or has been cleared. -/
theorem loadFromStreamRun_left [Zero R] (conv : Nat → Option Nat) (proj : R × R × R → V)
    (loadC : List (VTok R) → Mesh V → Run (Mesh V) (Mesh V × List (VTok R))) (P : Mesh V → Prop)
    (hC : ∀ ts m, P m → (∀ r, loadC ts m = .ok r → P r.1) ∧ ∀ e s, loadC ts m = .throw e s → P s)
    (ts : List (VTok R)) (types : List Nat) (m : Mesh V) (hclear : P m.clear) (hv : ∀ vs, P { m.clear with vertices := vs })
    {e : Exc} {s : Mesh V} (h : loadFromStreamRun conv (loadVertices proj) loadC ts types m = .throw e s) : (e = .runtimeError ∧ s = m) ∨ P s := by
  simp only [loadFromStreamRun] at h
  split at h
  · cases h; exact .inl ⟨rfl, rfl⟩
  · split at h
    · cases h; exact .inl ⟨rfl, rfl⟩
    · split at h
      · cases h; exact .inl ⟨rfl, rfl⟩
      · right
        rcases Run.bind_throw.mp h with h | ⟨p, hp, h⟩
        · rw [← (Run.lift_throw.mp h).2]; exact hclear
        · have hP : P p.1 := by
            have hp := Run.lift_ok.mp hp
            split at hp
            · unfold loadVertices at hp
              generalize (readWord _ _).2 = ts' at hp
              cases h1 : readNum ts' <;> rw [h1] at hp <;> simp only [Res.bind, reduceCtorEq] at hp
              rename_i a
              cases h2 : readPoints a.1 (ignoreLine a.2) <;> rw [h2] at hp <;> simp only [reduceCtorEq] at hp
              cases hp
              exact hv _
            · cases hp; exact hclear
          rcases Run.bind_throw.mp h with h | ⟨q, hq, h⟩
          · split at h
            · exact (hC _ _ hP).2 _ _ h
            · cases h
          · have hQ : P q.1 := by
              split at hq
              · exact (hC _ _ hP).1 _ hq
              · cases hq; exact hP
            rcases Run.bind_throw.mp h with h | ⟨_, _, h⟩
            · rw [← (Run.lift_throw.mp h).2]; exact hQ
            · cases h

/-! ## The cells do not depend on what follows them -/

theorem loadCellList2_tail : ∀ (polys : List (List Idx)) (cs : List Cell) (k : Nat) (d : Dict) (es : List Edge),
    DictIn d es.length → cs.length = polys.length → ∃ cs' es', cs'.length = polys.length ∧
    ∀ ts rest : List (VTok R), skipNl ts = skipNl (polys.flatMap lineTokens ++ rest) →
    ∃ r, loadCellList2 cs k d es ts = .ok (cs', es', r) ∧ skipNl r = skipNl rest := by
  intro polys
  induction polys with
  | nil =>
    intro cs k d es _ hcs
    rw [List.length_eq_zero_iff.mp hcs]
    exact ⟨[], es, rfl, fun ts rest hts => ⟨ts, rfl, by simpa using hts⟩⟩
  | cons vs polys ih =>
    intro cs k d es h hcs
    obtain ⟨c0, cs, rfl⟩ : ∃ c cs', cs = c :: cs' := by
      cases cs with
      | nil => simp at hcs
      | cons c cs => exact ⟨c, cs, rfl⟩
    obtain ⟨p, g1, g2⟩ := addCellEdges_any k (consecutive vs) INVALID none d es h (.inl rfl)
    obtain ⟨cs', es', e3, e⟩ := ih cs (k + 1) p.2.1 p.2.2 g2 (by simpa using hcs)
    refine ⟨{ index := k, bElem := p.1.getD c0.bElem } :: cs', es', by simp [e3], fun ts rest hts => ?_⟩
    obtain ⟨r, e1, e2⟩ := e (.nl :: (polys.flatMap lineTokens ++ rest)) rest rfl
    refine ⟨r, ?_, e2⟩
    simp only [loadCellList2]
    rw [readNum_congr hts]
    simp only [List.flatMap_cons, lineTokens, List.cons_append, List.append_assoc, readNum_num, Res.bind]
    rw [readNums_map]
    simp only
    rw [g1]
    simp only [List.nil_append]
    rw [e1]

theorem loadCellList3_tail (res : Nat) (hres : res = 0 ∨ 4 ≤ res) : ∀ (polys : List (List Idx)) (cs : List Cell) (k : Nat) (de df : Dict)
    (es : List Edge) (fs : List Face), DictIn de es.length → DictIn df fs.length → cs.length = polys.length →
    (∀ vs ∈ polys, vs.length = 4 ∨ vs.length = 5 ∨ vs.length = 6 ∨ vs.length = 8) →
      ∃ cs' es' fs', cs'.length = polys.length ∧ ∀ ts rest : List (VTok R), skipNl ts = skipNl (polys.flatMap lineTokens ++ rest) →
      ∃ r, loadCellList3 res cs k de df es fs ts = .ok (cs', es', fs', r) ∧ skipNl r = skipNl rest := by
  intro polys
  induction polys with
  | nil =>
    intro cs k de df es fs _ _ hcs _
    rw [List.length_eq_zero_iff.mp hcs]
    exact ⟨[], es, fs, rfl, fun ts rest hts => ⟨ts, rfl, by simpa using hts⟩⟩
  | cons vs polys ih =>
    intro cs k de df es fs hde hdf hcs hk
    obtain ⟨c0, cs, rfl⟩ : ∃ c cs', cs = c :: cs' := by
      cases cs with
      | nil => simp at hcs
      | cons c cs => exact ⟨c, cs, rfl⟩
    have hv := hk vs (by simp)
    rcases template_any vs.length with ⟨ht, hn⟩ | ⟨T, ht, hn, t1, t2, t3⟩
    · omega
    · obtain ⟨p, p1, p2, p3⟩ := templateEdges_any vs T.edges de es hde t1
      obtain ⟨q, q1, q2⟩ := addCellFaces_any res k p.1 T.faces INVALID none df fs hdf (by rw [p3]; exact t2)
        (fun f hf => by have := t3 f hf; omega) (.inl rfl)
      obtain ⟨cs', es', fs', e3, e⟩ := ih cs (k + 1) p.2.1 q.2.1 p.2.2 q.2.2 p2 q2 (by simpa using hcs) fun v hv => hk v (by simp [hv])
      refine ⟨{ index := k, bElem := q.1.getD c0.bElem } :: cs', es', fs', by simp [e3], fun ts rest hts => ?_⟩
      obtain ⟨r, e1, e2⟩ := e (.nl :: (polys.flatMap lineTokens ++ rest)) rest rfl
      refine ⟨r, ?_, e2⟩
      simp only [loadCellList3]
      rw [readNum_congr hts]
      simp only [List.flatMap_cons, lineTokens, List.cons_append, List.append_assoc, readNum_num, Res.bind]
      rw [readNums_map]
      simp only
      rw [ht]
      simp only [List.nil_append]
      rw [p1]
      simp only
      rw [q1]
      simp only
      rw [e1]

/-- The first cell that is not known ends the load: this cell and all behind it have no boundary element. -/
theorem loadCellList3Run_unknown (res : Nat) (hres : res = 0 ∨ 4 ≤ res) : ∀ (polys : List (List Idx)) (cs : List Cell) (k : Nat) (de df : Dict)
    (es : List Edge) (fs : List Face) (ts rest : List (VTok R)), DictIn de es.length → DictIn df fs.length → cs.length = polys.length →
    skipNl ts = skipNl (polys.flatMap lineTokens ++ rest) → (∀ c ∈ cs, c.bElem = INVALID) → ∀ (n : Nat) vs, polys[n]? = some vs →
    ¬ (vs.length = 4 ∨ vs.length = 5 ∨ vs.length = 6 ∨ vs.length = 8) →
    ∃ s, loadCellList3Run res cs k de df es fs ts = .throw .outOfRange s ∧ s.1.length = polys.length ∧
      ∀ (j : Nat) c, n ≤ j → s.1[j]? = some c → c.bElem = INVALID := by
  intro polys
  induction polys with
  | nil => intro cs k de df es fs ts rest _ _ _ _ _ n vs h; simp at h
  | cons ws polys ih =>
    intro cs k de df es fs ts rest hde hdf hcs hts hb n vs hn hvs
    obtain ⟨c0, cs, rfl⟩ : ∃ c cs', cs = c :: cs' := by
      cases cs with
      | nil => simp at hcs
      | cons c cs => exact ⟨c, cs, rfl⟩
    simp only [loadCellList3Run]
    rw [readNum_congr hts]
    simp only [List.flatMap_cons, lineTokens, List.cons_append, List.append_assoc, readNum_num, Run.lift, Run.bind]
    rw [readNums_map]
    simp only
    rcases template_any ws.length with ⟨ht, -⟩ | ⟨T, ht, hk, t1, t2, t3⟩
    · rw [ht]
      refine ⟨_, rfl, by simpa using hcs, fun j c _ hc => ?_⟩
      rcases List.mem_cons.mp (List.mem_of_getElem? hc) with rfl | h
      · exact hb c0 (by simp)
      · exact hb c (by simp [h])
    · rw [ht]
      obtain ⟨p, p1, p2, p3⟩ := templateEdges_any ws T.edges de es hde t1
      obtain ⟨q, q1, q2⟩ := addCellFaces_any res k p.1 T.faces INVALID none df fs hdf (by rw [p3]; exact t2)
        (fun f hf => by have := t3 f hf; omega) (.inl rfl)
      have n0 : n ≠ 0 := by
        rintro rfl
        cases hn
        exact hvs hk
      obtain ⟨n, rfl⟩ : ∃ n', n = n' + 1 := ⟨n - 1, by omega⟩
      obtain ⟨s, s1, s2, s3⟩ := ih cs (k + 1) p.2.1 q.2.1 p.2.2 q.2.2 (.nl :: (polys.flatMap lineTokens ++ rest)) rest p2 q2 (by simpa using hcs) rfl
        (fun c hc => hb c (by simp [hc])) n vs (by simpa using hn) hvs
      simp only [List.nil_append]
      rw [Run.eq_of_res_ok ((templateEdgesRun_res ws T.edges de es).trans p1)]
      simp only [Run.within]
      rw [Run.eq_of_res_ok ((addCellFacesRun_res res k p.1 T.faces INVALID none df fs).trans q1)]
      simp only
      rw [s1]
      refine ⟨_, rfl, by simp [s2], fun j c hj hc => ?_⟩
      obtain ⟨j, rfl⟩ : ∃ j', j = j' + 1 := ⟨j - 1, by omega⟩
      exact s3 j c (by omega) (by simpa using hc)

/-! ## The whole file -/

theorem loadFromStreamRun_file [Zero R] (conv : Nat → Option Nat) (proj : R × R × R → V)
    (loadC : List (VTok R) → Mesh V → Run (Mesh V) (Mesh V × List (VTok R))) (F : File R) (rest : List (VTok R)) (types : List Nat) (m0 : Mesh V) :
    (∀ e s, loadC (.num F.cells.length :: .num F.total :: .nl :: (F.cells.flatMap lineTokens ++ .nl :: typesTail F rest))
        { m0.clear with vertices := F.verts.map proj } = .throw e s →
      loadFromStreamRun conv (loadVertices proj) loadC (F.tokens ++ rest) types m0 = .throw e s) ∧
    ∀ m r, loadC (.num F.cells.length :: .num F.total :: .nl :: (F.cells.flatMap lineTokens ++ .nl :: typesTail F rest))
        { m0.clear with vertices := F.verts.map proj } = .ok (m, r) → skipNl r = skipNl (typesTail F rest) →
      loadFromStreamRun conv (loadVertices proj) loadC (F.tokens ++ rest) types m0 =
        Run.lift m ((storeTypes conv 0 F.codes (resize types m.cells.length 0)).bind fun t => .ok (m, t)) := by
  obtain ⟨r1, p1, p2⟩ := readPoints_spec F.verts
    ((F.verts.flatMap fun p => [.real p.1, .real p.2.1, .real p.2.2, .nl]) ++ .nl ::
      .word "CELLS" :: .num F.cells.length :: .num F.total :: .nl ::
      (F.cells.flatMap lineTokens ++ .nl ::
      .word "CELL_TYPES" :: .num F.codes.length :: .nl :: ((F.codes.flatMap fun c => [.num c, .nl]) ++ .nl :: rest)))
    _ rfl
  unfold typesTail
  obtain ⟨r3, t1, -⟩ := readCodes_spec F.codes (.nl :: ((F.codes.flatMap fun c => [.num c, .nl]) ++ .nl :: rest))
    (.nl :: rest) (by simp)
  have key : loadFromStreamRun conv (loadVertices proj) loadC (F.tokens ++ rest) types m0 =
      (loadC (.num F.cells.length :: .num F.total :: .nl :: (F.cells.flatMap lineTokens ++ .nl :: typesTail F rest))
        { m0.clear with vertices := F.verts.map proj }).bind fun q =>
      (Run.lift q.1 (if (readWord "CELLS" q.2).1 = "CELL_TYPES" then loadCellTypes conv q.1.cells.length types (readWord "CELLS" q.2).2
         else .ok (types, (readWord "CELLS" q.2).2))).bind fun t => .ok (q.1, t.1) := by
    unfold loadFromStreamRun File.tokens typesTail
    simp only [List.append_assoc, List.cons_append, List.nil_append]
    rw [ignoreLine_words, ignoreLine_words]
    simp only [readWord, skipNl]
    rw [if_neg (by simp), if_neg (by simp), if_neg (by simp), if_pos trivial]
    unfold loadVertices
    simp only [readNum_num, Res.bind, ignoreLine]
    rw [p1]
    simp only [Run.lift, Run.bind]
    rw [p2]
    simp only [skipNl]
    rw [if_pos trivial]
    rfl
  unfold typesTail at key
  constructor
  · intro e s he
    rw [key, he]
    rfl
  · intro m r hm hr
    rw [key, hm]
    simp only [Run.bind]
    rw [readWord_congr hr "CELLS"]
    rw [readWord_word, if_pos rfl]
    unfold loadCellTypes
    simp only [readNum_num, Res.bind]
    rw [t1]
    simp only
    cases storeTypes conv 0 F.codes (resize types m.cells.length 0) <;> rfl

end Vtk
end GTMesh
