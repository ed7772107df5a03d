import Verif.Model.Signed
import Verif.Props.FailedLoad
import Verif.Props.Cache

/-! # C85: the signature that is stored in a mesh -/

namespace GTMesh.Props
open GTMesh Vtk
variable {V R : Type}

/-- The two meshes have the same vertices, edges, faces and cells. -/
def SameElements (a b : Mesh V) : Prop :=
  a.dim = b.dim ∧ a.vertices = b.vertices ∧ a.edges = b.edges ∧ a.mids = b.mids ∧ a.cells = b.cells

/-- One call on a 3D mesh, with the mesh before and behind it. The call signs when it is a load that returns, a write that returns or throws, or
`updateSignature`. A load that throws and every other change of the elements do not sign. -/
inductive Step3 [Zero R] (H : Hasher (Point3 R)) (reserves : List Nat) : SMesh (Point3 R) → Bool → SMesh (Point3 R) → Prop
  | fpma {ts m m'} : Fpma.loadSigned H reserves ts m = .ok m' → Step3 H reserves m true m'
  | fpmaThrows {ts m m' e} : Fpma.loadSigned H reserves ts m = .throw e m' → Step3 H reserves m false m'
  | vtk {ts types m m'} : load3Signed H reserves ts types m = .ok m' → Step3 H reserves m true m'
  | vtkThrows {ts types m m' e} : load3Signed H reserves ts types m = .throw e m' → Step3 H reserves m false m'
  | writeFpma {w m m' p} : Fpma.writeSigned H reserves w m = .ok (m', p) → Step3 H reserves m true m'
  | writeFpmaThrows {w m m' e} : Fpma.writeSigned H reserves w m = .throw e m' → Step3 H reserves m true m'
  | writeVtk {ori key cc fc types w m m' p} : write3Signed H reserves ori key cc fc types w m = .ok (m', p) → Step3 H reserves m true m'
  | writeVtkThrows {ori key cc fc types w m m' e} : write3Signed H reserves ori key cc fc types w m = .throw e m' → Step3 H reserves m true m'
  | update {m} : Step3 H reserves m true (m.updateSignature H reserves)
  | edit {m} (f : Mesh (Point3 R) → Mesh (Point3 R)) : Step3 H reserves m false (m.edit f)

/-- One call on a 2D mesh. A load does not sign. -/
inductive Step2 [Zero R] (zero : R) (H : Hasher (Point2 R)) : SMesh (Point2 R) → Bool → SMesh (Point2 R) → Prop
  | vtk {ts types m m'} : load2Signed ts types m = .ok m' → Step2 zero H m false m'
  | vtkThrows {ts types m m' e} : load2Signed ts types m = .throw e m' → Step2 zero H m false m'
  | writeVtk {types w m m' p} : write2Signed zero H types w m = .ok (m', p) → Step2 zero H m true m'
  | writeVtkThrows {types w m m' e} : write2Signed zero H types w m = .throw e m' → Step2 zero H m true m'
  | update {m} : Step2 zero H m true (m.updateSignature H [])
  | edit {m} (f : Mesh (Point2 R) → Mesh (Point2 R)) : Step2 zero H m false (m.edit f)

/-- Any number of calls that sign or leave the elements as they are. -/
inductive Calls (Step : SMesh V → Bool → SMesh V → Prop) : SMesh V → SMesh V → Prop
  | none {m} : Calls Step m m
  | more {a b c s} : Calls Step a b → Step b s c → (s = true ∨ SameElements b.mesh c.mesh) → Calls Step a c

/-- Somewhere in the history of the mesh there is a call that signs, and every later call signs or leaves the elements as they are. -/
def Signed (Step : SMesh V → Bool → SMesh V → Prop) (m : SMesh V) : Prop := ∃ a b, Step a true b ∧ Calls Step b m

theorem signature_same (H : Hasher V) (reserves : List Nat) {a b : Mesh V} (h : SameElements a b) : signature H reserves a = signature H reserves b := by
  obtain ⟨h1, h2, h3, h4, h5⟩ := h
  have : ∀ d, sigDown H reserves a d = sigDown H reserves b d := by
    intro d
    induction d with
    | zero => simp [sigDown, h2]
    | succ d ih =>
      cases d with
      | zero => simp [sigDown, h2, h3]
      | succ d => simp only [sigDown, ih, Mesh.midElems, h1, h4]
  rw [signature, signature, h5, this, h1]

theorem current_of_steps {Step : SMesh V → Bool → SMesh V → Prop} (σ : Mesh V → Nat) (hσ : ∀ a b, SameElements a b → σ a = σ b)
    (hs : ∀ a b, Step a true b → b.getSignature = .ok (σ b.mesh)) (hk : ∀ a b, Step a false b → b.sig = a.sig) {m : SMesh V}
    (h : Signed Step m) : m.getSignature = .ok (σ m.mesh) := by
  obtain ⟨a, b, h1, h2⟩ := h
  induction h2 with
  | none => exact hs _ _ h1
  | more _ h3 h4 ih =>
    rename_i c d s _
    cases s with
    | true => exact hs _ _ h3
    | false =>
      rcases h4 with h4 | h4
      · cases h4
      · rw [← hσ _ _ h4, ← ih, SMesh.getSignature, SMesh.getSignature, hk _ _ h3]

theorem writeSigned_keeps {T W : Type} {s : SMesh V} {x : Res (W × T)} {m' : SMesh V} {p : W × T}
    (h : ((Run.lift s x).bind fun q => (.ok (s, q.1, q.2) : Run (SMesh V) (SMesh V × W × T))) = .ok (m', p)) : m' = s := by
  cases x <;> simp only [Run.lift, Run.bind, Run.ok.injEq, Prod.mk.injEq, reduceCtorEq] at h
  exact h.1.symm

theorem writeSigned_throws {T W : Type} {s : SMesh V} {x : Res (W × T)} {m' : SMesh V} {e : Exc}
    (h : ((Run.lift s x).bind fun q => (.ok (s, q.1, q.2) : Run (SMesh V) (SMesh V × W × T))) = .throw e m') : m' = s := by
  cases x <;> simp only [Run.lift, Run.bind, Run.throw.injEq, reduceCtorEq] at h
  exact h.2.symm

theorem signed_bind_throw {T : Type} {x : Run (Mesh V) T} {m m' : SMesh V} {f : T → SMesh V} {e : Exc}
    (h : ((x.within fun s => { m with mesh := s }).bind fun r => (.ok (f r) : Run (SMesh V) (SMesh V))) = .throw e m') : m'.sig = m.sig := by
  rcases Run.bind_throw.mp h with h | ⟨_, _, h⟩
  · obtain ⟨s, -, rfl⟩ := Run.within_throw.mp h
    rfl
  · cases h

theorem signed_bind_ok {T : Type} {x : Run (Mesh V) T} {m m' : SMesh V} {f : T → SMesh V}
    (h : ((x.within fun s => { m with mesh := s }).bind fun r => (.ok (f r) : Run (SMesh V) (SMesh V))) = .ok m') : ∃ r, x = .ok r ∧ m' = f r := by
  cases x <;> simp only [Run.within, Run.bind, Run.ok.injEq, reduceCtorEq] at h
  exact ⟨_, rfl, h.symm⟩

/-! ## The signature that is stored is that of the elements -/

/-- C85, 3D: when some earlier call was a load that returned, a write or `updateSignature`, and the elements were not changed by anything else since, then `getSignature`
returns the signature of the elements that the mesh has now. -/
theorem C85_current3_partial [Zero R] (H : Hasher (Point3 R)) (reserves : List Nat) (m : SMesh (Point3 R)) (h : Signed (Step3 H reserves) m) :
    m.getSignature = .ok (signature H reserves m.mesh) := by
  refine current_of_steps (signature H reserves) (fun a b => signature_same H reserves) ?_ ?_ h
  · intro a b hs
    generalize hb : true = s at hs
    cases hs with
    | fpma h => obtain ⟨r, -, rfl⟩ := signed_bind_ok h; rfl
    | vtk h => obtain ⟨r, -, rfl⟩ := signed_bind_ok h; rfl
    | writeFpma h => rw [writeSigned_keeps h]; rfl
    | writeFpmaThrows h => rw [writeSigned_throws h]; rfl
    | writeVtk h => rw [writeSigned_keeps h]; rfl
    | writeVtkThrows h => rw [writeSigned_throws h]; rfl
    | update => rfl
    | _ => cases hb
  · intro a b hs
    generalize hb : false = s at hs
    cases hs with
    | fpmaThrows h => exact signed_bind_throw h
    | vtkThrows h => exact signed_bind_throw h
    | edit => rfl
    | _ => cases hb

/-- C85, 2D: the same when some earlier call was a write or `updateSignature`. -/
theorem C85_current2_partial [Zero R] (zero : R) (H : Hasher (Point2 R)) (m : SMesh (Point2 R)) (h : Signed (Step2 zero H) m) :
    m.getSignature = .ok (signature H [] m.mesh) := by
  refine current_of_steps (signature H []) (fun a b => signature_same H []) ?_ ?_ h
  · intro a b hs
    generalize hb : true = s at hs
    cases hs with
    | writeVtk h => rw [writeSigned_keeps h]; rfl
    | writeVtkThrows h => rw [writeSigned_throws h]; rfl
    | update => rfl
    | _ => cases hb
  · intro a b hs
    generalize hb : false = s at hs
    cases hs with
    | vtk h => obtain ⟨r, -, rfl⟩ := signed_bind_ok h; rfl
    | vtkThrows h => exact signed_bind_throw h
    | edit => rfl
    | _ => cases hb

/-- C85, 3D: two such meshes with the same elements have the same signature, whatever their histories and their boundary cells are. -/
theorem C85_same_elements3_partial [Zero R] (H : Hasher (Point3 R)) (reserves : List Nat) (a b : SMesh (Point3 R)) (ha : Signed (Step3 H reserves) a)
    (hb : Signed (Step3 H reserves) b) (h : SameElements a.mesh b.mesh) : ∃ n, a.getSignature = .ok n ∧ b.getSignature = .ok n :=
  ⟨_, C85_current3_partial H reserves a ha, by rw [C85_current3_partial H reserves b hb, signature_same H reserves h]⟩

/-- C85, 2D: two such meshes with the same elements have the same signature, whatever their histories and their boundary cells are. -/
theorem C85_same_elements2_partial [Zero R] (zero : R) (H : Hasher (Point2 R)) (a b : SMesh (Point2 R)) (ha : Signed (Step2 zero H) a)
    (hb : Signed (Step2 zero H) b) (h : SameElements a.mesh b.mesh) : ∃ n, a.getSignature = .ok n ∧ b.getSignature = .ok n :=
  ⟨_, C85_current2_partial zero H a ha, by rw [C85_current2_partial zero H b hb, signature_same H [] h]⟩

/-! ## Two meshes of one file -/

/-- C85, 3D VTK files: two meshes that load the same file have the same signature, whatever they held before. -/
theorem C85_same_file_vtk3_partial [Zero R] (H : Hasher (Point3 R)) (reserves : List Nat) (ts : List (VTok R)) (types : List Nat) (a b a' b' : SMesh (Point3 R))
    (had : a.mesh.dim = 3) (ham : a.mesh.mids.length = 1) (hbd : b.mesh.dim = 3) (hbm : b.mesh.mids.length = 1)
    (ha : load3Signed H reserves ts types a = .ok a') (hb : load3Signed H reserves ts types b = .ok b') :
    ∃ n, a'.getSignature = .ok n ∧ b'.getSignature = .ok n := by
  obtain ⟨r, h1, rfl⟩ := signed_bind_ok ha
  obtain ⟨r', h2, rfl⟩ := signed_bind_ok hb
  have e : SameElements r.1 r'.1 := by
    have h1 := congrArg Run.res h1
    have h2 := congrArg Run.res h2
    rw [load3Run_res, C19_vtk3_partial _ ts types _ had ham] at h1
    rw [load3Run_res, C19_vtk3_partial _ ts types _ hbd hbm] at h2
    cases h : load3 (reserveOf 3 reserves 2) ts types ({ dim := 3, mids := [[]] } : Mesh (Point3 R)) <;> rw [h] at h1 h2 <;>
      simp only [Res.bind, Run.res_ok, reduceCtorEq, Res.ok.injEq] at h1 h2
    rw [← h1, ← h2]
    exact ⟨rfl, rfl, rfl, rfl, rfl⟩
  exact ⟨_, rfl, by simp only [SMesh.updateSignature, SMesh.getSignature]; rw [signature_same H reserves e]⟩

/-- What an FPMA file gives depends only on the edges, faces and cells that are there. -/
theorem load_same (res : Nat) (ts : List (Tok R)) (a b a' b' : Mesh (Point3 R)) (hd : a.dim = b.dim) (he : a.edges = b.edges)
    (hm : a.midElems 2 = b.midElems 2) (hc : a.cells = b.cells) (ha : Fpma.load res ts a = .ok a') (hb : Fpma.load res ts b = .ok b') : SameElements a' b' := by
  unfold Fpma.load Fpma.loadVertices at ha hb
  cases g : Fpma.readNum ts <;> rw [g] at ha hb <;> simp only [Res.bind, reduceCtorEq] at ha hb
  rename_i x
  cases g1 : Fpma.readPoints x.1 x.2 <;> rw [g1] at ha hb <;> simp only [reduceCtorEq] at ha hb
  rename_i y
  unfold Fpma.loadFaces at ha hb
  cases g2 : Fpma.readNum y.2 <;> rw [g2] at ha hb <;> simp only [Res.bind, reduceCtorEq] at ha hb
  rename_i z
  simp only [Mesh.midElems] at ha hb hm
  rw [hm, he] at ha
  cases g3 : Fpma.loadFaceList res (resize (b.mids[2 - 2]?.getD []) z.1 {}) 0 [] b.edges z.2 <;> rw [g3] at ha hb <;> simp only [reduceCtorEq] at ha hb
  rename_i u
  unfold Fpma.loadCells at ha hb
  cases g4 : Fpma.readNum u.2.2 <;> rw [g4] at ha hb <;> simp only [Res.bind, reduceCtorEq] at ha hb
  rename_i v
  simp only [Mesh.midElems] at ha hb
  rw [hc] at ha
  cases g5 : Fpma.loadCellList (resize b.cells v.1 {}) 0 ([u.1][2 - 2]?.getD []) v.2 <;> rw [g5] at ha hb <;>
    simp only [reduceCtorEq, Res.ok.injEq] at ha hb
  rw [← ha, ← hb]
  exact ⟨hd, rfl, rfl, rfl, rfl⟩

/-- C85, FPMA files: two meshes that load the same file have the same signature when they held the same edges, faces and cells before, none for example. -/
theorem C85_same_file_fpma_partial (H : Hasher (Point3 R)) (reserves : List Nat) (ts : List (Tok R)) (a b a' b' : SMesh (Point3 R))
    (hd : a.mesh.dim = b.mesh.dim) (he : a.mesh.edges = b.mesh.edges) (hm : a.mesh.midElems 2 = b.mesh.midElems 2) (hc : a.mesh.cells = b.mesh.cells)
    (ha : Fpma.loadSigned H reserves ts a = .ok a') (hb : Fpma.loadSigned H reserves ts b = .ok b') :
    ∃ n, a'.getSignature = .ok n ∧ b'.getSignature = .ok n := by
  obtain ⟨r, h1, rfl⟩ := signed_bind_ok ha
  obtain ⟨r', h2, rfl⟩ := signed_bind_ok hb
  have h1 := congrArg Run.res h1
  have h2 := congrArg Run.res h2
  rw [Fpma.loadRun_res] at h1 h2
  have e := load_same _ ts _ _ _ _ hd he hm hc h1 h2
  exact ⟨_, rfl, by simp only [SMesh.updateSignature, SMesh.getSignature]; rw [signature_same H reserves e]⟩

/-! ## False of the code -/

/-- C85, false of the code in 2D: a load that returns does not change what `getSignature` returns. A mesh that is new has no signature then: the value is
undefined. -/
theorem C85_vtk2_violated [Zero R] (ts : List (VTok R)) (types : List Nat) (m m' : SMesh (Point2 R)) (h : load2Signed ts types m = .ok m') :
    m'.getSignature = m.getSignature ∧ (m.sig = none → m'.getSignature = .ub) := by
  obtain ⟨r, -, rfl⟩ := signed_bind_ok h
  exact ⟨rfl, fun h => by simp only [SMesh.getSignature, h]⟩

/-- C85, false of the code in 2D: a mesh that was signed keeps its signature when it loads a file with other elements, for any hash functions that tell the two apart. -/
theorem C85_vtk2_stale_violated [Zero R] (zero : R) (H : Hasher (Point2 R)) (ts : List (VTok R)) (types : List Nat) (m m' : SMesh (Point2 R))
    (hm : Signed (Step2 zero H) m) (h : load2Signed ts types m = .ok m') (hne : signature H [] m.mesh ≠ signature H [] m'.mesh) :
    m'.getSignature ≠ .ok (signature H [] m'.mesh) := by
  rw [(C85_vtk2_violated ts types m m' h).1, C85_current2_partial zero H m hm]
  simpa using hne

/-- C85, false of the code in 3D: a load that throws does not change what `getSignature` returns, though it has changed the mesh. -/
theorem C85_failed_violated [Zero R] (H : Hasher (Point3 R)) (reserves : List Nat) (m m' : SMesh (Point3 R)) :
    (∀ ts types e, load3Signed H reserves ts types m = .throw e m' → m'.getSignature = m.getSignature) ∧
    (∀ ts e, Fpma.loadSigned H reserves ts m = .throw e m' → m'.getSignature = m.getSignature) :=
  ⟨fun _ _ _ h => by rw [SMesh.getSignature, SMesh.getSignature, signed_bind_throw h],
   fun _ _ h => by rw [SMesh.getSignature, SMesh.getSignature, signed_bind_throw h]⟩

/-- Hash functions that tell numbers of edges and of vertices apart. -/
def countEdges : Hasher V where
  idx _ := 0
  cells _ := 0
  faces _ _ := 0
  edges es := es.length
  vertices _ := 0

/-- C85, false of the code: a mesh that loads an FPMA file twice has another signature then, for some hash functions. -/
theorem C85_fpma_violated : ∃ (H : Hasher (Point3 Int)) (m1 m2 : SMesh (Point3 Int)) (n1 n2 : Nat),
    Fpma.loadSigned H [] Fpma.exampleFile.tokens { mesh := { dim := 3 } } = .ok m1 ∧ Fpma.loadSigned H [] Fpma.exampleFile.tokens m1 = .ok m2 ∧
    m1.getSignature = .ok n1 ∧ m2.getSignature = .ok n2 ∧ n1 ≠ n2 :=
  ⟨countEdges, _, _, _, _, rfl, rfl, rfl, rfl, by decide⟩

/-! ## the hypotheses are met -/

/-- a 3D mesh that was loaded and given boundary cells -/
example (H : Hasher (Point3 Int)) : ∃ m m' : SMesh (Point3 Int), load3Signed H [] exampleFile3.tokens [] { mesh := { dim := 3, mids := [[]] } } = .ok m ∧
    m' = m.edit (fun n => { n with bCells := [{}] }) ∧ m'.getSignature = .ok (signature H [] m.mesh) := by
  obtain ⟨m, hm⟩ : ∃ m, load3Signed H [] exampleFile3.tokens [] { mesh := { dim := 3, mids := [[]] } } = .ok m := ⟨_, rfl⟩
  refine ⟨m, _, hm, rfl, ?_⟩
  rw [C85_current3_partial H [] _ ⟨_, _, .vtk hm, .more .none (.edit _) (.inr ⟨rfl, rfl, rfl, rfl, rfl⟩)⟩]
  exact congrArg _ (signature_same H [] ⟨rfl, rfl, rfl, rfl, rfl⟩)

example (zero : Int) (H : Hasher (Point2 Int)) : ∃ m : SMesh (Point2 Int), load2Signed exampleFile.tokens [] { mesh := { dim := 2 } } = .ok m ∧ m.getSignature = .ub ∧
    Signed (Step2 zero H) (m.updateSignature H []) :=
  ⟨_, rfl, rfl, _, _, .update, .none⟩

/-- the same file in a new mesh and in one with other elements and boundary cells -/
example (H : Hasher (Point3 Int)) : ∃ a b, load3Signed H [] exampleFile3.tokens [] { mesh := { dim := 3, mids := [[]] } } = .ok a ∧
    load3Signed H [] exampleFile3.tokens [] { mesh := { dim := 3, mids := [[{}]], edges := [{}], bCells := [{}] }, sig := some 7 } = .ok b ∧
    ∃ n, a.getSignature = .ok n ∧ b.getSignature = .ok n :=
  ⟨_, _, rfl, rfl, C85_same_file_vtk3_partial H [] exampleFile3.tokens [] { mesh := { dim := 3, mids := [[]] } }
    { mesh := { dim := 3, mids := [[{}]], edges := [{}], bCells := [{}] }, sig := some 7 } _ _ rfl rfl rfl rfl rfl rfl⟩

example (H : Hasher (Point3 Int)) : ∃ a b, Fpma.loadSigned H [] Fpma.exampleFile.tokens { mesh := { dim := 3 } } = .ok a ∧
    Fpma.loadSigned H [] Fpma.exampleFile.tokens { mesh := { dim := 3, mids := [[]], vertices := [(1, 2, 3)], bCells := [{}] }, sig := some 7 } = .ok b ∧
    ∃ n, a.getSignature = .ok n ∧ b.getSignature = .ok n :=
  ⟨_, _, rfl, rfl, C85_same_file_fpma_partial H [] Fpma.exampleFile.tokens { mesh := { dim := 3 } }
    { mesh := { dim := 3, mids := [[]], vertices := [(1, 2, 3)], bCells := [{}] }, sig := some 7 } _ _ rfl rfl rfl rfl rfl rfl⟩

/-- a 2D mesh that is signed and then loads a file with edges -/
example : ∃ m m' : SMesh (Point2 Int), Signed (Step2 0 countEdges) m ∧ load2Signed exampleFile.tokens [] m = .ok m' ∧
    m'.getSignature ≠ .ok (signature countEdges [] m'.mesh) := by
  have hm : Signed (Step2 0 countEdges) (({ mesh := { dim := 2 } } : SMesh (Point2 Int)).updateSignature countEdges []) := ⟨_, _, .update, .none⟩
  obtain ⟨n, t, hl, hn⟩ : ∃ n t, load2 exampleFile.tokens [] ({ dim := 2 } : Mesh (Point2 Int)) = .ok (n, t) ∧ n.edges.length = 8 ∧ n.dim = 2 :=
    ⟨_, _, rfl, by decide, by decide⟩
  have hr := Run.eq_of_res_ok ((load2Run_res exampleFile.tokens [] ({ dim := 2 } : Mesh (Point2 Int))).trans hl)
  have h : load2Signed exampleFile.tokens [] (({ mesh := { dim := 2 } } : SMesh (Point2 Int)).updateSignature countEdges []) =
      .ok { mesh := n, sig := some (signature countEdges [] ({ dim := 2 } : Mesh (Point2 Int))) } := by
    unfold load2Signed
    simp only [SMesh.updateSignature]
    rw [hr]
    rfl
  refine ⟨_, _, hm, h, C85_vtk2_stale_violated 0 countEdges _ [] _ _ hm h ?_⟩
  simp only [SMesh.updateSignature, signature, hn.2]
  show 0 ^^^ (0 ^^^ 0) ≠ 0 ^^^ (n.edges.length ^^^ 0)
  rw [hn.1]
  decide

/-- a 3D load that throws after it has changed the mesh -/
example (H : Hasher (Point3 Int)) (m : SMesh (Point3 Int)) : ∃ m', load3Signed H [] sevenFile.tokens [] m = .throw .outOfRange m' ∧ m'.mesh.vertices = sevenFile.verts ∧
    m'.getSignature = m.getSignature := by
  obtain ⟨s, h1, h2, -⟩ := C83_unfinished_violated sevenFile 1 [0, 1, 2, 3, 4, 5, 6] rfl (by decide) [] m.mesh
  have h : load3Signed H [] sevenFile.tokens [] m = .throw .outOfRange { m with mesh := s } := by
    unfold load3Signed
    rw [show reserveOf 3 [] 2 = 0 by decide, h1]
    rfl
  exact ⟨_, h, h2, (C85_failed_violated H [] m _).1 _ _ _ h⟩

end GTMesh.Props
