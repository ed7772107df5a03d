import Verif.Model.Cache
import Verif.Props.Vtk3w

/-! # C29: what a writer object writes after a change of the mesh -/

namespace GTMesh.Props
open GTMesh Std' Vtk
variable {I W T R V : Type}

/-- The texts written by one writer object for a sequence of inputs; the first exception ends it. -/
def history (write : I → W → Res (W × T)) : W → List I → Res (List T)
  | _, [] => .ok []
  | w, i :: is => (write i w).bind fun p => (history write p.1 is).bind fun ts => .ok (p.2 :: ts)

/-- Only the text. -/
def textOf (r : Res (W × T)) : Res T := r.bind fun p => .ok p.2

/-- Two inputs in a row with the same signature are related by `Same`. -/
def NoCollision (h : I → Nat) (Same : I → I → Prop) (is : List I) : Prop :=
  is.IsChain fun a b => h a = h b → Same a b

theorem history_fresh (write : I → W → Res (W × T)) (h : I → Nat) (last : W → Nat) (Same : I → I → Prop) (fresh : I → W)
    (hf : ∀ i, last (fresh i) ≠ h i)
    (hA : ∀ i w w', last w ≠ h i → last w' ≠ h i → write i w = write i w')
    (hB : ∀ i w w' t, write i w = .ok (w', t) → last w' = h i)
    (hC : ∀ i i' w w' t, Same i i' → h i = h i' → last w ≠ h i → write i w = .ok (w', t) → write i' w' = write i' w) :
    ∀ (is : List I) (w : W), NoCollision h Same is → (∀ i ∈ is.head?, last w ≠ h i) →
      history write w is = forEach (fun i => textOf (write i (fresh i))) is := by
  have gen : ∀ (is : List I) (i0 : I) (w0 w : W) (t : T), last w0 ≠ h i0 → write i0 w0 = .ok (w, t) →
      NoCollision h Same (i0 :: is) → history write w is = forEach (fun i => textOf (write i (fresh i))) is := by
    intro is
    induction is with
    | nil => intro _ _ _ _ _ _ _; rfl
    | cons i is ih =>
      intro i0 w0 w t h0 hw hc
      rw [NoCollision, List.isChain_cons_cons] at hc
      have key : ∃ w1, last w1 ≠ h i ∧ write i w = write i w1 := by
        by_cases hh : h i0 = h i
        · exact ⟨w0, hh ▸ h0, hC i0 i w0 w t (hc.1 hh) hh h0 hw⟩
        · exact ⟨w, by rw [hB _ _ _ _ hw]; exact hh, rfl⟩
      obtain ⟨w1, k1, k2⟩ := key
      rw [history, forEach, k2, hA i (fresh i) w1 (hf i) k1]
      cases hr : write i w1 with
      | ok p =>
        simp only [Res.bind, textOf]
        rw [ih i w1 p.1 p.2 k1 hr hc.2]
        rfl
      | throw e => rfl
      | ub => rfl
      | diverge => rfl
  intro is w hc hw
  cases is with
  | nil => rfl
  | cons i is =>
    have hwi := hw i (by simp)
    rw [history, forEach, hA i (fresh i) w (hf i) hwi]
    cases hr : write i w with
    | ok p =>
      simp only [Res.bind, textOf]
      rw [gen is i w p.1 p.2 hwi hr hc]
      rfl
    | throw e => rfl
    | ub => rfl
    | diverge => rfl

/-! ## Writing with a test of the signature is correct as long as signatures do not collide -/

/-- Inputs of the 2D VTK writer. -/
structure Input2 (R : Type) where
  mesh : Mesh (Point2 R)
  types : List Nat

theorem writeCached2_fresh (zero : R) (hash : Nat) (m : Mesh (Point2 R)) (types : List Nat) (w : Writer2) (h : w.lastHash ≠ hash) :
    writeCached2 zero hash m types w =
      (indexMesh2 m).bind fun cv => (codes toVtk2 types).bind fun cs => .ok ({ lastHash := hash, cellVert := cv, total := totalNumbers cv },
        pointsSection (m.vertices.map fun p => (p.1, p.2, zero)) ++ cellsSection m.cells.length cv ++ typesSection m.cells.length cs) := by
  unfold writeCached2
  rw [if_pos h]
  cases indexMesh2 m <;> rfl

/-- C29 in 2D. One object of the 2D VTK writer gives, for any sequence of meshes, the texts of `writeToStream2` (which always
indexes the mesh), provided that two meshes written one after the other have different signatures unless they
have the same edges and cells, and that the first signature is not the initial garbage of `lastHash`. -/
theorem C29_vtk2_partial (zero : R) (H : Hasher (Point2 R)) (garbage : Nat) (is : List (Input2 R))
    (hc : NoCollision (fun i => signature H [] i.mesh)
      (fun a b => a.mesh.edges = b.mesh.edges ∧ a.mesh.cells = b.mesh.cells) is)
    (h0 : ∀ i ∈ is.head?, garbage ≠ signature H [] i.mesh) :
    history (fun i => writeCached2 zero (signature H [] i.mesh) i.mesh i.types) { lastHash := garbage } is =
      forEach (fun i => writeToStream2 zero i.mesh i.types) is := by
  rw [history_fresh (fun i => writeCached2 zero (signature H [] i.mesh) i.mesh i.types) (fun i => signature H [] i.mesh)
    (·.lastHash) _ (fun i => { lastHash := signature H [] i.mesh + 1 }) (by intro i; simp) ?_ ?_ ?_ is _ hc h0]
  · congr 1
    funext i
    rw [writeCached2_fresh _ _ _ _ _ (by simp)]
    unfold writeToStream2 textOf
    cases indexMesh2 i.mesh <;> try rfl
    simp only [Res.bind]
    cases codes toVtk2 i.types <;> rfl
  · intro i w w' h1 h2
    rw [writeCached2_fresh _ _ _ _ _ h1, writeCached2_fresh _ _ _ _ _ h2]
  · intro i w w' t h
    unfold writeCached2 at h
    cases g1 : (if w.lastHash ≠ signature H [] i.mesh then
        (indexMesh2 i.mesh).bind fun cv => Res.ok { w with cellVert := cv, total := totalNumbers cv } else Res.ok w) <;>
      rw [g1] at h <;> simp only [Res.bind, reduceCtorEq] at h
    cases g2 : codes toVtk2 i.types <;> rw [g2] at h <;> simp only [reduceCtorEq, Res.ok.injEq, Prod.mk.injEq] at h
    rw [← h.1]
  · intro i i' w w' t hs hh hw h
    have hidx : indexMesh2 i.mesh = indexMesh2 i'.mesh := by simp only [indexMesh2, hs.1, hs.2]
    rw [writeCached2_fresh _ _ _ _ _ hw] at h
    rw [writeCached2_fresh _ _ _ _ w (by rw [← hh]; exact hw), ← hidx]
    cases g1 : indexMesh2 i.mesh <;> rw [g1] at h <;> simp only [Res.bind, reduceCtorEq] at h
    cases g2 : codes toVtk2 i.types <;> rw [g2] at h <;> simp only [reduceCtorEq, Res.ok.injEq, Prod.mk.injEq] at h
    obtain ⟨rfl, rfl⟩ := h
    unfold writeCached2
    rw [if_neg (by simp [hh])]
    simp only [Res.bind]
    cases codes toVtk2 i'.types <;> simp [cellsSection, hh]

/-- Inputs of the 3D VTK writer: the mesh, the types of the cells, and what is computed from the geometry. -/
structure Input3 (R : Type) where
  mesh : Mesh (Point3 R)
  types : List Nat
  ori : Idx → Bool
  key : Point3 R → List Char
  cc : Idx → Point3 R
  fc : Idx → Point3 R

/-- The call of `writeToStream` with the signature `hash`. -/
def Input3.write (i : Input3 R) (hash : Nat) (w : Writer3 (Point3 R)) : Res (Writer3 (Point3 R) × List (VTok R)) :=
  writeToStream3 i.ori i.key i.cc i.fc hash i.mesh i.types w

theorem write3_fresh (i : Input3 R) (hash : Nat) (w : Writer3 (Point3 R)) (h : w.lastHash ≠ hash) :
    i.write hash w = (indexMesh3 i.ori i.key i.cc i.fc i.mesh i.types {}).bind fun w1 =>
      i.write w1.lastHash { w1 with lastHash := w1.lastHash } |>.bind fun p => .ok ({ p.1 with lastHash := hash }, p.2) := by
  unfold Input3.write writeToStream3
  rw [if_pos h]
  unfold indexMesh3
  cases i.mesh.connectionsAsc 3 0 <;> try rfl
  simp only [Res.bind]
  cases foldRes (indexCell3 i.ori i.key i.cc i.fc i.mesh i.types) { w := {} } i.mesh.cells <;> try rfl
  rename_i s
  simp only [ne_eq, not_true_eq_false, if_false]
  cases codes toVtk3 s.w.cellTypes <;> rfl

/-- C29 in 3D. One object of the 3D VTK writer gives, for any sequence of meshes, the texts of writers that have not
written that mesh before, provided that two meshes written one after the other have different signatures unless the
inputs are the same, and that the first signature is not 0. -/
theorem C29_vtk3_partial (H : Hasher (Point3 R)) (reserves : List Nat) (is : List (Input3 R))
    (hc : NoCollision (fun i => signature H reserves i.mesh) (fun a b => a = b) is)
    (h0 : ∀ i ∈ is.head?, signature H reserves i.mesh ≠ 0) (other : Input3 R → Writer3 (Point3 R))
    (ho : ∀ i, (other i).lastHash ≠ signature H reserves i.mesh) :
    history (fun i => i.write (signature H reserves i.mesh)) {} is =
      forEach (fun i => textOf (i.write (signature H reserves i.mesh) (other i))) is := by
  refine history_fresh (fun i : Input3 R => i.write (signature H reserves i.mesh)) (fun i => signature H reserves i.mesh)
    (·.lastHash) _ other ho ?_ ?_ ?_ is {} hc (fun i hi => (h0 i hi).symm)
  · intro i w w' h1 h2
    rw [write3_fresh _ _ _ h1, write3_fresh _ _ _ h2]
  · intro i w w' t h
    unfold Input3.write writeToStream3 at h
    cases g1 : (if w.lastHash ≠ signature H reserves i.mesh then indexMesh3 i.ori i.key i.cc i.fc i.mesh i.types w else .ok w) <;>
      rw [g1] at h <;> simp only [Res.bind, reduceCtorEq] at h
    rename_i w1
    cases g2 : codes toVtk3 w1.cellTypes <;> rw [g2] at h <;> simp only [reduceCtorEq, Res.ok.injEq, Prod.mk.injEq] at h
    rw [← h.1]
  · intro i i' w w' t hs hh hw h
    subst hs
    unfold Input3.write writeToStream3 at h ⊢
    rw [if_pos hw] at h ⊢
    cases g1 : indexMesh3 i.ori i.key i.cc i.fc i.mesh i.types w <;> rw [g1] at h <;> simp only [Res.bind, reduceCtorEq] at h
    rename_i w1
    cases g2 : codes toVtk3 w1.cellTypes <;> rw [g2] at h <;> simp only [reduceCtorEq, Res.ok.injEq, Prod.mk.injEq] at h
    obtain ⟨rfl, rfl⟩ := h
    simp only [ne_eq, not_true_eq_false, if_false, Res.bind, g2]

theorem forEach_length {α β : Type} (f : α → Res β) : ∀ (l : List α) r, forEach f l = .ok r → r.length = l.length := by
  intro l
  induction l with
  | nil => intro r h; simp only [forEach, Res.ok.injEq] at h; subst h; rfl
  | cons x xs ih =>
    intro r h
    simp only [forEach] at h
    cases g : f x <;> rw [g] at h <;> simp only [Res.bind, reduceCtorEq] at h
    cases g2 : forEach f xs <;> rw [g2] at h <;> simp only [reduceCtorEq, Res.ok.injEq] at h
    subst h
    simp [ih _ g2]

theorem forEach_at_range (l : List (List Idx)) {n : Nat} (hn : n = l.length) :
    forEach (fun i => Res.at' l i) (List.range n) = .ok l := by
  subst hn
  rw [forEach_ok (f := fun i => (l[i]?).getD [])]
  · congr 1
    apply List.ext_getElem
    · simp
    · intro i h1 h2; simp [h2]
  · intro x hx
    have := List.mem_range.mp hx
    simp [this]

theorem connectionsOrig_length {m : Mesh V} {S T : Nat} {r : List (List Idx)} (h : m.connectionsOrig S T = .ok r) :
    r.length = m.numElems S := by
  unfold Mesh.connectionsOrig at h
  cases h1 : m.apply S T <;> rw [h1] at h <;> simp only [Res.bind, reduceCtorEq] at h
  rename_i calls
  cases h2 : scatter insertNumbered calls (List.replicate (m.numElems S) []) <;> rw [h2] at h <;> simp only [reduceCtorEq] at h
  rename_i maps
  rw [forEach_length _ _ _ h]
  have : ∀ (calls : List (Idx × Idx)) (d d' : List (List (Idx × Nat))), scatter insertNumbered calls d = .ok d' → d'.length = d.length := by
    intro calls
    induction calls with
    | nil => intro d d' h; simp only [scatter, Res.ok.injEq] at h; subst h; rfl
    | cons p r ih =>
      intro d d' h
      simp only [scatter] at h
      cases g : Res.at' d p.1 <;> rw [g] at h <;> simp only [Res.bind, reduceCtorEq] at h
      rw [ih _ _ h]
      simp
  rw [this _ _ _ h2]
  simp

theorem writeCached_fresh (hash : Nat) (m : Mesh (GTMesh.Point R)) (hd : m.dim = 3) (w : Fpma.FWriter) (h : w.lastHash ≠ hash) :
    Fpma.writeCached hash m w =
      (Fpma.indexMeshF m { lastHash := hash }).bind fun w1 => (Fpma.write m).bind fun ts => .ok (w1, ts) := by
  unfold Fpma.writeCached Fpma.indexMeshF Fpma.write
  rw [if_pos h]
  cases h1 : forEach (fun f : Face => Fpma.indexFace m.edges f.sub) (m.midElems 2) <;> try rfl
  rename_i fv
  simp only [Res.bind]
  cases h2 : m.connectionsOrig 3 2 <;> try rfl
  rename_i cf
  simp only
  have e1 := forEach_length _ _ _ h1
  have e2 := connectionsOrig_length h2
  rw [show m.numElems 3 = m.cells.length by simp [Mesh.numElems, hd]] at e2
  rw [forEach_at_range fv e1.symm]
  simp only
  rw [forEach_at_range cf e2.symm]
  simp only
  rw [e1, e2]

/-- C29 for FPMA. One object of the FPMA writer gives, for any sequence of meshes, the texts of `Fpma.write` (which always
indexes the mesh), provided that two meshes written one after the other have different signatures unless they
are the same, and that the first signature is not the initial garbage of `lastHash`. -/
theorem C29_fpma_partial (H : Hasher (GTMesh.Point R)) (reserves : List Nat) (garbage : Nat) (ms : List (Mesh (GTMesh.Point R)))
    (hd : ∀ m ∈ ms, m.dim = 3) (hc : NoCollision (fun m => signature H reserves m) (fun a b => a = b) ms)
    (h0 : ∀ m ∈ ms.head?, garbage ≠ signature H reserves m) :
    history (fun m => Fpma.writeCached (signature H reserves m) m) { lastHash := garbage } ms = forEach Fpma.write ms := by
  have key : ∀ (ms : List {m : Mesh (GTMesh.Point R) // m.dim = 3}) (w : Fpma.FWriter),
      NoCollision (fun m : {m : Mesh (GTMesh.Point R) // m.dim = 3} => signature H reserves m.1) (fun a b => a = b) ms →
      (∀ m ∈ ms.head?, w.lastHash ≠ signature H reserves m.1) →
      history (fun m : {m : Mesh (GTMesh.Point R) // m.dim = 3} => Fpma.writeCached (signature H reserves m.1) m.1) w ms =
        forEach (fun m => textOf (Fpma.writeCached (signature H reserves m.1) m.1 { lastHash := signature H reserves m.1 + 1 })) ms := by
    intro ms w h1 h2
    refine history_fresh _ (fun m => signature H reserves m.1) (·.lastHash) _
      (fun m => { lastHash := signature H reserves m.1 + 1 }) (by intro m; simp) ?_ ?_ ?_ ms w h1 h2
    · intro m w w' h1 h2
      rw [writeCached_fresh _ _ m.2 _ h1, writeCached_fresh _ _ m.2 _ h2]
    · intro m w w' t h
      unfold Fpma.writeCached at h
      cases g1 : (if w.lastHash ≠ signature H reserves m.1 then Fpma.indexMeshF m.1 w else .ok w) <;> rw [g1] at h <;>
        simp only [Res.bind, reduceCtorEq] at h
      rename_i w1
      cases g2 : forEach (fun i => Res.at' w1.faceVert i) (List.range (m.1.midElems 2).length) <;> rw [g2] at h <;>
        simp only [reduceCtorEq] at h
      cases g3 : forEach (fun i => Res.at' w1.cellFace i) (List.range m.1.cells.length) <;> rw [g3] at h <;>
        simp only [reduceCtorEq, Res.ok.injEq, Prod.mk.injEq] at h
      rw [← h.1]
    · intro i i' w w' t hs hh hw h
      subst hs
      unfold Fpma.writeCached at h ⊢
      rw [if_pos hw] at h ⊢
      cases g1 : Fpma.indexMeshF i.1 w <;> rw [g1] at h <;> simp only [Res.bind, reduceCtorEq] at h
      rename_i w1
      cases g2 : forEach (fun j => Res.at' w1.faceVert j) (List.range (i.1.midElems 2).length) <;> rw [g2] at h <;>
        simp only [reduceCtorEq] at h
      cases g3 : forEach (fun j => Res.at' w1.cellFace j) (List.range i.1.cells.length) <;> rw [g3] at h <;>
        simp only [reduceCtorEq, Res.ok.injEq, Prod.mk.injEq] at h
      obtain ⟨rfl, rfl⟩ := h
      simp only [ne_eq, not_true_eq_false, if_false, Res.bind, g2, g3]
  have hist : ∀ (ms : List {m : Mesh (GTMesh.Point R) // m.dim = 3}) (w : Fpma.FWriter),
      history (fun m => Fpma.writeCached (signature H reserves m) m) w (ms.map (·.1)) =
      history (fun m : {m : Mesh (GTMesh.Point R) // m.dim = 3} => Fpma.writeCached (signature H reserves m.1) m.1) w ms := by
    intro ms
    induction ms with
    | nil => intro w; rfl
    | cons m ms ih => intro w; simp only [List.map_cons, history, ih]
  have each : ∀ (ms : List {m : Mesh (GTMesh.Point R) // m.dim = 3}),
      forEach (fun m : {m : Mesh (GTMesh.Point R) // m.dim = 3} =>
        textOf (Fpma.writeCached (signature H reserves m.1) m.1 { lastHash := signature H reserves m.1 + 1 })) ms
      = forEach Fpma.write (ms.map (·.1)) := by
    intro ms
    induction ms with
    | nil => rfl
    | cons m ms ih =>
      simp only [List.map_cons, forEach, ih]
      congr 1
      rw [writeCached_fresh _ _ m.2 _ (by simp)]
      unfold Fpma.indexMeshF Fpma.write textOf
      cases forEach (fun f : Face => Fpma.indexFace m.1.edges f.sub) (m.1.midElems 2) <;> try rfl
      simp only [Res.bind]
      cases m.1.connectionsOrig 3 2 <;> rfl
  have e : ms = (ms.attachWith (fun m => m.dim = 3) hd).map (·.1) := by simp
  rw [e] at hc h0 ⊢
  generalize ms.attachWith (fun m => m.dim = 3) hd = l at *
  rw [hist, ← each]
  refine key l _ ?_ ?_
  · unfold NoCollision at hc ⊢
    rw [List.isChain_map] at hc
    exact hc.imp fun a b h hh => Subtype.ext (h hh)
  · intro m hm
    exact h0 m.1 (by rw [List.head?_map, Option.mem_def.mp hm]; rfl)

/-! ## What the signature sees -/

theorem xor_right_inj {a b c : Nat} : a ^^^ c = b ^^^ c ↔ a = b :=
  ⟨fun h => by have := congrArg (· ^^^ c) h; simpa [Nat.xor_assoc] using this, fun h => by rw [h]⟩

theorem xor_left_inj {a b c : Nat} : c ^^^ a = c ^^^ b ↔ a = b := by
  rw [Nat.xor_comm c a, Nat.xor_comm c b]; exact xor_right_inj

theorem midElems_vertices (m : Mesh V) (vs : List V) (d : Nat) : ({ m with vertices := vs } : Mesh V).midElems d = m.midElems d := rfl
theorem midElems_edges (m : Mesh V) (es : List Edge) (d : Nat) : ({ m with edges := es } : Mesh V).midElems d = m.midElems d := rfl

theorem sigDown_vertices (H : Hasher V) (reserves : List Nat) (m : Mesh V) (vs : List V) : ∀ d,
    sigDown H reserves { m with vertices := vs } d = sigDown H reserves m d ↔ H.vertices vs = H.vertices m.vertices
  | 0 => Iff.rfl
  | 1 => by simp only [sigDown, xor_left_inj]
  | d + 2 => by
    simp only [sigDown, midElems_vertices]
    rw [xor_left_inj]
    exact sigDown_vertices H reserves m vs (d + 1)

theorem sigDown_edges (H : Hasher V) (reserves : List Nat) (m : Mesh V) (es : List Edge) : ∀ d,
    sigDown H reserves { m with edges := es } (d + 1) = sigDown H reserves m (d + 1) ↔ H.edges es = H.edges m.edges
  | 0 => by simp only [sigDown, xor_right_inj]
  | d + 1 => by
    simp only [sigDown, midElems_edges]
    rw [xor_left_inj]
    exact sigDown_edges H reserves m es d

/-- Below the dimension of the changed elements nothing changes. -/
theorem sigDown_mids_below (H : Hasher V) (reserves : List Nat) (m m' : Mesh V) (hd : m.dim = m'.dim) (hv : m.vertices = m'.vertices)
    (he : m.edges = m'.edges) : ∀ k, (∀ d, 2 ≤ d → d ≤ k → m.midElems d = m'.midElems d) → sigDown H reserves m k = sigDown H reserves m' k
  | 0, _ => by simp only [sigDown, hv]
  | 1, _ => by simp only [sigDown, hv, he]
  | k + 2, h => by
    simp only [sigDown]
    rw [h (k + 2) (by omega) (by omega), hd, sigDown_mids_below H reserves m m' hd hv he (k + 1) fun d h2 hk => h d h2 (by omega)]

theorem sigDown_mids (H : Hasher V) (reserves : List Nat) (m m' : Mesh V) (hd : m.dim = m'.dim) (hv : m.vertices = m'.vertices)
    (he : m.edges = m'.edges) (c : Nat) (hc : 2 ≤ c) (h : ∀ d, 2 ≤ d → d ≠ c → m.midElems d = m'.midElems d) : ∀ k,
    sigDown H reserves m (c + k) = sigDown H reserves m' (c + k) ↔
      sigFaces H (reserveOf m.dim reserves c) c (m.midElems c) = sigFaces H (reserveOf m.dim reserves c) c (m'.midElems c)
  | 0 => by
    obtain ⟨c, rfl⟩ : ∃ b, c = b + 2 := ⟨c - 2, by omega⟩
    simp only [sigDown, Nat.add_zero]
    rw [sigDown_mids_below H reserves m m' hd hv he (c + 1) fun d h2 hk => h d h2 (by omega), xor_right_inj, hd]
  | k + 1 => by
    have ih := sigDown_mids H reserves m m' hd hv he c hc h k
    rw [← ih]
    obtain ⟨b, hb⟩ : ∃ b, c + k = b + 1 := ⟨c + k - 1, by omega⟩
    rw [show c + (k + 1) = b + 2 by omega, hb]
    simp only [sigDown]
    rw [h (b + 2) (by omega) (by omega), hd, xor_left_inj]

/-- C29. A change of the vertices alone, of the edges alone or of the cells alone changes the signature exactly when it changes the hash
of this part; so does, with a reserve, a change of the elements of one dimension in between. Without a reserve a change of the elements of one dimension in
between is seen exactly when it changes the number of elements combined with the hashes of the indices of the sub-elements. -/
theorem C29_signature_sees (H : Hasher V) (reserves : List Nat) (m : Mesh V) (hd : 2 ≤ m.dim) :
    (∀ vs, signature H reserves { m with vertices := vs } = signature H reserves m ↔ H.vertices vs = H.vertices m.vertices) ∧
    (∀ es, signature H reserves { m with edges := es } = signature H reserves m ↔ H.edges es = H.edges m.edges) ∧
    (∀ cs, signature H reserves { m with cells := cs } = signature H reserves m ↔ H.cells cs = H.cells m.cells) ∧
    (∀ c mids, 2 ≤ c → c < m.dim → (∀ d, 2 ≤ d → d ≠ c → ({ m with mids := mids } : Mesh V).midElems d = m.midElems d) →
      (signature H reserves { m with mids := mids } = signature H reserves m ↔
        if 0 < reserveOf m.dim reserves c then H.faces c (({ m with mids := mids } : Mesh V).midElems c) = H.faces c (m.midElems c)
        else ((({ m with mids := mids } : Mesh V).midElems c).flatMap (·.sub)).foldl (fun h i => h ^^^ H.idx i)
            (({ m with mids := mids } : Mesh V).midElems c).length =
          ((m.midElems c).flatMap (·.sub)).foldl (fun h i => h ^^^ H.idx i) (m.midElems c).length)) := by
  refine ⟨fun vs => ?_, fun es => ?_, fun cs => ?_, fun c mids h2 hc h => ?_⟩
  · unfold signature
    rw [xor_left_inj]
    exact sigDown_vertices H reserves m vs _
  · unfold signature
    rw [xor_left_inj]
    obtain ⟨k, hk⟩ : ∃ k, m.dim - 1 = k + 1 := ⟨m.dim - 2, by omega⟩
    simp only [hk]
    exact sigDown_edges H reserves m es _
  · unfold signature
    have : ∀ k, sigDown H reserves { m with cells := cs } k = sigDown H reserves m k := fun k =>
      sigDown_mids_below H reserves { m with cells := cs } m rfl rfl rfl k fun _ _ _ => rfl
    simp only [this, xor_right_inj]
  · unfold signature
    rw [xor_left_inj]
    obtain ⟨k, hk⟩ : ∃ k, m.dim - 1 = c + k := ⟨m.dim - 1 - c, by omega⟩
    simp only [hk]
    rw [sigDown_mids H reserves { m with mids := mids } m rfl rfl rfl c h2 h k]
    simp only [sigFaces]
    split <;> exact Iff.rfl

/-- Moving the first vertex of a mesh is seen by the signature whenever the hash of the vertices sees it. -/
example (H : Hasher (Point3 Int)) (h : H.vertices (exampleMesh3.vertices.set 0 (9, 9, 9)) ≠ H.vertices exampleMesh3.vertices) :
    signature H [] { exampleMesh3 with vertices := exampleMesh3.vertices.set 0 (9, 9, 9) } ≠ signature H [] exampleMesh3 :=
  fun e => h (((C29_signature_sees H [] exampleMesh3 (by decide)).1 _).mp e)

/-! ## Collisions -/

/-- C29 is violated: without a reserve the signature of a 3D mesh depends on the faces only through their number and the
edges of all faces together, in any order; which edges belong to which face and the cells of a face do not matter. -/
theorem C29_signature_blind (H : Hasher V) (m m' : Mesh V) (hd : m.dim = 3) (hd' : m'.dim = 3)
    (hv : m.vertices = m'.vertices) (he : m.edges = m'.edges) (hc : m.cells = m'.cells)
    (hl : (m.midElems 2).length = (m'.midElems 2).length)
    (hp : ((m.midElems 2).flatMap (·.sub)).Perm ((m'.midElems 2).flatMap (·.sub))) :
    signature H [] m = signature H [] m' := by
  have hx : ∀ (l l' : List Idx), l.Perm l' → ∀ s, l.foldl (fun h i => h ^^^ H.idx i) s = l'.foldl (fun h i => h ^^^ H.idx i) s := by
    intro l l' hp
    induction hp with
    | nil => intro s; rfl
    | cons x _ ih => intro s; exact ih _
    | swap x y l => intro s; simp only [List.foldl_cons, Nat.xor_assoc, Nat.xor_comm (H.idx x)]
    | trans _ _ ih1 ih2 => intro s; rw [ih1, ih2]
  unfold signature
  rw [hd, hd', hc]
  simp only [Nat.add_one_sub_one, sigDown, sigFaces, reserveOf, hd, hd', hv, he, hl]
  rw [show (if 2 = 3 ∨ 2 = 1 ∨ 2 = 0 ∨ ([] : List Nat).length < 3 - 2 then 0 else ([] : List Nat)[3 - 2 - 1]?.getD 0) = 0 by decide]
  rw [if_neg (by decide), if_neg (by decide), hx _ _ hp]

/-- C29 is violated: the 3D writer writes for a second mesh with the same signature the cells of the first one, whatever
the second mesh and its types are; here the text is even the same because the vertices are. -/
theorem C29_vtk3_stale (i i' : Input3 R) (hash : Nat) (w w1 : Writer3 (Point3 R)) (t : List (VTok R))
    (h : i.write hash w = .ok (w1, t)) (hv : i'.mesh.vertices = i.mesh.vertices) : i'.write hash w1 = .ok (w1, t) := by
  unfold Input3.write writeToStream3 at h ⊢
  cases g1 : (if w.lastHash ≠ hash then indexMesh3 i.ori i.key i.cc i.fc i.mesh i.types w else .ok w) <;> rw [g1] at h <;>
    simp only [Res.bind, reduceCtorEq] at h
  rename_i w2
  cases g2 : codes toVtk3 w2.cellTypes <;> rw [g2] at h <;> simp only [reduceCtorEq, Res.ok.injEq, Prod.mk.injEq] at h
  obtain ⟨rfl, rfl⟩ := h
  simp only [ne_eq, not_true_eq_false, if_false, Res.bind, g2, hv]

/-- The cells written into a VTK file: the numbers after the CELLS line. -/
def cellNumbers : List (VTok R) → List Nat
  | .word w :: ts => if w = "CELL_TYPES" then [] else cellNumbers ts
  | .num n :: ts => n :: cellNumbers ts
  | _ :: ts => cellNumbers ts
  | [] => []

/-- Two tetrahedra with the vertices 0123 and 1234 and a common face, the first one being cell 0. -/
def tetsA : Mesh (Point3 Int) where
  dim := 3
  vertices := [(0, 0, 0), (1, 0, 0), (0, 1, 0), (0, 0, 1), (1, 1, 1)]
  edges := twoTets.edges
  mids := twoTets.mids
  cells := twoTets.cells

/-- The same with the cells exchanged: now 1234 is cell 0. -/
def tetsB : Mesh (Point3 Int) where
  dim := 3
  vertices := [(0, 0, 0), (1, 0, 0), (0, 1, 0), (0, 0, 1), (1, 1, 1)]
  edges := twoTets.edges
  mids := [[{ index := 0, sub := [1, 7, 6], conn := { left := 0, nextL := 1 } },
            { index := 1, sub := [5, 8, 7], conn := { left := 0, nextL := 2 } },
            { index := 2, sub := [4, 6, 8], conn := { left := 0, nextL := 3 } },
            { index := 3, sub := [1, 5, 4], conn := { left := 0, nextL := 0, right := 1, nextR := 4 } },
            { index := 4, sub := [0, 1, 2], conn := { left := 1, nextL := 5 } },
            { index := 5, sub := [0, 4, 3], conn := { left := 1, nextL := 6 } },
            { index := 6, sub := [2, 3, 5], conn := { left := 1, nextL := 3 } }]]
  cells := twoTets.cells

theorem tetsA_valid : Spec.ValidMesh tetsA twoTetsBd := validB_sound (by decide)
theorem tetsB_valid : Spec.ValidMesh tetsB twoTetsBd := validB_sound (by decide)

/-- The input of the writer for one of these meshes. -/
def tetsInput (m : Mesh (Point3 Int)) : Input3 Int where
  mesh := m
  types := [300, 300]
  ori _ := false
  key := exampleKey
  cc _ := (0, 0, 0)
  fc _ := (0, 0, 0)

/-- C29 is violated for every hash function: the two valid meshes `tetsA` and `tetsB` have the same signature; a new writer
writes for `tetsB` the cells 1234 and 0123 (in this order), but a writer that wrote `tetsA` before writes 0123 and
1234. -/
theorem C29_violated (H : Hasher (Point3 Int)) : signature H [] tetsA = signature H [] tetsB ∧
    ∀ hash, hash ≠ 0 → ∃ w1 t1 w2 t2, (tetsInput tetsA).write hash {} = .ok (w1, t1) ∧ (tetsInput tetsB).write hash w1 = .ok (w1, t1) ∧
      (tetsInput tetsB).write hash {} = .ok (w2, t2) ∧
      cellNumbers t1 = [5, 2, 10, 4, 0, 1, 2, 3, 4, 1, 2, 3, 4] ∧ cellNumbers t2 = [5, 2, 10, 4, 1, 2, 4, 3, 4, 1, 2, 3, 0] := by
  refine ⟨C29_signature_blind H tetsA tetsB rfl rfl rfl rfl rfl rfl (by decide), ?_⟩
  intro hash h
  have h' : ({} : Writer3 (Point3 Int)).lastHash ≠ hash := fun e => h e.symm
  have f : ∀ m w, indexMesh3 (tetsInput m).ori (tetsInput m).key (tetsInput m).cc (tetsInput m).fc m [300, 300] {} = .ok w →
      w.cellTypes = [300, 300] →
      (tetsInput m).write hash {} = .ok ({ w with lastHash := hash },
    pointsSection (m.vertices ++ w.appended) ++
    (.word "CELLS" :: .num w.cellVert.length :: .num w.total :: .nl :: w.cellVert.flatMap cellLine ++ [.nl]) ++
    typesSection w.cellTypes.length [10, 10]) := by
    intro m w hw ht
    unfold Input3.write writeToStream3
    rw [if_pos h']
    have e : indexMesh3 (tetsInput m).ori (tetsInput m).key (tetsInput m).cc (tetsInput m).fc (tetsInput m).mesh (tetsInput m).types {} = .ok w := hw
    rw [e]
    simp only [Res.bind, ht]
    rfl
  have a := f tetsA _ rfl (by decide +kernel)
  have b := f tetsB _ rfl (by decide +kernel)
  refine ⟨_, _, _, _, a, C29_vtk3_stale _ _ _ _ _ _ a rfl, b, ?_, ?_⟩
  · decide +kernel
  · decide +kernel

/-- A successful result with a property (used to check examples). -/
def okAnd {α : Type} (r : Res α) (p : α → Bool) : Bool :=
  match r with
  | .ok a => p a
  | _ => false

/-- C29 is violated: the signature does not depend on the types of the cells. When the type of the pyramid in `exampleMesh3`
is no longer known, a new writer splits it into 16 tetrahedra, the old one goes on writing a pyramid. -/
theorem C29_types_violated (hash : Nat) (h : hash ≠ 0) : ∃ w1 t1 w2 t2,
    (Input3.mk exampleMesh3 [301, 303] (fun _ => false) exampleKey (fun i => (5, i, i)) (fun i => (7, i, i))).write hash {} = .ok (w1, t1) ∧
    (Input3.mk exampleMesh3 [301, 304] (fun _ => false) exampleKey (fun i => (5, i, i)) (fun i => (7, i, i))).write hash w1 = .ok (w1, t1) ∧
    (Input3.mk exampleMesh3 [301, 304] (fun _ => false) exampleKey (fun i => (5, i, i)) (fun i => (7, i, i))).write hash {} = .ok (w2, t2) ∧
    w1.cellVert.length = 2 ∧ w2.cellVert.length = 17 := by
  have h' : ({} : Writer3 (Point3 Int)).lastHash ≠ hash := fun e => h e.symm
  have f : ∀ types w cs, indexMesh3 (fun _ => false) exampleKey (fun i => (5, i, i)) (fun i => (7, i, i)) exampleMesh3 types {} = .ok w →
      codes toVtk3 w.cellTypes = .ok cs →
      (Input3.mk exampleMesh3 types (fun _ => false) exampleKey (fun i => (5, i, i)) (fun i => (7, i, i))).write hash {} = .ok ({ w with lastHash := hash },
    pointsSection (exampleMesh3.vertices ++ w.appended) ++
    (.word "CELLS" :: .num w.cellVert.length :: .num w.total :: .nl :: w.cellVert.flatMap cellLine ++ [.nl]) ++
    typesSection w.cellTypes.length cs) := by
    intro types w cs hw ht
    unfold Input3.write writeToStream3
    rw [if_pos h']
    simp only [hw, Res.bind, ht]
  have chk : ∀ (r : Res (Writer3 (Point3 Int))) (ts : List Nat), okAnd r (fun w => w.cellTypes == ts) = true →
      ∃ w, r = .ok w ∧ w.cellTypes = ts := by
    intro r ts h
    cases r with
    | ok w => exact ⟨w, rfl, by simpa [okAnd] using h⟩
    | throw e => simp [okAnd] at h
    | ub => simp [okAnd] at h
    | diverge => simp [okAnd] at h
  obtain ⟨wa, a1, a2⟩ := chk (indexMesh3 (fun _ => false) exampleKey (fun i => (5, i, i)) (fun i => (7, i, i)) exampleMesh3 [301, 303] {})
    [301, 303] (by decide +kernel)
  obtain ⟨wb, b1, b2⟩ := chk (indexMesh3 (fun _ => false) exampleKey (fun i => (5, i, i)) (fun i => (7, i, i)) exampleMesh3 [301, 304] {})
    (301 :: List.replicate 16 300) (by decide +kernel)
  have a3 := (indexMesh3_consistent _ _ _ _ _ _ _ _ a1).2.1
  have b3 := (indexMesh3_consistent _ _ _ _ _ _ _ _ b1).2.1
  have a := f [301, 303] wa [12, 14] a1 (by rw [a2]; decide)
  have b := f [301, 304] wb (12 :: List.replicate 16 10) b1 (by rw [b2]; decide)
  refine ⟨_, _, _, _, a, C29_vtk3_stale _ _ _ _ _ _ a rfl, b, ?_, ?_⟩
  · simp only; rw [← a3, a2]; rfl
  · simp only; rw [← b3, b2]; rfl

/-- C29 is violated: a new 3D writer writes no cells of a mesh with the signature 0. -/
theorem C29_zero_signature (i : Input3 R) : ∃ w t, i.write 0 {} = .ok (w, t) ∧ w.cellVert = [] ∧
    CellSections t 0 0 [] 0 [] := by
  unfold Input3.write writeToStream3
  rw [if_neg (by simp)]
  refine ⟨_, _, rfl, rfl, ?_⟩
  exact ⟨pointsSection (i.mesh.vertices ++ []), by simp [typesSection]⟩

/-- C29 is violated: a new 2D writer whose uninitialised `lastHash` agrees with the signature announces the cells of the
mesh and writes none. -/
theorem C29_uninitialised2 (zero : R) (hash : Nat) (m : Mesh (Point2 R)) (types cs : List Nat) (h : codes toVtk2 types = .ok cs) :
    ∃ w t, writeCached2 zero hash m types { lastHash := hash } = .ok (w, t) ∧
      CellSections t m.cells.length 0 [] m.cells.length (cs.map fun c => [.num c, .nl]) := by
  unfold writeCached2
  rw [if_neg (by simp)]
  simp only [Res.bind, h]
  refine ⟨_, _, rfl, pointsSection (m.vertices.map fun p => (p.1, p.2, zero)), ?_⟩
  simp [typesSection, List.flatMap_def]

/-- C29 is violated: a new FPMA writer whose uninitialised `lastHash` agrees with the signature throws for every mesh with a
face. -/
theorem C29_uninitialised_fpma (hash : Nat) (m : Mesh (GTMesh.Point R)) (h : (m.midElems 2).length ≠ 0) :
    Fpma.writeCached hash m { lastHash := hash } = .throw .outOfRange := by
  unfold Fpma.writeCached
  rw [if_neg (by simp)]
  simp only [Res.bind]
  obtain ⟨n, hn⟩ : ∃ n, (m.midElems 2).length = n + 1 := ⟨_, (Nat.succ_pred h).symm⟩
  rw [hn, List.range_succ_eq_map]
  rfl

/-- The conditions of the partial theorems: three writes, the second one of another mesh. -/
example : NoCollision (fun i : Input3 Int => i.mesh.vertices.length) (fun a b => a = b)
    [tetsInput tetsA, tetsInput exampleMesh3, tetsInput tetsA] := by
  unfold NoCollision
  refine List.IsChain.cons_cons ?_ (List.IsChain.cons_cons ?_ (List.IsChain.singleton _)) <;> intro h <;> exact absurd h (by decide +kernel)

end GTMesh.Props
