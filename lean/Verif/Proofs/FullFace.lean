import Verif.Proofs.FailedLoad

/-! # What is left when a face does not fit in the reserve of the mesh -/

namespace GTMesh.Fpma
open Spec
variable {R : Type}

theorem addFaceEdgesRun_full (res : Nat) (h0 : 0 < res) (used : List (Idx × Idx)) : ∀ (ps : List (Idx × Idx)) (f : Face) (d : Dict) (es : List Edge),
    TableInv d es used → (∀ p ∈ ps, p ∈ used) → f.sub.length ≤ res → res < f.sub.length + ps.length →
    ∃ es' idx, addFaceEdgesRun res f d es ps = .throw .runtimeError ({ f with sub := f.sub ++ idx }, es') ∧ Extends es es' ∧
      f.sub.length + idx.length = res ∧
      ∀ (j : Nat) u v, ps[j]? = some (u, v) → f.sub.length + j ≤ res → ∃ e, Joins es' e u v ∧ (f.sub.length + j < res → idx[j]? = some e) := by
  intro ps
  induction ps with
  | nil => intro f d es _ _ h1 h2; simp at h2; omega
  | cons p ps ih =>
    intro f d es h hu h1 h2
    obtain ⟨iA, iB⟩ := p
    obtain ⟨k1, k2, k3, -⟩ := findOrAddEdge_spec h iA iB (hu _ (by simp))
    have hext : Extends es (findOrAddEdge d es iA iB).2.1 := by
      rcases k3 with h3 | ⟨e, h3⟩
      · exact ⟨[], by rw [h3]; simp⟩
      · exact ⟨[e], h3⟩
    by_cases hf : res ≤ f.sub.length
    · refine ⟨(findOrAddEdge d es iA iB).2.1, [], ?_, hext, by simp; omega, fun j u v hj hl => ?_⟩
      · simp only [addFaceEdgesRun]
        rw [if_pos ⟨h0, hf⟩, List.append_nil]
      · obtain rfl : j = 0 := by omega
        simp only [List.getElem?_cons_zero, Option.some.injEq, Prod.mk.injEq] at hj
        obtain ⟨rfl, rfl⟩ := hj
        exact ⟨_, k2, fun hl => by omega⟩
    · obtain ⟨es', idx, g1, g2, g3, g4⟩ := ih { f with sub := f.sub ++ [(findOrAddEdge d es iA iB).2.2.1] }
        (findOrAddEdge d es iA iB).1 (findOrAddEdge d es iA iB).2.1 k1 (fun p hp => hu p (by simp [hp])) (by simp; omega)
        (by simp at h2 ⊢; omega)
      refine ⟨es', (findOrAddEdge d es iA iB).2.2.1 :: idx, ?_, hext.trans g2, by simp at g3 ⊢; omega, fun j u v hj hl => ?_⟩
      · simp only [addFaceEdgesRun]
        rw [if_neg (fun h => hf h.2), g1]
        simp
      · cases j with
        | zero =>
          simp only [List.getElem?_cons_zero, Option.some.injEq, Prod.mk.injEq] at hj
          obtain ⟨rfl, rfl⟩ := hj
          exact ⟨_, GTMesh.Joins.mono k2 g2.get, fun _ => by simp⟩
        | succ j =>
          obtain ⟨e, e1, e2⟩ := g4 j u v (by simpa using hj) (by simp; omega)
          exact ⟨e, e1, fun hl => by simpa using e2 (by simp; omega)⟩

theorem loadFaceListRun_full (res : Nat) (h0 : 0 < res) (used : List (Idx × Idx)) :
    ∀ (polys : List (List Idx)) (fs : List Face) (k : Nat) (d : Dict) (es : List Edge) (rest : List (Tok R)) (n : Nat) (vs : List Idx),
      TableInv d es used → (∀ p ∈ allPairs polys, p ∈ used) → fs = List.replicate polys.length {} → polys[n]? = some vs → res < vs.length →
      (∀ i < n, ∀ ws, polys[i]? = some ws → ws.length ≤ res) →
      ∃ fs' es', loadFaceListRun res fs k d es (polys.flatMap listTokens ++ rest) = .throw .runtimeError (fs', es') ∧ fs'.length = polys.length ∧
        Extends es es' ∧
        (∀ i < n, ∀ ws, polys[i]? = some ws → ∃ f, fs'[i]? = some f ∧ f.index = k + i ∧ EdgesOf es' f.sub ws) ∧
        (∃ f, fs'[n]? = some f ∧ f.index = k + n ∧ f.sub.length = res ∧ ∀ j ≤ res, ∃ e u v, cyc vs j = some u ∧ cyc vs (j + 1) = some v ∧
          Joins es' e u v ∧ (j < res → f.sub[j]? = some e)) ∧
        ∀ i, n < i → i < polys.length → fs'[i]? = some {} := by
  intro polys
  induction polys with
  | nil => intro _ _ _ _ _ n _ _ _ _ h; simp at h
  | cons ws polys ih =>
    intro fs k d es rest n vs h hu hfs hn hl hfirst
    subst hfs
    simp only [List.length_cons, List.replicate_succ, loadFaceListRun, List.flatMap_cons, listTokens, List.cons_append, List.append_assoc, readNum,
      Run.lift, Run.bind]
    rw [readNumsZ_map]
    simp only
    cases n with
    | zero =>
      simp only [List.getElem?_cons_zero, Option.some.injEq] at hn
      subst hn
      obtain ⟨es', idx, g1, g2, g3, g4⟩ := addFaceEdgesRun_full res h0 used (consecutive ws) { ({} : Face) with index := k } d es h
        (fun p hp => hu p (by simp [allPairs]; exact Or.inl hp)) (by simp) (by simpa [consecutive_length] using hl)
      rw [g1]
      refine ⟨_, es', rfl, by simp, g2, fun i hi => absurd hi (Nat.not_lt_zero _), ⟨_, rfl, rfl, by simpa using g3, fun j hj => ?_⟩, fun i h1 h2 => ?_⟩
      · obtain ⟨u, v, c1, c2, c3⟩ := consecutive_get ws j (by omega)
        obtain ⟨e, e1, e2⟩ := g4 j u v c1 (by simpa using hj)
        exact ⟨e, u, v, c2, c3, e1, fun hj => by simpa using e2 (by simpa using hj)⟩
      · obtain ⟨i, rfl⟩ : ∃ i', i = i' + 1 := ⟨i - 1, by omega⟩
        simp only [List.getElem?_cons_succ]
        rw [List.getElem?_replicate, if_pos (by simpa using h2)]
    | succ n =>
      have hw : ws.length ≤ res := hfirst 0 (by omega) ws rfl
      obtain ⟨d1, es1, idx, g1, g2, g3, g4, g5⟩ := addFaceEdges_spec res used (consecutive ws)
        { ({} : Face) with index := k } d es h (fun p hp => hu p (by simp [allPairs]; exact Or.inl hp))
        (by right; simpa [consecutive_length] using hw)
      rw [← addFaceEdgesRun_res] at g1
      rw [Run.eq_of_res_ok g1]
      simp only [Run.within]
      obtain ⟨fs', es', e1, e2, e3, e4, ⟨f, f1, f2, f3⟩, e5⟩ := ih (List.replicate polys.length {}) (k + 1) d1 es1 rest n vs g2 (fun p hp => hu p (by
          simp only [allPairs, List.flatMap_cons, List.mem_append]; exact Or.inr hp)) rfl (by simpa using hn) hl
        (fun i hi ws' hws => hfirst (i + 1) (by omega) ws' (by simpa using hws))
      rw [e1]
      refine ⟨_, es', rfl, by simp [e2], g3.trans e3, fun i hi ws' hws => ?_, ⟨f, by simpa using f1, by rw [f2]; omega, f3⟩, fun i h1 h2 => ?_⟩
      · cases i with
        | zero =>
          simp only [List.getElem?_cons_zero, Option.some.injEq] at hws
          subst hws
          refine ⟨_, rfl, rfl, EdgesOf.mono ⟨by simp [g4, consecutive_length], fun j hj => ?_⟩ e3⟩
          obtain ⟨u, v, c1, c2, c3⟩ := consecutive_get ws j hj
          obtain ⟨e, c4, c5⟩ := g5 j u v c1
          exact ⟨e, u, v, by simpa using c4, c2, c3, c5⟩
        | succ i =>
          obtain ⟨f, c1, c2, c3⟩ := e4 i (by omega) ws' (by simpa using hws)
          exact ⟨f, by simpa using c1, by rw [c2]; omega, c3⟩
      · obtain ⟨i, rfl⟩ : ∃ i', i = i' + 1 := ⟨i - 1, by omega⟩
        simpa using e5 i (by omega) (by simpa using h2)

/-- A whole file with a polygon that does not fit. -/
theorem loadRun_full (F : File R) (res : Nat) (h0 : 0 < res) (n : Nat) (vs : List Idx) (hn : F.faces[n]? = some vs) (hl : res < vs.length)
    (hfirst : ∀ i < n, ∀ ws, F.faces[i]? = some ws → ws.length ≤ res) :
    ∃ s fs, loadRun res F.tokens { dim := 3 } = .throw .runtimeError s ∧ s.vertices = F.verts ∧ s.cells = [] ∧ s.mids = [fs] ∧
      fs.length = F.faces.length ∧
      (∀ i < n, ∀ ws, F.faces[i]? = some ws → ∃ f, fs[i]? = some f ∧ f.index = i ∧ EdgesOf s.edges f.sub ws) ∧
      (∃ f, fs[n]? = some f ∧ f.index = n ∧ f.sub.length = res ∧ ∀ j ≤ res, ∃ e u v, cyc vs j = some u ∧ cyc vs (j + 1) = some v ∧
        Joins s.edges e u v ∧ (j < res → f.sub[j]? = some e)) ∧
      ∀ i, n < i → i < F.faces.length → fs[i]? = some {} := by
  obtain ⟨fs, es, e1, e2, -, e4, ⟨f, f1, f2, f3⟩, e5⟩ := loadFaceListRun_full (R := R) res h0 (allPairs F.faces) F.faces
    (List.replicate F.faces.length {}) 0 [] [] (.num F.cells.length :: F.cells.flatMap listTokens) n vs
    (TableInv.empty _) (fun p hp => hp) rfl hn hl hfirst
  have hv : loadVertices F.tokens ({ dim := 3 } : Mesh (Point R)) =
      .ok ({ dim := 3, vertices := F.verts }, .num F.faces.length :: (F.faces.flatMap listTokens ++ .num F.cells.length :: F.cells.flatMap listTokens)) := by
    unfold loadVertices File.tokens
    simp only [List.cons_append, readNum, Res.bind, List.append_assoc]
    rw [readPoints_flatMap]
  refine ⟨{ dim := 3, vertices := F.verts, mids := [fs], edges := es }, fs, ?_, rfl, rfl, rfl, e2, fun i hi ws hws => ?_, ⟨f, f1, by rw [f2]; simp, f3⟩, e5⟩
  · unfold loadRun
    rw [hv]
    simp only [Run.lift, Run.bind, loadFacesRun, readNum, Mesh.midElems, List.getElem?_nil, Option.getD_none, resize, List.take_nil, List.nil_append,
      List.length_nil, Nat.sub_zero]
    rw [e1]
    rfl
  · obtain ⟨f, g1, g2, g3⟩ := e4 i hi ws hws
    exact ⟨f, g1, by rw [g2]; simp, g3⟩

/-! ## A mesh with a face that is full -/

theorem addFaceEdges_any (res : Nat) : ∀ (ps : List (Idx × Idx)) (f : Face) (d : Dict) (es : List Edge),
    (∃ r, addFaceEdges res f d es ps = .ok r) ∨ addFaceEdges res f d es ps = .throw .runtimeError := by
  intro ps
  induction ps with
  | nil => intro f d es; exact .inl ⟨_, rfl⟩
  | cons p ps ih =>
    intro f d es
    obtain ⟨iA, iB⟩ := p
    simp only [addFaceEdges]
    split
    · exact .inr rfl
    · exact ih _ _ _

theorem loadFaceList_fullFace (res : Nat) (h0 : 0 < res) : ∀ (polys : List (List Idx)) (fs : List Face) (k : Nat) (d : Dict) (es : List Edge)
    (rest : List (Tok R)), fs.length = polys.length →
    (∃ (i : Nat) (f : Face) (vs : List Idx), fs[i]? = some f ∧ polys[i]? = some vs ∧ f.sub.length ≤ res ∧ res < f.sub.length + vs.length) →
    loadFaceList res fs k d es (polys.flatMap listTokens ++ rest) = .throw .runtimeError := by
  intro polys
  induction polys with
  | nil => rintro _ _ _ _ _ _ ⟨i, f, vs, -, h, -⟩; simp at h
  | cons ws polys ih =>
    rintro fs k d es rest hl ⟨i, f, vs, h1, h2, h3, h4⟩
    cases fs with
    | nil => simp at h1
    | cons f0 fs =>
      simp only [loadFaceList, List.flatMap_cons, listTokens, List.cons_append, List.append_assoc, readNum]
      simp only [Res.bind]
      rw [readNumsZ_map]
      simp only
      cases i with
      | zero =>
        simp only [List.getElem?_cons_zero, Option.some.injEq] at h1 h2
        subst h1 h2
        rw [addFaceEdges_throws res h0 (consecutive ws) { f0 with index := k } d es h3 (by simpa [consecutive_length] using h4)]
      | succ i =>
        rcases addFaceEdges_any res (consecutive ws) { f0 with index := k } d es with ⟨r, hr⟩ | hr
        · rw [hr]
          simp only
          rw [ih fs (k + 1) r.2.1 r.2.2 rest (by simpa using hl) ⟨i, f, vs, by simpa using h1, by simpa using h2, h3, h4⟩]
        · rw [hr]

/-- A file is refused when one of its polygons does not fit in addition to the edges that the face of that number already has. -/
theorem load_fullFace (F : File R) (res : Nat) (h0 : 0 < res) (rest : List (Tok R)) (m : Mesh (Point R)) (fs : List Face) (hm : m.mids = [fs]) (n : Nat)
    (f : Face) (hf : fs[n]? = some f) (hle : f.sub.length ≤ res) (vs : List Idx) (hn : F.faces[n]? = some vs)
    (hfull : res < f.sub.length + vs.length) :
    load res (F.tokens ++ rest) m = .throw .runtimeError := by
  have hlt : n < F.faces.length := (List.getElem?_eq_some_iff.mp hn).1
  have hv : loadVertices (F.tokens ++ rest) m =
      .ok ({ m with vertices := F.verts }, .num F.faces.length :: (F.faces.flatMap listTokens ++ .num F.cells.length :: (F.cells.flatMap listTokens ++ rest))) := by
    unfold loadVertices File.tokens
    simp only [List.cons_append, readNum, Res.bind, List.append_assoc]
    rw [readPoints_flatMap]
  unfold load
  rw [hv]
  simp only [Res.bind, loadFaces, readNum, Mesh.midElems, hm]
  rw [loadFaceList_fullFace res h0 F.faces _ 0 [] _ _ (by simp [resize]; omega) ⟨n, f, vs, ?_, hn, hle, hfull⟩]
  have hlf : n < fs.length := (List.getElem?_eq_some_iff.mp hf).1
  simp only [resize, Nat.sub_self, List.getElem?_cons_zero, Option.getD_some]
  rw [List.getElem?_append_left (by simp; omega), List.getElem?_take_of_lt hlt, hf]

end GTMesh.Fpma

namespace GTMesh.Vtk
open Spec
variable {R : Type}

/-- The first face of a known cell that is the first one, in a reserve that is too small for any face. -/
theorem loadCellList3Run_full (res : Nat) (h0 : 0 < res) (vs : List Idx) (polys : List (List Idx)) (c : Cell) (cs : List Cell)
    (hl : res < 3 ∨ (res = 3 ∧ (vs.length = 5 ∨ vs.length = 8))) (rest : List (VTok R)) (hvs : vs.length = 4 ∨ vs.length = 5 ∨ vs.length = 6 ∨ vs.length = 8) :
    ∃ es sub, loadCellList3Run res (c :: cs) 0 [] [] [] [] ((vs :: polys).flatMap lineTokens ++ rest) =
        .throw .runtimeError ({ c with index := 0 } :: cs, es, [{ sub := sub }]) ∧ sub.length = res := by
  simp only [loadCellList3Run]
  simp only [List.flatMap_cons, lineTokens, List.cons_append, List.append_assoc, readNum_num, Run.lift, Run.bind]
  rw [readNums_map]
  simp only
  rcases template_any vs.length with ⟨-, h⟩ | ⟨T, ht, hk, t1, t2, -⟩
  · omega
  rw [ht]
  obtain ⟨f, faces, hf, hf3⟩ : ∃ f faces, T.faces = f :: faces ∧ res < f.length := by
    rcases hvs with h | h | h | h <;> rw [h] at ht hl <;> cases ht <;>
      exact ⟨_, _, rfl, by simp only [List.length_cons, List.length_nil]; omega⟩
  obtain ⟨p, p1, p2, p3⟩ := templateEdges_any vs T.edges [] [] (DictIn.nil _) t1
  simp only
  rw [Run.eq_of_res_ok ((templateEdgesRun_res vs T.edges [] []).trans p1)]
  simp only [Run.within]
  obtain ⟨sub, s1, s2⟩ := forEach_any p.1 f (by rw [p3]; exact t2 f (by rw [hf]; simp))
  rw [hf]
  simp only [addCellFacesRun]
  rw [s1]
  simp only [Run.lift, Run.bind]
  have hg : findOrAddFaceRun res [] [] sub = .throw .runtimeError [{ sub := sub.take res }] := by
    unfold findOrAddFaceRun
    simp only [Dict.find, List.lookup_nil, List.nil_append]
    rw [if_pos ⟨by omega, by omega⟩]
  rw [hg]
  simp only [Run.within, Option.getD_none]
  exact ⟨p.2.2, sub.take res, rfl, by simp; omega⟩

/-- A whole file. -/
theorem load3Run_full [Zero R] (F : File R) (res : Nat) (h0 : 0 < res) (vs : List Idx) (hc : F.cells[0]? = some vs)
    (hl : res < 3 ∨ (res = 3 ∧ (vs.length = 5 ∨ vs.length = 8)))
    (hvs : vs.length = 4 ∨ vs.length = 5 ∨ vs.length = 6 ∨ vs.length = 8) (types : List Nat) (m : Mesh (Point3 R)) :
    ∃ s f, load3Run res F.tokens types m = .throw .runtimeError s ∧ s.vertices = F.verts ∧ s.mids = [[f]] ∧ f.index = INVALID ∧ f.sub.length = res ∧
      s.cells.length = F.cells.length ∧ (∀ c ∈ s.cells, c.bElem = INVALID) ∧ ∃ c, s.cells[0]? = some c ∧ c.index = 0 := by
  obtain ⟨polys, hp⟩ : ∃ polys, F.cells = vs :: polys := by
    cases h : F.cells with
    | nil => rw [h] at hc; simp at hc
    | cons a l => rw [h] at hc; simp at hc; exact ⟨l, by rw [hc]⟩
  obtain ⟨es, sub, e1, e2⟩ := loadCellList3Run_full (R := R) res h0 vs polys ({} : Cell) (List.replicate polys.length {}) hl (.nl :: typesTail F []) hvs
  have hm : (Mesh.midElems { m.clear with vertices := F.verts.map id } 2) = [] := by
    simp only [Mesh.midElems, Mesh.clear, List.getElem?_map]
    cases h : m.mids[2 - 2]? <;> rfl
  have a := (loadFromStreamRun_file fromVtk3 (id : R × R × R → R × R × R) (loadCells3Run res) F [] types m).1 .runtimeError
    { m.clear with vertices := F.verts.map id, cells := { ({} : Cell) with index := 0 } :: List.replicate polys.length {}, edges := es, mids := [[{ sub := sub }]] } (by
      unfold loadCells3Run
      simp only [readNum_num, Run.lift, Run.bind, ignoreLine]
      rw [hm]
      simp only [Mesh.clear]
      rw [show resize ([] : List Cell) F.cells.length {} = ({} : Cell) :: List.replicate polys.length {} by simp [resize, hp, List.replicate_succ]]
      rw [hp, e1]
      rfl)
  rw [List.append_nil] at a
  refine ⟨_, _, a, by simp, rfl, rfl, e2, by simp [hp], fun c hc => ?_, _, rfl, rfl⟩
  rcases List.mem_cons.mp hc with rfl | hc
  · rfl
  · rw [(List.mem_replicate.mp hc).2]

end GTMesh.Vtk
