import Verif.Spec.Vtk3w
import Verif.Proofs.Apply

/-! # The exported cells of the 3D VTK writer -/

namespace GTMesh.Vtk
open Spec Std'
variable {V P : Type}

/-- Lookup in `appendedVertPos`. -/
def look (d : List (List Char × Idx)) (k : List Char) : Option Idx := (d.find? (fun e => e.1 == k)).map (·.2)

/-- The dictionary refers to appended positions with the right key. -/
def PointsOk (key : P → List Char) (n : Nat) (s : IndexState P) : Prop :=
  ∀ k i, look s.dict k = some i → n ≤ i ∧ ∃ p, s.w.appended[i - n]? = some p ∧ key p = k

/-- `s'` is `s` with the exported cells `rows` of types `ts` and the entries `bw` of the map added. -/
structure Adds (s s' : IndexState P) (rows : List (List Idx)) (ts : List Nat) (bw : List (Idx × Idx)) : Prop where
  cells : s'.w.cellVert = s.w.cellVert ++ rows
  types : s'.w.cellTypes = s.w.cellTypes ++ ts
  back : s'.w.backward = s.w.backward ++ bw
  dict : ∀ k i, look s.dict k = some i → look s'.dict k = some i
  pts : s.w.appended <+: s'.w.appended
  hash : s'.w.lastHash = s.w.lastHash

theorem Adds.refl (s : IndexState P) : Adds s s [] [] [] :=
  ⟨by simp, by simp, by simp, fun _ _ h => h, List.prefix_refl _, rfl⟩

theorem Adds.trans {s s' s'' : IndexState P} {r r' : List (List Idx)} {t t' : List Nat} {b b' : List (Idx × Idx)}
    (h : Adds s s' r t b) (h' : Adds s' s'' r' t' b') : Adds s s'' (r ++ r') (t ++ t') (b ++ b') :=
  ⟨by rw [h'.cells, h.cells, List.append_assoc], by rw [h'.types, h.types, List.append_assoc],
   by rw [h'.back, h.back, List.append_assoc], fun k i hk => h'.dict k i (h.dict k i hk), h.pts.trans h'.pts,
   h'.hash.trans h.hash⟩

theorem Adds.push (s : IndexState P) (vs : List Idx) (t : Nat) : Adds s (s.push vs t) [vs] [t] [] :=
  ⟨rfl, rfl, by simp [IndexState.push], fun _ _ h => h, List.prefix_refl _, rfl⟩

theorem look_append (d : List (List Char × Idx)) (k k' : List Char) (i : Idx) :
    look (d ++ [(k', i)]) k = (look d k).or (if k' == k then some i else none) := by
  unfold look
  rw [List.find?_append]
  cases hd : d.find? (fun e => e.1 == k) with
  | some e => simp
  | none =>
    simp only [Option.none_or, List.find?_cons, List.find?_nil]
    cases hk : (k' == k) <;> simp

theorem point_spec (key : P → List Char) (n : Nat) (s : IndexState P) (p : P) (h : PointsOk key n s) :
    Adds s (s.point key n p).2 [] [] [] ∧ PointsOk key n (s.point key n p).2 ∧
    look (s.point key n p).2.dict (key p) = some (s.point key n p).1 := by
  unfold IndexState.point
  cases hf : s.dict.find? (fun e => e.1 == key p) with
  | some e => exact ⟨Adds.refl s, h, by simp [look, hf]⟩
  | none =>
    have hl : look s.dict (key p) = none := by simp [look, hf]
    refine ⟨⟨by simp, by simp, by simp, ?_, ?_, rfl⟩, ?_, ?_⟩
    · intro k i hk
      simp only [look_append]
      rw [hk]; rfl
    · simp
    · intro k i hk
      simp only [look_append] at hk
      cases hk' : look s.dict k with
      | some j =>
        rw [hk'] at hk
        simp only [Option.some_or, Option.some.injEq] at hk
        subst hk
        obtain ⟨h1, q, h2, h3⟩ := h k j hk'
        refine ⟨h1, q, ?_, h3⟩
        simp only
        rw [List.getElem?_append_left (List.getElem?_eq_some_iff.mp h2).1]
        exact h2
      | none =>
        rw [hk'] at hk
        simp only [Option.none_or] at hk
        split at hk
        · simp only [Option.some.injEq] at hk
          subst hk
          rename_i he
          refine ⟨by omega, p, ?_, by simpa using he⟩
          simp
        · simp at hk
    · simp [look_append, hl]

/-- Index of a position according to the dictionary. -/
def ptIdx (key : P → List Char) (d : List (List Char × Idx)) (p : P) : Idx := (look d (key p)).getD 0

theorem ptIdx_eq {key : P → List Char} {d d' : List (List Char × Idx)} {p : P} {i : Idx} (h : look d (key p) = some i)
    (hd : ∀ k i, look d k = some i → look d' k = some i) : ptIdx key d' p = i := by
  simp [ptIdx, hd _ _ h]

/-- The tetrahedra of one face. -/
theorem tessFace_spec (key : P → List Char) (n : Nat) (edges : List Edge) (cell cc : Idx) (fcp : P) :
    ∀ (subs : List Idx) (s s' : IndexState P), PointsOk key n s →
      foldRes (tessEdge key n edges cell cc fcp) s subs = .ok s' →
      Adds s s' (subs.map fun e => [endA edges e, endB edges e, ptIdx key s'.dict fcp, cc])
        (List.replicate subs.length 300) ((List.range subs.length).map fun k => (s.w.cellVert.length + k, cell)) ∧
      PointsOk key n s' ∧ (subs ≠ [] → look s'.dict (key fcp) ≠ none) := by
  intro subs
  induction subs with
  | nil =>
    intro s s' hs h
    simp only [foldRes, Res.ok.injEq] at h
    subst h
    exact ⟨Adds.refl s, hs, by simp⟩
  | cons e es ih =>
    intro s s' hs h
    simp only [foldRes, tessEdge] at h
    cases he : edges[e]? with
    | none => simp [Res.at', he] at h
    | some ed =>
      rw [show Res.at' edges e = .ok ed by simp [he]] at h
      simp only [Res.bind] at h
      obtain ⟨p1, p2, p3⟩ := point_spec key n s fcp hs
      generalize hr : s.point key n fcp = r at h p1 p2 p3
      have hs1 : PointsOk key n (IndexState.push { r.2 with w := { r.2.w with
          backward := r.2.w.backward ++ [(r.2.w.cellVert.length, cell)] } } [ed.a, ed.b, r.1, cc] 300) := p2
      obtain ⟨a1, a2, _⟩ := ih _ s' hs1 h
      have hd : look s'.dict (key fcp) = some r.1 := a1.dict _ _ p3
      have hcl : r.2.w.cellVert = s.w.cellVert := by simpa using p1.cells
      have hstep : Adds s (IndexState.push { r.2 with w := { r.2.w with
          backward := r.2.w.backward ++ [(r.2.w.cellVert.length, cell)] } } [ed.a, ed.b, r.1, cc] 300)
          [[ed.a, ed.b, r.1, cc]] [300] [(s.w.cellVert.length, cell)] := by
        refine ⟨?_, ?_, ?_, p1.dict, p1.pts, p1.hash⟩
        · simp [IndexState.push, hcl]
        · have := p1.types
          simp only [List.append_nil] at this
          simp [IndexState.push, this]
        · have := p1.back
          simp only [List.append_nil] at this
          simp [IndexState.push, this, hcl]
      refine ⟨?_, a2, fun _ => by simp [hd]⟩
      have := hstep.trans a1
      convert this using 1
      · simp [endA, endB, he, ptIdx, hd]
      · simp [List.replicate_succ]
      · simp only [List.length_cons, List.range_succ_eq_map, List.map_cons, List.map_map, List.singleton_append]
        refine congrArg₂ List.cons rfl (List.map_congr_left fun k _ => ?_)
        simp [IndexState.push, hcl]
        omega

/-- The tetrahedra of one cell: rows. -/
def tessRows (key : P → List Char) (d : List (List Char × Idx)) (edges : List Edge) (fc : Idx → P) (ccp : P)
    (fs : List Face) : List (List Idx) :=
  fs.flatMap fun f => f.sub.map fun e => [endA edges e, endB edges e, ptIdx key d (fc f.index), ptIdx key d ccp]

theorem tessFaces_spec (key : P → List Char) (n : Nat) (edges : List Edge) (fc : Idx → P) (cell cc : Idx) :
    ∀ (fs : List Face) (s s' : IndexState P), PointsOk key n s →
      foldRes (fun s f => foldRes (tessEdge key n edges cell cc (fc f.index)) s f.sub) s fs = .ok s' →
      Adds s s' (fs.flatMap fun f => f.sub.map fun e => [endA edges e, endB edges e, ptIdx key s'.dict (fc f.index), cc])
        (List.replicate ((fs.map fun f => f.sub.length).sum) 300)
        ((List.range ((fs.map fun f => f.sub.length).sum)).map fun k => (s.w.cellVert.length + k, cell)) ∧
      PointsOk key n s' ∧ (∀ f ∈ fs, f.sub ≠ [] → look s'.dict (key (fc f.index)) ≠ none) := by
  intro fs
  induction fs with
  | nil =>
    intro s s' hs h
    simp only [foldRes, Res.ok.injEq] at h
    subst h
    exact ⟨Adds.refl s, hs, by simp⟩
  | cons f fs ih =>
    intro s s' hs h
    simp only [foldRes] at h
    cases hf : foldRes (tessEdge key n edges cell cc (fc f.index)) s f.sub <;> rw [hf] at h <;>
      simp only [Res.bind, reduceCtorEq] at h
    rename_i s1
    obtain ⟨a1, a2, a3⟩ := tessFace_spec key n edges cell cc (fc f.index) f.sub s s1 hs hf
    obtain ⟨b1, b2, b3⟩ := ih s1 s' a2 h
    refine ⟨?_, b2, ?_⟩
    · have := a1.trans b1
      convert this using 1
      · simp only [List.flatMap_cons]
        congr 1
        apply List.map_congr_left
        intro e he
        have hne : f.sub ≠ [] := by rintro hh; rw [hh] at he; simp at he
        obtain ⟨i, hi⟩ := Option.ne_none_iff_exists'.mp (a3 hne)
        rw [ptIdx_eq hi b1.dict, ptIdx_eq hi fun _ _ h => h]
      · simp [List.replicate_append_replicate]
      · rw [List.map_cons, List.sum_cons, List.range_add, List.map_append, List.map_map]
        congr 1
        apply List.map_congr_left
        intro k _
        simp [a1.cells]
        omega
    · intro g hg hne
      rcases List.mem_cons.mp hg with rfl | hg
      · obtain ⟨i, hi⟩ := Option.ne_none_iff_exists'.mp (a3 hne)
        rw [b1.dict _ _ hi]; simp
      · exact b3 g hg hne

/-- The vertices written for a cell of a known type. -/
def knownVerts (ori : Idx → Bool) (m : Mesh V) (types : List Nat) (c : Cell) : Res (List Idx) :=
  (Res.at' types c.index).bind fun t =>
  if t = 300 then (Res.at' (m.midElems 2) c.bElem).bind fun f => indexPyramid ori m c.index f
  else if t = 303 then
    (visitedFaces m c.index).bind fun fs => (deref (pyramidBase fs)).bind fun f => indexPyramid ori m c.index f
  else if t = 302 then
    (visitedFaces m c.index).bind fun fs => (deref (wedgeBase fs)).bind fun f => indexLinear ori m c.index f
  else (Res.at' (m.midElems 2) c.bElem).bind fun f => indexLinear ori m c.index f

/-- What one cell adds. -/
structure CellAdds (ori : Idx → Bool) (key : P → List Char) (cc fc : Idx → P) (m : Mesh V) (types : List Nat) (c : Cell)
    (d : List (List Char × Idx)) (rows : List (List Idx)) (ts : List Nat) (sp : Bool) : Prop where
  isSp : sp = isSplit types c.index
  known : sp = false → ∃ vs t, rows = [vs] ∧ ts = [t] ∧ types[c.index]? = some t ∧ knownVerts ori m types c = .ok vs
  split : sp = true → ts = List.replicate rows.length 300 ∧ ∃ fs, boundaryFaces m c = .ok fs ∧
    rows = tessRows key d m.edges fc (cc c.index) fs ∧ look d (key (cc c.index)) ≠ none ∧
    ∀ f ∈ fs, f.sub ≠ [] → look d (key (fc f.index)) ≠ none

theorem CellAdds.mono {ori : Idx → Bool} {key : P → List Char} {cc fc : Idx → P} {m : Mesh V} {types : List Nat} {c : Cell}
    {d d' : List (List Char × Idx)} {rows : List (List Idx)} {ts : List Nat} {sp : Bool}
    (h : CellAdds ori key cc fc m types c d rows ts sp) (hd : ∀ k i, look d k = some i → look d' k = some i) :
    CellAdds ori key cc fc m types c d' rows ts sp := by
  refine ⟨h.isSp, h.known, fun hs => ?_⟩
  obtain ⟨h1, fs, h2, h3, h4, h5⟩ := h.split hs
  obtain ⟨i, hi⟩ := Option.ne_none_iff_exists'.mp h4
  refine ⟨h1, fs, h2, ?_, by rw [hd _ _ hi]; simp, fun f hf hne => ?_⟩
  · rw [h3]
    unfold tessRows
    apply List.flatMap_congr
    intro f hf
    apply List.map_congr_left
    intro e he
    have hne : f.sub ≠ [] := by rintro hh; rw [hh] at he; simp at he
    obtain ⟨j, hj⟩ := Option.ne_none_iff_exists'.mp (h5 f hf hne)
    rw [ptIdx_eq hj fun _ _ h => h, ptIdx_eq hj hd, ptIdx_eq hi fun _ _ h => h, ptIdx_eq hi hd]
  · obtain ⟨j, hj⟩ := Option.ne_none_iff_exists'.mp (h5 f hf hne)
    rw [hd _ _ hj]; simp

theorem tessRows_length (key : P → List Char) (d : List (List Char × Idx)) (edges : List Edge) (fc : Idx → P) (ccp : P)
    (fs : List Face) : (tessRows key d edges fc ccp fs).length = (fs.map fun f => f.sub.length).sum := by
  simp [tessRows, List.length_flatMap]

/-- One cell. -/
theorem indexCell3_spec (ori : Idx → Bool) (key : P → List Char) (cc fc : Idx → P) (m : Mesh V) (types : List Nat)
    (c : Cell) (s s' : IndexState P) (hs : PointsOk key m.vertices.length s)
    (h : indexCell3 ori key cc fc m types s c = .ok s') :
    ∃ rows ts, CellAdds ori key cc fc m types c s'.dict rows ts (isSplit types c.index) ∧
      Adds s s' rows ts (if isSplit types c.index then (List.range rows.length).map fun k => (s.w.cellVert.length + k, c.index)
        else []) ∧ PointsOk key m.vertices.length s' := by
  unfold indexCell3 at h
  cases ht : types[c.index]? with
  | none => simp [Res.at', ht] at h
  | some t =>
    rw [show Res.at' types c.index = .ok t by simp [ht]] at h
    simp only [Res.bind] at h
    have known : ∀ vs, isSplit types c.index = false → knownVerts ori m types c = .ok vs → s' = s.push vs t →
        ∃ rows ts, CellAdds ori key cc fc m types c s'.dict rows ts (isSplit types c.index) ∧
          Adds s s' rows ts (if isSplit types c.index then (List.range rows.length).map fun k => (s.w.cellVert.length + k, c.index)
            else []) ∧ PointsOk key m.vertices.length s' := by
      intro vs hsp hv he
      subst he
      rw [hsp]
      refine ⟨[vs], [t], ⟨hsp.symm, fun _ => ⟨vs, t, rfl, rfl, ht, hv⟩, by simp⟩, Adds.push s vs t, hs⟩
    by_cases h0 : t = 300
    · rw [if_pos h0] at h
      cases hf : Res.at' (m.midElems 2) c.bElem <;> rw [hf] at h <;> simp only [reduceCtorEq] at h
      rename_i f
      cases hp : indexPyramid ori m c.index f <;> rw [hp] at h <;> simp only [reduceCtorEq, Res.ok.injEq] at h
      refine known _ (by simp [isSplit, ht, h0]) ?_ h.symm
      unfold knownVerts
      rw [show Res.at' types c.index = .ok t by simp [ht]]
      simp only [Res.bind]
      rw [if_pos h0, hf]
      exact hp
    · rw [if_neg h0] at h
      by_cases h3 : t = 303
      · rw [if_pos h3] at h
        cases hf : visitedFaces m c.index <;> rw [hf] at h <;> simp only [reduceCtorEq] at h
        rename_i fs
        cases hf' : deref (pyramidBase fs) <;> rw [hf'] at h <;> simp only [reduceCtorEq] at h
        rename_i f
        cases hp : indexPyramid ori m c.index f <;> rw [hp] at h <;> simp only [reduceCtorEq, Res.ok.injEq] at h
        refine known _ (by simp [isSplit, ht, h3]) ?_ h.symm
        unfold knownVerts
        rw [show Res.at' types c.index = .ok t by simp [ht]]
        simp only [Res.bind]
        rw [if_neg h0, if_pos h3, hf]
        simp only
        rw [hf']
        exact hp
      · rw [if_neg h3] at h
        by_cases h2 : t = 302
        · rw [if_pos h2] at h
          cases hf : visitedFaces m c.index <;> rw [hf] at h <;> simp only [reduceCtorEq] at h
          rename_i fs
          cases hf' : deref (wedgeBase fs) <;> rw [hf'] at h <;> simp only [reduceCtorEq] at h
          rename_i f
          cases hp : indexLinear ori m c.index f <;> rw [hp] at h <;> simp only [reduceCtorEq, Res.ok.injEq] at h
          refine known _ (by simp [isSplit, ht, h2]) ?_ h.symm
          unfold knownVerts
          rw [show Res.at' types c.index = .ok t by simp [ht]]
          simp only [Res.bind]
          rw [if_neg h0, if_neg h3, if_pos h2, hf]
          simp only
          rw [hf']
          exact hp
        · rw [if_neg h2] at h
          by_cases h1 : t = 301
          · rw [if_pos h1] at h
            cases hf : Res.at' (m.midElems 2) c.bElem <;> rw [hf] at h <;> simp only [reduceCtorEq] at h
            rename_i f
            cases hp : indexLinear ori m c.index f <;> rw [hp] at h <;> simp only [reduceCtorEq, Res.ok.injEq] at h
            refine known _ (by simp [isSplit, ht, h1]) ?_ h.symm
            unfold knownVerts
            rw [show Res.at' types c.index = .ok t by simp [ht]]
            simp only [Res.bind]
            rw [if_neg h0, if_neg h3, if_neg h2, hf]
            exact hp
          · rw [if_neg h1] at h
            have hsp : isSplit types c.index = true := by simp [isSplit, ht, h0, h1, h2, h3]
            rw [hsp]
            simp only [if_true]
            unfold tessCell at h
            obtain ⟨p1, p2, p3⟩ := point_spec key m.vertices.length s (cc c.index) hs
            generalize s.point key m.vertices.length (cc c.index) = r at h p1 p2 p3
            cases hb : boundaryFaces m c <;> rw [hb] at h <;> simp only [Res.bind, reduceCtorEq] at h
            rename_i fs
            obtain ⟨a1, a2, a3⟩ := tessFaces_spec key m.vertices.length m.edges fc c.index r.1 fs r.2 s' p2 h
            have hcc : ptIdx key s'.dict (cc c.index) = r.1 := ptIdx_eq p3 a1.dict
            refine ⟨tessRows key s'.dict m.edges fc (cc c.index) fs, List.replicate ((fs.map fun f => f.sub.length).sum) 300, ?_, ?_, a2⟩
            · refine ⟨hsp.symm, by simp, fun _ => ⟨by rw [tessRows_length], fs, hb, rfl, ?_, a3⟩⟩
              rw [a1.dict _ _ p3]; simp
            · have := p1.trans a1
              simp only [List.nil_append] at this
              convert this using 1
              · simp [tessRows, hcc]
              · rw [tessRows_length]
                apply List.map_congr_left
                intro k _
                have := p1.cells
                simp only [List.append_nil] at this
                rw [this]

/-- The entries of the map. -/
def entries (types : List Nat) : Nat → List Cell → List (List (List Idx)) → List (Idx × Idx)
  | st, c :: cs, b :: bs =>
    (if isSplit types c.index then (List.range b.length).map fun k => (st + k, c.index) else []) ++
      entries types (st + b.length) cs bs
  | _, _, _ => []

/-- All cells. -/
theorem indexCells3_spec (ori : Idx → Bool) (key : P → List Char) (cc fc : Idx → P) (m : Mesh V) (types : List Nat) :
    ∀ (cs : List Cell) (s s' : IndexState P), PointsOk key m.vertices.length s →
      foldRes (indexCell3 ori key cc fc m types) s cs = .ok s' →
      ∃ (blocks : List (List (List Idx))) (tss : List (List Nat)), blocks.length = cs.length ∧ tss.length = cs.length ∧
        Adds s s' blocks.flatten tss.flatten (entries types s.w.cellVert.length cs blocks) ∧
        PointsOk key m.vertices.length s' ∧
        ∀ (i : Nat) c, cs[i]? = some c → ∃ b t, blocks[i]? = some b ∧ tss[i]? = some t ∧
          CellAdds ori key cc fc m types c s'.dict b t (isSplit types c.index) := by
  intro cs
  induction cs with
  | nil =>
    intro s s' hs h
    simp only [foldRes, Res.ok.injEq] at h
    subst h
    exact ⟨[], [], rfl, rfl, Adds.refl s, hs, by simp⟩
  | cons c cs ih =>
    intro s s' hs h
    simp only [foldRes] at h
    cases hf : indexCell3 ori key cc fc m types s c <;> rw [hf] at h <;> simp only [Res.bind, reduceCtorEq] at h
    rename_i s1
    obtain ⟨b, t, a1, a2, a3⟩ := indexCell3_spec ori key cc fc m types c s s1 hs hf
    obtain ⟨bs, ts, b1, b2, b3, b4, b5⟩ := ih s1 s' a3 h
    refine ⟨b :: bs, t :: ts, by simp [b1], by simp [b2], ?_, b4, ?_⟩
    · have := a2.trans b3
      rw [a2.cells, List.length_append] at this
      exact this
    · intro i c' hi
      cases i with
      | zero => simp at hi; subst hi; exact ⟨b, t, by simp, by simp, a1.mono b3.dict⟩
      | succ i => simpa using b5 i c' (by simpa using hi)

end GTMesh.Vtk
