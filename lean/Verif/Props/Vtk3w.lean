import Verif.Proofs.Vtk3w
import Verif.Props.Vtk3
import Verif.Props.Fpma

/-! # C27, C28: the cells exported by the 3D VTK writer, data columns, sizes -/

namespace GTMesh.Vtk
open Spec Std' GTMesh.Props
variable {R V P : Type}

/-! ## C27 -/

/-- The face record number `f`. -/
def faceAt (m : Mesh V) (f : Idx) : Face := ((m.midElems 2)[f]?).getD {}

theorem numFaces3 {m : Mesh V} (hd : m.dim = 3) : m.numElems 2 = (m.midElems 2).length := by
  simp only [Mesh.numElems, hd]
  rw [if_neg (by decide), if_neg (by decide), if_neg (by decide)]

theorem bd_lt {m : Mesh V} {bd : Idx → List Idx} (hd : m.dim = 3) (hv : ValidMesh m bd) {i : Nat} (hi : i < m.cells.length) :
    ∀ f ∈ bd i, f < (m.midElems 2).length := by
  intro f hf
  have := hv.range 3 i (by omega) (by omega) (by simpa [Mesh.numElems, hd] using hi) f (by simpa [directSubs, hd] using hf)
  rwa [numFaces3 hd] at this

theorem boundaryFaces_valid {m : Mesh V} {bd : Idx → List Idx} (hd : m.dim = 3) (hv : ValidMesh m bd) {i : Nat} {c : Cell}
    (hc : m.cells[i]? = some c) (hidx : c.index = i) : boundaryFaces m c = .ok ((bd i).map (faceAt m)) := by
  obtain ⟨h1, h2⟩ := hv.chain i c hc
  have hlt := bd_lt hd hv (List.getElem?_eq_some_iff.mp hc).1
  unfold boundaryFaces
  have := Mesh.cellLoop_chain (f := fun x => [faceAt m x])
    (body := fun f => (Res.at' (m.midElems 2) f).bind fun x => .ok [x]) h1 (by
      intro x hx
      have hx := hlt x hx
      rw [show Res.at' (m.midElems 2) x = .ok (faceAt m x) by simp [faceAt, hx]]
      rfl) h2 (m.numFaces + 1) 0 (List.length_pos_of_ne_nil h1.1)
      (by have := Mesh.chain_length (by omega) h1; omega)
  rw [hidx]
  obtain ⟨h0, h0'⟩ := List.getElem?_eq_some_iff.mp h2
  rw [h0'] at this
  rw [this, List.drop_zero]
  congr 1
  induction bd i with
  | nil => rfl
  | cons x xs ih => simp [ih]

theorem faceAt_index {m : Mesh V} (hn : Numbered m) {f : Idx} (h : f < (m.midElems 2).length) : (faceAt m f).index = f := by
  have := hn.faces f (m.midElems 2)[f] (by simp [h])
  simpa [faceAt, h] using this

theorem faceAt_sub (m : Mesh V) (f : Idx) : (faceAt m f).sub = edgesOfFace m f := by
  unfold faceAt edgesOfFace
  cases (m.midElems 2)[f]? <;> rfl

theorem zipIdx_replicate {α : Type} (a : α) (n st : Nat) :
    (List.replicate n a).zipIdx st = (List.range n).map fun k => (a, st + k) := by
  induction n generalizing st with
  | zero => rfl
  | succ n ih =>
    rw [List.replicate_succ, List.zipIdx_cons, ih, List.range_succ_eq_map, List.map_cons, List.map_map]
    simp [Function.comp_def]
    intro k _
    omega

/-- Positions of the exported cells of split cells, with the original cell. -/
def splitEntries (types : List Nat) (st : Nat) (os : List Idx) : List (Idx × Idx) :=
  ((os.zipIdx st).filter fun p => isSplit types p.1).map fun p => (p.2, p.1)

theorem splitEntries_append (types : List Nat) (st : Nat) (os os' : List Idx) :
    splitEntries types st (os ++ os') = splitEntries types st os ++ splitEntries types (st + os.length) os' := by
  simp [splitEntries, List.zipIdx_append]

theorem splitEntries_replicate (types : List Nat) (st n : Nat) (i : Idx) :
    splitEntries types st (List.replicate n i) =
      if isSplit types i then (List.range n).map fun k => (st + k, i) else [] := by
  unfold splitEntries
  rw [zipIdx_replicate, List.filter_map, List.map_map]
  cases h : isSplit types i with
  | true =>
    simp [h, Function.comp_def]
  | false => simp [h, Function.comp_def]

theorem entries_eq (types : List Nat) (p : Idx → Nat) : ∀ (cs : List Cell) (k st : Nat) (bs : List (List (List Idx))),
    bs.length = cs.length → (∀ (i : Nat) c, cs[i]? = some c → c.index = k + i) →
    (∀ (i : Nat) b, bs[i]? = some b → b.length = p (k + i)) →
    entries types st cs bs = splitEntries types st ((List.range' k cs.length).flatMap fun i => List.replicate (p i) i) := by
  intro cs
  induction cs with
  | nil => intro k st bs _ _ _; cases bs <;> simp [entries, splitEntries]
  | cons c cs ih =>
    intro k st bs hl hi hb
    cases bs with
    | nil => simp at hl
    | cons b bs =>
      have h0 := hi 0 c rfl
      have hb0 := hb 0 b rfl
      simp only [Nat.add_zero] at h0 hb0
      rw [entries, List.length_cons, List.range'_succ, List.flatMap_cons, splitEntries_append, splitEntries_replicate,
        h0, hb0, List.length_replicate]
      congr 1
      exact ih (k + 1) (st + p k) bs (by simpa using hl)
        (fun i c hc => by have := hi (i + 1) c (by simpa using hc); omega)
        (fun i b hc => by have := hb (i + 1) b (by simpa using hc); rw [this]; congr 1; omega)

/-- C27, with the function that gives the vertices of a cell which is not split. -/
theorem export_full (ori : Idx → Bool) (key : P → List Char) (cc fc : Idx → P) (m : Mesh V) (bd : Idx → List Idx)
    (types : List Nat) (w0 w : Writer3 P) (hd : m.dim = 3) (hv : ValidMesh m bd) (hn : Numbered m)
    (h : indexMesh3 ori key cc fc m types w0 = .ok w) :
    ∃ (blocks : List (List (List Idx))) (pt : P → Idx), blocks.length = m.cells.length ∧ w.cellVert = blocks.flatten ∧
      (∀ (i : Nat) b, blocks[i]? = some b → b.length = pieces m bd types i) ∧
      (∀ (i : Nat) b, blocks[i]? = some b → isSplit types i = true →
        b = (bd i).flatMap fun f => (edgesOfFace m f).map fun e =>
          [endA m.edges e, endB m.edges e, pt (fc f), pt (cc i)]) ∧
      (∀ (i : Nat), i < m.cells.length → isSplit types i = true → (∀ f ∈ bd i, edgesOfFace m f ≠ []) →
        ∀ p, p = cc i ∨ (∃ f ∈ bd i, p = fc f) →
          m.vertices.length ≤ pt p ∧ ∃ q, w.appended[pt p - m.vertices.length]? = some q ∧ key q = key p) ∧
      w.cellTypes.length = w.cellVert.length ∧
      (∀ (k : Nat) o, (origins (pieces m bd types) m.cells.length)[k]? = some o →
        w.cellTypes[k]? = if isSplit types o then some 300 else types[o]?) ∧
      (w.backward = (((origins (pieces m bd types) m.cells.length).zipIdx).filter fun p => isSplit types p.1).map
        fun p => (p.2, p.1)) ∧
      (∀ (i : Nat) b, blocks[i]? = some b → isSplit types i = false → ∃ c vs, m.cells[i]? = some c ∧ b = [vs] ∧
        knownVerts ori m types c = .ok vs) ∧
      (∀ p q, key p = key q → pt p = pt q) := by
  unfold indexMesh3 at h
  cases h1 : m.connectionsAsc 3 0 <;> rw [h1] at h <;> simp only [Res.bind, reduceCtorEq] at h
  cases h2 : foldRes (indexCell3 ori key cc fc m types) { w := {} } m.cells <;> rw [h2] at h <;>
    simp only [reduceCtorEq, Res.ok.injEq] at h
  rename_i s
  subst h
  obtain ⟨blocks, tss, b1, b2, b3, b4, b5⟩ := indexCells3_spec ori key cc fc m types m.cells _ s
    (by intro k i hk; simp [look] at hk) h2
  have hcell : ∀ (i : Nat) b, blocks[i]? = some b → ∃ c t, m.cells[i]? = some c ∧ c.index = i ∧ tss[i]? = some t ∧
      CellAdds ori key cc fc m types c s.dict b t (isSplit types i) := by
    intro i b hb
    have hi : i < m.cells.length := by rw [← b1]; exact (List.getElem?_eq_some_iff.mp hb).1
    obtain ⟨b', t, g1, g2, g3⟩ := b5 i m.cells[i] (by simp [hi])
    rw [hb] at g1
    cases g1
    have hidx := hn.cells i m.cells[i] (by simp [hi])
    rw [hidx] at g3
    exact ⟨m.cells[i], t, by simp [hi], hidx, g2, g3⟩
  have hrows : ∀ (i : Nat) b, blocks[i]? = some b → isSplit types i = true →
      b = (bd i).flatMap fun f => (edgesOfFace m f).map fun e =>
          [endA m.edges e, endB m.edges e, ptIdx key s.dict (fc f), ptIdx key s.dict (cc i)] := by
    intro i b hb hsp
    obtain ⟨c, t, c1, c2, c3, c4⟩ := hcell i b hb
    obtain ⟨_, fs, d2, d3, _⟩ := c4.split hsp
    rw [boundaryFaces_valid hd hv c1 c2] at d2
    cases d2
    have hlt := bd_lt hd hv (List.getElem?_eq_some_iff.mp c1).1
    rw [d3, tessRows, List.flatMap_map]
    apply List.flatMap_congr
    intro f hf
    rw [faceAt_index hn (hlt f hf), faceAt_sub, c2]
  have hlen : ∀ (i : Nat) b, blocks[i]? = some b → b.length = pieces m bd types i := by
    intro i b hb
    unfold pieces
    cases hsp : isSplit types i with
    | true =>
      rw [hrows i b hb hsp]
      simp [List.length_flatMap, faceEdgePairs]
    | false =>
      obtain ⟨c, t, c1, c2, c3, c4⟩ := hcell i b hb
      obtain ⟨vs, t', e1, _⟩ := c4.known hsp
      simp [e1]
  have htl : ∀ (i : Nat) b t, blocks[i]? = some b → tss[i]? = some t →
      t = List.replicate b.length ((if isSplit types i then some 300 else types[i]?).getD 0) ∧
      (isSplit types i = false → types[i]?.isSome) := by
    intro i b t hb ht
    obtain ⟨c, t', c1, c2, c3, c4⟩ := hcell i b hb
    rw [ht] at c3
    cases c3
    cases hsp : isSplit types i with
    | true => exact ⟨(c4.split hsp).1, by simp⟩
    | false =>
      obtain ⟨vs, t', e1, e2, e3, _⟩ := c4.known hsp
      rw [c2] at e3
      exact ⟨by simp [e1, e2, e3], fun _ => by simp [e3]⟩
  have hcv : s.w.cellVert = blocks.flatten := by simpa using b3.cells
  have hct : s.w.cellTypes = tss.flatten := by simpa using b3.types
  have hor : tss.flatten = (origins (pieces m bd types) m.cells.length).map
      fun o => ((if isSplit types o then some 300 else types[o]?).getD 0) := by
    unfold origins
    rw [List.map_flatMap, List.flatMap_def]
    congr 1
    apply List.ext_getElem
    · simp [b2]
    · intro i g1 g2
      have hi : i < blocks.length := by rw [b1, ← b2]; exact g1
      rw [(htl i blocks[i] tss[i] (by simp [hi]) (by simp [g1])).1]
      simp [hlen i blocks[i] (by simp [hi])]
  refine ⟨blocks, ptIdx key s.dict, b1, hcv, hlen, hrows, ?_, ?_, ?_, ?_, ?_, fun p q hk => by simp only [ptIdx, hk]⟩
  · intro i hi hsp hne p hp
    have hi' : i < blocks.length := by rw [b1]; exact hi
    obtain ⟨c, t, c1, c2, c3, c4⟩ := hcell i blocks[i] (by simp [hi'])
    obtain ⟨_, fs, d2, d3, d4, d5⟩ := c4.split hsp
    rw [boundaryFaces_valid hd hv c1 c2] at d2
    cases d2
    have hl : look s.dict (key p) ≠ none := by
      rcases hp with rfl | ⟨f, hf, rfl⟩
      · rw [← c2]; exact d4
      · have := d5 (faceAt m f) (List.mem_map_of_mem hf) (by rw [faceAt_sub]; exact hne f hf)
        rwa [faceAt_index hn (bd_lt hd hv hi f hf)] at this
    obtain ⟨j, hj⟩ := Option.ne_none_iff_exists'.mp hl
    rw [ptIdx_eq hj fun _ _ h => h]
    exact b4 _ _ hj
  · rw [hcv, hct, List.length_flatten, List.length_flatten]
    congr 1
    apply List.ext_getElem
    · simp [b1, b2]
    · intro i g1 g2
      simp only [List.length_map] at g1 g2
      rw [List.getElem_map, List.getElem_map, (htl i blocks[i] tss[i] (by simp [g2]) (by simp [g1])).1]
      simp
  · intro k o ho
    simp only
    rw [hct, hor, List.getElem?_map, ho]
    simp only [Option.map_some]
    cases hsp : isSplit types o with
    | true => rfl
    | false =>
      have hmem := List.mem_of_getElem? ho
      obtain ⟨i, hi, hrep⟩ := List.mem_flatMap.mp hmem
      have := List.eq_of_mem_replicate hrep
      subst this
      have hi := List.mem_range.mp hi
      have hb : o < blocks.length := by rw [b1]; exact hi
      have ht : o < tss.length := by rw [b2]; exact hi
      have := (htl o blocks[o] tss[o] (by simp [hb]) (by simp [ht])).2 hsp
      obtain ⟨t, ht⟩ := Option.isSome_iff_exists.mp this
      simp [ht]
  · have := b3.back
    simp only [List.nil_append] at this
    simp only
    rw [this, entries_eq types (pieces m bd types) m.cells 0 _ blocks b1
      (fun i c hc => by have := hn.cells i c hc; omega) (fun i b hb => by rw [Nat.zero_add]; exact hlen i b hb)]
    rw [← List.range_eq_range']
    rfl
  · intro i b hb hsp
    obtain ⟨c, t, c1, c2, c3, c4⟩ := hcell i b hb
    obtain ⟨vs, _, e1, _, _, e4⟩ := c4.known hsp
    exact ⟨c, vs, c1, e1, e4⟩

theorem foldRes_inv {α β : Type} {f : β → α → Res β} (I : β → Prop) : ∀ (l : List α) (b b' : β),
    (∀ a ∈ l, ∀ b b', I b → f b a = .ok b' → I b') → I b → foldRes f b l = .ok b' → I b' := by
  intro l
  induction l with
  | nil =>
    intro b b' _ hb h
    simp only [foldRes, Res.ok.injEq] at h
    exact h ▸ hb
  | cons a l ih =>
    intro b b' hf hb h
    simp only [foldRes] at h
    cases h1 : f b a <;> rw [h1] at h <;> simp only [Res.bind, reduceCtorEq] at h
    exact ih _ b' (fun x hx => hf x (by simp [hx])) (hf a (by simp) _ _ hb h1) h

theorem point_appended {key : P → List Char} {n : Nat} {s : IndexState P} {p q : P} (h : q ∈ (s.point key n p).2.w.appended) :
    q ∈ s.w.appended ∨ q = p := by
  unfold IndexState.point at h
  split at h
  · exact .inl h
  · simpa using h

theorem indexCell3_appended {ori : Idx → Bool} {key : P → List Char} {cc fc : Idx → P} {m : Mesh V} {types : List Nat} {c : Cell}
    {s s' : IndexState P} (h : indexCell3 ori key cc fc m types s c = .ok s') :
    s'.w.appended = s.w.appended ∨ (isSplit types c.index = true ∧ tessCell key fc m c (cc c.index) s = .ok s') := by
  unfold indexCell3 at h
  cases ht : types[c.index]? with
  | none => simp [Res.at', ht] at h
  | some t =>
    rw [show Res.at' types c.index = .ok t by simp [ht]] at h
    simp only [Res.bind] at h
    repeat' split at h
    all_goals first
      | (simp only [reduceCtorEq] at h; done)
      | (simp only [Res.ok.injEq] at h; subst h; exact .inl rfl)
      | (refine .inr ⟨?_, h⟩; simp_all [isSplit])

/-- Every appended point is the center of a split cell or of a face of it. -/
theorem appended_centers (ori : Idx → Bool) (key : P → List Char) (cc fc : Idx → P) (m : Mesh V) (bd : Idx → List Idx)
    (types : List Nat) (w0 w : Writer3 P) (hd : m.dim = 3) (hv : ValidMesh m bd) (hn : Numbered m)
    (h : indexMesh3 ori key cc fc m types w0 = .ok w) :
    ∀ q ∈ w.appended, ∃ i, i < m.cells.length ∧ isSplit types i = true ∧ (q = cc i ∨ ∃ f ∈ bd i, q = fc f) := by
  unfold indexMesh3 at h
  cases h1 : m.connectionsAsc 3 0 <;> rw [h1] at h <;> simp only [Res.bind, reduceCtorEq] at h
  cases h2 : foldRes (indexCell3 ori key cc fc m types) { w := {} } m.cells <;> rw [h2] at h <;>
    simp only [reduceCtorEq, Res.ok.injEq] at h
  rename_i s
  subst h
  refine foldRes_inv (fun s => ∀ q ∈ s.w.appended, ∃ i, i < m.cells.length ∧ isSplit types i = true ∧ (q = cc i ∨ ∃ f ∈ bd i, q = fc f))
    m.cells { w := {} } s ?_ (by intro q hq; simp at hq) h2
  intro c hc s s' hs hstep
  rcases indexCell3_appended hstep with he | ⟨hsp, ht⟩
  · rw [he]; exact hs
  obtain ⟨i, hi⟩ := List.getElem?_of_mem hc
  have hidx := hn.cells i c hi
  have hlt := (List.getElem?_eq_some_iff.mp hi).1
  unfold tessCell at ht
  rw [boundaryFaces_valid hd hv hi hidx] at ht
  simp only [Res.bind] at ht
  rw [hidx] at hsp ht
  refine foldRes_inv (fun s => ∀ q ∈ s.w.appended, ∃ i, i < m.cells.length ∧ isSplit types i = true ∧ (q = cc i ∨ ∃ f ∈ bd i, q = fc f))
    _ _ s' ?_ ?_ ht
  · intro f hf s s' hs hst
    obtain ⟨f0, hf0, rfl⟩ := List.mem_map.mp hf
    rw [faceAt_index hn (bd_lt hd hv hlt f0 hf0)] at hst
    refine foldRes_inv (fun s => ∀ q ∈ s.w.appended, ∃ i, i < m.cells.length ∧ isSplit types i = true ∧ (q = cc i ∨ ∃ f ∈ bd i, q = fc f))
      _ _ s' ?_ hs hst
    intro e _ s s' hs he
    unfold tessEdge at he
    cases h3 : Res.at' m.edges e <;> rw [h3] at he <;> simp only [Res.bind, reduceCtorEq, Res.ok.injEq] at he
    subst he
    intro q hq
    rcases point_appended hq with hq | rfl
    · exact hs q hq
    · exact ⟨i, hlt, hsp, .inr ⟨f0, hf0, rfl⟩⟩
  · intro q hq
    rcases point_appended hq with hq | rfl
    · exact hs q hq
    · exact ⟨i, hlt, hsp, .inl rfl⟩

/-- C27. When the writer has indexed a valid mesh, the exported cells are those of cell 0, then those of cell 1, and so
on; a cell that is not split has one, of its own type; a split cell has one tetrahedron for each of its faces and
each edge of the face, in order, made of the ends of the edge, the center of the face and the center of the cell (points
with the same text count as equal: `pt` gives the number of a point among those written); and the backward
mapping has exactly the exported cells of split cells as keys, in order, each with its original cell. -/
theorem C27_export (ori : Idx → Bool) (key : P → List Char) (cc fc : Idx → P) (m : Mesh V) (bd : Idx → List Idx)
    (types : List Nat) (w0 w : Writer3 P) (hd : m.dim = 3) (hv : ValidMesh m bd) (hn : Numbered m)
    (h : indexMesh3 ori key cc fc m types w0 = .ok w) :
    ∃ (blocks : List (List (List Idx))) (pt : P → Idx), blocks.length = m.cells.length ∧ w.cellVert = blocks.flatten ∧
      (∀ (i : Nat) b, blocks[i]? = some b → b.length = pieces m bd types i) ∧
      (∀ (i : Nat) b, blocks[i]? = some b → isSplit types i = true →
        b = (bd i).flatMap fun f => (edgesOfFace m f).map fun e =>
          [endA m.edges e, endB m.edges e, pt (fc f), pt (cc i)]) ∧
      (∀ (i : Nat), i < m.cells.length → isSplit types i = true → (∀ f ∈ bd i, edgesOfFace m f ≠ []) →
        ∀ p, p = cc i ∨ (∃ f ∈ bd i, p = fc f) →
          m.vertices.length ≤ pt p ∧ ∃ q, w.appended[pt p - m.vertices.length]? = some q ∧ key q = key p) ∧
      w.cellTypes.length = w.cellVert.length ∧
      (∀ (k : Nat) o, (origins (pieces m bd types) m.cells.length)[k]? = some o →
        w.cellTypes[k]? = if isSplit types o then some 300 else types[o]?) ∧
      w.backward = (((origins (pieces m bd types) m.cells.length).zipIdx).filter fun p => isSplit types p.1).map
        fun p => (p.2, p.1) := by
  obtain ⟨blocks, pt, h1, h2, h3, h4, h5, h6, h7, h8, _⟩ := export_full ori key cc fc m bd types w0 w hd hv hn h
  exact ⟨blocks, pt, h1, h2, h3, h4, h5, h6, h7, h8⟩

/-- A cell that is not split: its value is written when the next key is reached. -/
theorem column_skip {T : Type} (data : List T) (keys : List (Idx × Idx)) (r l : Nat) (hr : r < data.length) (x : T)
    (hx : data[r]? = some x) (rest : List T) (hk : ∀ p ∈ keys.head?, l < p.1)
    (h : column data keys (r + 1) (l + 1) = .ok rest) : column data keys r l = .ok (x :: rest) := by
  have e : ∀ (g : Nat → Res T) (n : Nat), forEach g ((List.range n).map Nat.succ) = forEach (fun j => g (j + 1)) (List.range n) := by
    intro g n
    generalize List.range n = l
    induction l with
    | nil => rfl
    | cons x xs ihx => simp [forEach, ihx]
  have first : ∀ n, forEach (fun j => Res.at' data (r + j)) (List.range (n + 1)) =
      (forEach (fun j => Res.at' data (r + 1 + j)) (List.range n)).bind fun ys => .ok (x :: ys) := by
    intro n
    rw [List.range_succ_eq_map, forEach, e]
    have e2 : (fun j => Res.at' data (r + (j + 1))) = fun j => Res.at' data (r + 1 + j) := by
      funext j; congr 1; omega
    rw [e2]
    simp only [Nat.add_zero]
    rw [show Res.at' data r = .ok x by simp [hx]]
    rfl
  cases keys with
  | nil =>
    simp only [column] at h ⊢
    rw [show data.length - r = (data.length - (r + 1)) + 1 by omega, first, h]
    rfl
  | cons p ks =>
    have hlt := hk p (by simp)
    simp only [column] at h ⊢
    rw [show p.1 - l = (p.1 - (l + 1)) + 1 by omega, first]
    rw [show max (l + 1) p.1 = max l p.1 by omega] at h
    cases h1 : forEach (fun j => Res.at' data (r + 1 + j)) (List.range (p.1 - (l + 1))) <;> rw [h1] at h <;>
      simp only [Res.bind, reduceCtorEq] at h
    cases h2 : Res.at' data p.2 <;> rw [h2] at h <;> simp only [reduceCtorEq] at h
    revert h
    generalize column data ks _ (max l p.1 + 1) = res
    intro h
    cases res <;> simp only [reduceCtorEq, Res.ok.injEq] at h
    subst h
    rfl

/-- A split cell: its value is written for each key. -/
theorem column_block {T : Type} (data : List T) (i : Nat) (x : T) (hx : data[i]? = some x) (keys : List (Idx × Idx))
    (hk : ∀ p ∈ keys.head?, p.2 ≠ i) (rest : List T) : ∀ (n l : Nat),
    column data keys (i + 1) (l + n + 1) = .ok rest →
    ∀ r, column data (((List.range (n + 1)).map fun k => (l + k, i)) ++ keys) r l = .ok (List.replicate (n + 1) x ++ rest) := by
  intro n
  induction n with
  | zero =>
    intro l h r
    have e1 : ((List.range (0 + 1)).map fun k => (l + k, i)) ++ keys = (l, i) :: keys := rfl
    rw [e1]
    simp only [column, Nat.sub_self, List.range_zero, forEach]
    rw [show Res.at' data i = .ok x by simp [hx]]
    have hc : lastOfCell i keys = true := by
      cases keys with
      | nil => rfl
      | cons p ks => simpa [lastOfCell] using (fun h => hk p (by simp) h.symm)
    rw [hc, Nat.max_self]
    simp only [Nat.add_zero] at h
    simp only [Res.bind, if_true]
    rw [h]
    rfl
  | succ n ih =>
    intro l h r
    rw [List.range_succ_eq_map, List.map_cons, List.map_map, List.cons_append]
    simp only [column, Nat.add_zero, Nat.sub_self, List.range_zero, forEach]
    rw [show Res.at' data i = .ok x by simp [hx]]
    simp only [Res.bind]
    have e : ((fun k => (l + k, i)) ∘ Nat.succ) = fun k => (l + 1 + k, i) := by funext k; simp; omega
    rw [e]
    rw [Nat.max_self, ih (l + 1) (by rw [← h]; congr 1; omega) _]
    rfl

theorem splitEntries_ge (types : List Nat) : ∀ (os : List Idx) (st : Nat), ∀ p ∈ splitEntries types st os, st ≤ p.1 ∧ p.2 ∈ os := by
  intro os st p hp
  simp only [splitEntries, List.mem_map, List.mem_filter] at hp
  obtain ⟨q, ⟨h1, _⟩, rfl⟩ := hp
  have := List.le_snd_of_mem_zipIdx h1
  have h2 := List.fst_mem_of_mem_zipIdx h1
  exact ⟨this, h2⟩

theorem column_spec {T : Type} (data : List T) (types : List Nat) (p : Idx → Nat) (hp : ∀ i, i < data.length → 0 < p i)
    (h1 : ∀ i, i < data.length → isSplit types i = false → p i = 1) :
    ∀ (n k st : Nat), k + n = data.length →
      column data (splitEntries types st ((List.range' k n).flatMap fun i => List.replicate (p i) i)) k st
        = .ok (((List.range' k n).flatMap fun i => List.replicate (p i) i).flatMap fun o => (data[o]?).toList) := by
  intro n
  induction n with
  | zero =>
    intro k st h
    simp [splitEntries, column, show data.length - k = 0 by omega, forEach]
  | succ n ih =>
    intro k st h
    have hk : k < data.length := by omega
    have ihk := ih (k + 1) (st + p k) (by omega)
    have hge := splitEntries_ge types ((List.range' (k + 1) n).flatMap fun i => List.replicate (p i) i) (st + p k)
    rw [List.range'_succ, List.flatMap_cons, splitEntries_append, splitEntries_replicate, List.length_replicate,
      List.flatMap_append]
    have hx : data[k]? = some data[k] := by simp [hk]
    have hrep : (List.replicate (p k) k).flatMap (fun o => (data[o]?).toList) = List.replicate (p k) data[k] := by
      rw [List.flatMap_replicate, hx]
      simp
    rw [hrep]
    cases hs : isSplit types k with
    | true =>
      obtain ⟨q, hq⟩ : ∃ q, p k = q + 1 := ⟨p k - 1, by have := hp k hk; omega⟩
      rw [hq] at ihk hge ⊢
      simp only [if_true]
      refine column_block data k _ hx _ ?_ _ q st ?_ k
      · intro e he
        have := (hge e (List.mem_of_mem_head? he)).2
        simp only [List.mem_flatMap, List.mem_range'_1, List.mem_replicate] at this
        obtain ⟨j, hj, _, rfl⟩ := this
        omega
      · rw [← ihk]; congr 1
    | false =>
      rw [h1 k hk hs] at ihk hge ⊢
      simp only [Bool.false_eq_true, if_false, List.nil_append, List.replicate_one, List.singleton_append]
      refine column_skip data _ k st hk _ hx _ ?_ ihk
      intro e he
      have := (hge e (List.mem_of_mem_head? he)).1
      omega

/-- C27. A data column written after the mesh has one entry for each exported cell, the value of the cell from which it
comes, provided that there is one value for each cell and every face has an edge. -/
theorem C27_column {T : Type} (ori : Idx → Bool) (key : P → List Char) (cc fc : Idx → P) (m : Mesh V) (bd : Idx → List Idx)
    (types : List Nat) (w0 w : Writer3 P) (hd : m.dim = 3) (hv : ValidMesh m bd) (hn : Numbered m)
    (he : ∀ f, f < (m.midElems 2).length → edgesOfFace m f ≠ [])
    (h : indexMesh3 ori key cc fc m types w0 = .ok w) (data : List T) (hdata : data.length = m.cells.length) :
    ∃ col, column data w.backward 0 0 = .ok col ∧ col.length = w.cellVert.length ∧
      (origins (pieces m bd types) m.cells.length).length = w.cellVert.length ∧
      ∀ (k : Nat) o, (origins (pieces m bd types) m.cells.length)[k]? = some o → col[k]? = data[o]? := by
  obtain ⟨blocks, pt, b1, b2, b3, b4, b5, b6, b7, b8⟩ := C27_export ori key cc fc m bd types w0 w hd hv hn h
  have hcol := column_spec data types (pieces m bd types) (by
      intro i hi
      rw [hdata] at hi
      unfold pieces
      split
      · have hne := (hv.chain i m.cells[i] (by simp [hi])).1.1
        obtain ⟨f, l, hl⟩ := List.exists_cons_of_ne_nil hne
        have hf := bd_lt hd hv hi f (by rw [hl]; simp)
        have := List.length_pos_of_ne_nil (he f hf)
        simp only [faceEdgePairs, hl, List.map_cons, List.sum_cons]
        omega
      · omega) (by
      intro i _ hs
      simp [pieces, hs]) data.length 0 0 (by omega)
  have hor : ((List.range' 0 data.length).flatMap fun i => List.replicate (pieces m bd types i) i)
      = origins (pieces m bd types) m.cells.length := by
    rw [← List.range_eq_range', hdata]; rfl
  rw [hor] at hcol
  have hrange : ∀ o ∈ origins (pieces m bd types) m.cells.length, o < data.length := by
    intro o ho
    obtain ⟨i, hi, hr⟩ := List.mem_flatMap.mp ho
    rw [List.eq_of_mem_replicate hr, hdata]
    exact List.mem_range.mp hi
  have hlen : (origins (pieces m bd types) m.cells.length).length = w.cellVert.length := by
    rw [b2, List.length_flatten, origins, List.length_flatMap]
    congr 1
    apply List.ext_getElem
    · simp [b1]
    · intro i g1 g2
      simp only [List.length_map] at g2
      simp [b3 i blocks[i] (by simp [g2])]
  have hmap : ∀ (os : List Idx), (∀ o ∈ os, o < data.length) →
      (os.flatMap fun o => (data[o]?).toList).length = os.length ∧
      ∀ (k : Nat) o, os[k]? = some o → (os.flatMap fun o => (data[o]?).toList)[k]? = data[o]? := by
    intro os
    induction os with
    | nil => intro _; simp
    | cons o os ih =>
      intro ho
      obtain ⟨i1, i2⟩ := ih fun x hx => ho x (by simp [hx])
      have h0 := ho o (by simp)
      have e : ((o :: os).flatMap fun o => (data[o]?).toList) = data[o] :: os.flatMap fun o => (data[o]?).toList := by
        simp [h0]
      rw [e]
      refine ⟨by simp [i1], fun k x hx => ?_⟩
      cases k with
      | zero => simp at hx; subst hx; simp [h0]
      | succ k => simpa using i2 k x (by simpa using hx)
  obtain ⟨g1, g2⟩ := hmap _ hrange
  refine ⟨_, ?_, by rw [g1, hlen], hlen, g2⟩
  rw [b8]
  exact hcol

/-- Example: the mesh of a hexahedron and a pyramid (C25), where the type of the second cell is not known (304). -/
def exampleMesh3 : Mesh (Point3 Int) :=
  match load3 4 exampleFile3.tokens [] { dim := 3 } with
  | .ok (m, _) => m
  | _ => { dim := 3 }

/-- The boundaries of its cells. -/
def exampleBd3 (i : Idx) : List Idx := if i = 0 then [0, 1, 2, 3, 4, 5] else [5, 6, 7, 8, 9]

/-- A text for positions with small coordinates. -/
def exampleKey (p : Point3 Int) : List Char := [p.1, p.2.1, p.2.2].map fun x => Char.ofNat (100 + x.toNat)

theorem exampleMesh3_valid : ValidMesh exampleMesh3 exampleBd3 := validB_sound (by decide +kernel)

theorem exampleMesh3_numbered : Numbered exampleMesh3 where
  cells := by
    intro i c h
    have hi := (List.getElem?_eq_some_iff.mp h).1
    have : ∀ (i : Nat) (hi : i < exampleMesh3.cells.length), exampleMesh3.cells[i].index = i := by decide +kernel
    have := this i hi
    simp [hi] at h
    rwa [h] at this
  faces := by
    intro i c h
    have hi := (List.getElem?_eq_some_iff.mp h).1
    have : ∀ (i : Nat) (hi : i < (exampleMesh3.midElems 2).length), (exampleMesh3.midElems 2)[i].index = i := by decide +kernel
    have := this i hi
    simp [hi] at h
    rwa [h] at this

/-- The pyramid goes into 16 tetrahedra, the hexahedron is kept; a column with the values 7 and 9. -/
example : ∃ w, indexMesh3 (fun _ => false) exampleKey (fun i => (5, i, i)) (fun i => (7, i, i)) exampleMesh3 [301, 304] {} = .ok w ∧
    w.cellVert.take 3 = [[0, 1, 2, 3, 4, 5, 6, 7], [4, 5, 10, 9], [5, 6, 10, 9]] ∧ w.cellVert.length = 17 ∧ w.total = 89 ∧
    w.appended.length = 6 ∧ w.backward.map (·.2) = List.replicate 16 1 ∧
    column [7, 9] w.backward 0 0 = .ok (7 :: List.replicate 16 9) := by
  refine ⟨_, rfl, ?_⟩
  decide +kernel

/-! ## C28 -/

/-- The number of integers in the lines of the cells. -/
def numbersIn (ts : List (VTok R)) : Nat := (ts.filter fun t => match t with | .num _ => true | _ => false).length

theorem numbersIn_append (a b : List (VTok R)) : numbersIn (a ++ b) = numbersIn a + numbersIn b := by
  simp [numbersIn]

theorem numbersIn_lines (cv : List (List Idx)) :
    numbersIn (cv.flatMap (cellLine (R := R))) = (cv.map fun l => l.length + 1).sum := by
  induction cv with
  | nil => rfl
  | cons l cv ih =>
    rw [List.flatMap_cons, numbersIn_append, ih, List.map_cons, List.sum_cons]
    congr 1
    simp only [cellLine, numbersIn, List.cons_append, List.filter_cons, if_true, List.length_cons, List.filter_append]
    have : ∀ l : List Idx, ((l.map (VTok.num (R := R))).filter fun t => match t with | .num _ => true | _ => false).length = l.length := by
      intro l; induction l with
      | nil => rfl
      | cons x xs ih => simp [ih]
    simp [this]

theorem totalNumbers_eq (cv : List (List Idx)) : totalNumbers cv = (cv.map fun l => l.length + 1).sum := by
  have := foldl_total cv 0
  simpa [totalNumbers] using this

/-- The sections of a VTK file: after the points the line `CELLS n k`, the lines `lines`, an empty line, the line
`CELL_TYPES n'` and the lines `typeLines`. -/
def CellSections (ts : List (VTok R)) (n k : Nat) (lines : List (List (VTok R))) (n' : Nat) (typeLines : List (List (VTok R))) : Prop :=
  ∃ pts, ts = pts ++ .word "CELLS" :: .num n :: .num k :: .nl :: (lines.flatten ++ .nl :: .word "CELL_TYPES" :: .num n' :: .nl ::
    (typeLines.flatten ++ [.nl]))

/-- C28 in 2D. The first number of the CELLS header is the number of lines that follow, the second one the number of
integers in these lines; CELL_TYPES announces as many entries, and has them if there is one type for each cell. -/
theorem C28_2d (zero : R) (m : Mesh (Point2 R)) (types : List Nat) (ts : List (VTok R)) (h : writeToStream2 zero m types = .ok ts) :
    ∃ n k lines typeLines, CellSections ts n k lines n typeLines ∧ n = m.cells.length ∧ lines.length = n ∧
      k = numbersIn lines.flatten ∧ typeLines.length = types.length := by
  unfold writeToStream2 at h
  cases h1 : indexMesh2 m <;> rw [h1] at h <;> simp only [Res.bind, reduceCtorEq] at h
  rename_i cv
  cases h2 : codes toVtk2 types <;> rw [h2] at h <;> simp only [reduceCtorEq, Res.ok.injEq] at h
  rename_i cs
  subst h
  have hl : ∀ {α β : Type} (f : α → Res β) (l : List α) r, forEach f l = .ok r → r.length = l.length := by
    intro α β f l
    induction l with
    | nil => intro r h; simp only [forEach, Res.ok.injEq] at h; subst h; rfl
    | cons x xs ih =>
      intro r h
      simp only [forEach] at h
      cases g : f x <;> rw [g] at h <;> simp only [Res.bind, reduceCtorEq] at h
      cases g2 : forEach f xs <;> rw [g2] at h <;> simp only [reduceCtorEq, Res.ok.injEq] at h
      subst h
      simp [ih _ g2]
  refine ⟨m.cells.length, totalNumbers cv, cv.map cellLine, cs.map fun c => [.num c, .nl],
    ⟨pointsSection (m.vertices.map fun p => (p.1, p.2, zero)), ?_⟩, rfl, ?_, ?_, ?_⟩
  · rw [List.append_assoc]
    congr 1
    simp [cellsSection, typesSection, List.flatMap_def]
  · simpa using hl _ _ _ h1
  · rw [totalNumbers_eq, ← List.flatMap_def, numbersIn_lines]
  · simpa using hl _ _ _ h2

/-- What one object of the 3D writer went through: writes of any meshes. -/
inductive Reachable3 : Writer3 (Point3 R) → Prop where
  | new : Reachable3 {}
  | write {w w' : Writer3 (Point3 R)} {ts : List (VTok R)} (ori : Idx → Bool) (key : Point3 R → List Char)
      (cc fc : Idx → Point3 R) (hash : Nat) (m : Mesh (Point3 R)) (types : List Nat) :
      Reachable3 w → writeToStream3 ori key cc fc hash m types w = .ok (w', ts) → Reachable3 w'

/-- `indexMesh` leaves a consistent writer. -/
theorem indexMesh3_consistent (ori : Idx → Bool) (key : P → List Char) (cc fc : Idx → P) (m : Mesh V) (types : List Nat)
    (w0 w : Writer3 P) (h : indexMesh3 ori key cc fc m types w0 = .ok w) :
    w.total = totalInt w.cellVert ∧ w.cellTypes.length = w.cellVert.length ∧ w.lastHash = w0.lastHash := by
  unfold indexMesh3 at h
  cases h1 : m.connectionsAsc 3 0 <;> rw [h1] at h <;> simp only [Res.bind, reduceCtorEq] at h
  cases h2 : foldRes (indexCell3 ori key cc fc m types) { w := {} } m.cells <;> rw [h2] at h <;>
    simp only [reduceCtorEq, Res.ok.injEq] at h
  rename_i s
  subst h
  obtain ⟨blocks, tss, b1, b2, b3, b4, b5⟩ := indexCells3_spec ori key cc fc m types m.cells _ s
    (by intro k i hk; simp [look] at hk) h2
  refine ⟨rfl, ?_, rfl⟩
  have hcv : s.w.cellVert = blocks.flatten := by simpa using b3.cells
  have hct : s.w.cellTypes = tss.flatten := by simpa using b3.types
  simp only
  rw [hcv, hct, List.length_flatten, List.length_flatten]
  congr 1
  apply List.ext_getElem
  · simp [b1, b2]
  · intro i g1 g2
    simp only [List.length_map] at g1 g2
    have hi : i < m.cells.length := by omega
    obtain ⟨b, t, c1, c2, c3⟩ := b5 i m.cells[i] (by simp [hi])
    have hb : blocks[i] = b := by simpa [g2] using c1
    have ht : tss[i] = t := by simpa [g1] using c2
    rw [List.getElem_map, List.getElem_map, hb, ht]
    cases hsp : isSplit types m.cells[i].index with
    | true => rw [(c3.split hsp).1]; simp
    | false =>
      obtain ⟨vs, t', e1, e2, _⟩ := c3.known hsp
      simp [e1, e2]

theorem Reachable3.consistent {w : Writer3 (Point3 R)} (h : Reachable3 w) :
    w.total = totalInt w.cellVert ∧ w.cellTypes.length = w.cellVert.length := by
  induction h with
  | new => exact ⟨rfl, rfl⟩
  | write ori key cc fc hash m types hw he ih =>
    rename_i w w' ts
    unfold writeToStream3 at he
    by_cases hh : w.lastHash ≠ hash
    · rw [if_pos hh] at he
      cases h1 : indexMesh3 ori key cc fc m types w <;> rw [h1] at he <;> simp only [Res.bind, reduceCtorEq] at he
      rename_i w1
      cases h2 : codes toVtk3 w1.cellTypes <;> rw [h2] at he <;> simp only [reduceCtorEq, Res.ok.injEq, Prod.mk.injEq] at he
      rw [← he.1]
      have := indexMesh3_consistent ori key cc fc m types w w1 h1
      exact ⟨this.1, this.2.1⟩
    · rw [if_neg hh] at he
      simp only [Res.bind] at he
      cases h2 : codes toVtk3 w.cellTypes <;> rw [h2] at he <;> simp only [reduceCtorEq, Res.ok.injEq, Prod.mk.injEq] at he
      rw [← he.1]
      exact ih

theorem asInt_small {n : Nat} (h : n < 2 ^ 31) : asInt n = n := by
  unfold asInt
  rw [Nat.mod_eq_of_lt (by omega), if_pos h]

theorem totalInt_small (cv : List (List Idx)) (h : (cv.map fun l => l.length + 1).sum < 2 ^ 31) :
    totalInt cv = (cv.map fun l => l.length + 1).sum := by
  have key : ∀ (cv : List (List Idx)) (t : Nat), t + (cv.map fun l => l.length + 1).sum < 2 ^ 31 →
      cv.foldl (fun cnt verts => asInt ((cnt + (verts.length + 1)) % 2 ^ 64)) t = t + (cv.map fun l => l.length + 1).sum := by
    intro cv
    induction cv with
    | nil => intro t _; simp
    | cons l cv ih =>
      intro t ht
      rw [List.map_cons, List.sum_cons] at ht ⊢
      rw [List.foldl_cons, Nat.mod_eq_of_lt (by omega), asInt_small (by omega), ih _ (by omega)]
      omega
  have := key cv 0 (by omega)
  simpa [totalInt] using this

theorem asInt_range (n : Nat) : asInt n < 2 ^ 31 ∨ 2 ^ 64 - 2 ^ 31 ≤ asInt n := by
  unfold asInt
  split <;> omega

theorem totalInt_range (cv : List (List Idx)) : totalInt cv < 2 ^ 31 ∨ 2 ^ 64 - 2 ^ 31 ≤ totalInt cv := by
  have key : ∀ (cv : List (List Idx)) (t : Nat), (t < 2 ^ 31 ∨ 2 ^ 64 - 2 ^ 31 ≤ t) →
      cv.foldl (fun cnt verts => asInt ((cnt + (verts.length + 1)) % 2 ^ 64)) t < 2 ^ 31 ∨
      2 ^ 64 - 2 ^ 31 ≤ cv.foldl (fun cnt verts => asInt ((cnt + (verts.length + 1)) % 2 ^ 64)) t := by
    intro cv
    induction cv with
    | nil => intro t ht; exact ht
    | cons l cv ih => intro t _; exact ih _ (asInt_range _)
  exact key cv 0 (Or.inl (by omega))

/-- C28 in 3D. Whatever a writer object wrote before, the numbers of the CELLS header and of CELL_TYPES are the real ones as
long as there are fewer than 2^31 integers. -/
theorem C28_3d_partial (ori : Idx → Bool) (key : Point3 R → List Char) (cc fc : Idx → Point3 R) (hash : Nat)
    (m : Mesh (Point3 R)) (types : List Nat) (w w' : Writer3 (Point3 R)) (ts : List (VTok R)) (hw : Reachable3 w)
    (h : writeToStream3 ori key cc fc hash m types w = .ok (w', ts)) :
    ∃ n k lines typeLines, CellSections ts n k lines n typeLines ∧ lines.length = n ∧ typeLines.length = n ∧
      (numbersIn lines.flatten < 2 ^ 31 → k = numbersIn lines.flatten) := by
  have hw' := Reachable3.write ori key cc fc hash m types hw h
  obtain ⟨c1, c2⟩ := hw'.consistent
  unfold writeToStream3 at h
  cases h1 : (if w.lastHash ≠ hash then indexMesh3 ori key cc fc m types w else .ok w) <;> rw [h1] at h <;>
    simp only [Res.bind, reduceCtorEq] at h
  rename_i w1
  cases h2 : codes toVtk3 w1.cellTypes <;> rw [h2] at h <;> simp only [reduceCtorEq, Res.ok.injEq, Prod.mk.injEq] at h
  rename_i cs
  obtain ⟨rfl, rfl⟩ := h
  simp only at c1 c2
  have hl : ∀ {α β : Type} (f : α → Res β) (l : List α) r, forEach f l = .ok r → r.length = l.length := by
    intro α β f l
    induction l with
    | nil => intro r h; simp only [forEach, Res.ok.injEq] at h; subst h; rfl
    | cons x xs ih =>
      intro r h
      simp only [forEach] at h
      cases g : f x <;> rw [g] at h <;> simp only [Res.bind, reduceCtorEq] at h
      cases g2 : forEach f xs <;> rw [g2] at h <;> simp only [reduceCtorEq, Res.ok.injEq] at h
      subst h
      simp [ih _ g2]
  refine ⟨w1.cellVert.length, w1.total, w1.cellVert.map cellLine, cs.map fun c => [.num c, .nl],
    ⟨pointsSection (m.vertices ++ w1.appended), ?_⟩, by simp, ?_, ?_⟩
  · rw [List.append_assoc]
    congr 1
    simp [typesSection, List.flatMap_def, c2]
  · rw [List.length_map, hl _ _ _ h2, c2]
  · intro hlt
    rw [← List.flatMap_def, numbersIn_lines] at hlt ⊢
    rw [c1, totalInt_small _ hlt]

/-- C28 is violated by the 3D writer when there are 2^31 integers or more: the sum is accumulated in an `int`. -/
theorem C28_int_overflow (cv : List (List Idx)) (h : 2 ^ 31 ≤ numbersIn (cv.flatMap (cellLine (R := R))))
    (h' : numbersIn (cv.flatMap (cellLine (R := R))) < 2 ^ 64 - 2 ^ 31) :
    totalInt cv ≠ numbersIn (cv.flatMap (cellLine (R := R))) := by
  have := totalInt_range cv
  omega

/-- Such a file: 2^30 lines with one vertex each. -/
example : ∃ cv : List (List Idx), 2 ^ 31 ≤ numbersIn (cv.flatMap (cellLine (R := Int))) ∧
    numbersIn (cv.flatMap (cellLine (R := Int))) < 2 ^ 64 - 2 ^ 31 := by
  refine ⟨List.replicate (2 ^ 30) [0], ?_⟩
  have hs : ∀ n a : Nat, (List.replicate n a).sum = n * a := by
    intro n a
    induction n with
    | zero => simp
    | succ n ih => rw [List.replicate_succ, List.sum_cons, ih, Nat.succ_mul, Nat.add_comm]
  rw [numbersIn_lines, List.map_replicate, hs]
  decide

end GTMesh.Vtk
