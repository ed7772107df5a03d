import Verif.Proofs.Vtk2b
import Verif.Proofs.Vtk3b

/-! # VTK files of which the numbers are arbitrary -/

namespace GTMesh.Vtk
open Spec
variable {R : Type}

/-- The dictionary leads to entries of a list with `n` entries. -/
def DictIn (d : Dict) (n : Nat) : Prop := ∀ k i, d.find k = some i → i < n

theorem DictIn.nil (n : Nat) : DictIn [] n := fun _ _ h => by simp [Dict.find] at h

theorem DictIn.mono {d : Dict} {n k : Nat} (h : DictIn d n) (hk : n ≤ k) : DictIn d k := fun s i hi => Nat.lt_of_lt_of_le (h s i hi) hk

theorem DictIn.put {d : Dict} {n : Nat} (h : DictIn d n) (k : List Char) {i : Idx} (hi : i < n) : DictIn (d.put k i) n := by
  intro s j hj
  simp only [Dict.find, Dict.put, List.lookup_cons] at hj
  by_cases hs : s = k
  · simp [hs] at hj; omega
  · rw [show (s == k) = false by simpa using hs] at hj
    exact h s j hj

theorem findOrAddEdge_any {d : Dict} {es : List Edge} (h : DictIn d es.length) (a b : Idx) :
    DictIn (findOrAddEdge d es a b).1 (findOrAddEdge d es a b).2.1.length ∧
    (findOrAddEdge d es a b).2.2.1 < (findOrAddEdge d es a b).2.1.length ∧ es.length ≤ (findOrAddEdge d es a b).2.1.length := by
  unfold findOrAddEdge
  cases hf : d.find (edgeKey a b) with
  | none =>
    simp only [List.length_append, List.length_cons, List.length_nil]
    exact ⟨(h.mono (Nat.le_succ _)).put _ (by omega), by omega, by omega⟩
  | some i => exact ⟨h, h _ _ hf, Nat.le_refl _⟩

theorem modifyAt_any {α : Type} {l : List α} {i : Nat} (h : i < l.length) (f : α → α) : ∃ l', modifyAt l i f = .ok l' ∧ l'.length = l.length := by
  unfold modifyAt
  rw [show Res.at' l i = .ok l[i] by simp [h]]
  exact ⟨_, rfl, by simp⟩

theorem linkFacet_any {α : Type} (wc : (Conn → Conn) → α → α) (cell prev first e : Idx) (isNew isLast : Bool) {fs : List α}
    (he : e < fs.length) (hp : prev = INVALID ∨ prev < fs.length) :
    ∃ fs', linkFacet wc cell prev first e isNew isLast fs = .ok fs' ∧ fs'.length = fs.length := by
  unfold linkFacet
  obtain ⟨f1, h1, l1⟩ := modifyAt_any he (wc fun c => if isNew then c.setCellLeftIndex cell else c.setCellRightIndex cell)
  rw [h1]
  simp only [Res.bind]
  obtain ⟨f2, h2, l2⟩ : ∃ f2, (if prev ≠ INVALID then modifyAt f1 prev (wc fun c => (c.setNextBElem e cell).1) else .ok f1) = .ok f2 ∧ f2.length = fs.length := by
    by_cases h : prev = INVALID
    · exact ⟨f1, by simp [h], l1⟩
    · rw [if_pos h]
      obtain ⟨f2, a, b⟩ := modifyAt_any (l := f1) (by rw [l1]; exact hp.resolve_left h) (wc fun c => (c.setNextBElem e cell).1)
      exact ⟨f2, a, b.trans l1⟩
  rw [h2]
  simp only
  by_cases h : isLast
  · rw [if_pos h]
    obtain ⟨f3, a, b⟩ := modifyAt_any (l := f2) (by rw [l2]; exact he) (wc fun c => (c.setNextBElem first cell).1)
    exact ⟨f3, a, b.trans l2⟩
  · rw [if_neg h]
    exact ⟨f2, rfl, l2⟩

theorem addCellEdges_any (cell : Idx) : ∀ (ps : List (Idx × Idx)) (prev : Idx) (first : Option Idx) (d : Dict) (es : List Edge),
    DictIn d es.length → (prev = INVALID ∨ prev < es.length) →
    ∃ r, addCellEdges cell prev first d es ps = .ok r ∧ DictIn r.2.1 r.2.2.length := by
  intro ps
  induction ps with
  | nil => intro prev first d es h _; exact ⟨_, rfl, h⟩
  | cons p ps ih =>
    intro prev first d es h hp
    obtain ⟨h1, h2, h3⟩ := findOrAddEdge_any h p.1 p.2
    obtain ⟨es1, g1, g2⟩ := linkFacet_any edgeConn cell prev (first.getD (findOrAddEdge d es p.1 p.2).2.2.1) _
      (findOrAddEdge d es p.1 p.2).2.2.2 (decide (ps = [])) h2 (hp.imp_right fun h => Nat.lt_of_lt_of_le h h3)
    simp only [addCellEdges]
    rw [g1]
    exact ih _ _ _ es1 (by rw [g2]; exact h1) (.inr (by rw [g2]; exact h2))

theorem loadCellList2_any : ∀ (polys : List (List Idx)) (cs : List Cell) (k : Nat) (d : Dict) (es : List Edge) (ts rest : List (VTok R)),
    DictIn d es.length → cs.length = polys.length → skipNl ts = skipNl (polys.flatMap lineTokens ++ rest) →
    ∃ cs' es' r, loadCellList2 cs k d es ts = .ok (cs', es', r) ∧ skipNl r = skipNl rest ∧ cs'.length = polys.length := by
  intro polys
  induction polys with
  | nil =>
    intro cs k d es ts rest _ hcs hts
    rw [List.length_eq_zero_iff.mp hcs]
    exact ⟨[], es, ts, rfl, by simpa using hts, rfl⟩
  | cons vs polys ih =>
    intro cs k d es ts rest h hcs hts
    obtain ⟨c0, cs, rfl⟩ : ∃ c cs', cs = c :: cs' := by
      cases cs with
      | nil => simp at hcs
      | cons c cs => exact ⟨c, cs, rfl⟩
    obtain ⟨p, g1, g2⟩ := addCellEdges_any k (consecutive vs) INVALID none d es h (.inl rfl)
    obtain ⟨cs', es', r, e1, e2, e3⟩ := ih cs (k + 1) p.2.1 p.2.2 (.nl :: (polys.flatMap lineTokens ++ rest)) rest g2 (by simpa using hcs) rfl
    refine ⟨{ index := k, bElem := p.1.getD c0.bElem } :: cs', es', r, ?_, e2, by simp [e3]⟩
    simp only [loadCellList2]
    rw [readNum_congr hts]
    simp only [List.flatMap_cons, lineTokens, List.cons_append, List.append_assoc, readNum_num, Res.bind]
    rw [readNums_map]
    simp only
    rw [g1]
    simp only [List.nil_append]
    rw [e1]

/-! ## Three dimensions -/

theorem templateEdges_any (vs : List Idx) : ∀ (ps : List (Nat × Nat)) (d : Dict) (es : List Edge), DictIn d es.length →
    (∀ p ∈ ps, p.1 < vs.length ∧ p.2 < vs.length) →
    ∃ r, templateEdges vs d es ps = .ok r ∧ DictIn r.2.1 r.2.2.length ∧ r.1.length = ps.length := by
  intro ps
  induction ps with
  | nil => intro d es h _; exact ⟨_, rfl, h, rfl⟩
  | cons p ps ih =>
    intro d es h hp
    obtain ⟨a, b⟩ := p
    obtain ⟨ha, hb⟩ := hp (a, b) (by simp)
    simp only at ha hb
    obtain ⟨h1, -, -⟩ := findOrAddEdge_any h vs[a] vs[b]
    obtain ⟨q, g1, g2, g3⟩ := ih _ _ h1 fun p hp' => hp p (by simp [hp'])
    simp only [templateEdges]
    rw [show Res.at' vs a = .ok vs[a] by simp [ha], show Res.at' vs b = .ok vs[b] by simp [hb]]
    simp only [Res.bind]
    rw [g1]
    exact ⟨_, rfl, g2, by simp [g3]⟩

theorem forEach_any {α : Type} (l : List α) : ∀ (f : List Nat), (∀ x ∈ f, x < l.length) → ∃ s, Std'.forEach (Res.at' l) f = .ok s ∧ s.length = f.length := by
  intro f
  induction f with
  | nil => intro _; exact ⟨[], rfl, rfl⟩
  | cons x f ih =>
    intro h
    obtain ⟨s, h1, h2⟩ := ih fun y hy => h y (by simp [hy])
    have hx := h x (by simp)
    refine ⟨l[x] :: s, ?_, by simp [h2]⟩
    simp only [Std'.forEach]
    rw [show Res.at' l x = .ok l[x] by simp [hx]]
    simp [h1, Res.bind]

theorem addCellFaces_any (res : Nat) (cell : Idx) (eidx : List Idx) : ∀ (ps : List (List Nat)) (prev : Idx) (first : Option Idx) (d : Dict) (fs : List Face),
    DictIn d fs.length → (∀ f ∈ ps, ∀ x ∈ f, x < eidx.length) → (∀ f ∈ ps, res = 0 ∨ f.length ≤ res) → (prev = INVALID ∨ prev < fs.length) →
    ∃ r, addCellFaces res cell eidx prev first d fs ps = .ok r ∧ DictIn r.2.1 r.2.2.length := by
  intro ps
  induction ps with
  | nil => intro prev first d fs h _ _ _; exact ⟨_, rfl, h⟩
  | cons f ps ih =>
    intro prev first d fs h hr hres hp
    obtain ⟨sub, s1, s2⟩ := forEach_any eidx f (hr f (by simp))
    obtain ⟨q, q1, q2, q3⟩ : ∃ q, findOrAddFace res d fs sub = .ok q ∧ q.2.1 < q.1.length ∧ fs.length ≤ q.1.length := by
      unfold findOrAddFace
      cases hf : d.find (faceKey sub) with
      | none =>
        simp only
        have := hres f (by simp)
        rw [if_neg (by omega)]
        exact ⟨_, rfl, by simp, by simp⟩
      | some i => exact ⟨_, rfl, h _ _ hf, Nat.le_refl _⟩
    obtain ⟨fs1, g1, g2⟩ := linkFacet_any faceConnW cell prev (first.getD q.2.1) q.2.1 q.2.2 (decide (ps = [])) q2
      (hp.imp_right fun h => Nat.lt_of_lt_of_le h q3)
    simp only [addCellFaces]
    rw [s1]
    simp only [Res.bind]
    rw [q1]
    simp only
    rw [g1]
    simp only
    exact ih _ _ _ fs1 (by rw [g2]; exact (h.mono q3).put _ q2) (fun f hf => hr f (by simp [hf])) (fun f hf => hres f (by simp [hf]))
      (.inr (by rw [g2]; exact q2))

theorem template_any (n : Nat) : (template n = none ∧ n ≠ 4 ∧ n ≠ 5 ∧ n ≠ 6 ∧ n ≠ 8) ∨
    ∃ T, template n = some T ∧ (n = 4 ∨ n = 5 ∨ n = 6 ∨ n = 8) ∧ (∀ p ∈ T.edges, p.1 < n ∧ p.2 < n) ∧ (∀ f ∈ T.faces, ∀ x ∈ f, x < T.edges.length) ∧
      ∀ f ∈ T.faces, f.length ≤ 4 := by
  by_cases h : n = 4 ∨ n = 5 ∨ n = 6 ∨ n = 8
  · right
    rcases h with rfl | rfl | rfl | rfl
    all_goals exact ⟨_, rfl, by decide, by decide, by decide, by decide⟩
  · left
    refine ⟨?_, by omega, by omega, by omega, by omega⟩
    unfold template
    split <;> simp_all

theorem loadCellList3_any (res : Nat) (hres : res = 0 ∨ 4 ≤ res) : ∀ (polys : List (List Idx)) (cs : List Cell) (k : Nat) (de df : Dict) (es : List Edge)
    (fs : List Face) (ts rest : List (VTok R)), DictIn de es.length → DictIn df fs.length → cs.length = polys.length →
    skipNl ts = skipNl (polys.flatMap lineTokens ++ rest) →
    ((∀ vs ∈ polys, vs.length = 4 ∨ vs.length = 5 ∨ vs.length = 6 ∨ vs.length = 8) →
      ∃ cs' es' fs' r, loadCellList3 res cs k de df es fs ts = .ok (cs', es', fs', r) ∧ skipNl r = skipNl rest ∧ cs'.length = polys.length) ∧
    ((∃ vs ∈ polys, ¬ (vs.length = 4 ∨ vs.length = 5 ∨ vs.length = 6 ∨ vs.length = 8)) →
      loadCellList3 res cs k de df es fs ts = .throw .outOfRange) := by
  intro polys
  induction polys with
  | nil =>
    intro cs k de df es fs ts rest _ _ hcs hts
    rw [List.length_eq_zero_iff.mp hcs]
    exact ⟨fun _ => ⟨[], es, fs, ts, rfl, by simpa using hts, rfl⟩, fun ⟨_, h, _⟩ => by cases h⟩
  | cons vs polys ih =>
    intro cs k de df es fs ts rest hde hdf hcs hts
    obtain ⟨c0, cs, rfl⟩ : ∃ c cs', cs = c :: cs' := by
      cases cs with
      | nil => simp at hcs
      | cons c cs => exact ⟨c, cs, rfl⟩
    simp only [loadCellList3]
    rw [readNum_congr hts]
    simp only [List.flatMap_cons, lineTokens, List.cons_append, List.append_assoc, readNum_num, Res.bind]
    rw [readNums_map]
    simp only
    rcases template_any vs.length with ⟨ht, hn⟩ | ⟨T, ht, hn, t1, t2, t3⟩
    · rw [ht]
      exact ⟨fun h => absurd (h vs (by simp)) (by omega), fun _ => rfl⟩
    · rw [ht]
      obtain ⟨p, p1, p2, p3⟩ := templateEdges_any vs T.edges de es hde t1
      obtain ⟨q, q1, q2⟩ := addCellFaces_any res k p.1 T.faces INVALID none df fs hdf (by rw [p3]; exact t2)
        (fun f hf => by have := t3 f hf; omega) (.inl rfl)
      obtain ⟨i1, i2⟩ := ih cs (k + 1) p.2.1 q.2.1 p.2.2 q.2.2 (.nl :: (polys.flatMap lineTokens ++ rest)) rest p2 q2 (by simpa using hcs) rfl
      simp only [List.nil_append]
      rw [p1]
      simp only
      rw [q1]
      simp only
      constructor
      · intro h
        obtain ⟨cs', es', fs', r, e1, e2, e3⟩ := i1 fun v hv => h v (by simp [hv])
        exact ⟨{ index := k, bElem := q.1.getD c0.bElem } :: cs', es', fs', r, by rw [e1], e2, by simp [e3]⟩
      · rintro ⟨v, hv, hb⟩
        rw [i2 ⟨v, (List.mem_cons.mp hv).resolve_left (by rintro rfl; exact hb hn), hb⟩]

/-! ## The whole file -/

theorem storeTypes_any (conv : Nat → Option Nat) : ∀ (codes : List Nat) (k : Nat) (types : List Nat),
    ((∀ (i : Nat) c, codes[i]? = some c → types.length ≤ k + i → conv c = none) → ∃ t, storeTypes conv k codes types = .ok t) ∧
    ((∃ (i : Nat) (c : Nat), codes[i]? = some c ∧ types.length ≤ k + i ∧ conv c ≠ none) → storeTypes conv k codes types = .throw .outOfRange) := by
  intro codes
  induction codes with
  | nil => intro k types; exact ⟨fun _ => ⟨_, rfl⟩, fun ⟨i, c, h, _⟩ => by simp at h⟩
  | cons c codes ih =>
    intro k types
    cases hc : conv c with
    | none =>
      simp only [storeTypes, hc]
      obtain ⟨i1, i2⟩ := ih (k + 1) types
      refine ⟨fun h => i1 fun i x hx hl => h (i + 1) x (by simpa using hx) (by omega), ?_⟩
      rintro ⟨i, x, h1, h2, h3⟩
      cases i with
      | zero => simp at h1; subst h1; exact absurd hc h3
      | succ i => exact i2 ⟨i, x, by simpa using h1, by omega, h3⟩
    | some t =>
      simp only [storeTypes, hc]
      by_cases hk : k < types.length
      · rw [show Res.at' types k = .ok types[k] by simp [hk]]
        simp only [Res.bind]
        obtain ⟨i1, i2⟩ := ih (k + 1) (types.set k t)
        rw [List.length_set] at i1 i2
        refine ⟨fun h => i1 fun i x hx hl => h (i + 1) x (by simpa using hx) (by omega), ?_⟩
        rintro ⟨i, x, h1, h2, h3⟩
        cases i with
        | zero => omega
        | succ i => exact i2 ⟨i, x, by simpa using h1, by omega, h3⟩
      · rw [show Res.at' types k = .throw .outOfRange by unfold Res.at'; rw [List.getElem?_eq_none (Nat.not_lt.mp hk)]]
        exact ⟨fun h => by simp [h 0 c rfl (by omega)] at hc, fun _ => rfl⟩

theorem loadFromStream_any [Zero R] {V : Type} (conv : Nat → Option Nat) (proj : R × R × R → V)
    (loadC : List (VTok R) → Mesh V → Res (Mesh V × List (VTok R))) (F : File R) (rest : List (VTok R)) (types : List Nat) (m0 : Mesh V) :
    (∀ e, loadC (.num F.cells.length :: .num F.total :: .nl :: (F.cells.flatMap lineTokens ++ .nl :: typesTail F rest))
        { m0.clear with vertices := F.verts.map proj } = .throw e →
      loadFromStream conv (loadVertices proj) loadC (F.tokens ++ rest) types m0 = .throw e) ∧
    ∀ m r, loadC (.num F.cells.length :: .num F.total :: .nl :: (F.cells.flatMap lineTokens ++ .nl :: typesTail F rest))
        { m0.clear with vertices := F.verts.map proj } = .ok (m, r) → skipNl r = skipNl (typesTail F rest) →
      loadFromStream conv (loadVertices proj) loadC (F.tokens ++ rest) types m0 =
        (storeTypes conv 0 F.codes (resize types m.cells.length 0)).bind fun t => .ok (m, t) := by
  obtain ⟨r1, p1, p2⟩ := readPoints_spec F.verts
    ((F.verts.flatMap fun p => [.real p.1, .real p.2.1, .real p.2.2, .nl]) ++ .nl ::
      .word "CELLS" :: .num F.cells.length :: .num F.total :: .nl ::
      (F.cells.flatMap lineTokens ++ .nl ::
      .word "CELL_TYPES" :: .num F.codes.length :: .nl :: ((F.codes.flatMap fun c => [.num c, .nl]) ++ .nl :: rest)))
    _ rfl
  unfold typesTail
  obtain ⟨r3, t1, -⟩ := readCodes_spec F.codes (.nl :: ((F.codes.flatMap fun c => [.num c, .nl]) ++ .nl :: rest))
    (.nl :: rest) (by simp)
  have key : loadFromStream conv (loadVertices proj) loadC (F.tokens ++ rest) types m0 =
      (loadC (.num F.cells.length :: .num F.total :: .nl :: (F.cells.flatMap lineTokens ++ .nl :: typesTail F rest))
        { m0.clear with vertices := F.verts.map proj }).bind fun q =>
      (if (readWord "CELLS" q.2).1 = "CELL_TYPES" then loadCellTypes conv q.1.cells.length types (readWord "CELLS" q.2).2
         else .ok (types, (readWord "CELLS" q.2).2)).bind fun t => .ok (q.1, t.1) := by
    unfold loadFromStream File.tokens typesTail
    simp only [List.append_assoc, List.cons_append, List.nil_append]
    rw [ignoreLine_words, ignoreLine_words]
    simp only [readWord, skipNl]
    rw [if_neg (by simp), if_neg (by simp), if_neg (by simp), if_pos trivial]
    unfold loadVertices
    simp only [readNum_num, Res.bind, ignoreLine]
    rw [p1]
    simp only
    rw [p2]
    simp only [skipNl]
    rw [if_pos trivial]
    rfl
  unfold typesTail at key
  constructor
  · intro e he
    rw [key, he]
    rfl
  · intro m r hm hr
    rw [key, hm]
    simp only [Res.bind]
    rw [readWord_congr hr "CELLS"]
    rw [readWord_word, if_pos rfl]
    unfold loadCellTypes
    simp only [readNum_num, Res.bind]
    rw [t1]
    simp only
    cases storeTypes conv 0 F.codes (resize types m.cells.length 0) <;> rfl

end GTMesh.Vtk
