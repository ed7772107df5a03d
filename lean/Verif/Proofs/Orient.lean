import Verif.Proofs.Solid3
import Verif.Spec.Orientation

/-! # The first vertices written for a solid -/

namespace GTMesh.Vtk
open Spec Std' GTMesh.Props GTMesh.Fpma
variable {V P : Type}

/-- As `traceLoop_polygon`, with the first two vertices. -/
theorem traceLoop_start {edges : List Edge} {subs vs : List Idx} (h : IsPolygon edges subs vs) (h2 : 2 ≤ vs.length) {e0 : Idx} {ed : Edge}
    (he0 : subs[0]? = some e0) (hed : edges[e0]? = some ed) {x y : Idx} (hxy : SamePair (ed.a, ed.b) (x, y)) :
    ∃ q, traceLoop edges subs x (2 * subs.length + 2) { last := e0, next := y, out := [x] } = .ok q ∧ SameCycle q vs ∧
      q[0]? = some x ∧ q[1]? = some y := by
  obtain ⟨es, hen, hl, hn, hp, hj⟩ := isPolygon_per h
  have hvn := h.1
  have hv : vs.Nodup := h.2.1
  obtain ⟨t, ht⟩ := (mem_iff_per hen e0).mp (hp.mem_iff.mpr (List.mem_of_getElem? he0))
  obtain ⟨ed', g1, g2⟩ := hj t
  rw [← ht, hed] at g1
  cases g1
  have hfw := ring_forward hv hvn hen hl hn hp hj t
  have hbw := ring_backward hv hvn hen hl hn hp hj t
  have g3 : SamePair (x, y) (per vs t, per vs (t + 1)) := SamePair.trans (SamePair.symm hxy) g2
  have l0 : 0 < vs.length := by omega
  have l1 : 1 < vs.length := by omega
  rcases g3 with g3 | g3
  · simp only [Prod.mk.injEq] at g3
    have h0 : subs[0]? = some ((fun j : Nat => per es (j + t)) 0) := by simpa [ht] using he0
    have := hfw.loop h0 (2 * subs.length + 2) 1 (Nat.le_refl _) hfw.pos (by rw [← hfw.length]; omega)
    have e1 : ((1 : Nat) : Int) + t = t + 1 := by push_cast; omega
    simp only [ringState, List.range_succ, List.range_zero, List.nil_append, List.map_cons, List.map_nil, Nat.sub_self, e1] at this
    simp only [Nat.cast_zero, zero_add] at this
    rw [← ht, ← g3.1, ← g3.2] at this
    refine ⟨_, this, Or.inl (range_per_rotated hvn t), ?_, ?_⟩
    · rw [List.getElem?_map, List.getElem?_range l0, g3.1]; simp
    · rw [List.getElem?_map, List.getElem?_range l1, g3.2]; simp [Int.add_comm]
  · simp only at g3
    have h0 : subs[0]? = some ((fun j : Nat => per es (t - j)) 0) := by simpa [ht] using he0
    have := hbw.loop h0 (2 * subs.length + 2) 1 (Nat.le_refl _) hbw.pos (by rw [← hbw.length]; omega)
    have e1 : t + 1 - ((1 : Nat) : Int) = t := by push_cast; omega
    have e0' : t + 1 - ((0 : Nat) : Int) = t + 1 := by push_cast; omega
    have e0'' : t - ((0 : Nat) : Int) = t := by push_cast; omega
    simp only [ringState, List.range_succ, List.range_zero, List.nil_append, List.map_cons, List.map_nil, Nat.sub_self, e1,
      e0', e0''] at this
    rw [← ht, ← g3.1, ← g3.2] at this
    refine ⟨_, this, ?_, ?_, ?_⟩
    · right
      have := range_per_rotated hvn (t + 2 - vs.length)
      rw [← List.isRotated_reverse_comm_iff]
      convert this using 1
      apply List.ext_getElem
      · simp
      · intro i h1 h2
        simp only [List.length_map, List.length_range] at h2
        simp only [List.getElem_reverse, List.getElem_map, List.getElem_range, List.length_map, List.length_range]
        congr 1
        omega
    · rw [List.getElem?_map, List.getElem?_range l0, g3.1]; simp
    · rw [List.getElem?_map, List.getElem?_range l1, g3.2]; simp

/-- The vertices of a face as a base of a cell: the first two of them. -/
theorem indexFace3_start (ori : Idx → Bool) {edges : List Edge} {f : Face} {p : List Idx} (h : IsPolygon edges f.sub p) (h2 : 2 ≤ p.length)
    (cell : Idx) : ∃ q e0 ed, indexFace3 ori edges f cell = .ok q ∧ SameCycle q p ∧ f.sub[0]? = some e0 ∧ edges[e0]? = some ed ∧
      (ori f.index = true ∧ cell = f.conn.left → q[0]? = some ed.b ∧ q[1]? = some ed.a) ∧
      (¬ (ori f.index = true ∧ cell = f.conn.left) → q[0]? = some ed.a ∧ q[1]? = some ed.b) := by
  obtain ⟨hne, _, _, es, hp, hl, hj⟩ := id h
  have hsub : 0 < f.sub.length := by rw [← hp.length_eq, hl]; omega
  obtain ⟨k, hk⟩ := List.getElem?_of_mem (hp.mem_iff.mpr (List.getElem_mem hsub))
  have hkl := (List.getElem?_eq_some_iff.mp hk).1
  obtain ⟨e, u, v, h1, _, _, ed, h4, _⟩ := hj k (by omega)
  rw [hk] at h1
  cases h1
  have h0 : f.sub[0]? = some f.sub[0] := List.getElem?_eq_getElem hsub
  unfold indexFace3
  rw [show Res.idx f.sub 0 = .ok f.sub[0] by simp [h0]]
  simp only [Res.bind]
  rw [show Res.at' edges f.sub[0] = .ok ed by simp [h4]]
  simp only
  by_cases hc : ori f.index = true ∧ cell = f.conn.left
  · rw [if_pos hc]
    obtain ⟨q, a1, a2, a3, a4⟩ := traceLoop_start h h2 h0 h4 (Or.inr ⟨rfl, rfl⟩ : SamePair (ed.a, ed.b) (ed.b, ed.a))
    exact ⟨q, _, ed, a1, a2, h0, h4, fun _ => ⟨a3, a4⟩, fun h => absurd hc h⟩
  · rw [if_neg hc]
    obtain ⟨q, a1, a2, a3, a4⟩ := traceLoop_start h h2 h0 h4 (Or.inl rfl : SamePair (ed.a, ed.b) (ed.a, ed.b))
    exact ⟨q, _, ed, a1, a2, h0, h4, fun h => absurd h hc, fun _ => ⟨a3, a4⟩⟩

theorem prefix_appendNew (vs : List Idx) : ∀ q : List Idx, q <+: vs.foldl appendNew q := by
  induction vs with
  | nil => exact fun q => List.prefix_rfl
  | cons x vs ih =>
    intro q
    rw [List.foldl_cons]
    refine List.IsPrefix.trans ?_ (ih _)
    unfold appendNew
    split
    · exact List.prefix_rfl
    · exact List.prefix_append _ _

theorem prefix_foldRes {α : Type} {f : List Idx → α → Res (List Idx)} (hf : ∀ acc a acc', f acc a = .ok acc' → acc <+: acc') :
    ∀ (as : List α) (q r : List Idx), foldRes f q as = .ok r → q <+: r := by
  intro as
  induction as with
  | nil => intro q r h; cases h; exact List.prefix_rfl
  | cons a as ih =>
    intro q r h
    rw [foldRes] at h
    cases h1 : f q a <;> rw [h1] at h <;> simp only [Res.bind, reduceCtorEq] at h
    exact (hf _ _ _ h1).trans (ih _ _ h)

theorem prefix_linearStep {edges : List Edge} {v : Idx} (acc : List Idx) (e : Idx) (acc' : List Idx)
    (h : linearStep edges v acc e = .ok acc') : acc <+: acc' := by
  unfold linearStep at h
  cases h1 : Res.at' edges e <;> rw [h1] at h <;> simp only [Res.bind, reduceCtorEq, Res.ok.injEq] at h
  rename_i ed
  have step : ∀ (l : List Idx) x, l <+: appendNew l x := fun l x => by
    have := prefix_appendNew [x] l
    simpa using this
  rw [← h]
  split <;> split
  · exact (step _ _).trans (step _ _)
  · exact step _ _
  · exact step _ _
  · exact List.prefix_rfl

theorem indexPyramid_prefix {ori : Idx → Bool} {m : Mesh V} {cell : Idx} {f : Face} {vs : List Idx}
    (h : indexPyramid ori m cell f = .ok vs) : ∃ q, indexFace3 ori m.edges f cell = .ok q ∧ q <+: vs := by
  unfold indexPyramid at h
  cases h1 : indexFace3 ori m.edges f cell <;> rw [h1] at h <;> simp only [Res.bind, reduceCtorEq] at h
  cases h2 : m.applyOne 3 0 cell <;> rw [h2] at h <;> simp only [reduceCtorEq, Res.ok.injEq] at h
  exact ⟨_, rfl, by rw [← h]; exact prefix_appendNew _ _⟩

theorem indexLinear_prefix {ori : Idx → Bool} {m : Mesh V} {cell : Idx} {f : Face} {vs : List Idx}
    (h : indexLinear ori m cell f = .ok vs) : ∃ q, indexFace3 ori m.edges f cell = .ok q ∧ q <+: vs := by
  unfold indexLinear at h
  cases h1 : indexFace3 ori m.edges f cell <;> rw [h1] at h <;> simp only [Res.bind, reduceCtorEq] at h
  refine ⟨_, rfl, prefix_foldRes ?_ _ _ _ h⟩
  intro acc a acc' h2
  cases h3 : m.applyOne 3 1 cell <;> rw [h3] at h2 <;> simp only [reduceCtorEq] at h2
  exact prefix_foldRes prefix_linearStep _ _ _ h2

/-- The vertices of a solid begin with those of the base. -/
theorem knownVerts_base {m : Mesh V} {bd : Idx → List Idx} (ori : Idx → Bool) (hd : m.dim = 3) (hv : ValidMesh m bd) {i : Nat}
    {c : Cell} (hc : m.cells[i]? = some c) (hidx : c.index = i) {types : List Nat} {vs vs' : List Idx} {t : Nat}
    (ht : types[i]? = some t) (h : IsSolid m (bd i) vs t) (hk : knownVerts ori m types c = .ok vs') :
    ∃ f ∈ bd i, ∃ p, (m.midElems 2)[f]? = some (faceAt m f) ∧ IsPolygon m.edges (faceAt m f).sub p ∧ p.length = baseSize t ∧
      (t = 300 → f = c.bElem) ∧
      indexFace3 ori m.edges (faceAt m f) i = .ok (vs'.take (baseSize t)) := by
  have hi := (List.getElem?_eq_some_iff.mp hc).1
  have hb : c.bElem ∈ bd i := List.mem_of_getElem? (hv.chain i c hc).2
  have hbe : Res.at' (m.midElems 2) c.bElem = .ok (faceAt m c.bElem) := by
    have := bd_lt hd hv hi _ hb
    simp [faceAt, this]
  have hcount := h.count
  unfold knownVerts at hk
  rw [hidx, show Res.at' types i = .ok t by simp [ht]] at hk
  simp only [Res.bind] at hk
  have find : ∀ (n : Nat) (p : List Nat), vs.length = n → p ∈ cellPolygons n → ∃ f ∈ bd i, (faceAt m f).sub.length = p.length := by
    intro n p hl hp
    subst hl
    obtain ⟨f, x, h1, h2, h3⟩ := h.polygon hp
    refine ⟨f, h1, ?_⟩
    simp only [faceAt, h2, Option.getD_some]
    simpa using polygon_length h3
  have fin : ∀ f ∈ bd i, (t = 300 → f = c.bElem) → (faceAt m f).sub.length = baseSize t →
      (∃ q, indexFace3 ori m.edges (faceAt m f) i = .ok q ∧ q <+: vs') →
      ∃ f ∈ bd i, ∃ p, (m.midElems 2)[f]? = some (faceAt m f) ∧ IsPolygon m.edges (faceAt m f).sub p ∧ p.length = baseSize t ∧
      (t = 300 → f = c.bElem) ∧
      indexFace3 ori m.edges (faceAt m f) i = .ok (vs'.take (baseSize t)) := by
    rintro f hf hfb hfl ⟨q, hq, hpre⟩
    obtain ⟨x, p, h1, h2, h3⟩ := h.face hf
    have hx : faceAt m f = x := by simp [faceAt, h1]
    have hpl := polygon_length h3
    rw [← hx] at h3 hpl
    obtain ⟨q', g1, g2⟩ := indexFace3_polygon ori h3 i
    rw [hq] at g1
    cases g1
    have hql : q.length = baseSize t := by
      rw [← hfl, hpl]
      rcases g2 with g2 | g2
      · exact g2.perm.length_eq
      · rw [g2.perm.length_eq, List.length_reverse]
    refine ⟨f, hf, _, by rw [hx]; exact h1, h3, by rw [← hpl, hfl], hfb, ?_⟩
    rw [hq, ← hql, List.prefix_iff_eq_take.mp hpre]
    simp
  have sizes : ∀ f ∈ bd i, ∃ p ∈ cellPolygons vs.length, (faceAt m f).sub.length = p.length := fun f hf => by
    obtain ⟨p, h1, _, h3, _⟩ := h.base ori hf
    exact ⟨p, h1, h3⟩
  unfold vertexCount at hcount
  split at hcount
  · simp only [Option.some.injEq] at hcount
    rw [if_pos rfl, hbe] at hk
    obtain ⟨p, h1, h2⟩ := sizes _ hb
    refine fin _ hb (fun _ => rfl) ?_ (indexPyramid_prefix hk)
    rw [h2]
    rw [← hcount] at h1
    exact (by decide : ∀ p ∈ cellPolygons 4, p.length = baseSize 300) p h1
  · simp only [Option.some.injEq] at hcount
    rw [if_neg (by decide), if_neg (by decide), if_neg (by decide), hbe] at hk
    obtain ⟨p, h1, h2⟩ := sizes _ hb
    refine fin _ hb (fun h => by omega) ?_ (indexLinear_prefix hk)
    rw [h2]
    rw [← hcount] at h1
    exact (by decide : ∀ p ∈ cellPolygons 8, p.length = baseSize 301) p h1
  · simp only [Option.some.injEq] at hcount
    rw [if_neg (by decide), if_neg (by decide), if_pos rfl, visitedFaces_valid hd hv hi] at hk
    obtain ⟨f, h1, h2⟩ := find 6 [0, 1, 2] hcount.symm (by decide)
    obtain ⟨x, h3, h4, h5⟩ := wedgeBase_spec ((bd i).map (faceAt m)) ⟨_, List.mem_map.mpr ⟨f, h1, rfl⟩, h2⟩
    obtain ⟨g, h6, rfl⟩ := List.mem_map.mp h3
    simp only [h4, deref] at hk
    exact fin g h6 (fun h => by omega) h5 (indexLinear_prefix hk)
  · simp only [Option.some.injEq] at hcount
    rw [if_neg (by decide), if_pos rfl, visitedFaces_valid hd hv hi] at hk
    obtain ⟨f, h1, h2⟩ := find 5 [0, 1, 2, 3] hcount.symm (by decide)
    obtain ⟨x, h3, h4, h5⟩ := pyramidBase_spec ((bd i).map (faceAt m)) ⟨_, List.mem_map.mpr ⟨f, h1, rfl⟩, by rw [h2]; decide⟩
    obtain ⟨g, h6, rfl⟩ := List.mem_map.mp h3
    simp only [h4, deref] at hk
    refine fin g h6 (fun h => by omega) ?_ (indexPyramid_prefix hk)
    obtain ⟨p, h7, h8⟩ := sizes g h6
    rw [h8] at h5 ⊢
    rw [← hcount] at h7
    exact (by decide : ∀ p ∈ cellPolygons 5, 3 < p.length → p.length = baseSize 303) p h7 h5
  · simp at hcount

end GTMesh.Vtk
