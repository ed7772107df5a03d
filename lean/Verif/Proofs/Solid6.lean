import Verif.Props.Vtk3rt

/-! # The tetrahedra of split cells meet in pairs -/

namespace GTMesh.Vtk
open Spec Std' GTMesh.Props
variable {R V P : Type}

theorem getElem?_flatten {α β : Type} {f : Nat → List α} {bs : List (List β)} (rel : α → β → Prop) : ∀ (st : Nat),
    (∀ (i : Nat) b, bs[i]? = some b → List.Forall₂ rel (f (st + i)) b) →
    List.Forall₂ rel ((List.range' st bs.length).flatMap f) bs.flatten := by
  induction bs with
  | nil => intro st _; simp
  | cons b bs ih =>
    intro st h
    rw [List.length_cons, List.range'_succ, List.flatMap_cons, List.flatten_cons]
    refine List.rel_append (h 0 b rfl) (ih (st + 1) fun i b' hb => ?_)
    have := h (i + 1) b' (by simpa using hb)
    rwa [show st + (i + 1) = st + 1 + i by omega] at this

theorem forall₂_get {α β : Type} {rel : α → β → Prop} {l : List α} {l' : List β} (h : List.Forall₂ rel l l') {k : Nat} {x : α}
    (hx : l[k]? = some x) : ∃ y, l'[k]? = some y ∧ rel x y := by
  induction h generalizing k with
  | nil => simp at hx
  | cons h _ ih =>
    cases k with
    | zero => simp only [List.getElem?_cons_zero, Option.some.injEq] at hx; subst hx; exact ⟨_, rfl, h⟩
    | succ k => simpa using ih (by simpa using hx)

/-- The row written for a piece. -/
def RowOf (m : Mesh V) (vert : Idx → List Idx) (fc cc : Idx → P) (pt : P → Idx) : Piece → List Idx → Prop
  | .whole i, vs => SameSolid vs (vert i) ∧ NoRepetition vs ∧ ∀ x ∈ vs, x ∈ vert i
  | .part i f e, vs => vs = [endA m.edges e, endB m.edges e, pt (fc f), pt (cc i)]

theorem mem_exported {m : Mesh V} {bd : Idx → List Idx} {types : List Nat} {x : Piece} (h : x ∈ exported m bd types) :
    match x with
    | .whole i => i < m.cells.length ∧ isSplit types i = false
    | .part i f e => i < m.cells.length ∧ isSplit types i = true ∧ f ∈ bd i ∧ e ∈ edgesOfFace m f := by
  obtain ⟨i, hi, hx⟩ := List.mem_flatMap.mp h
  rw [List.mem_range] at hi
  cases hs : isSplit types i with
  | false => rw [hs] at hx; simp at hx; subst hx; exact ⟨hi, hs⟩
  | true =>
    rw [hs] at hx
    simp only [if_true] at hx
    obtain ⟨f, hf, hx⟩ := List.mem_flatMap.mp hx
    obtain ⟨e, he, rfl⟩ := List.mem_map.mp hx
    exact ⟨hi, hs, hf, he⟩

/-- The rows, piece by piece, and the appended points. -/
theorem rows_pieces (ori : Idx → Bool) (key : P → List Char) (cc fc : Idx → P) (m : Mesh V) (bd vert : Idx → List Idx)
    (types : List Nat) (w0 w : Writer3 P) (hd : m.dim = 3) (hv : ValidMesh m bd) (hn : Numbered m)
    (htl : types.length = m.cells.length)
    (hsol : ∀ (i : Nat) t, types[i]? = some t → isSplit types i = false → IsSolid m (bd i) (vert i) t)
    (h : indexMesh3 ori key cc fc m types w0 = .ok w) :
    ∃ pt : P → Idx, List.Forall₂ (RowOf m vert fc cc pt) (exported m bd types) w.cellVert ∧
      (exported m bd types).map Piece.origin = origins (pieces m bd types) m.cells.length ∧
      (∀ (i : Nat), i < m.cells.length → isSplit types i = true → (∀ f ∈ bd i, edgesOfFace m f ≠ []) →
        ∀ p, p = cc i ∨ (∃ f ∈ bd i, p = fc f) →
          m.vertices.length ≤ pt p ∧ ∃ q, w.appended[pt p - m.vertices.length]? = some q ∧ key q = key p) ∧
      (∀ p q, key p = key q → pt p = pt q) := by
  obtain ⟨blocks, pt, h1, h2, h3, h4, h5, h6, h7, _, h9, h10⟩ := export_full ori key cc fc m bd types w0 w hd hv hn h
  refine ⟨pt, ?_, ?_, h5, h10⟩
  · rw [h2]
    unfold exported
    rw [← h1, List.range_eq_range']
    refine getElem?_flatten _ 0 fun i b hb => ?_
    rw [Nat.zero_add]
    have hi : i < m.cells.length := by rw [← h1]; exact (List.getElem?_eq_some_iff.mp hb).1
    cases hs : isSplit types i with
    | false =>
      obtain ⟨c, vs, c1, rfl, c3⟩ := h9 i b hb hs
      have ht : types[i]? = some (types[i]'(by omega)) := by simp
      obtain ⟨vs', d1, d2⟩ := knownVerts_solid ori hd hv c1 (hn.cells i c c1) ht (hsol i _ ht hs)
      rw [c3] at d1
      cases d1
      simp only [Bool.false_eq_true, if_false]
      exact List.Forall₂.cons d2 List.Forall₂.nil
    | true =>
      rw [h4 i b hb hs]
      simp only [if_true]
      have hmap : ∀ f (es : List Idx), List.Forall₂ (RowOf m vert fc cc pt) (es.map fun e => Piece.part i f e)
          (es.map fun e => [endA m.edges e, endB m.edges e, pt (fc f), pt (cc i)]) := by
        intro f es
        induction es with
        | nil => exact .nil
        | cons e es ih => exact .cons rfl ih
      have hflat : ∀ fs : List Idx, List.Forall₂ (RowOf m vert fc cc pt)
          (fs.flatMap fun f => (edgesOfFace m f).map fun e => Piece.part i f e)
          (fs.flatMap fun f => (edgesOfFace m f).map fun e => [endA m.edges e, endB m.edges e, pt (fc f), pt (cc i)]) := by
        intro fs
        induction fs with
        | nil => exact .nil
        | cons f fs ih =>
          rw [List.flatMap_cons, List.flatMap_cons]
          exact List.rel_append (hmap f _) ih
      exact hflat _
  · unfold exported origins
    rw [List.map_flatMap]
    congr 1
    funext i
    unfold pieces faceEdgePairs
    cases isSplit types i with
    | false => rfl
    | true =>
      simp only [if_true]
      rw [List.map_flatMap]
      generalize bd i = l
      induction l with
      | nil => rfl
      | cons f fs ih =>
        rw [List.flatMap_cons, ih, List.map_cons, List.sum_cons, List.replicate_add]
        congr 1
        rw [List.map_map]
        apply List.eq_replicate_iff.mpr
        simp [Piece.origin]

theorem exported_nodup {m : Mesh V} {bd : Idx → List Idx} {types : List Nat} (hb : ∀ i, i < m.cells.length → (bd i).Nodup)
    (he : ∀ i f, i < m.cells.length → isSplit types i = true → f ∈ bd i → (edgesOfFace m f).Nodup) : (exported m bd types).Nodup := by
  unfold exported
  rw [List.nodup_flatMap]
  constructor
  · intro i hi
    rw [List.mem_range] at hi
    cases hs : isSplit types i with
    | false => simp
    | true =>
      simp only [if_true]
      rw [List.nodup_flatMap]
      refine ⟨fun f hf => (he i f hi hs hf).map fun a b h => by injection h, ?_⟩
      refine (hb i hi).imp fun {f f'} hne => ?_
      intro x h1 h2
      obtain ⟨e, _, rfl⟩ := List.mem_map.mp h1
      obtain ⟨e', _, h⟩ := List.mem_map.mp h2
      injection h with _ h _
      exact hne h.symm
  · refine List.nodup_range.imp fun {i i'} hne => ?_
    have hor : ∀ j x, x ∈ (if isSplit types j then (bd j).flatMap fun f => (edgesOfFace m f).map fun e => Piece.part j f e else [Piece.whole j]) →
        x.origin = j := by
      intro j x hx
      split at hx
      · obtain ⟨f, _, hx⟩ := List.mem_flatMap.mp hx
        obtain ⟨e, _, rfl⟩ := List.mem_map.mp hx
        rfl
      · simp at hx; rw [hx]; rfl
    intro x h1 h2
    exact hne ((hor i x h1).symm.trans (hor i' x h2))

/-! ## The four triangles -/

theorem sameSides_mem {p q : List Idx} (h : SameSides p q) (v : Idx) : v ∈ p ↔ v ∈ q := by
  constructor
  · intro hv
    obtain ⟨u, hu⟩ := mem_hasSide hv
    exact (hasSide_mem ((h v u).mp hu)).1
  · intro hv
    obtain ⟨u, hu⟩ := mem_hasSide hv
    exact (hasSide_mem ((h v u).mpr hu)).1

theorem tetra_polygons (a b c d : Idx) : facePolygons [a, b, c, d] = [[a, b, c], [a, b, d], [b, c, d], [c, a, d]] := rfl

/-- Which triangles of two tetrahedra can agree. -/
theorem tri_cases {n A B F C A' B' F' C' : Nat} (ha : A < n) (hb : B < n) (ha' : A' < n) (hb' : B' < n) (hf : n ≤ F) (hc : n ≤ C)
    (hf' : n ≤ F') (hc' : n ≤ C') (h1 : F ≠ C) (h2 : F' ≠ C') (h3 : F ≠ C') (h4 : F' ≠ C) (hab : A ≠ B) (hab' : A' ≠ B') {q' : List Nat}
    (hq' : q' ∈ facePolygons [A', B', F', C']) :
    ((∀ v, v ∈ [A, B, F] ↔ v ∈ q') → F = F' ∧ SamePair (A, B) (A', B')) ∧
    ((∀ v, v ∈ [A, B, C] ↔ v ∈ q') → C = C' ∧ SamePair (A, B) (A', B')) ∧
    ((∀ v, v ∈ [B, F, C] ↔ v ∈ q') → F = F' ∧ C = C' ∧ (B = A' ∨ B = B')) ∧
    ((∀ v, v ∈ [F, A, C] ↔ v ∈ q') → F = F' ∧ C = C' ∧ (A = A' ∨ A = B')) := by
  have three : ∀ {x y z : Nat} {l : List Nat}, (∀ v, v ∈ [x, y, z] ↔ v ∈ l) → (x ∈ l ∧ y ∈ l ∧ z ∈ l) ∧ ∀ v ∈ l, v = x ∨ v = y ∨ v = z := by
    intro x y z l h
    exact ⟨⟨(h x).mp (by simp), (h y).mp (by simp), (h z).mp (by simp)⟩, fun v hv => by simpa using (h v).mpr hv⟩
  rw [tetra_polygons] at hq'
  simp only [List.mem_cons, List.not_mem_nil, or_false] at hq'
  rcases hq' with rfl | rfl | rfl | rfl <;>
  refine ⟨fun h => ?_, fun h => ?_, fun h => ?_, fun h => ?_⟩ <;>
  (obtain ⟨⟨g1, g2, g3⟩, g4⟩ := three h
   simp only [List.mem_cons, List.not_mem_nil, or_false, forall_eq_or_imp, forall_eq] at g1 g2 g3 g4
   obtain ⟨g4, g5, g6⟩ := g4
   clear h three
   try simp only [SamePair, Prod.mk.injEq]
   omega)

/-- At most two edges of a simple polygon end in a vertex. -/
theorem polygon_two_edges {edges : List Edge} {subs p : List Idx} (h : IsPolygon edges subs p) {v e e' e'' : Idx} (he : e ∈ subs) (he' : e' ∈ subs)
    (he'' : e'' ∈ subs) (hv : v = endA edges e ∨ v = endB edges e) (hv' : v = endA edges e' ∨ v = endB edges e')
    (hv'' : v = endA edges e'' ∨ v = endB edges e'') : e = e' ∨ e' = e'' ∨ e = e'' := by
  obtain ⟨hne, hp, _, es, hperm, hlen, hj⟩ := h
  have hp : p.Nodup := hp
  have hpos : 0 < p.length := List.length_pos_of_ne_nil hne
  have key : ∀ e ∈ subs, (v = endA edges e ∨ v = endB edges e) → ∃ j, es[j]? = some e ∧ j < p.length ∧
      (p[j]? = some v ∨ p[(j + 1) % p.length]? = some v) := by
    intro e he hv
    obtain ⟨j, hje⟩ := List.getElem?_of_mem (hperm.mem_iff.mpr he)
    have hjl : j < p.length := by rw [← hlen]; exact (List.getElem?_eq_some_iff.mp hje).1
    obtain ⟨e1, x, y, a1, a2, a3, ed, a4, a5⟩ := hj j hjl
    rw [hje] at a1
    cases a1
    refine ⟨j, hje, hjl, ?_⟩
    simp only [endA, endB, a4, Option.map_some, Option.getD_some] at hv
    unfold cyc at a2 a3
    rw [Nat.mod_eq_of_lt hjl] at a2
    rw [a2, a3]
    simp only [SamePair, Prod.mk.injEq] at a5
    rcases a5 with ⟨c1, c2⟩ | ⟨c1, c2⟩ <;> rcases hv with rfl | rfl <;> simp [c1, c2]
  obtain ⟨j, a1, a2, a3⟩ := key e he hv
  obtain ⟨j', b1, b2, b3⟩ := key e' he' hv'
  obtain ⟨j'', c1, c2, c3⟩ := key e'' he'' hv''
  have inj : ∀ (i k : Nat), i < p.length → k < p.length → p[i]? = some v → p[k]? = some v → i = k := by
    intro i k hi hk h1 h2
    exact (List.getElem?_inj hi hp).mp (h1.trans h2.symm)
  have md : ∀ j, j < p.length → ((j + 1) % p.length = j + 1 ∧ j + 1 < p.length) ∨ ((j + 1) % p.length = 0 ∧ j + 1 = p.length) := by
    intro j hj
    rcases Nat.lt_or_ge (j + 1) p.length with h | h
    · exact Or.inl ⟨Nat.mod_eq_of_lt h, h⟩
    · have : j + 1 = p.length := by omega
      exact Or.inr ⟨by rw [this]; exact Nat.mod_self _, this⟩
  have ml : ∀ j, (j + 1) % p.length < p.length := fun j => Nat.mod_lt _ hpos
  have inj2 : ∀ (i k : Nat), i < p.length → k < p.length → (i + 1) % p.length = (k + 1) % p.length → i = k := by
    intro i k hi hk h
    have := md i hi; have := md k hk; omega
  have conc : j = j' ∨ j' = j'' ∨ j = j'' := by
    rcases a3 with a3 | a3 <;> rcases b3 with b3 | b3 <;> rcases c3 with c3 | c3
    · exact Or.inl (inj _ _ a2 b2 a3 b3)
    · exact Or.inl (inj _ _ a2 b2 a3 b3)
    · exact Or.inr (Or.inr (inj _ _ a2 c2 a3 c3))
    · exact Or.inr (Or.inl (inj2 _ _ b2 c2 (inj _ _ (ml _) (ml _) b3 c3)))
    · exact Or.inr (Or.inl (inj _ _ b2 c2 b3 c3))
    · exact Or.inr (Or.inr (inj2 _ _ a2 c2 (inj _ _ (ml _) (ml _) a3 c3)))
    · exact Or.inl (inj2 _ _ a2 b2 (inj _ _ (ml _) (ml _) a3 b3))
    · exact Or.inl (inj2 _ _ a2 b2 (inj _ _ (ml _) (ml _) a3 b3))
  rcases conc with rfl | rfl | rfl
  · left; rw [a1] at b1; exact Option.some.inj b1
  · right; left; rw [b1] at c1; exact Option.some.inj c1
  · right; right; rw [a1] at c1; exact Option.some.inj c1

end GTMesh.Vtk
