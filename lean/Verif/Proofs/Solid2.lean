import Verif.Proofs.Solid

/-! # Vertices of solids: the writer -/

namespace GTMesh.Vtk
open Spec Std' GTMesh.Props GTMesh.Fpma
variable {V : Type}

/-! ## The base face -/

theorem traceLoop_polygon {edges : List Edge} {subs vs : List Idx} (h : IsPolygon edges subs vs) {e0 : Idx} {ed : Edge}
    (he0 : subs[0]? = some e0) (hed : edges[e0]? = some ed) {x y : Idx} (hxy : SamePair (ed.a, ed.b) (x, y)) :
    ∃ q, traceLoop edges subs x (2 * subs.length + 2) { last := e0, next := y, out := [x] } = .ok q ∧ SameCycle q vs := by
  obtain ⟨es, hen, hl, hn, hp, hj⟩ := isPolygon_per h
  have hvn := h.1
  have hv : vs.Nodup := h.2.1
  obtain ⟨t, ht⟩ := (mem_iff_per hen e0).mp (hp.mem_iff.mpr (List.mem_of_getElem? he0))
  obtain ⟨ed', g1, g2⟩ := hj t
  rw [← ht, hed] at g1
  cases g1
  have hfw := ring_forward hv hvn hen hl hn hp hj t
  have hbw := ring_backward hv hvn hen hl hn hp hj t
  have g3 : SamePair (x, y) (per vs t, per vs (t + 1)) := SamePair.trans (SamePair.symm hxy) g2
  rcases g3 with g3 | g3
  · simp only [Prod.mk.injEq] at g3
    refine ⟨_, ?_, Or.inl (range_per_rotated hvn t)⟩
    have h0 : subs[0]? = some ((fun j : Nat => per es (j + t)) 0) := by simpa [ht] using he0
    have := hfw.loop h0 (2 * subs.length + 2) 1 (Nat.le_refl _) hfw.pos (by rw [← hfw.length]; omega)
    have e1 : ((1 : Nat) : Int) + t = t + 1 := by push_cast; omega
    simp only [ringState, List.range_succ, List.range_zero, List.nil_append, List.map_cons, List.map_nil, Nat.sub_self, e1] at this
    simp only [Int.natCast_zero, Int.zero_add, Nat.cast_zero, zero_add] at this
    rw [← ht, ← g3.1, ← g3.2] at this
    exact this
  · simp only at g3
    have h0 : subs[0]? = some ((fun j : Nat => per es (t - j)) 0) := by simpa [ht] using he0
    have := hbw.loop h0 (2 * subs.length + 2) 1 (Nat.le_refl _) hbw.pos (by rw [← hbw.length]; omega)
    have e1 : t + 1 - ((1 : Nat) : Int) = t := by push_cast; omega
    have e0' : t + 1 - ((0 : Nat) : Int) = t + 1 := by push_cast; omega
    have e0'' : t - ((0 : Nat) : Int) = t := by push_cast; omega
    simp only [ringState, List.range_succ, List.range_zero, List.nil_append, List.map_cons, List.map_nil, Nat.sub_self, e1,
      e0', e0''] at this
    rw [← ht, ← g3.1, ← g3.2] at this
    refine ⟨_, this, ?_⟩
    right
    have := range_per_rotated hvn (t + 2 - vs.length)
    rw [← List.isRotated_reverse_comm_iff]
    convert this using 1
    apply List.ext_getElem
    · simp
    · intro i h1 h2
      simp only [List.length_map, List.length_range] at h2
      simp only [List.getElem_reverse, List.getElem_map, List.getElem_range, List.length_map, List.length_range]
      congr 1
      omega

theorem indexFace3_polygon (ori : Idx → Bool) {edges : List Edge} {f : Face} {p : List Idx} (h : IsPolygon edges f.sub p)
    (cell : Idx) : ∃ q, indexFace3 ori edges f cell = .ok q ∧ SameCycle q p := by
  obtain ⟨hne, _, _, es, hp, hl, hj⟩ := id h
  have hpos : 0 < p.length := List.length_pos_of_ne_nil hne
  have hsub : 0 < f.sub.length := by rw [← hp.length_eq, hl]; exact hpos
  obtain ⟨k, hk⟩ := List.getElem?_of_mem (hp.mem_iff.mpr (List.getElem_mem hsub))
  have hkl := (List.getElem?_eq_some_iff.mp hk).1
  obtain ⟨e, u, v, h1, _, _, ed, h4, _⟩ := hj k (by omega)
  rw [hk] at h1
  cases h1
  have h0 : f.sub[0]? = some f.sub[0] := List.getElem?_eq_getElem hsub
  unfold indexFace3
  rw [show Res.idx f.sub 0 = .ok f.sub[0] by simp [h0]]
  simp only [Res.bind]
  rw [show Res.at' edges f.sub[0] = .ok ed by simp [h4]]
  simp only
  split
  · exact traceLoop_polygon h h0 h4 (Or.inr ⟨rfl, rfl⟩)
  · exact traceLoop_polygon h h0 h4 (Or.inl rfl)

/-! ## Sides and edges of a polygon -/

theorem polygon_edge {edges : List Edge} {subs p : List Idx} (h : IsPolygon edges subs p) {e : Idx} (he : e ∈ subs) :
    ∃ ed, edges[e]? = some ed ∧ HasSide p ed.a ed.b := by
  obtain ⟨_, _, _, es, hp, hl, hj⟩ := h
  obtain ⟨k, hk⟩ := List.getElem?_of_mem (hp.mem_iff.mpr he)
  have hkl := (List.getElem?_eq_some_iff.mp hk).1
  obtain ⟨e', u, v, h1, h2, h3, ed, h4, h5⟩ := hj k (by omega)
  rw [hk] at h1
  cases h1
  exact ⟨ed, h4, k, u, v, by omega, h2, h3, SamePair.symm h5⟩

theorem polygon_side {edges : List Edge} {subs p : List Idx} (h : IsPolygon edges subs p) {u v : Idx} (hs : HasSide p u v) :
    ∃ e ∈ subs, Joins edges e u v := by
  obtain ⟨_, _, _, es, hp, hl, hj⟩ := h
  obtain ⟨j, a, b, h1, h2, h3, h4⟩ := hs
  obtain ⟨e, u', v', g1, g2, g3, g4⟩ := hj j h1
  rw [h2] at g2
  rw [h3] at g3
  cases g2; cases g3
  exact ⟨e, hp.mem_iff.mp (List.mem_of_getElem? g1), joins_congr g4 h4⟩

/-! ## The vertices and edges of a cell -/

/-- What the iterations over a cell with the vertices `vs` visit. -/
structure Visits (m : Mesh V) (vs : List Idx) (es xs : List Idx) : Prop where
  edge : ∀ e ∈ es, ∃ ed, m.edges[e]? = some ed ∧ ∃ p ∈ cellPolygons vs.length, ∃ a b, HasSide p a b ∧
    ed.a = ent vs a ∧ ed.b = ent vs b
  side : ∀ p ∈ cellPolygons vs.length, ∀ a b, HasSide p a b → ∃ e ∈ es, Joins m.edges e (ent vs a) (ent vs b)
  vertex : ∀ x, x ∈ xs ↔ ∃ a, a < vs.length ∧ x = ent vs a

theorem hasSide_symm {p : List Nat} {a b : Nat} (h : HasSide p a b) : HasSide p b a := by
  obtain ⟨j, x, y, h1, h2, h3, h4⟩ := h
  exact ⟨j, x, y, h1, h2, h3, by rcases h4 with h4 | h4 <;> simp_all [SamePair]⟩

theorem hasSide_lt {n : Nat} {p : List Nat} (hp : p ∈ cellPolygons n) {a b : Nat} (h : HasSide p a b) : a < n ∧ b < n := by
  have hr : ∀ x ∈ p, x < n := by
    have hn : n = 4 ∨ n = 5 ∨ n = 6 ∨ n = 8 := by
      unfold cellPolygons at hp
      split at hp <;> simp_all
    exact (cellPolygons_closed hn).1 p hp
  obtain ⟨j, x, y, _, h2, h3, h4⟩ := h
  have hx := hr x (List.mem_of_getElem? h2)
  have hy := hr y (List.mem_of_getElem? h3)
  rcases h4 with h4 | h4
  · simp only [Prod.mk.injEq] at h4; rw [← h4.1, ← h4.2]; exact ⟨hx, hy⟩
  · simp only at h4; rw [← h4.1, ← h4.2]; exact ⟨hy, hx⟩

theorem every_vertex {n : Nat} (hn : n = 4 ∨ n = 5 ∨ n = 6 ∨ n = 8) : ∀ a < n, ∃ p ∈ cellPolygons n, ∃ b < n, HasSide p a b := by
  have key : ∀ n ∈ [4, 5, 6, 8], ∀ a < n, ∃ p ∈ cellPolygons n, ∃ b < n, sideB p a b = true := by decide +kernel
  intro a ha
  obtain ⟨p, h1, b, h2, h3⟩ := key n (by simp; omega) a ha
  exact ⟨p, h1, b, h2, (sideB_iff a b).mp h3⟩

theorem vertexCount_known {t n : Nat} (h : vertexCount t = some n) : n = 4 ∨ n = 5 ∨ n = 6 ∨ n = 8 := by
  unfold vertexCount at h
  split at h <;> simp_all <;> omega

/-- The faces of a solid and the polygons of its kind. -/
theorem IsSolid.face {m : Mesh V} {l vs : List Idx} {t : Nat} (h : IsSolid m l vs t) {f : Idx} (hf : f ∈ l) :
    ∃ x p, (m.midElems 2)[f]? = some x ∧ p ∈ cellPolygons vs.length ∧ IsPolygon m.edges x.sub (p.map (ent vs)) := by
  obtain ⟨l', hp, hl, hj⟩ := h.faces
  obtain ⟨j, hj'⟩ := List.getElem?_of_mem (hp.mem_iff.mpr hf)
  have hlt := (List.getElem?_eq_some_iff.mp hj').1
  rw [hl] at hlt
  obtain ⟨i, x, h1, h2, h3⟩ := hj j _ (List.getElem?_eq_getElem hlt)
  rw [hj'] at h1
  cases h1
  rw [facePolygons_length] at hlt
  refine ⟨x, (cellPolygons vs.length)[j], h2, List.getElem_mem hlt, ?_⟩
  simpa [facePolygons] using h3

theorem IsSolid.polygon {m : Mesh V} {l vs : List Idx} {t : Nat} (h : IsSolid m l vs t) {p : List Nat}
    (hp : p ∈ cellPolygons vs.length) :
    ∃ f x, f ∈ l ∧ (m.midElems 2)[f]? = some x ∧ IsPolygon m.edges x.sub (p.map (ent vs)) := by
  obtain ⟨l', hperm, hl, hj⟩ := h.faces
  obtain ⟨j, hj'⟩ := List.getElem?_of_mem hp
  obtain ⟨hlt, he⟩ := List.getElem?_eq_some_iff.mp hj'
  obtain ⟨i, x, h1, h2, h3⟩ := hj j (p.map (ent vs)) (by simp [facePolygons, hj'])
  exact ⟨i, x, hperm.mem_iff.mp (List.mem_of_getElem? h1), h2, h3⟩

theorem visits_of_solid {m : Mesh V} {bd : Idx → List Idx} (hd : m.dim = 3) {i : Nat}
    {vs : List Idx} {t : Nat} (h : IsSolid m (bd i) vs t) :
    Visits m vs (descend m bd 1 2 i) (descend m bd 0 3 i) := by
  have hn := vertexCount_known h.count
  have d3 : ∀ f, f ∈ directSubs m bd 3 i ↔ f ∈ bd i := by intro f; simp [directSubs, hd]
  have d2 : ∀ f x e, (m.midElems 2)[f]? = some x → (e ∈ directSubs m bd 2 f ↔ e ∈ x.sub) := by
    intro f x e hx; simp [directSubs, hd, hx]
  have d1 : ∀ e ed x, m.edges[e]? = some ed → (x ∈ directSubs m bd 1 e ↔ x = ed.a ∨ x = ed.b) := by
    intro e ed x hx; simp [directSubs, hd, hx]
  have hedge : ∀ e ∈ descend m bd 1 2 i, ∃ ed, m.edges[e]? = some ed ∧ ∃ p ∈ cellPolygons vs.length, ∃ a b, HasSide p a b ∧
      ed.a = ent vs a ∧ ed.b = ent vs b := by
    intro e he
    simp only [descend, List.mem_flatMap, List.mem_singleton] at he
    obtain ⟨f, hf, e', he', rfl⟩ := he
    obtain ⟨x, p, h1, h2, h3⟩ := h.face ((d3 f).mp hf)
    obtain ⟨ed, g1, g2⟩ := polygon_edge h3 ((d2 f x _ h1).mp he')
    rw [hasSide_map'] at g2
    obtain ⟨a, b, g3, g4⟩ := g2
    refine ⟨ed, g1, p, h2, ?_⟩
    rcases g4 with g4 | g4
    · simp only [Prod.mk.injEq] at g4; exact ⟨a, b, g3, g4.1.symm, g4.2.symm⟩
    · simp only at g4; exact ⟨b, a, hasSide_symm g3, g4.2.symm, g4.1.symm⟩
  have hside : ∀ p ∈ cellPolygons vs.length, ∀ a b, HasSide p a b →
      ∃ e ∈ descend m bd 1 2 i, Joins m.edges e (ent vs a) (ent vs b) := by
    intro p hp a b hs
    obtain ⟨f, x, h1, h2, h3⟩ := h.polygon hp
    obtain ⟨e, h4, h5⟩ := polygon_side h3 ((hasSide_map' (ent vs) p _ _).mpr ⟨a, b, hs, Or.inl rfl⟩)
    refine ⟨e, ?_, h5⟩
    simp only [descend, List.mem_flatMap, List.mem_singleton]
    exact ⟨f, (d3 f).mpr h1, e, (d2 f x e h2).mpr h4, rfl⟩
  have h03 : ∀ x, x ∈ descend m bd 0 3 i ↔ ∃ e ∈ descend m bd 1 2 i, x ∈ directSubs m bd 1 e := by
    intro x
    simp only [descend, List.mem_flatMap, List.mem_singleton]
    constructor
    · rintro ⟨f, h1, e, h2, y, h3, rfl⟩; exact ⟨e, ⟨f, h1, e, h2, rfl⟩, h3⟩
    · rintro ⟨_, ⟨f, h1, e, h2, rfl⟩, h3⟩; exact ⟨f, h1, _, h2, x, h3, rfl⟩
  refine ⟨hedge, hside, fun x => ?_⟩
  rw [h03]
  constructor
  · rintro ⟨e, he, hx⟩
    obtain ⟨ed, g1, p, hp, a, b, g2, g3, g4⟩ := hedge e he
    have hlt := hasSide_lt hp g2
    rcases (d1 e ed x g1).mp hx with rfl | rfl
    · exact ⟨a, hlt.1, g3⟩
    · exact ⟨b, hlt.2, g4⟩
  · rintro ⟨a, ha, rfl⟩
    obtain ⟨p, hp, b, _, hs⟩ := every_vertex hn a ha
    obtain ⟨e, he, ed, g1, g2⟩ := hside p hp a b hs
    refine ⟨e, he, (d1 e ed _ g1).mpr ?_⟩
    rcases g2 with g2 | g2
    · simp only [Prod.mk.injEq] at g2; exact Or.inl g2.1.symm
    · simp only at g2; exact Or.inr g2.2.symm

/-! ## Completing the base face -/

theorem goodOrder_sameSolid {vs : List Idx} (hnd : vs.Nodup) (hn : vs.length = 4 ∨ vs.length = 5 ∨ vs.length = 6 ∨ vs.length = 8)
    {σ : List Nat} (h : goodOrder vs.length σ = true) :
    SameSolid (σ.map (ent vs)) vs ∧ (σ.map (ent vs)).Nodup ∧ (∀ x ∈ σ.map (ent vs), x ∈ vs) := by
  simp only [goodOrder, Bool.and_eq_true, beq_iff_eq, decide_eq_true_eq, List.all_eq_true, List.any_eq_true,
    List.contains_iff_mem] at h
  obtain ⟨⟨⟨⟨h1, h2⟩, h3⟩, h4⟩, h5⟩ := h
  have hr := (cellPolygons_closed hn).1
  have hface : ∀ p ∈ cellPolygons vs.length,
      p.map (fun i => ((σ.map (ent vs))[i]?).getD 0) = (p.map fun i => σ[i]?.getD 0).map (ent vs) := by
    intro p hp
    rw [List.map_map]
    apply List.map_congr_left
    intro x hx
    have := hr p hp x hx
    rw [← h1] at this
    simp [this]
  have hfp : facePolygons (σ.map (ent vs)) = (cellPolygons vs.length).map fun p => (p.map fun i => σ[i]?.getD 0).map (ent vs) := by
    unfold facePolygons
    rw [List.length_map, h1]
    exact List.map_congr_left hface
  refine ⟨⟨by simp [h1], ?_, ?_⟩, ?_, ?_⟩
  · intro p hp
    rw [hfp] at hp
    obtain ⟨p', hp', rfl⟩ := List.mem_map.mp hp
    obtain ⟨q, hq, hv⟩ := h4 p' hp'
    exact ⟨q.map (ent vs), List.mem_map.mpr ⟨q, hq, rfl⟩, SameCycle.map _ (mem_variants.mp hv).2⟩
  · intro q hq
    obtain ⟨q', hq', rfl⟩ := List.mem_map.mp hq
    obtain ⟨p, hp, hv⟩ := h5 q' hq'
    exact ⟨_, by rw [hfp]; exact List.mem_map.mpr ⟨p, hp, rfl⟩, SameCycle.map _ (mem_variants.mp hv).2⟩
  · rw [List.nodup_map_iff_inj_on h2]
    intro a ha b hb hab
    exact ent_inj hnd (by simpa using h3 a ha) (by simpa using h3 b hb) hab
  · intro x hx
    obtain ⟨a, ha, rfl⟩ := List.mem_map.mp hx
    exact List.mem_of_getElem? (ent_eq (by simpa using h3 a ha))

theorem foldl_appendNew {acc : List Idx} {a : Idx} (ha : a ∉ acc) : ∀ (l : List Idx), (∀ x ∈ l, x ∈ acc ∨ x = a) →
    l.foldl appendNew (acc ++ [a]) = acc ++ [a] ∧ (a ∈ l → l.foldl appendNew acc = acc ++ [a]) := by
  intro l
  induction l with
  | nil => intro _; simp
  | cons x l ih =>
    intro h
    obtain ⟨i1, i2⟩ := ih fun y hy => h y (by simp [hy])
    have hx := h x (by simp)
    refine ⟨?_, fun hm => ?_⟩
    · rw [List.foldl_cons, appendNew, if_pos (by simpa using hx)]
      exact i1
    · rw [List.foldl_cons, appendNew]
      by_cases hxa : x ∈ acc
      · rw [if_pos hxa]
        rcases List.mem_cons.mp hm with rfl | hm
        · exact absurd hxa ha
        · exact i2 hm
      · rw [if_neg hxa]
        rcases hx with hx | rfl
        · exact absurd hx hxa
        · exact i1

theorem filter_single {l acc : List Nat} {a : Nat} (h : (l.filter fun x => !acc.contains x) = [a]) :
    a ∈ l ∧ a ∉ acc ∧ ∀ x ∈ l, x ∈ acc ∨ x = a := by
  have ha : a ∈ l.filter fun x => !acc.contains x := by rw [h]; simp
  simp at ha
  refine ⟨ha.1, ha.2, fun x hx => ?_⟩
  by_cases hxa : x ∈ acc
  · exact Or.inl hxa
  · have : x ∈ l.filter fun x => !acc.contains x := by simp [hx, hxa]
    rw [h] at this
    exact Or.inr (by simpa using this)

theorem mem_map_ent {vs : List Idx} (hnd : vs.Nodup) {l : List Nat} (hl : ∀ x ∈ l, x < vs.length) {a : Nat} (ha : a < vs.length) :
    ent vs a ∈ l.map (ent vs) ↔ a ∈ l := by
  constructor
  · intro h
    obtain ⟨b, hb, he⟩ := List.mem_map.mp h
    have := ent_inj hnd (hl b hb) ha he
    exact this ▸ hb
  · exact fun h => List.mem_map.mpr ⟨a, h, rfl⟩

theorem apex_fold {vs : List Idx} (hnd : vs.Nodup) {q : List Nat} (hq : ∀ x ∈ q, x < vs.length) (h : apexB vs.length q = true)
    {xs : List Idx} (hx : ∀ x, x ∈ xs ↔ ∃ a, a < vs.length ∧ x = ent vs a) :
    ∃ σ, goodOrder vs.length σ = true ∧ xs.foldl appendNew (q.map (ent vs)) = σ.map (ent vs) := by
  unfold apexB at h
  split at h
  · rename_i a hf
    obtain ⟨h1, h2, h3⟩ := filter_single hf
    have ha : a < vs.length := by simpa using h1
    refine ⟨q ++ [a], h, ?_⟩
    rw [(foldl_appendNew (acc := q.map (ent vs)) (a := ent vs a) (by rwa [mem_map_ent hnd hq ha]) xs ?_).2 ?_]
    · simp
    · intro x hx'
      obtain ⟨b, hb, rfl⟩ := (hx x).mp hx'
      rcases h3 b (by simpa using hb) with h | rfl
      · exact Or.inl (List.mem_map.mpr ⟨b, h, rfl⟩)
      · exact Or.inr rfl
    · exact (hx _).mpr ⟨a, ha, rfl⟩
  · cases h

theorem linear_fold {edges : List Edge} {index a : Idx} {acc : List Idx} (ha : a ∉ acc) : ∀ (l : List Idx) (s : List Idx),
    (s = acc ∨ s = acc ++ [a]) →
    (∀ e ∈ l, ∃ ed, edges[e]? = some ed ∧ (ed.a = index → ed.b ∈ acc ∨ ed.b = a) ∧ (ed.b = index → ed.a ∈ acc ∨ ed.a = a)) →
    (s = acc ++ [a] ∨ ∃ e ∈ l, Joins edges e index a) →
    foldRes (linearStep edges index) s l = .ok (acc ++ [a]) := by
  have app : ∀ s x, (s = acc ∨ s = acc ++ [a]) → (x ∈ acc ∨ x = a) →
      (appendNew s x = acc ∨ appendNew s x = acc ++ [a]) ∧ ((s = acc ++ [a] ∨ x = a) → appendNew s x = acc ++ [a]) := by
    intro s x hs hx
    unfold appendNew
    rcases hs with rfl | rfl
    · rcases hx with hx | rfl
      · rw [if_pos hx]
        refine ⟨Or.inl rfl, ?_⟩
        rintro (h | rfl)
        · exact h
        · exact absurd hx ha
      · rw [if_neg ha]
        exact ⟨Or.inr rfl, fun _ => rfl⟩
    · rw [if_pos (by simpa using hx)]
      exact ⟨Or.inr rfl, fun _ => rfl⟩
  intro l
  induction l with
  | nil =>
    intro s hs _ h
    rcases h with rfl | ⟨e, he, _⟩
    · rfl
    · simp at he
  | cons e l ih =>
    intro s hs hl h
    obtain ⟨ed, g1, g2, g3⟩ := hl e (by simp)
    simp only [foldRes, linearStep]
    rw [show Res.at' edges e = .ok ed by simp [g1]]
    simp only [Res.bind]
    have s1 : ((if ed.a = index then appendNew s ed.b else s) = acc ∨ (if ed.a = index then appendNew s ed.b else s) = acc ++ [a]) ∧
        ((s = acc ++ [a] ∨ (ed.a = index ∧ ed.b = a)) → (if ed.a = index then appendNew s ed.b else s) = acc ++ [a]) := by
      split
      · rename_i hi
        obtain ⟨p1, p2⟩ := app s ed.b hs (g2 hi)
        exact ⟨p1, fun h => p2 (h.imp id (·.2))⟩
      · rename_i hi
        refine ⟨hs, ?_⟩
        rintro (h | ⟨h, _⟩)
        · exact h
        · exact absurd h hi
    generalize (if ed.a = index then appendNew s ed.b else s) = s1' at s1
    have s2 : ((if ed.b = index then appendNew s1' ed.a else s1') = acc ∨ (if ed.b = index then appendNew s1' ed.a else s1') = acc ++ [a]) ∧
        ((s1' = acc ++ [a] ∨ (ed.b = index ∧ ed.a = a)) → (if ed.b = index then appendNew s1' ed.a else s1') = acc ++ [a]) := by
      split
      · rename_i hi
        obtain ⟨p1, p2⟩ := app s1' ed.a s1.1 (g3 hi)
        exact ⟨p1, fun h => p2 (h.imp id (·.2))⟩
      · rename_i hi
        refine ⟨s1.1, ?_⟩
        rintro (h | ⟨h, _⟩)
        · exact h
        · exact absurd h hi
    refine ih _ s2.1 (fun e he => hl e (by simp [he])) ?_
    rcases h with h | ⟨e', he', hj⟩
    · exact Or.inl (s2.2 (Or.inl (s1.2 (Or.inl h))))
    · rcases List.mem_cons.mp he' with rfl | he'
      · left
        obtain ⟨ed', k1, k2⟩ := hj
        rw [g1] at k1
        cases k1
        rcases k2 with k2 | k2
        · simp only [Prod.mk.injEq] at k2
          exact s2.2 (Or.inl (s1.2 (Or.inr k2)))
        · simp only at k2
          exact s2.2 (Or.inr ⟨k2.2, k2.1⟩)
      · exact Or.inr ⟨e', he', hj⟩

theorem chain_fold {m : Mesh V} {vs es xs : List Idx} (hnd : vs.Nodup) (hv : Visits m vs es xs) : ∀ (ws acc : List Nat),
    (∀ x ∈ ws, x < vs.length) → (∀ x ∈ acc, x < vs.length) → chainB vs.length acc ws = true →
    ∃ σ, goodOrder vs.length σ = true ∧
      foldRes (fun acc v => foldRes (linearStep m.edges v) acc es) (acc.map (ent vs)) (ws.map (ent vs)) = .ok (σ.map (ent vs)) := by
  intro ws
  induction ws with
  | nil => intro acc _ _ h; exact ⟨acc, h, rfl⟩
  | cons v ws ih =>
    intro acc hw hacc h
    rw [chainB] at h
    split at h
    · rename_i a hf
      obtain ⟨h1, h2, h3⟩ := filter_single hf
      have hvl := hw v (by simp)
      obtain ⟨hal, p, hp, hs⟩ := mem_nbrs.mp h1
      obtain ⟨σ, g1, g2⟩ := ih (acc ++ [a]) (fun x hx => hw x (by simp [hx])) (by
        intro x hx
        rcases List.mem_append.mp hx with hx | hx
        · exact hacc x hx
        · simp at hx; omega) h
      refine ⟨σ, g1, ?_⟩
      have hother : ∀ p ∈ cellPolygons vs.length, ∀ b c, HasSide p b c → ent vs b = ent vs v →
          ent vs c ∈ acc.map (ent vs) ∨ ent vs c = ent vs a := by
        intro p hp b c hbc he
        have hlt := hasSide_lt hp hbc
        have := ent_inj hnd hlt.1 hvl he
        subst this
        rcases h3 c (mem_nbrs.mpr ⟨hlt.2, p, hp, hbc⟩) with h | rfl
        · exact Or.inl (List.mem_map.mpr ⟨c, h, rfl⟩)
        · exact Or.inr rfl
      have hstep := linear_fold (edges := m.edges) (index := ent vs v) (a := ent vs a) (acc := acc.map (ent vs))
        (by rwa [mem_map_ent hnd hacc hal]) es (acc.map (ent vs)) (Or.inl rfl) (by
          intro e he
          obtain ⟨ed, k1, p', hp', b, c, k2, k3, k4⟩ := hv.edge e he
          refine ⟨ed, k1, fun hi => ?_, fun hi => ?_⟩
          · rw [k4]; exact hother p' hp' b c k2 (by rw [← k3, hi])
          · rw [k3]; exact hother p' hp' c b (hasSide_symm k2) (by rw [← k4, hi]))
        (Or.inr (hv.side p hp v a hs))
      rw [List.map_cons, foldRes]
      simp only [hstep, Res.bind]
      rw [List.map_append] at g2
      exact g2
    · cases h

end GTMesh.Vtk
