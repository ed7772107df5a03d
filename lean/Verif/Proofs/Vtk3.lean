import Verif.Proofs.Facets
import Verif.Spec.Vtk3

namespace GTMesh.Vtk
open Spec
variable {R : Type}

/-! ## Templates -/

/-- The edges of each face in the order of the polygon of the face. -/
def orderedFaces : Nat → List (List Nat)
  | 4 => [[0, 1, 2], [0, 4, 3], [1, 5, 4], [2, 3, 5]]
  | 5 => [[0, 1, 2, 3], [0, 5, 4], [1, 6, 5], [2, 7, 6], [3, 4, 7]]
  | 6 => [[0, 1, 2], [0, 4, 8, 3], [1, 5, 7, 4], [2, 3, 6, 5], [8, 7, 6]]
  | 8 => [[0, 1, 2, 3], [0, 5, 8, 4], [1, 6, 9, 5], [2, 7, 10, 6], [3, 4, 11, 7], [8, 9, 10, 11]]
  | _ => []

/-- What is checked about the templates. -/
structure TemplateOk (n : Nat) (T : Template) : Prop where
  ends : ∀ p ∈ T.edges, p.1 < n ∧ p.2 < n
  edgesNe : ∀ i < T.edges.length, ∀ j < T.edges.length,
    SamePair (T.edges[i]!) (T.edges[j]!) → i = j
  facesLen : T.faces.length = (cellPolygons n).length ∧ (orderedFaces n).length = (cellPolygons n).length
  few : T.edges.length ≤ 12 ∧ T.faces.length ≤ 6 ∧ 1 ≤ T.faces.length
  inRange : ∀ f ∈ T.faces, ∀ x ∈ f, x < T.edges.length
  perm : ∀ k < T.faces.length, ((orderedFaces n)[k]!).Perm (T.faces[k]!)
  facesNe : ∀ k < T.faces.length, ∀ k' < T.faces.length, k = k' ∨ ¬ ∀ x ∈ T.faces[k]!, x ∈ T.faces[k']!
  poly : ∀ k < T.faces.length, ((cellPolygons n)[k]!).Nodup ∧ 3 ≤ ((cellPolygons n)[k]!).length ∧
    ((cellPolygons n)[k]!).length = ((orderedFaces n)[k]!).length ∧
    (∀ x ∈ (cellPolygons n)[k]!, x < n) ∧
    ∀ j < ((cellPolygons n)[k]!).length, SamePair (T.edges[((orderedFaces n)[k]!)[j]!]!)
      (((cellPolygons n)[k]!)[j]!, ((cellPolygons n)[k]!)[(j + 1) % ((cellPolygons n)[k]!).length]!)

theorem template_known {n : Nat} (h : n = 4 ∨ n = 5 ∨ n = 6 ∨ n = 8) : ∃ T, template n = some T ∧ TemplateOk n T := by
  rcases h with rfl | rfl | rfl | rfl
  all_goals
    refine ⟨_, rfl, ?_⟩
    constructor <;> decide

/-! ## Keys of faces -/

theorem flatMap_key_inj : ∀ {s t : List Nat}, (s.flatMap fun e => decimal e ++ [';']) = (t.flatMap fun e => decimal e ++ [';']) →
    s = t := by
  intro s
  induction s with
  | nil =>
    intro t h
    cases t with
    | nil => rfl
    | cons y t => simp at h
  | cons x s ih =>
    intro t h
    cases t with
    | nil => simp at h
    | cons y t =>
      simp only [List.flatMap_cons, List.append_assoc, List.cons_append, List.nil_append] at h
      obtain ⟨h1, h2⟩ := split_unique (semicolon_not_mem_decimal x) (semicolon_not_mem_decimal y) h
      rw [decimal_inj h1, ih h2]

/-- Two lists of edges get the same key exactly when they have the same edges. -/
theorem faceKey_eq_iff {s t : List Idx} : faceKey s = faceKey t ↔ s.Perm t := by
  unfold faceKey
  constructor
  · intro h
    have := flatMap_key_inj h
    exact (List.perm_insertionSort _ s).symm.trans (this ▸ List.perm_insertionSort _ t)
  · intro h
    have h1 : (s.insertionSort (· ≤ ·)).Perm (t.insertionSort (· ≤ ·)) :=
      (List.perm_insertionSort _ s).trans (h.trans (List.perm_insertionSort _ t).symm)
    rw [h1.eq_of_pairwise' (List.pairwise_insertionSort _ s) (List.pairwise_insertionSort _ t)]

/-! ## From positions to numbers -/

/-- Entry of a list, 0 outside. -/
abbrev ent (l : List Idx) (i : Nat) : Idx := (l[i]?).getD 0

theorem ent_eq {l : List Idx} {i : Nat} (h : i < l.length) : l[i]? = some (ent l i) := by simp [ent, h]

theorem ent_inj {l : List Idx} (hn : l.Nodup) {i j : Nat} (hi : i < l.length) (hj : j < l.length)
    (h : ent l i = ent l j) : i = j := by
  simp only [ent, List.getElem?_eq_getElem hi, List.getElem?_eq_getElem hj, Option.getD_some] at h
  exact (List.Nodup.getElem_inj_iff hn).mp h

theorem getElem!_of {α : Type} [Inhabited α] {l : List α} {i : Nat} {x : α} (h : l[i]? = some x) : l[i]! = x := by
  simp [List.getElem!_eq_getElem?_getD, h]

/-- The edges `eidx` join the vertices of a cell as the template says. -/
def EdgesFor (es : List Edge) (T : Template) (vs eidx : List Idx) : Prop :=
  eidx.length = T.edges.length ∧
  ∀ (j : Nat), j < T.edges.length → Joins es (ent eidx j) (ent vs (T.edges[j]!).1) (ent vs (T.edges[j]!).2)

theorem joins_same {es : List Edge} {e u v u' v' : Idx} (h : Joins es e u v) (h' : Joins es e u' v') :
    SamePair (u, v) (u', v') := by
  obtain ⟨x, hx, hs⟩ := h
  obtain ⟨y, hy, hs'⟩ := h'
  rw [hx] at hy; cases hy
  exact SamePair.trans (SamePair.symm hs) hs'

theorem joins_congr {es : List Edge} {e u v u' v' : Idx} (h : Joins es e u v) (h' : SamePair (u, v) (u', v')) :
    Joins es e u' v' := by
  obtain ⟨x, hx, hs⟩ := h
  exact ⟨x, hx, SamePair.trans hs h'⟩

theorem samePair_ent {vs : List Idx} {p q : Nat × Nat} (h : SamePair p q) :
    SamePair (ent vs p.1, ent vs p.2) (ent vs q.1, ent vs q.2) := by
  rcases h with rfl | ⟨h1, h2⟩
  · exact Or.inl rfl
  · rw [h1, h2]; exact Or.inr ⟨rfl, rfl⟩

theorem samePair_of_ent {vs : List Idx} (hn : vs.Nodup) {p q : Nat × Nat} (hp : p.1 < vs.length ∧ p.2 < vs.length)
    (hq : q.1 < vs.length ∧ q.2 < vs.length)
    (h : SamePair (ent vs p.1, ent vs p.2) (ent vs q.1, ent vs q.2)) : SamePair p q := by
  rcases h with h | ⟨h1, h2⟩
  · simp only [Prod.mk.injEq] at h
    exact Or.inl (Prod.ext (ent_inj hn hp.1 hq.1 h.1) (ent_inj hn hp.2 hq.2 h.2))
  · exact Or.inr ⟨ent_inj hn hp.1 hq.2 h1, ent_inj hn hp.2 hq.1 h2⟩

section
variable {es : List Edge} {T : Template} {vs eidx : List Idx}

theorem mem_getElem! {α : Type} [Inhabited α] {l : List α} {i : Nat} (h : i < l.length) : l[i]! ∈ l := by
  rw [getElem!_pos l i h]; exact List.getElem_mem h

theorem EdgesFor.inj (h : EdgesFor es T vs eidx) (hT : TemplateOk vs.length T) (hn : vs.Nodup) {i j : Nat}
    (hi : i < T.edges.length) (hj : j < T.edges.length) (he : ent eidx i = ent eidx j) : i = j := by
  have h1 := h.2 i hi
  have h2 := h.2 j hj
  rw [he] at h1
  exact hT.edgesNe i hi j hj
    (samePair_of_ent hn (hT.ends _ (mem_getElem! hi)) (hT.ends _ (mem_getElem! hj)) (joins_same h1 h2))

theorem facePolygons_get (hT : TemplateOk vs.length T) {k : Nat} (hk : k < T.faces.length) :
    (facePolygons vs)[k]? = some (((cellPolygons vs.length)[k]!).map (ent vs)) := by
  have hk' : k < (cellPolygons vs.length).length := by rw [← hT.facesLen.1]; exact hk
  simp [facePolygons, hk']

/-- Face `k` made from the template is the polygon `k` of the cell. -/
theorem EdgesFor.polygon (h : EdgesFor es T vs eidx) (hT : TemplateOk vs.length T) (hn : vs.Nodup) {k : Nat}
    (hk : k < T.faces.length) :
    IsPolygon es ((T.faces[k]!).map (ent eidx)) (((cellPolygons vs.length)[k]!).map (ent vs)) ∧
    3 ≤ (((cellPolygons vs.length)[k]!).map (ent vs)).length := by
  obtain ⟨h1, h2, h3, h4, h5⟩ := hT.poly k hk
  have hvn : (((cellPolygons vs.length)[k]!).map (ent vs)).Nodup := by
    refine List.Nodup.map_on ?_ h1
    intro x hx y hy hxy
    exact ent_inj hn (h4 x hx) (h4 y hy) hxy
  have hEO : EdgesOf es (((orderedFaces vs.length)[k]!).map (ent eidx)) (((cellPolygons vs.length)[k]!).map (ent vs)) := by
    refine ⟨by rw [List.length_map, List.length_map]; exact h3.symm, fun j hj => ?_⟩
    rw [List.length_map] at hj
    have hj' : j < ((orderedFaces vs.length)[k]!).length := by omega
    have hmod : (j + 1) % ((cellPolygons vs.length)[k]!).length < ((cellPolygons vs.length)[k]!).length :=
      Nat.mod_lt _ (by omega)
    have hx : ((orderedFaces vs.length)[k]!)[j]! < T.edges.length := by
      have : ((orderedFaces vs.length)[k]!)[j]! ∈ T.faces[k]! := (hT.perm k hk).mem_iff.mp (mem_getElem! hj')
      exact hT.inRange _ (mem_getElem! hk) _ this
    refine ⟨ent eidx (((orderedFaces vs.length)[k]!)[j]!), ent vs (((cellPolygons vs.length)[k]!)[j]!),
      ent vs (((cellPolygons vs.length)[k]!)[(j + 1) % ((cellPolygons vs.length)[k]!).length]!), ?_, ?_, ?_, ?_⟩
    · rw [List.getElem?_map, List.getElem?_eq_getElem hj', getElem!_pos ((orderedFaces vs.length)[k]!) j hj']; rfl
    · rw [cyc, List.getElem?_map, List.length_map, Nat.mod_eq_of_lt hj, List.getElem?_eq_getElem hj, getElem!_pos ((cellPolygons vs.length)[k]!) j hj]
      rfl
    · rw [cyc, List.getElem?_map, List.length_map, List.getElem?_eq_getElem hmod, getElem!_pos ((cellPolygons vs.length)[k]!) _ hmod]
      rfl
    · exact joins_congr (h.2 _ hx) (samePair_ent (h5 j hj))
  have hperm : (((orderedFaces vs.length)[k]!).map (ent eidx)).Perm ((T.faces[k]!).map (ent eidx)) :=
    (hT.perm k hk).map _
  have h3' : 3 ≤ (((cellPolygons vs.length)[k]!).map (ent vs)).length := by rw [List.length_map]; exact h2
  refine ⟨⟨?_, hvn, ?_, _, hperm, hEO⟩, h3'⟩
  · intro hnil
    rw [hnil] at h3'
    simp at h3'
  · exact (hperm.nodup_iff).mp (EdgesOf.nodup hEO hvn h3')

/-- Different faces of a cell have different edges. -/
theorem EdgesFor.faces_ne (h : EdgesFor es T vs eidx) (hT : TemplateOk vs.length T) (hn : vs.Nodup) {k k' : Nat}
    (hk : k < T.faces.length) (hk' : k' < T.faces.length)
    (hp : ((T.faces[k]!).map (ent eidx)).Perm ((T.faces[k']!).map (ent eidx))) : k = k' := by
  rcases hT.facesNe k hk k' hk' with h1 | h1
  · exact h1
  exfalso
  apply h1
  intro x hx
  have : ent eidx x ∈ (T.faces[k']!).map (ent eidx) := hp.mem_iff.mp (List.mem_map_of_mem hx)
  obtain ⟨y, hy, hxy⟩ := List.mem_map.mp this
  have := h.inj hT hn (hT.inRange _ (mem_getElem! hk) x hx) (hT.inRange _ (mem_getElem! hk') y hy) hxy.symm
  rw [this]; exact hy

theorem EdgesFor.keeps {es' : List Edge} (h : EdgesFor es T vs eidx) (he : KeepsEnds es es') : EdgesFor es' T vs eidx :=
  ⟨h.1, fun j hj => GTMesh.Joins.mono (h.2 j hj) he⟩

end

theorem IsPolygon.keeps {es es' : List Edge} {sub vs : List Idx} (h : IsPolygon es sub vs) (he : KeepsEnds es es') :
    IsPolygon es' sub vs := by
  obtain ⟨h1, h2, h3, l, h4, h5⟩ := h
  exact ⟨h1, h2, h3, l, h4, EdgesOf.keeps h5 he⟩

theorem IsPolygon.perm {es : List Edge} {sub sub' vs : List Idx} (h : IsPolygon es sub vs) (hp : sub'.Perm sub) :
    IsPolygon es sub' vs := by
  obtain ⟨h1, h2, h3, l, h4, h5⟩ := h
  exact ⟨h1, h2, (hp.nodup_iff).mpr h3, l, h4.trans hp.symm, h5⟩

/-- Two polygons made of the same edges have the same sides, and conversely. -/
theorem perm_iff_sameSides {es : List Edge}
    (hu : ∀ (i j : Nat) e e', es[i]? = some e → es[j]? = some e' → SamePair (e.a, e.b) (e'.a, e'.b) → i = j)
    {s t p q : List Idx} (hs : IsPolygon es s p) (ht : IsPolygon es t q) : s.Perm t ↔ SameSides p q := by
  have one : ∀ {s t p q : List Idx}, IsPolygon es s p → IsPolygon es t q → (∀ x ∈ s, x ∈ t) →
      ∀ u v, HasSide p u v → HasSide q u v := by
    rintro s t p q ⟨_, _, _, l, hl, hE⟩ ⟨_, _, _, l', hl', hE'⟩ hm u v ⟨j, a, b, hj, ha, hb, hsp⟩
    obtain ⟨i, a', b', h1, h2, h3, ed, h4, h5⟩ := hE.2 j hj
    rw [ha] at h2; rw [hb] at h3; cases h2; cases h3
    have hi : i ∈ l' := hl'.mem_iff.mpr (hm i (hl.mem_iff.mp (List.mem_of_getElem? h1)))
    obtain ⟨j', x, y, k1, k2, k3, k4⟩ := (EdgesOf.mem_iff hE' hu h4).mp hi
    exact ⟨j', x, y, k1, k2, k3, SamePair.trans k4 (SamePair.trans h5 hsp)⟩
  have two : ∀ {s t p q : List Idx}, IsPolygon es s p → IsPolygon es t q → (∀ u v, HasSide p u v → HasSide q u v) →
      ∀ x ∈ s, x ∈ t := by
    rintro s t p q ⟨_, _, _, l, hl, hE⟩ ⟨_, _, _, l', hl', hE'⟩ hm x hx
    have hxl := hl.mem_iff.mpr hx
    obtain ⟨j, hj⟩ := List.getElem?_of_mem hxl
    have hjl := (List.getElem?_eq_some_iff.mp hj).1
    obtain ⟨i, a', b', h1, h2, h3, ed, h4, h5⟩ := hE.2 j (by rw [← hE.1]; exact hjl)
    rw [hj] at h1; cases h1
    exact hl'.mem_iff.mp ((EdgesOf.mem_iff hE' hu h4).mpr (hm _ _ ((EdgesOf.mem_iff hE hu h4).mp hxl)))
  constructor
  · intro h u v
    exact ⟨one hs ht (fun x hx => h.mem_iff.mp hx) u v, one ht hs (fun x hx => h.mem_iff.mpr hx) u v⟩
  · intro h
    refine (List.perm_ext_iff_of_nodup hs.2.2.1 ht.2.2.1).mpr fun x => ?_
    exact ⟨two hs ht (fun u v => (h u v).mp) x, two ht hs (fun u v => (h u v).mpr) x⟩

end GTMesh.Vtk
