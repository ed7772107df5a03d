import Verif.Proofs.Solid4

/-! # Solids and the order of their vertices -/

namespace GTMesh.Vtk
open Spec Std' GTMesh.Props GTMesh.Fpma
variable {V : Type}

theorem isPolygon_of_per {edges : List Edge} {subs vs es : List Idx} (hne : vs ≠ []) (hv : vs.Nodup) (hs : subs.Nodup)
    (hl : es.length = vs.length) (hp : es.Perm subs)
    (hj : ∀ z : Int, Joins edges (per es z) (per vs z) (per vs (z + 1))) : IsPolygon edges subs vs := by
  have hpos : 0 < vs.length := List.length_pos_of_ne_nil hne
  have hen : es ≠ [] := by intro h; rw [h] at hl; simp at hl; omega
  refine ⟨hne, hv, hs, es, hp, hl, fun j hj' => ?_⟩
  refine ⟨per es j, per vs j, per vs (j + 1), ?_, cyc_eq_per hne j, ?_, hj j⟩
  · have := cyc_eq_per hen j
    rwa [cyc, Nat.mod_eq_of_lt (by omega)] at this
  · have := cyc_eq_per hne (j + 1)
    push_cast at this
    exact this

theorem isPolygon_rotate {edges : List Edge} {subs vs : List Idx} (h : IsPolygon edges subs vs) (k : Nat) :
    IsPolygon edges subs (vs.rotate k) := by
  obtain ⟨es, h1, h2, h3, h4, h5⟩ := isPolygon_per h
  refine isPolygon_of_per (es := es.rotate k) (by simpa using h.1) (List.nodup_rotate.mpr h.2.1) h.2.2.1 (by simp [h2])
    ((List.rotate_perm es k).trans h4) fun z => ?_
  rw [per_rotate h1, per_rotate h.1, per_rotate h.1]
  have := h5 (z + k)
  rwa [show z + 1 + (k : Int) = z + k + 1 by omega]

theorem isPolygon_reverse {edges : List Edge} {subs vs : List Idx} (h : IsPolygon edges subs vs) :
    IsPolygon edges subs vs.reverse := by
  obtain ⟨es, h1, h2, h3, h4, h5⟩ := isPolygon_per h
  refine isPolygon_of_per (es := es.reverse.rotate 1) (by simpa using h.1) (List.nodup_reverse.mpr h.2.1) h.2.2.1 (by simp [h2])
    ((List.rotate_perm _ 1).trans ((List.reverse_perm es).trans h4)) fun z => ?_
  rw [per_rotate (by simpa using h1), per_reverse h1, per_reverse h.1, per_reverse h.1]
  have := h5 (-1 - (z + 1))
  obtain ⟨ed, g1, g2⟩ := this
  refine ⟨ed, by simpa using g1, ?_⟩
  rw [show -1 - (z + 1) + 1 = -1 - z by omega] at g2
  rcases g2 with g2 | g2
  · simp only [Prod.mk.injEq] at g2; exact Or.inr ⟨g2.1, g2.2⟩
  · simp only at g2; exact Or.inl (by rw [g2.1, g2.2])

theorem isPolygon_cycle {edges : List Edge} {subs p q : List Idx} (h : IsPolygon edges subs p) (hc : SameCycle q p) :
    IsPolygon edges subs q := by
  rcases hc with hc | hc
  · obtain ⟨k, rfl⟩ := hc.symm
    exact isPolygon_rotate h k
  · obtain ⟨k, rfl⟩ := hc.symm
    exact isPolygon_rotate (isPolygon_reverse h) k

theorem mem_hasSide {p : List Idx} {x : Idx} (h : x ∈ p) : ∃ y, HasSide p x y := by
  have hp : p ≠ [] := by rintro rfl; simp at h
  obtain ⟨z, rfl⟩ := (mem_iff_per hp x).mp h
  exact ⟨_, (hasSide_per hp _ _).mpr ⟨z, Or.inl rfl⟩⟩

theorem hasSide_mem {p : List Idx} {x y : Idx} (h : HasSide p x y) : x ∈ p ∧ y ∈ p := by
  obtain ⟨j, a, b, _, h2, h3, h4⟩ := h
  have ha : a ∈ p := List.mem_of_getElem? h2
  have hb : b ∈ p := List.mem_of_getElem? h3
  rcases h4 with h4 | h4
  · simp only [Prod.mk.injEq] at h4; rw [← h4.1, ← h4.2]; exact ⟨ha, hb⟩
  · simp only at h4; rw [← h4.1, ← h4.2]; exact ⟨hb, ha⟩

/-- Polygons of the same edges have the same sides. -/
theorem sameSides_of_subs {edges : List Edge} {subs p q : List Idx} (hp : IsPolygon edges subs p) (hq : IsPolygon edges subs q) :
    SameSides p q := by
  have one : ∀ {p q : List Idx}, IsPolygon edges subs p → IsPolygon edges subs q → ∀ u v, HasSide p u v → HasSide q u v := by
    intro p q hp hq u v h
    obtain ⟨e, he, ed, h1, h2⟩ := polygon_side hp h
    obtain ⟨ed', g1, g2⟩ := polygon_edge hq he
    rw [h1] at g1
    cases g1
    rcases h2 with h2 | h2
    · simp only [Prod.mk.injEq] at h2; rwa [h2.1, h2.2] at g2
    · simp only at h2; rw [h2.1, h2.2] at g2; exact hasSide_symm g2
  exact fun u v => ⟨one hp hq u v, one hq hp u v⟩

theorem polygons_differ {n : Nat} (hn : n = 4 ∨ n = 5 ∨ n = 6 ∨ n = 8) : ∀ (j j' : Nat) p p', (cellPolygons n)[j]? = some p →
    (cellPolygons n)[j']? = some p' → (∀ x ∈ p, x ∈ p') → j = j' := by
  have key : ∀ n ∈ [4, 5, 6, 8], ∀ j < (cellPolygons n).length, ∀ j' < (cellPolygons n).length,
      (((cellPolygons n)[j]?.getD []).all fun x => ((cellPolygons n)[j']?.getD []).contains x) = true → j = j' := by decide +kernel
  intro j j' p p' h h' hx
  have h1 := (List.getElem?_eq_some_iff.mp h).1
  have h2 := (List.getElem?_eq_some_iff.mp h').1
  refine key n (by simp; omega) j h1 j' h2 ?_
  rw [h, h']
  simpa using hx

/-- A cell with faces for the vertices `vs'` is a solid with the vertices `vs` when both describe the same solid. -/
theorem isSolid_of_same {m : Mesh V} {l vs vs' : List Idx} {t : Nat} (hf : FacesOf m.edges (m.midElems 2) l vs') (hl : l.Nodup)
    (hs : SameSolid vs' vs) (hnd : vs.Nodup) (hc : vertexCount t = some vs.length) : IsSolid m l vs t := by
  have hn := vertexCount_known hc
  obtain ⟨h1, h2⟩ := hf
  have hget : ∀ (j : Nat), ∃ i, ∀ p, (facePolygons vs)[j]? = some p → i ∈ l ∧ ∃ x, (m.midElems 2)[i]? = some x ∧
      IsPolygon m.edges x.sub p := by
    intro j
    cases hp : (facePolygons vs)[j]? with
    | none => exact ⟨0, by simp⟩
    | some p =>
      obtain ⟨q, hq, hqp⟩ := hs.2.2 p (List.mem_of_getElem? hp)
      obtain ⟨k, hk⟩ := List.getElem?_of_mem hq
      obtain ⟨i, x, g1, g2, g3⟩ := h2 k q hk
      refine ⟨i, fun p' hp' => ?_⟩
      cases hp'
      refine ⟨List.mem_of_getElem? g1, x, g2, isPolygon_cycle g3 ?_⟩
      rcases hqp with h | h
      · exact Or.inl h.symm
      · exact Or.inr (List.isRotated_reverse_comm_iff.mp h.symm)
  choose g hg using hget
  have hat : ∀ (j : Nat), j < (facePolygons vs).length → ∃ p, (cellPolygons vs.length)[j]? = some p ∧
      (facePolygons vs)[j]? = some (p.map (ent vs)) := by
    intro j hj
    rw [facePolygons_length] at hj
    exact ⟨(cellPolygons vs.length)[j], by simp [hj], by simp [facePolygons, hj]⟩
  refine ⟨hc, hnd, (List.range (facePolygons vs).length).map g, ?_, by simp, ?_⟩
  · have hsub : ((List.range (facePolygons vs).length).map g) ⊆ l := by
      intro i hi
      obtain ⟨j, hj, rfl⟩ := List.mem_map.mp hi
      obtain ⟨p, _, hp⟩ := hat j (by simpa using hj)
      exact (hg j _ hp).1
    have hnodup : ((List.range (facePolygons vs).length).map g).Nodup := by
      rw [List.nodup_map_iff_inj_on List.nodup_range]
      intro j hj j' hj' he
      obtain ⟨p, hp1, hp2⟩ := hat j (by simpa using hj)
      obtain ⟨p', hp1', hp2'⟩ := hat j' (by simpa using hj')
      obtain ⟨_, x, a1, a2⟩ := hg j _ hp2
      obtain ⟨_, x', b1, b2⟩ := hg j' _ hp2'
      rw [← he, a1] at b1
      cases b1
      have hss := sameSides_of_subs a2 b2
      refine polygons_differ hn j j' p p' hp1 hp1' fun y hy => ?_
      obtain ⟨z, hz⟩ := mem_hasSide (List.mem_map.mpr ⟨y, hy, rfl⟩ : ent vs y ∈ p.map (ent vs))
      have := (hasSide_mem ((hss _ _).mp hz)).1
      have hr := (cellPolygons_closed hn).1
      exact (mem_map_ent hnd (hr p' (List.mem_of_getElem? hp1')) (hr p (List.mem_of_getElem? hp1) y hy)).mp this
    refine (List.subperm_of_subset hnodup hsub).perm_of_length_le ?_
    simp only [List.length_map, List.length_range]
    rw [h1, facePolygons_length, facePolygons_length, hs.1]
  · intro j p hp
    have hj := (List.getElem?_eq_some_iff.mp hp).1
    obtain ⟨_, x, a1, a2⟩ := hg j p hp
    exact ⟨g j, x, by simp [hj], a1, a2⟩

end GTMesh.Vtk
