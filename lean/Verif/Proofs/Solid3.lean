import Verif.Proofs.Solid2

/-! # The vertices written for a solid -/

namespace GTMesh.Vtk
open Spec Std' GTMesh.Props GTMesh.Fpma
variable {V P : Type}

theorem polygon_length {edges : List Edge} {subs p : List Idx} (h : IsPolygon edges subs p) : subs.length = p.length := by
  obtain ⟨_, _, _, es, hp, hl, _⟩ := h
  rw [← hp.length_eq, hl]

theorem IsSolid.base {m : Mesh V} {l vs : List Idx} {t : Nat} (h : IsSolid m l vs t) (ori : Idx → Bool) {f : Idx} (hf : f ∈ l) :
    ∃ p ∈ cellPolygons vs.length, (m.midElems 2)[f]? = some (faceAt m f) ∧ (faceAt m f).sub.length = p.length ∧
      ∀ cell, ∃ q ∈ variants p, indexFace3 ori m.edges (faceAt m f) cell = .ok (q.map (ent vs)) := by
  obtain ⟨x, p, h1, h2, h3⟩ := h.face hf
  have hx : faceAt m f = x := by simp [faceAt, h1]
  rw [hx]
  refine ⟨p, h2, h1, by simpa using polygon_length h3, fun cell => ?_⟩
  obtain ⟨q, g1, g2⟩ := indexFace3_polygon ori h3 cell
  have hm : q ∈ variants (p.map (ent vs)) := mem_variants.mpr ⟨h3.1, g2⟩
  rw [variants_map] at hm
  obtain ⟨q', hq', rfl⟩ := List.mem_map.mp hm
  exact ⟨q', hq', g1⟩

theorem variants_mem {p q : List Nat} (h : q ∈ variants p) {x : Nat} (hx : x ∈ q) : x ∈ p := by
  unfold variants at h
  simp only [List.mem_flatMap, List.mem_range, List.mem_cons, List.not_mem_nil, or_false] at h
  obtain ⟨k, _, rfl | rfl⟩ := h
  · exact List.mem_rotate.mp hx
  · simpa using List.mem_rotate.mp hx

theorem pyramidBase_spec (fs : List Face) (h : ∃ f ∈ fs, 3 < f.sub.length) :
    ∃ f ∈ fs, pyramidBase fs = some f ∧ 3 < f.sub.length := by
  have key : ∀ (fs : List Face) (a : Option Face),
      (∃ f ∈ fs, fs.foldl (fun face f => if 3 < f.sub.length then some f else face) a = some f ∧ 3 < f.sub.length) ∨
      ((∀ f ∈ fs, ¬ 3 < f.sub.length) ∧ fs.foldl (fun face f => if 3 < f.sub.length then some f else face) a = a) := by
    intro fs
    induction fs with
    | nil => intro a; right; simp
    | cons x fs ih =>
      intro a
      rw [List.foldl_cons]
      by_cases hx : 3 < x.sub.length
      · rw [if_pos hx]
        rcases ih (some x) with ⟨f, h1, h2, h3⟩ | ⟨_, h2⟩
        · exact Or.inl ⟨f, by simp [h1], h2, h3⟩
        · exact Or.inl ⟨x, by simp, h2, hx⟩
      · rw [if_neg hx]
        rcases ih a with ⟨f, h1, h2, h3⟩ | ⟨h1, h2⟩
        · exact Or.inl ⟨f, by simp [h1], h2, h3⟩
        · exact Or.inr ⟨by intro f hf; rcases List.mem_cons.mp hf with rfl | hf; exacts [hx, h1 f hf], h2⟩
  rcases key fs none with h' | ⟨h1, _⟩
  · exact h'
  · obtain ⟨f, hf, h⟩ := h
    exact absurd h (h1 f hf)

theorem wedgeBase_spec (fs : List Face) (h : ∃ f ∈ fs, f.sub.length = 3) :
    ∃ f ∈ fs, wedgeBase fs = some f ∧ f.sub.length = 3 := by
  have keep : ∀ (fs : List Face) (x : Face),
      fs.foldl (fun face f => if f.sub.length = 3 ∧ face = none then some f else face) (some x) = some x := by
    intro fs
    induction fs with
    | nil => intro x; rfl
    | cons y fs ih => intro x; rw [List.foldl_cons, if_neg (by simp)]; exact ih x
  have key : ∀ (fs : List Face), (∃ f ∈ fs, f.sub.length = 3) →
      ∃ f ∈ fs, fs.foldl (fun face f => if f.sub.length = 3 ∧ face = none then some f else face) none = some f ∧ f.sub.length = 3 := by
    intro fs
    induction fs with
    | nil => rintro ⟨f, hf, _⟩; simp at hf
    | cons x fs ih =>
      intro h
      rw [List.foldl_cons]
      by_cases hx : x.sub.length = 3
      · rw [if_pos ⟨hx, rfl⟩, keep]
        exact ⟨x, by simp, rfl, hx⟩
      · rw [if_neg (by simp [hx])]
        obtain ⟨f, h1, h2⟩ := ih (by
          obtain ⟨f, hf, hl⟩ := h
          rcases List.mem_cons.mp hf with rfl | hf
          · exact absurd hl hx
          · exact ⟨f, hf, hl⟩)
        exact ⟨f, by simp [h1], h2⟩
  exact key fs h

theorem descend_2_3 {m : Mesh V} {bd : Idx → List Idx} (hd : m.dim = 3) (i : Nat) : descend m bd 2 1 i = bd i := by
  simp [descend, directSubs, hd]

theorem visitedFaces_valid {m : Mesh V} {bd : Idx → List Idx} (hd : m.dim = 3) (hv : ValidMesh m bd) {i : Nat}
    (hi : i < m.cells.length) : visitedFaces m i = .ok ((bd i).map (faceAt m)) := by
  unfold visitedFaces
  rw [(C10_apply_one m bd hv 3 2 (by omega) (by omega) i (by simpa [Mesh.numElems, hd] using hi)).1, descend_2_3 hd]
  simp only [Res.bind]
  apply forEach_ok
  intro f hf
  have := bd_lt hd hv hi f hf
  simp [faceAt, this]

theorem indexPyramid_solid {m : Mesh V} {bd : Idx → List Idx} (ori : Idx → Bool) (hd : m.dim = 3) (hv : ValidMesh m bd) {i : Nat}
    (hi : i < m.cells.length) {vs : List Idx} {t : Nat} (h : IsSolid m (bd i) vs t) {f : Idx} (hf : f ∈ bd i)
    (hap : ∀ p ∈ cellPolygons vs.length, p.length = (faceAt m f).sub.length → ∀ q ∈ variants p, apexB vs.length q = true) :
    ∃ vs', indexPyramid ori m i (faceAt m f) = .ok vs' ∧ SameSolid vs' vs ∧ vs'.Nodup ∧ ∀ x ∈ vs', x ∈ vs := by
  have hn := vertexCount_known h.count
  obtain ⟨p, h1, h2, h3, h4⟩ := h.base ori hf
  obtain ⟨q, h5, h6⟩ := h4 i
  have hql : ∀ x ∈ q, x < vs.length := fun x hx => (cellPolygons_closed hn).1 p h1 x (variants_mem h5 hx)
  obtain ⟨σ, g1, g2⟩ := apex_fold h.nodup hql (hap p h1 h3.symm q h5) (visits_of_solid (bd := bd) hd h).vertex
  refine ⟨σ.map (ent vs), ?_, goodOrder_sameSolid h.nodup hn g1⟩
  unfold indexPyramid
  rw [h6, (C10_apply_one m bd hv 3 0 (by omega) (by omega) i (by simpa [Mesh.numElems, hd] using hi)).1]
  simp only [Res.bind]
  rw [g2]

theorem indexLinear_solid {m : Mesh V} {bd : Idx → List Idx} (ori : Idx → Bool) (hd : m.dim = 3) (hv : ValidMesh m bd) {i : Nat}
    (hi : i < m.cells.length) {vs : List Idx} {t : Nat} (h : IsSolid m (bd i) vs t) {f : Idx} (hf : f ∈ bd i)
    (hch : ∀ p ∈ cellPolygons vs.length, p.length = (faceAt m f).sub.length → ∀ q ∈ variants p, chainB vs.length q q = true) :
    ∃ vs', indexLinear ori m i (faceAt m f) = .ok vs' ∧ SameSolid vs' vs ∧ vs'.Nodup ∧ ∀ x ∈ vs', x ∈ vs := by
  have hn := vertexCount_known h.count
  obtain ⟨p, h1, h2, h3, h4⟩ := h.base ori hf
  obtain ⟨q, h5, h6⟩ := h4 i
  have hql : ∀ x ∈ q, x < vs.length := fun x hx => (cellPolygons_closed hn).1 p h1 x (variants_mem h5 hx)
  obtain ⟨σ, g1, g2⟩ := chain_fold h.nodup (visits_of_solid (bd := bd) hd h) q q hql hql (hch p h1 h3.symm q h5)
  refine ⟨σ.map (ent vs), ?_, goodOrder_sameSolid h.nodup hn g1⟩
  unfold indexLinear
  rw [h6, (C10_apply_one m bd hv 3 1 (by omega) (by omega) i (by simpa [Mesh.numElems, hd] using hi)).1]
  simp only [Res.bind]
  exact g2

/-- The vertices written for a cell which is a solid of its type describe this solid. -/
theorem knownVerts_solid {m : Mesh V} {bd : Idx → List Idx} (ori : Idx → Bool) (hd : m.dim = 3) (hv : ValidMesh m bd) {i : Nat}
    {c : Cell} (hc : m.cells[i]? = some c) (hidx : c.index = i) {types : List Nat} {vs : List Idx} {t : Nat}
    (ht : types[i]? = some t) (h : IsSolid m (bd i) vs t) :
    ∃ vs', knownVerts ori m types c = .ok vs' ∧ SameSolid vs' vs ∧ vs'.Nodup ∧ ∀ x ∈ vs', x ∈ vs := by
  have hi := (List.getElem?_eq_some_iff.mp hc).1
  have hb : c.bElem ∈ bd i := List.mem_of_getElem? (hv.chain i c hc).2
  have hbe : Res.at' (m.midElems 2) c.bElem = .ok (faceAt m c.bElem) := by
    have := bd_lt hd hv hi _ hb
    simp [faceAt, this]
  have hcount := h.count
  unfold knownVerts
  rw [hidx, show Res.at' types i = .ok t by simp [ht]]
  simp only [Res.bind]
  have find : ∀ (n : Nat) (p : List Nat), vs.length = n → p ∈ cellPolygons n → ∃ f ∈ bd i, (faceAt m f).sub.length = p.length := by
    intro n p hl hp
    subst hl
    obtain ⟨f, x, h1, h2, h3⟩ := h.polygon hp
    refine ⟨f, h1, ?_⟩
    simp only [faceAt, h2, Option.getD_some]
    simpa using polygon_length h3
  unfold vertexCount at hcount
  split at hcount
  · simp only [Option.some.injEq] at hcount
    rw [if_pos rfl, hbe]
    exact indexPyramid_solid ori hd hv hi h hb (by rw [← hcount]; exact fun p hp _ => tetra_apex p hp)
  · simp only [Option.some.injEq] at hcount
    rw [if_neg (by decide), if_neg (by decide), if_neg (by decide), hbe]
    exact indexLinear_solid ori hd hv hi h hb (by rw [← hcount]; exact fun p hp _ => hexahedron_chain p hp)
  · simp only [Option.some.injEq] at hcount
    rw [if_neg (by decide), if_neg (by decide), if_pos rfl, visitedFaces_valid hd hv hi]
    obtain ⟨f, h1, h2⟩ := find 6 [0, 1, 2] hcount.symm (by decide)
    obtain ⟨x, h3, h4, h5⟩ := wedgeBase_spec ((bd i).map (faceAt m)) ⟨_, List.mem_map.mpr ⟨f, h1, rfl⟩, h2⟩
    obtain ⟨g, h6, rfl⟩ := List.mem_map.mp h3
    simp only [h4, deref]
    exact indexLinear_solid ori hd hv hi h h6 (by
      rw [← hcount, h5]; exact fun p hp hl => wedge_chain p hp hl)
  · simp only [Option.some.injEq] at hcount
    rw [if_neg (by decide), if_pos rfl, visitedFaces_valid hd hv hi]
    obtain ⟨f, h1, h2⟩ := find 5 [0, 1, 2, 3] hcount.symm (by decide)
    obtain ⟨x, h3, h4, h5⟩ := pyramidBase_spec ((bd i).map (faceAt m)) ⟨_, List.mem_map.mpr ⟨f, h1, rfl⟩, by rw [h2]; decide⟩
    obtain ⟨g, h6, rfl⟩ := List.mem_map.mp h3
    simp only [h4, deref]
    exact indexPyramid_solid ori hd hv hi h h6 (by
      rw [← hcount]; exact fun p hp hl => pyramid_apex p hp (by omega))
  · simp at hcount

end GTMesh.Vtk
