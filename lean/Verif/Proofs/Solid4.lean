import Verif.Proofs.Solid3

/-! # The writer succeeds on valid meshes -/

namespace GTMesh.Vtk
open Spec Std' GTMesh.Props
variable {V P : Type}

theorem foldRes_ok {α β : Type} {f : β → α → Res β} : ∀ (l : List α) (b : β), (∀ a ∈ l, ∀ b, ∃ b', f b a = .ok b') →
    ∃ b', foldRes f b l = .ok b' := by
  intro l
  induction l with
  | nil => intro b _; exact ⟨b, rfl⟩
  | cons a l ih =>
    intro b h
    obtain ⟨b', hb⟩ := h a (by simp) b
    rw [foldRes, hb]
    exact ih b' fun x hx => h x (by simp [hx])

theorem edgesOfFace_lt {m : Mesh V} {bd : Idx → List Idx} (hd : m.dim = 3) (hv : ValidMesh m bd) {f : Idx}
    (hf : f < (m.midElems 2).length) : ∀ e ∈ (faceAt m f).sub, e < m.edges.length := by
  intro e he
  have := hv.range 2 f (by omega) (by omega) (by rw [numFaces3 hd]; exact hf) e (by
    simp only [directSubs, hd]
    rw [if_neg (by decide), if_neg (by decide)]
    simpa [faceAt, hf] using he)
  simpa [Mesh.numElems, hd] using this

theorem indexCell3_known {ori : Idx → Bool} {key : P → List Char} {cc fc : Idx → P} {m : Mesh V} {types : List Nat}
    {c : Cell} {t : Nat} {vs : List Idx} (ht : types[c.index]? = some t) (hs : isSplit types c.index = false)
    (h : knownVerts ori m types c = .ok vs) (s : IndexState P) :
    indexCell3 ori key cc fc m types s c = .ok (s.push vs t) := by
  unfold knownVerts at h
  unfold indexCell3
  rw [show Res.at' types c.index = .ok t by simp [ht]] at h ⊢
  simp only [Res.bind] at h ⊢
  have hk : t = 300 ∨ t = 301 ∨ t = 302 ∨ t = 303 := by
    have := hs
    simp [isSplit, ht] at this
    omega
  have step : ∀ {α : Type} (r : Res α) (g : α → Res (List Idx)), r.bind g = .ok vs →
      (r.bind fun a => (g a).bind fun vs => .ok (s.push vs t)) = .ok (s.push vs t) := by
    intro α r g hr
    cases r <;> simp_all [Res.bind]
  have step2 : ∀ {α β : Type} (r : Res α) (k : α → Res β) (g : β → Res (List Idx)), (r.bind fun a => (k a).bind g) = .ok vs →
      (r.bind fun a => (k a).bind fun b => (g b).bind fun vs => .ok (s.push vs t)) = .ok (s.push vs t) := by
    intro α β r k g hr
    cases r <;> simp only [Res.bind, reduceCtorEq] at hr ⊢
    rename_i a
    cases hk : k a <;> rw [hk] at hr <;> simp_all
  rcases hk with rfl | rfl | rfl | rfl
  · rw [if_pos rfl] at h ⊢
    exact step (Res.at' (m.midElems 2) c.bElem) (indexPyramid ori m c.index) h
  · rw [if_neg (by decide), if_neg (by decide), if_neg (by decide)] at h
    rw [if_neg (by decide), if_neg (by decide), if_neg (by decide), if_pos rfl]
    exact step (Res.at' (m.midElems 2) c.bElem) (indexLinear ori m c.index) h
  · rw [if_neg (by decide), if_neg (by decide), if_pos rfl] at h ⊢
    exact step2 (visitedFaces m c.index) (fun fs => deref (wedgeBase fs)) (indexLinear ori m c.index) h
  · rw [if_neg (by decide), if_pos rfl] at h ⊢
    exact step2 (visitedFaces m c.index) (fun fs => deref (pyramidBase fs)) (indexPyramid ori m c.index) h

theorem indexCell3_split {ori : Idx → Bool} {key : P → List Char} {cc fc : Idx → P} {m : Mesh V} {bd : Idx → List Idx}
    {types : List Nat} (hd : m.dim = 3) (hv : ValidMesh m bd) {i : Nat} {c : Cell} (hc : m.cells[i]? = some c)
    (hidx : c.index = i) {t : Nat} (ht : types[i]? = some t) (hs : isSplit types i = true) (s : IndexState P) :
    ∃ s', indexCell3 ori key cc fc m types s c = .ok s' := by
  have hk : ¬ (t = 300 ∨ t = 301 ∨ t = 302 ∨ t = 303) := by simpa [isSplit, ht] using hs
  simp only [not_or] at hk
  unfold indexCell3
  rw [hidx, show Res.at' types i = .ok t by simp [ht]]
  simp only [Res.bind]
  rw [if_neg hk.1, if_neg hk.2.2.2, if_neg hk.2.2.1, if_neg hk.2.1]
  unfold tessCell
  rw [boundaryFaces_valid hd hv hc hidx]
  simp only [Res.bind]
  apply foldRes_ok
  intro f hf b
  obtain ⟨g, hg, rfl⟩ := List.mem_map.mp hf
  apply foldRes_ok
  intro e he b
  have := edgesOfFace_lt hd hv (bd_lt hd hv (List.getElem?_eq_some_iff.mp hc).1 g hg) e he
  unfold tessEdge
  rw [show Res.at' m.edges e = .ok m.edges[e] by simp [this]]
  exact ⟨_, rfl⟩

/-- The writer can index a valid mesh with a type for each cell, where the cells of a known type are solids of this type. -/
theorem indexMesh3_total (ori : Idx → Bool) (key : P → List Char) (cc fc : Idx → P) (m : Mesh V) (bd vert : Idx → List Idx)
    (types : List Nat) (w0 : Writer3 P) (hd : m.dim = 3) (hv : ValidMesh m bd) (hn : Numbered m)
    (htl : types.length = m.cells.length)
    (hsol : ∀ (i : Nat) t, types[i]? = some t → isSplit types i = false → IsSolid m (bd i) (vert i) t) :
    ∃ w, indexMesh3 ori key cc fc m types w0 = .ok w := by
  obtain ⟨r, hr, _⟩ := C11_ascending m bd hv 3 0 (by omega) (by omega)
  unfold indexMesh3
  rw [hr]
  simp only [Res.bind]
  obtain ⟨s, hs⟩ := foldRes_ok (f := indexCell3 ori key cc fc m types) m.cells { w := {} } (by
    intro c hc s
    obtain ⟨i, hi⟩ := List.getElem?_of_mem hc
    have hlt := (List.getElem?_eq_some_iff.mp hi).1
    have ht : types[i]? = some (types[i]'(by omega)) := by simp
    have hidx := hn.cells i c hi
    cases hsp : isSplit types i with
    | true => exact indexCell3_split hd hv hi hidx ht hsp s
    | false =>
      obtain ⟨vs', h1, _⟩ := knownVerts_solid ori hd hv hi hidx ht (hsol i _ ht hsp)
      exact ⟨_, indexCell3_known (by rw [hidx]; exact ht) (by rw [hidx]; exact hsp) h1 s⟩)
  rw [hs]
  exact ⟨_, rfl⟩

end GTMesh.Vtk
