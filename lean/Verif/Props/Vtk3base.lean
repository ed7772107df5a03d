import Verif.Proofs.Solid5
import Verif.Props.Connections

/-! # C27: cells whose type promises a face they do not have -/

namespace GTMesh.Vtk
open Spec Std' GTMesh.Props
variable {V P : Type}

theorem pyramidBase_none : ∀ (fs : List Face), (∀ f ∈ fs, f.sub.length ≤ 3) → pyramidBase fs = none := by
  unfold pyramidBase
  intro fs
  induction fs with
  | nil => intro _; rfl
  | cons f fs ih =>
    intro h
    rw [List.foldl_cons, if_neg (by have := h f (by simp); omega)]
    exact ih fun x hx => h x (by simp [hx])

theorem wedgeBase_none : ∀ (fs : List Face), (∀ f ∈ fs, f.sub.length ≠ 3) → wedgeBase fs = none := by
  unfold wedgeBase
  intro fs
  induction fs with
  | nil => intro _; rfl
  | cons f fs ih =>
    intro h
    rw [List.foldl_cons, if_neg (by have := h f (by simp); omega)]
    exact ih fun x hx => h x (by simp [hx])

/-- The type says "pyramid" and no face has more than three edges, or the type says "wedge" and no face has three. -/
def NoBase (m : Mesh V) (bd : Idx → List Idx) (types : List Nat) (i : Nat) : Prop :=
  (types[i]? = some 303 ∧ ∀ f ∈ bd i, (edgesOfFace m f).length ≤ 3) ∨
  (types[i]? = some 302 ∧ ∀ f ∈ bd i, (edgesOfFace m f).length ≠ 3)

theorem indexCell3_noBase (ori : Idx → Bool) (key : P → List Char) (cc fc : Idx → P) {m : Mesh V} {bd : Idx → List Idx}
    {types : List Nat} (hd : m.dim = 3) (hv : ValidMesh m bd) (hn : Numbered m) {i : Nat} {c : Cell} (hc : m.cells[i]? = some c)
    (h : NoBase m bd types i) (s : IndexState P) : indexCell3 ori key cc fc m types s c = .ub := by
  have hidx := hn.cells i c hc
  have hi := (List.getElem?_eq_some_iff.mp hc).1
  unfold indexCell3
  rw [hidx]
  rcases h with ⟨ht, hf⟩ | ⟨ht, hf⟩
  · rw [show Res.at' types i = .ok 303 by simp [ht]]
    simp only [Res.bind]
    rw [if_neg (by decide), if_pos trivial, visitedFaces_valid hd hv hi]
    simp only
    rw [pyramidBase_none]
    · rfl
    · intro f h
      obtain ⟨x, hx, rfl⟩ := List.mem_map.mp h
      rw [faceAt_sub]; exact hf x hx
  · rw [show Res.at' types i = .ok 302 by simp [ht]]
    simp only [Res.bind]
    rw [if_neg (by decide), if_neg (by decide), if_pos trivial, visitedFaces_valid hd hv hi]
    simp only
    rw [wedgeBase_none]
    · rfl
    · intro f h
      obtain ⟨x, hx, rfl⟩ := List.mem_map.mp h
      rw [faceAt_sub]; exact hf x hx

/-- C27 needs that the types of the cells are right. If a cell of a valid mesh is said to be a pyramid and none of its faces has more than three
edges, or said to be a wedge and none of its faces has three edges, then the mesh is not exported: the writer uses a null pointer, at once if it
is the first cell. There is no exception that could be caught. -/
theorem C27_base_violated (ori : Idx → Bool) (key : P → List Char) (cc fc : Idx → P) (m : Mesh V) (bd : Idx → List Idx)
    (types : List Nat) (w0 : Writer3 P) (hd : m.dim = 3) (hv : ValidMesh m bd) (hn : Numbered m) (i : Nat) (hi : i < m.cells.length)
    (h : NoBase m bd types i) :
    (∀ w, indexMesh3 ori key cc fc m types w0 ≠ .ok w) ∧ (i = 0 → indexMesh3 ori key cc fc m types w0 = .ub) := by
  have hstep := indexCell3_noBase ori key cc fc hd hv hn (i := i) (c := m.cells[i]) (by simp [hi]) h
  constructor
  · intro w hw
    unfold indexMesh3 at hw
    cases h1 : m.connectionsAsc 3 0 <;> rw [h1] at hw <;> simp only [Res.bind, reduceCtorEq] at hw
    cases h2 : foldRes (indexCell3 ori key cc fc m types) { w := {} } m.cells <;> rw [h2] at hw <;> simp only [reduceCtorEq] at hw
    have key : ∀ (l : List Cell) (s s' : IndexState P), m.cells[i] ∈ l → foldRes (indexCell3 ori key cc fc m types) s l ≠ .ok s' := by
      intro l
      induction l with
      | nil => intro s s' h; cases h
      | cons c l ih =>
        intro s s' hmem hf
        simp only [foldRes] at hf
        rcases List.mem_cons.mp hmem with he | hmem
        · rw [← he, hstep s] at hf
          cases hf
        · cases h1 : indexCell3 ori key cc fc m types s c <;> rw [h1] at hf <;> simp only [Res.bind, reduceCtorEq] at hf
          exact ih _ _ hmem hf
    exact key _ _ _ (List.getElem_mem hi) h2
  · rintro rfl
    unfold indexMesh3
    obtain ⟨r, hr, _⟩ := C11_ascending m bd hv 3 0 (by omega) (by omega)
    rw [hr]
    simp only [Res.bind]
    cases hcs : m.cells with
    | nil => rw [hcs] at hi; cases hi
    | cons c cs =>
      simp only [hcs, List.getElem_cons_zero] at hstep
      simp only [foldRes, hstep, Res.bind]

/-- A hexahedron that is said to be a wedge. -/
example : NoBase exampleMesh3 exampleBd3 [302, 303] 0 ∧
    indexMesh3 (fun _ => false) exampleKey (fun i => (5, i, i)) (fun i => (7, i, i)) exampleMesh3 [302, 303] {} = .ub := by
  have h : NoBase exampleMesh3 exampleBd3 [302, 303] 0 := .inr ⟨rfl, by decide +kernel⟩
  exact ⟨h, (C27_base_violated _ _ _ _ _ _ _ _ (by decide +kernel) exampleMesh3_valid exampleMesh3_numbered 0 (by decide +kernel) h).2 rfl⟩

end GTMesh.Vtk
