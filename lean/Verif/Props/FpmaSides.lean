import Verif.Props.Balance
import Verif.Props.Fpma
import Verif.Props.CellConn

/-! # C18: the cells on the two sides of a face of an FPMA file -/

namespace GTMesh.Spec

/-- Cell number `c` of the file lists face `i`. -/
def Lists {R : Type} (F : Fpma.File R) (i c : Nat) : Prop := ∃ l, F.cells[c]? = some l ∧ i ∈ l

end GTMesh.Spec

namespace GTMesh.Fpma
open Spec GTMesh.Props Vtk
variable {R : Type}

theorem firstOcc_of_nodup : ∀ {l : List Idx}, l.Nodup → firstOcc l = l
  | [], _ => rfl
  | x :: l, h => by
    rw [List.nodup_cons] at h
    rw [firstOcc, firstOcc_of_nodup h.2, List.filter_eq_self.mpr]
    intro y hy
    simp only [ne_eq, decide_eq_true_eq]
    rintro rfl
    exact h.1 hy

/-- The registered cells after increasing calls. -/
theorem registered_increasing {h : List (Idx × Idx)} (hinc : (h.map (·.2)).Pairwise (· < ·)) (hv : ∀ c ∈ h.map (·.2), c ≠ INVALID) :
    registered h = (h.map (·.2)).take 2 := by
  have hval : validOnly (h.map (·.2)) = h.map (·.2) := by
    unfold validOnly
    rw [List.filter_eq_self]
    intro a ha
    simpa using hv a ha
  unfold registered
  rw [hval, firstOcc_of_nodup (hinc.imp fun h => Nat.ne_of_lt h)]

/-- C18. The left cell of a face is the first cell of the file that lists it, the right one the second; a face that is listed once has no
right cell, and one that is not listed has none at all. -/
theorem C18_sides (F : File R) (hF : F.WellFormed) (res : Nat)
    (hres : ∀ vs ∈ F.faces, res = 0 ∨ vs.length ≤ res) (rest : List (Tok R)) :
    ∃ m, load res (F.tokens ++ rest) { dim := 3 } = .ok m ∧ ∀ (i : Nat) f, (m.midElems 2)[i]? = some f →
      (f.conn.left = INVALID ∧ f.conn.right = INVALID ∧ ∀ c, ¬ Lists F i c) ∨
        FirstAndLast (Lists F i) f.conn.left f.conn.right := by
  obtain ⟨d, m, h1, h2, h3, h4, h5, h6, h7, h8⟩ := load_spec F hF res hres rest
  refine ⟨m, h1, ?_⟩
  intro i f hf
  have hi : i < F.faces.length := by
    have := (List.getElem?_eq_some_iff.mp hf).1; omega
  obtain ⟨f', g1, g2, g3, g4⟩ := h6 i _ (List.getElem?_eq_getElem hi)
  rw [hf] at g1
  obtain rfl := Option.some.inj g1
  obtain ⟨hinc, hmem⟩ := histOf_increasing i F.cells 0 hF.cells_nodup
  have hmem' : ∀ c, c ∈ (histOf i (chainCalls 0 F.cells)).map (·.2) ↔ Lists F i c := by
    intro c
    rw [hmem c]
    constructor
    · rintro ⟨k, l, a, b, rfl⟩; exact ⟨l, by rwa [Nat.zero_add], b⟩
    · rintro ⟨l, a, b⟩; exact ⟨c, l, a, b, by omega⟩
  have hval : ∀ c ∈ (histOf i (chainCalls 0 F.cells)).map (·.2), c ≠ INVALID := by
    intro c hc
    obtain ⟨l, a, _⟩ := (hmem' c).mp hc
    have := (List.getElem?_eq_some_iff.mp a).1
    have := hF.cells_fit
    omega
  have hreg := registered_increasing hinc hval
  obtain ⟨r1, r2, _⟩ := C04_successor_map (histOf i (chainCalls 0 F.cells))
  rw [hreg] at r1 r2
  rw [show chainAfter (histOf i (chainCalls 0 F.cells)) = f.conn from g4.symm] at r1 r2
  have hlen : ((histOf i (chainCalls 0 F.cells)).map (·.2)).length ≤ 2 := by
    rw [(histOf_cells i F.cells 0 hF.cells_nodup).1]; exact hF.two i
  generalize hL : (histOf i (chainCalls 0 F.cells)).map (·.2) = L at *
  match L, hlen with
  | [], _ =>
    left
    refine ⟨by simpa using r1, by simpa using r2, fun c hc => ?_⟩
    exact absurd ((hmem' c).mpr hc) (by simp)
  | [a], _ =>
    right
    simp at r1 r2
    rw [r1, r2]
    refine ⟨(hmem' a).mp (by simp), fun c hc => ?_, .inl ⟨rfl, fun c hc => by simpa using (hmem' c).mpr hc⟩⟩
    have := (hmem' c).mpr hc
    simp at this
    omega
  | [a, b], _ =>
    right
    simp at r1 r2
    rw [r1, r2]
    simp at hinc
    refine ⟨(hmem' a).mp (by simp), fun c hc => ?_, .inr ⟨hinc, (hmem' b).mp (by simp), fun c hc => ?_⟩⟩
    all_goals
      have := (hmem' c).mpr hc
      simp at this
      omega

/-- C55. In a mesh read from an FPMA file whose faces are all listed by a cell, the outer fluxes of all cells add up to the fluxes through
the faces with one cell. -/
theorem C55_balance_fpma (F : File R) (hF : F.WellFormed) (res : Nat)
    (hres : ∀ vs ∈ F.faces, res = 0 ∨ vs.length ≤ res) (rest : List (Tok R))
    (hr : ∀ vs ∈ F.faces, ∀ v ∈ vs, v < F.verts.length) (hused : ∀ i, i < F.faces.length → ∃ c, Lists F i c) :
    ∃ m, load res (F.tokens ++ rest) { dim := 3 } = .ok m ∧
      ∀ φ : Idx → ℝ, totalOutflow m (fun i => (F.cells[i]?).getD []) φ =
        (((List.range F.faces.length).filter fun f => decide ((cellsOfFace m f).right = INVALID)).map φ).sum := by
  obtain ⟨m, h1, hv⟩ := C18_valid F hF res hres rest hr
  obtain ⟨m', h1', k2, _, _, _, _, k6, _, k7, _⟩ := C18_load F hF res hres rest
  obtain ⟨m'', h1'', hs⟩ := C18_sides F hF res hres rest
  rw [h1] at h1' h1''
  obtain rfl := Res.ok.inj h1'
  obtain rfl := Res.ok.inj h1''
  refine ⟨m, h1, fun φ => ?_⟩
  have hnum : m.numFaces = F.faces.length := by
    unfold Mesh.numFaces Mesh.numElems; rw [k2]; simpa using k6
  have hfl : ∀ f, f < F.faces.length → FirstAndLast (Lists F f) (cellsOfFace m f).left (cellsOfFace m f).right := by
    intro f hf
    have he := List.getElem?_eq_getElem (show f < (m.midElems 2).length by omega)
    have hof : cellsOfFace m f = ((m.midElems 2)[f]'(by omega)).conn := by
      unfold cellsOfFace; rw [if_neg (by omega), k2, he]; rfl
    rw [hof]
    rcases hs f _ he with ⟨_, _, h⟩ | h
    · obtain ⟨c, hc⟩ := hused f hf
      exact absurd hc (h c)
    · exact h
  have huse : ∀ f c, Lists F f c → c < F.cells.length ∧ f ∈ (F.cells[c]?).getD [] := by
    rintro f c ⟨l, a, b⟩
    exact ⟨(List.getElem?_eq_some_iff.mp a).1, by rw [a]; exact b⟩
  have hI := hF.cells_fit
  rw [← hnum]
  refine C55_balance_open m _ hv (by omega) ?_ ?_ φ
  · intro f c hf hc hlr
    rw [hnum] at hf
    have hfst := hfl f hf
    rcases hlr with hl | hl
    · exact (huse f c (hl ▸ hfst.1)).2
    · rcases hfst.2.2 with ⟨hx, _⟩ | ⟨_, hx, _⟩
      · omega
      · exact (huse f c (hl ▸ hx)).2
  · intro f hf
    rw [hnum] at hf
    have hfst := hfl f hf
    rw [k7]
    have hl := (huse f _ hfst.1).1
    rcases hfst.2.2 with ⟨hx, _⟩ | ⟨hx0, hx, _⟩
    · exact ⟨hl, by omega, .inl hx⟩
    · exact ⟨hl, by omega, .inr (huse f _ hx).1⟩

example : ∃ m, load 0 (exampleFile.tokens ++ []) { dim := 3 } = .ok m ∧ ∀ (i : Nat) f, (m.midElems 2)[i]? = some f →
    (f.conn.left = INVALID ∧ f.conn.right = INVALID ∧ ∀ c, ¬ Lists exampleFile i c) ∨
      FirstAndLast (Lists exampleFile i) f.conn.left f.conn.right :=
  C18_sides exampleFile exampleFile_wellFormed 0 (by decide) []

/-- The shared face of the example has the cells 0 and 1, the others one cell. -/
example : ∃ m, load 0 exampleFile.tokens { dim := 3 } = .ok m ∧
    (m.midElems 2).map (fun f => (f.conn.left, f.conn.right)) =
      [(0, INVALID), (0, INVALID), (0, 1), (0, INVALID), (1, INVALID), (1, INVALID), (1, INVALID)] := ⟨_, rfl, by decide⟩

example : ∃ m, load 0 (exampleFile.tokens ++ []) { dim := 3 } = .ok m ∧
    ∀ φ : Idx → ℝ, totalOutflow m (fun i => (exampleFile.cells[i]?).getD []) φ =
      (((List.range exampleFile.faces.length).filter fun f => decide ((cellsOfFace m f).right = INVALID)).map φ).sum := by
  refine C55_balance_fpma exampleFile exampleFile_wellFormed 0 (by decide) [] (by decide) ?_
  intro i hi
  have hi : i < 7 := hi
  by_cases h : i < 4
  · refine ⟨0, _, rfl, ?_⟩
    interval_cases i <;> decide
  · refine ⟨1, _, rfl, ?_⟩
    interval_cases i <;> first | omega | decide

end GTMesh.Fpma
