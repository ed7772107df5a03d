import Verif.Proofs.ToString
import Verif.Props.Convert

/-!
# C51, C53: centers with the same text

The 3D VTK writer recognises the centers it has appended by the text of their coordinates, which has six digits behind the point.
-/

namespace GTMesh.Vtk
open Spec Std' GTMesh.Props
variable {R V P : Type}

/-- Centers that are more than 10^-6 apart in one coordinate. -/
def Apart (p q : Point3 ℚ) : Prop := 1 / 10 ^ 6 < |p.1 - q.1| ∨ 1 / 10 ^ 6 < |p.2.1 - q.2.1| ∨ 1 / 10 ^ 6 < |p.2.2 - q.2.2|

theorem key_ne_of_apart {p q : Point3 ℚ} (h : Apart p q) : centerKey p ≠ centerKey q := by
  intro he
  obtain ⟨h1, h2, h3⟩ := centerKey_inj he
  rcases h with h | h | h
  · exact absurd (toString6_near h1) (not_le.mpr h)
  · exact absurd (toString6_near h2) (not_le.mpr h)
  · exact absurd (toString6_near h3) (not_le.mpr h)

/-- C51, when the round trip holds with the texts the writer uses: the centers of the split cells and of their faces are pairwise more than 10^-6
apart in one coordinate. (The hypothesis of `C51_valid_partial` about the texts is then met.) -/
theorem C51_apart_partial (cc fc : Idx → Point3 ℚ) (m : Mesh V) (bd : Idx → List Idx) (types : List Nat)
    (hc : ∀ i i', i < m.cells.length → i' < m.cells.length → isSplit types i = true → isSplit types i' = true → i ≠ i' →
      Apart (cc i) (cc i'))
    (hf : ∀ i i' f f', i < m.cells.length → i' < m.cells.length → isSplit types i = true → isSplit types i' = true →
      f ∈ bd i → f' ∈ bd i' → f ≠ f' → Apart (fc f) (fc f'))
    (hb : ∀ i i' f, i < m.cells.length → i' < m.cells.length → isSplit types i = true → isSplit types i' = true →
      f ∈ bd i → Apart (fc f) (cc i')) : DistinctCenters centerKey cc fc m bd types where
  cells := by
    intro i i' h1 h2 h3 h4 he
    by_contra hne
    exact key_ne_of_apart (hc i i' h1 h2 h3 h4 hne) he
  faces := by
    intro i i' f f' h1 h2 h3 h4 h5 h6 he
    by_contra hne
    exact key_ne_of_apart (hf i i' f f' h1 h2 h3 h4 h5 h6 hne) he
  both := by
    intro i i' f h1 h2 h3 h4 h5
    exact key_ne_of_apart (hb i i' f h1 h2 h3 h4 h5)

-- centers that are whole numbers
example : DistinctCenters centerKey (fun i => (5, (i : ℚ), 0)) (fun f => (7, (f : ℚ), 0)) exampleMesh3 exampleBd3 [301, 304] := by
  have far : ∀ (i j : Nat), i ≠ j → (1 : ℚ) / 10 ^ 6 < |(i : ℚ) - j| := by
    intro i j h
    have h1 : (1 : ℤ) ≤ |(i : ℤ) - j| := Int.one_le_abs (by omega)
    have h2 : (1 : ℚ) ≤ |(i : ℚ) - j| := by exact_mod_cast h1
    exact lt_of_lt_of_le (by norm_num) h2
  refine C51_apart_partial _ _ _ _ _ (fun i i' _ _ _ _ h => .inr (.inl (far i i' h))) (fun i i' f f' _ _ _ _ _ _ h => .inr (.inl (far f f' h)))
    (fun i i' f _ _ _ _ _ => .inl ?_)
  norm_num

/-- Writing succeeds for all texts of centers; the rows of the file. -/
theorem written_any (ori : Idx → Bool) (key : Point3 R → List Char) (cc fc : Idx → Point3 R) (hash : Nat)
    (m : Mesh (Point3 R)) (bd vert : Idx → List Idx) (types : List Nat) (w0 : Writer3 (Point3 R)) (hhash : w0.lastHash ≠ hash)
    (hd : m.dim = 3) (hv : ValidMesh m bd) (hn : Numbered m) (htl : types.length = m.cells.length)
    (hsol : ∀ (i : Nat) t, types[i]? = some t → isSplit types i = false → IsSolid m (bd i) (vert i) t) (title : List String) :
    ∃ (w : Writer3 (Point3 R)) (ts : List (VTok R)) (F : File R) (pt : Point3 R → Idx),
      writeToStream3 ori key cc fc hash m types w0 = .ok (w, ts) ∧
      header title ++ ts = F.tokens ∧ F.verts = m.vertices ++ w.appended ∧
      List.Forall₂ (RowOf m vert fc cc pt) (exported m bd types) F.cells ∧ ∀ p q, key p = key q → pt p = pt q := by
  obtain ⟨w, hw⟩ := indexMesh3_total ori key cc fc m bd vert types w0 hd hv hn htl hsol
  obtain ⟨h1, h2, h3, h4⟩ := rows_written ori key cc fc m bd vert types w0 w hd hv hn htl hsol hw
  obtain ⟨pt, g1, _, _, g4⟩ := rows_pieces ori key cc fc m bd vert types w0 w hd hv hn htl hsol hw
  have hknown : ∀ t ∈ w.cellTypes, t = 300 ∨ t = 301 ∨ t = 302 ∨ t = 303 := by
    intro t ht
    obtain ⟨k, hk⟩ := List.getElem?_of_mem ht
    have hkl := (List.getElem?_eq_some_iff.mp hk).1
    rw [h2, h1] at hkl
    have ho := List.getElem?_eq_getElem hkl
    have := h3 k _ ho
    rw [hk] at this
    cases hs : isSplit types (origins (pieces m bd types) m.cells.length)[k] with
    | true => rw [hs] at this; simp at this; exact Or.inl this
    | false =>
      rw [hs] at this
      simp only [Bool.false_eq_true, if_false] at this
      have hs' := hs
      simp [isSplit, ← this] at hs'
      omega
  obtain ⟨ts, F, f1, f2, f3, f4, f5, f6⟩ := file_written ori key cc fc hash m types w0 w hhash hw h2 hknown title
  exact ⟨_, ts, F, pt, f1, f2, f3, by rw [f4]; exact g1, g4⟩

/-- C51 is false when the center of a split cell and the center of one of its faces have the same text: writing succeeds, and every tetrahedron of
this face is written with one vertex twice. -/
theorem C51_close_centers_violated (ori : Idx → Bool) (key : Point3 R → List Char) (cc fc : Idx → Point3 R) (hash : Nat)
    (m : Mesh (Point3 R)) (bd vert : Idx → List Idx) (types : List Nat) (w0 : Writer3 (Point3 R)) (hhash : w0.lastHash ≠ hash)
    (hd : m.dim = 3) (hv : ValidMesh m bd) (hn : Numbered m) (htl : types.length = m.cells.length)
    (hsol : ∀ (i : Nat) t, types[i]? = some t → isSplit types i = false → IsSolid m (bd i) (vert i) t) (title : List String)
    (i f : Idx) (he : key (fc f) = key (cc i)) :
    ∃ (w : Writer3 (Point3 R)) (ts : List (VTok R)) (F : File R) (x : Idx),
      writeToStream3 ori key cc fc hash m types w0 = .ok (w, ts) ∧ header title ++ ts = F.tokens ∧
      ∀ (k : Nat) e, (exported m bd types)[k]? = some (.part i f e) → F.cells[k]? = some [endA m.edges e, endB m.edges e, x, x] := by
  obtain ⟨w, ts, F, pt, h1, h2, _, h3, h4⟩ := written_any ori key cc fc hash m bd vert types w0 hhash hd hv hn htl hsol title
  refine ⟨w, ts, F, pt (cc i), h1, h2, fun k e hx => ?_⟩
  obtain ⟨vs, r1, r2⟩ := forall₂_get h3 hx
  obtain rfl : vs = _ := r2
  rw [r1, h4 _ _ he]

theorem centerKey_small {p q : Point3 ℚ} (h : ∀ x ∈ [p.1, p.2.1, p.2.2, q.1, q.2.1, q.2.2], 0 ≤ x ∧ x < 1 / (2 * 10 ^ 6)) :
    centerKey p = centerKey q := by
  simp only [List.mem_cons, List.not_mem_nil, or_false, forall_eq_or_imp, forall_eq] at h
  obtain ⟨⟨b1, b2⟩, ⟨b3, b4⟩, ⟨b5, b6⟩, ⟨c1, c2⟩, ⟨c3, c4⟩, ⟨c5, c6⟩⟩ := h
  simp only [centerKey, toString6_small b1 b2, toString6_small b3 b4,
    toString6_small b5 b6, toString6_small c1 c2, toString6_small c3 c4, toString6_small c5 c6]

/-- A point whose coordinates lie between 0 and 5·10^-7. -/
def Small (p : Point3 ℚ) : Prop := ∀ x ∈ [p.1, p.2.1, p.2.2], 0 ≤ x ∧ x < 1 / (2 * 10 ^ 6)

theorem key_of_small {p q : Point3 ℚ} (hp : Small p) (hq : Small q) : centerKey p = centerKey q := by
  refine centerKey_small fun x hx => ?_
  have : x ∈ [p.1, p.2.1, p.2.2] ++ [q.1, q.2.1, q.2.2] := hx
  rcases List.mem_append.mp this with h | h
  · exact hp x h
  · exact hq x h

/-- C51 is false of small meshes, whatever their shape: when the coordinates of the centers lie between 0 and 5·10^-7, all tetrahedra of split
cells are written with one and the same point in the place of the center of the face and of the center of the cell. -/
theorem C51_small_mesh_violated (ori : Idx → Bool) (cc fc : Idx → Point3 ℚ) (hash : Nat)
    (m : Mesh (Point3 ℚ)) (bd vert : Idx → List Idx) (types : List Nat) (w0 : Writer3 (Point3 ℚ)) (hhash : w0.lastHash ≠ hash)
    (hd : m.dim = 3) (hv : ValidMesh m bd) (hn : Numbered m) (htl : types.length = m.cells.length)
    (hsol : ∀ (i : Nat) t, types[i]? = some t → isSplit types i = false → IsSolid m (bd i) (vert i) t) (title : List String)
    (hc : ∀ i, i < m.cells.length → isSplit types i = true → Small (cc i) ∧ ∀ f ∈ bd i, Small (fc f)) :
    ∃ (w : Writer3 (Point3 ℚ)) (ts : List (VTok ℚ)) (F : File ℚ) (x : Idx),
      writeToStream3 ori centerKey cc fc hash m types w0 = .ok (w, ts) ∧ header title ++ ts = F.tokens ∧
      ∀ (k : Nat) i f e, (exported m bd types)[k]? = some (.part i f e) → F.cells[k]? = some [endA m.edges e, endB m.edges e, x, x] := by
  obtain ⟨w, ts, F, pt, h1, h2, _, h3, h4⟩ := written_any ori centerKey cc fc hash m bd vert types w0 hhash hd hv hn htl hsol title
  refine ⟨w, ts, F, pt (0, 0, 0), h1, h2, fun k i f e hx => ?_⟩
  obtain ⟨vs, r1, r2⟩ := forall₂_get h3 hx
  obtain rfl : vs = _ := r2
  obtain ⟨a1, a2, a3, _⟩ := mem_exported (List.mem_of_getElem? hx)
  have h0 : Small (0, 0, 0) := by
    intro x hx
    simp only [List.mem_cons, List.not_mem_nil, or_false] at hx
    have : x = 0 := by tauto
    rw [this]; norm_num
  rw [r1, h4 _ _ (key_of_small (hc i a1 a2).1 h0), h4 _ _ (key_of_small ((hc i a1 a2).2 f a3) h0)]

/-- C53 is false of FPMA files when the center of a cell and the centers of its faces have the same text (a small mesh, or centers that were
not computed): each side of a face of the cell is written as a tetrahedron with one vertex twice. -/
theorem C53_same_centers_violated (F : Fpma.File R) (hF : F.WellFormed) (hP : F.Polyhedra) (res : Nat)
    (hres : ∀ vs ∈ F.faces, res = 0 ∨ vs.length ≤ res) (rest : List (Tok R))
    (ori : Idx → Bool) (key : Point3 R → List Char) (cc fc : Idx → Point3 R) (hash : Nat) (w0 : Writer3 (Point3 R)) (hhash : w0.lastHash ≠ hash)
    (hsame : ∀ i f, f ∈ F.cell i → key (fc f) = key (cc i)) (title : List String) :
    ∃ (m : Mesh (Point3 R)) (w : Writer3 (Point3 R)) (ts : List (VTok R)) (G : File R),
      Fpma.load res (F.tokens ++ rest) { dim := 3 } = .ok m ∧
      writeToStream3 ori key cc fc hash m (Fpma.setupCellTypes [] m) w0 = .ok (w, ts) ∧ header title ++ ts = G.tokens ∧
      ∀ c ∈ G.cells, ∃ u v x, c = [u, v, x, x] := by
  obtain ⟨m, h1, h2, h3, h4, h5, h6, h7, h8, h9, h10⟩ := Fpma.C18_load F hF res hres rest
  obtain ⟨m1, g1, hv⟩ := Fpma.C18_valid F hF res hres rest hP.range
  rw [h1] at g1
  cases g1
  have hty : Fpma.setupCellTypes [] m = List.replicate F.cells.length 305 := by simp [Fpma.setupCellTypes, resize, h9]
  have hspl : ∀ i, isSplit (Fpma.setupCellTypes [] m) i = true := by
    intro i
    rw [hty]
    unfold isSplit
    by_cases hi : i < F.cells.length
    · simp [hi]
    · simp [hi]
  have hnum : Numbered m := by
    refine ⟨?_, ?_⟩
    · intro i c hc
      have hi : i < F.cells.length := by rw [← h9]; exact (List.getElem?_eq_some_iff.mp hc).1
      obtain ⟨⟨c', a1, a2⟩, _⟩ := h10 i _ (List.getElem?_eq_getElem hi)
      rw [hc] at a1
      cases a1
      exact a2
    · intro i f hf
      have hi : i < F.faces.length := by rw [← h7]; exact (List.getElem?_eq_some_iff.mp hf).1
      obtain ⟨f', a1, a2, _⟩ := h8 i _ (List.getElem?_eq_getElem hi)
      rw [hf] at a1
      cases a1
      exact a2
  obtain ⟨w, ts, G, pt, k1, k2, _, k3, k4⟩ := written_any ori key cc fc hash m F.cell (fun _ => []) (Fpma.setupCellTypes [] m) w0 hhash h2 hv hnum
    (by rw [hty, h9]; simp) (fun i t _ hs => by rw [hspl i] at hs; simp at hs) title
  refine ⟨m, w, ts, G, h1, k1, k2, fun c hc => ?_⟩
  obtain ⟨k, hk⟩ := List.getElem?_of_mem hc
  have hkl := (List.getElem?_eq_some_iff.mp hk).1
  rw [← k3.length_eq] at hkl
  have hx := List.getElem?_eq_getElem hkl
  obtain ⟨vs, r1, r2⟩ := forall₂_get k3 hx
  rw [hk] at r1
  cases r1
  have hm := List.mem_of_getElem? hx
  generalize (exported m F.cell (Fpma.setupCellTypes [] m))[k] = x at r2 hm
  cases x with
  | whole i =>
    obtain ⟨_, a2⟩ := mem_exported hm
    rw [hspl i] at a2
    cases a2
  | part i f e =>
    obtain ⟨_, _, a3, _⟩ := mem_exported hm
    obtain rfl : c = _ := r2
    exact ⟨_, _, pt (cc i), by rw [k4 _ _ (hsame i f a3)]⟩

-- the centers of the file of two tetrahedra were not computed
example : ∃ m w ts G, Fpma.load 0 (Fpma.exampleFile.tokens ++ []) { dim := 3 } = .ok m ∧
    writeToStream3 (fun _ => false) exampleKey (fun _ => (0, 0, 0)) (fun _ => (0, 0, 0)) 1 m (Fpma.setupCellTypes [] m) {} = .ok (w, ts) ∧
    header [] ++ ts = File.tokens G ∧ ∀ c ∈ G.cells, ∃ u v x, c = [u, v, x, x] :=
  C53_same_centers_violated Fpma.exampleFile Fpma.exampleFile_wellFormed exampleFile_polyhedra 0 (by decide) [] (fun _ => false) exampleKey
    (fun _ => (0, 0, 0)) (fun _ => (0, 0, 0)) 1 {} (by decide) (fun _ _ _ => rfl) []

/-! Example: a hexahedron and a pyramid of an unknown type, 10^-7 long. -/

/-- The mesh. -/
def smallMesh : Mesh (Point3 ℚ) :=
  { dim := 3, vertices := exampleMesh3.vertices.map fun p => (p.1 / 10 ^ 7, p.2.1 / 10 ^ 7, p.2.2 / 10 ^ 7), edges := exampleMesh3.edges,
    mids := exampleMesh3.mids, cells := exampleMesh3.cells }

/-- Its centers. -/
def smallCenter (i : Idx) : Point3 ℚ := ((i : ℚ) / 10 ^ 8, 1 / 10 ^ 7, 1 / 10 ^ 7)

theorem smallMesh_valid : ValidMesh smallMesh exampleBd3 := validB_sound (by decide +kernel)

example : ∃ w ts F x, writeToStream3 (fun _ => false) centerKey smallCenter smallCenter 1 smallMesh [301, 304] {} = .ok (w, ts) ∧
    header [] ++ ts = File.tokens F ∧ F.cells[1]? = some [4, 5, x, x] := by
  obtain ⟨w, ts, F, x, h1, h2, h3⟩ := C51_small_mesh_violated (fun _ => false) smallCenter smallCenter 1 smallMesh exampleBd3 exampleVert [301, 304] {}
    (by decide) rfl smallMesh_valid ⟨exampleMesh3_numbered.cells, exampleMesh3_numbered.faces⟩ (by decide +kernel) (by
      intro i t hi hs
      have hlt : i < 2 := (List.getElem?_eq_some_iff.mp hi).1
      obtain rfl | rfl : i = 0 ∨ i = 1 := by omega
      · obtain ⟨a, b, c⟩ := exampleMesh3_facts.1 0 t hi
        exact ⟨a, b, c⟩
      · simp [isSplit] at hs) [] (by
      have one : ∀ i < 2, isSplit [301, 304] i = true → i = 1 := by decide
      have small : ∀ i < 10, Small (smallCenter i) := by
        intro i hi x hx
        have : (i : ℚ) < 10 := by exact_mod_cast hi
        have h0 : (0 : ℚ) ≤ i := by positivity
        simp only [smallCenter, List.mem_cons, List.not_mem_nil, or_false] at hx
        rcases hx with rfl | rfl | rfl
        · constructor
          · positivity
          · rw [div_lt_iff₀ (by norm_num)]; norm_num; linarith
        · norm_num
        · norm_num
      intro i hi hs
      obtain rfl := one i hi hs
      refine ⟨small 1 (by omega), fun f hf => small f ?_⟩
      have : ∀ f ∈ exampleBd3 1, f < 10 := by decide
      exact this f hf)
  refine ⟨w, ts, F, x, h1, h2, ?_⟩
  have : ∃ f ∈ List.range 10, ∃ e ∈ List.range 100, (exported smallMesh exampleBd3 [301, 304])[1]? = some (.part 1 f e) ∧
      endA smallMesh.edges e = 4 ∧ endB smallMesh.edges e = 5 := by decide +kernel
  obtain ⟨f, _, e, _, a1, a2, a3⟩ := this
  rw [h3 1 1 f e a1, a2, a3]

end GTMesh.Vtk
