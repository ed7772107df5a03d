import Verif.Proofs.VtkText
import Verif.Props.PrintMesh

/-! # C84: the characters of a VTK file -/

namespace GTMesh.Vtk
open Spec GTMesh.Props

theorem printed_lines (L : List (List Idx)) : ((L.flatMap cellLine : List (VTok ℚ)).map (VTok.printed stored)) = L.flatMap cellLine := by
  induction L with
  | nil => rfl
  | cons l L ih => rw [List.flatMap_cons, List.map_append, ih]; simp [cellLine, VTok.printed]

theorem printed_codes (cs : List Nat) : ((cs.flatMap fun c => [VTok.num (R := ℚ) c, .nl]).map (VTok.printed stored)) = cs.flatMap fun c => [.num c, .nl] := by
  induction cs with
  | nil => rfl
  | cons c cs ih => rw [List.flatMap_cons, List.map_append, ih]; simp [VTok.printed]

theorem printed_points (ps : List (ℚ × ℚ × ℚ)) : ((ps.flatMap fun p => [VTok.real p.1, .real p.2.1, .real p.2.2, .nl]).map (VTok.printed stored)) =
    ps.flatMap fun p => [.real (stored p.1), .real (stored p.2.1), .real (stored p.2.2), .nl] := by
  induction ps with
  | nil => rfl
  | cons p ps ih => rw [List.flatMap_cons, List.map_append, ih]; simp [VTok.printed]

theorem printed_header (title : List String) (ts : List (VTok ℚ)) : (header title ++ ts).map (VTok.printed stored) =
    (["#", "vtk", "DataFile", "Version", "2.0"].map .word ++ .nl :: (title.map .word ++ .nl ::
      (.word "ASCII" :: .nl :: .word "DATASET" :: .word "UNSTRUCTURED_GRID" :: .nl :: ts.map (VTok.printed stored)))) := by
  simp [header, VTok.printed]

/-- The tokens the writers write. -/
theorem printed_sections (pts : List (ℚ × ℚ × ℚ)) (numCells total : Nat) (L : List (List Idx)) (numTypes : Nat) (cs : List Nat) :
    (pointsSection pts ++ (VTok.word (R := ℚ) "CELLS" :: VTok.num numCells :: VTok.num total :: VTok.nl :: L.flatMap cellLine ++ [VTok.nl]) ++ typesSection numTypes cs).map
      (VTok.printed stored) =
    sectionsTokens (pts.flatMap fun p => [.real (stored p.1), .real (stored p.2.1), .real (stored p.2.2), .nl]) pts.length numCells total L numTypes cs := by
  simp only [pointsSection, typesSection, sectionsTokens, List.map_append, List.map_cons, List.map_nil, printed_points, printed_lines, printed_codes, VTok.printed]

theorem value_zero : Numeral.value "0.0".toList = some 0 := by decide +kernel

theorem isWord_zero : Fpma.IsWord "0.0".toList := ⟨by decide, by decide⟩

theorem forEach_count {α β : Type} {f : α → Res β} : ∀ {l : List α} {r : List β}, Std'.forEach f l = .ok r → r.length = l.length := by
  intro l
  induction l with
  | nil => intro r h; simp only [Std'.forEach, Res.ok.injEq] at h; subst h; rfl
  | cons a l ih =>
    intro r h
    simp only [Std'.forEach] at h
    cases h1 : f a <;> rw [h1] at h <;> simp only [Res.bind, reduceCtorEq] at h
    cases h2 : Std'.forEach f l <;> rw [h2] at h <;> simp only [reduceCtorEq, Res.ok.injEq] at h
    subst h
    simp [ih h2]

/-- C84 in 2D. The characters that are written for a mesh, with a header whose name fits in its line, and anything behind them (data of the cells), are read as
the tokens that are written, where each coordinate is changed to what its text says; into any mesh, and whatever the words of the title are. -/
theorem C84_text2 (m : Mesh (Point2 ℚ)) (types : List Nat) (ts : List (VTok ℚ)) (htl : types.length = m.cells.length)
    (h : writeToStream2 0 m types = .ok ts) :
    ∃ text, writeText2 m types = .ok text ∧ ∀ more, ∃ rest, (more = [] → rest = []) ∧ ∀ name, GoodName name → ∀ title types0 m0,
      loadText2 (headerText name ++ (text ++ more)) types0 m0 = load2 ((header title ++ ts).map (VTok.printed stored) ++ rest) types0 m0 := by
  unfold writeToStream2 at h
  unfold writeText2
  cases h1 : indexMesh2 m <;> rw [h1] at h <;> simp only [Res.bind, reduceCtorEq] at h
  rename_i L
  cases h2 : codes toVtk2 types <;> rw [h2] at h <;> simp only [reduceCtorEq, Res.ok.injEq] at h
  rename_i cs
  have hL : L.length = m.cells.length := forEach_count h1
  have hcs : cs.length = m.cells.length := by rw [← htl]; exact forEach_count h2
  refine ⟨_, rfl, fun more => ⟨readPieces .rest (lexemes more), ?_, fun name hn title types0 m0 => ?_⟩⟩
  · rintro rfl; rfl
  rw [loadText2, load2, load_scan _ _ _ hn, load2, printed_header, ← h]
  have hp : m.vertices.flatMap pointLine2 = m.vertices.flatMap fun a => wordLine (printText a.1, printText a.2, "0.0".toList) := by
    congr 1
  have key := read_sections (fun a : Point2 ℚ => (printText a.1, printText a.2, "0.0".toList)) (fun a => (stored a.1, stored a.2, 0))
    (fun a => ⟨Fpma.printText_word _, Fpma.printText_word _, isWord_zero⟩)
    (fun a => ⟨Fpma.stored_value _, Fpma.stored_value _, value_zero⟩) m.vertices L cs (totalNumbers L) more
  rw [hL, hcs] at key
  rw [hp, key, cellsSection, printed_sections]
  simp only [List.append_assoc, List.cons_append]
  rw [load_lines]
  simp only [List.length_map, List.flatMap_map, stored_zero]

/-- C84 in 3D, for a writer in any state. -/
theorem C84_text3 (ori : Idx → Bool) (key : Point3 ℚ → List Char) (cc fc : Idx → Point3 ℚ) (hash : Nat)
    (m : Mesh (Point3 ℚ)) (types : List Nat) (w w' : Writer3 (Point3 ℚ)) (ts : List (VTok ℚ))
    (h : writeToStream3 ori key cc fc hash m types w = .ok (w', ts)) :
    ∃ text, writeText3 ori key cc fc hash m types w = .ok (w', text) ∧ ∀ more, ∃ rest, (more = [] → rest = []) ∧ ∀ name, GoodName name →
      ∀ res title types0 m0,
      loadText3 res (headerText name ++ (text ++ more)) types0 m0 = load3 res ((header title ++ ts).map (VTok.printed stored) ++ rest) types0 m0 := by
  unfold writeToStream3 at h
  unfold writeText3
  cases h1 : (if w.lastHash ≠ hash then indexMesh3 ori key cc fc m types w else .ok w) <;> rw [h1] at h <;> simp only [Res.bind, reduceCtorEq] at h
  rename_i w1
  cases h2 : codes toVtk3 w1.cellTypes <;> rw [h2] at h <;> simp only [reduceCtorEq, Res.ok.injEq, Prod.mk.injEq] at h
  rename_i cs
  obtain ⟨rfl, h⟩ := h
  simp only [Res.bind]
  rw [h2]
  have hcs : cs.length = w1.cellTypes.length := forEach_count h2
  refine ⟨_, rfl, fun more => ⟨readPieces .rest (lexemes more), ?_, fun name hn res title types0 m0 => ?_⟩⟩
  · rintro rfl; rfl
  rw [loadText3, load3, load_scan _ _ _ hn, load3, printed_header, ← h]
  have key := read_sections (fun a : Point3 ℚ => (printText a.1, printText a.2.1, printText a.2.2)) (fun a => (stored a.1, stored a.2.1, stored a.2.2))
    (fun a => ⟨Fpma.printText_word _, Fpma.printText_word _, Fpma.printText_word _⟩)
    (fun a => ⟨Fpma.stored_value _, Fpma.stored_value _, Fpma.stored_value _⟩) (m.vertices ++ w1.appended) w1.cellVert cs w1.total more
  rw [hcs] at key
  have hp : (m.vertices ++ w1.appended).flatMap pointLine3 =
      (m.vertices ++ w1.appended).flatMap fun a => wordLine (printText a.1, printText a.2.1, printText a.2.2) := rfl
  rw [hp, key, printed_sections]
  simp only [List.append_assoc, List.cons_append]
  rw [load_lines]

/-- C84, 2D: what C23 says of the tokens, for the characters. -/
theorem C84_round_trip2 (m : Mesh (Point2 ℚ)) (types : List Nat) (bd poly : Idx → List Idx) (name : List Char) (hname : GoodName name)
    (hd : m.dim = 2) (hv : ValidMesh m bd) (hidx : ∀ (c : Nat) cl, m.cells[c]? = some cl → cl.index = c)
    (hpoly : ∀ c, c < m.cells.length → IsPolygon m.edges (bd c) (poly c) ∧ 3 ≤ (poly c).length)
    (huniq : ∀ (i j : Nat) e e', m.edges[i]? = some e → m.edges[j]? = some e' →
      SamePair (e.a, e.b) (e'.a, e'.b) → i = j)
    (hcf : m.cells.length ≤ INVALID) (hef : ((List.range m.cells.length).map fun c => (poly c).length).sum ≤ INVALID)
    (htl : types.length = m.cells.length) (htypes : ∀ t ∈ types, ∃ c, toVtk2 t = some c) :
    ∃ text m', writeText2 m types = .ok text ∧ loadText2 (headerText name ++ text) [] { dim := 2 } = .ok (m', types) ∧
      m'.vertices = m.vertices.map (point2 stored) ∧ m'.cells.length = m.cells.length ∧
      ∀ c, c < m.cells.length → ∃ l q, boundaryWalk m' c = .ok l ∧ EdgesOf m'.edges l q ∧ SameCycle q (poly c) := by
  obtain ⟨ts, m', h1, h2, h3⟩ := C23_printed 0 m types bd poly [] hd hv hidx hpoly huniq hcf hef htl htypes
  obtain ⟨text, t1, t2⟩ := C84_text2 m types ts htl h1
  obtain ⟨rest, r1, r2⟩ := t2 []
  refine ⟨text, m', t1, ?_, h3⟩
  rw [r1 rfl] at r2
  have := r2 name hname [] [] { dim := 2 }
  rw [List.append_nil, List.append_nil] at this
  rw [this, h2]

/-- C84, 3D: what C51 says of the tokens, for the characters. Missing: that the points always are the same (false, `C51_digits_violated`). -/
theorem C84_round_trip3_partial (ori : Idx → Bool) (key : Point3 ℚ → List Char) (cc fc : Idx → Point3 ℚ) (hash : Nat)
    (m : Mesh (Point3 ℚ)) (bd vert : Idx → List Idx) (types : List Nat) (w0 : Writer3 (Point3 ℚ)) (hhash : w0.lastHash ≠ hash)
    (hd : m.dim = 3) (hv : ValidMesh m bd) (hn : Numbered m) (htl : types.length = m.cells.length)
    (hsol : ∀ (i : Nat) t, types[i]? = some t → IsSolid m (bd i) (vert i) t)
    (huniq : ∀ (i j : Nat) f f' p p', (m.midElems 2)[i]? = some f → (m.midElems 2)[j]? = some f' →
      IsPolygon m.edges f.sub p → IsPolygon m.edges f'.sub p' → SameSides p p' → i = j)
    (hfit : 12 * m.cells.length ≤ INVALID) (res : Nat) (hres : res = 0 ∨ 4 ≤ res) (name : List Char) (hname : GoodName name) (types0 : List Nat) :
    ∃ w text m', writeText3 ori key cc fc hash m types w0 = .ok (w, text) ∧
      loadText3 res (headerText name ++ text) types0 { dim := 3 } = .ok (m', types) ∧
      m'.vertices = m.vertices.map (point3 stored) ∧ (m'.vertices = m.vertices ↔ SixDigits3 m.vertices) ∧
      m'.cells.length = m.cells.length ∧ ∃ bd' : Idx → List Idx,
        (∀ (c : Nat) t, types[c]? = some t → boundaryWalk m' c = .ok (bd' c) ∧ IsSolid m' (bd' c) (vert c) t) ∧
        ∀ a b, a < m.cells.length → b < m.cells.length → ((∃ f ∈ bd a, f ∈ bd b) ↔ ∃ f ∈ bd' a, f ∈ bd' b) := by
  obtain ⟨w, ts, m', h1, h2, h3⟩ := C51_printed_partial ori key cc fc hash m bd vert types w0 hhash hd hv hn htl hsol huniq hfit res hres [] types0
  obtain ⟨text, t1, t2⟩ := C84_text3 ori key cc fc hash m types w0 w ts h1
  obtain ⟨rest, r1, r2⟩ := t2 []
  refine ⟨w, text, m', t1, ?_, h3⟩
  rw [r1 rfl] at r2
  have := r2 name hname res [] types0 { dim := 3 }
  rw [List.append_nil, List.append_nil] at this
  rw [this, h2]

/-- Finding: a name of several lines, or longer than 1024 characters. The readers take what is left of it for the kind of the file and refuse the file, whatever
follows the header. -/
theorem C84_name_violated (name w : List Char) (hw : w ≠ "ASCII".toList)
    (h : ('\n' ∉ name ∧ 1024 ≤ name.length ∧ FirstWord (name.drop 1024) w) ∨
      ∃ line others, name = line ++ '\n' :: others ∧ '\n' ∉ line ∧ line.length < 1024 ∧ FirstWord others w)
    (text : List Char) (types : List Nat) (m2 : Mesh (Point2 ℚ)) (res : Nat) (m3 : Mesh (Point3 ℚ)) :
    loadText2 (headerText name ++ text) types m2 = .throw .runtimeError ∧ loadText3 res (headerText name ++ text) types m3 = .throw .runtimeError := by
  obtain ⟨k, ps, e⟩ : ∃ k ps, lexemes (dropLine 1024 (dropLine 1024 (headerText name ++ text))) = List.replicate k .nl ++ .word w :: ps := by
    rw [drop_first]
    rcases h with ⟨h1, h2, h3⟩ | ⟨a, b, rfl, h1, h2, h3⟩
    · rw [dropLine_long _ _ _ h1 h2]
      exact lexemes_first h3 _
    · rw [List.append_assoc, List.cons_append, dropLine_short _ _ _ h1 h2]
      exact lexemes_first h3 _
  unfold loadText2 loadText3 scan load2 load3
  rw [e]
  exact ⟨load_bad _ _ _ hw ps types m2 k, load_bad _ _ _ hw ps types m3 k⟩

/-! ## Examples -/

section Examples

/-- Two lines. -/
example : FirstWord "second line".toList "second".toList := ⟨[], " line".toList, by decide, by decide, by decide, by decide, by decide⟩

example : GoodName "output from GTMesh".toList := ⟨by decide, by decide⟩

/-- A name of two lines meets the hypotheses of `C84_name_violated`. -/
example (text : List Char) : loadText2 (headerText "first\nsecond line".toList ++ text) [] { dim := 2 } = .throw .runtimeError :=
  (C84_name_violated _ "second".toList (by decide)
    (.inr ⟨"first".toList, "second line".toList, by decide, by decide, by decide, [], " line".toList, by decide, by decide, by decide, by decide, by decide⟩)
    text [] { dim := 2 } 0 { dim := 3 }).1

/-- So does a long one. -/
example (text : List Char) : loadText2 (headerText (List.replicate 1025 'x') ++ text) [] { dim := 2 } = .throw .runtimeError :=
  (C84_name_violated _ ['x'] (by decide)
    (.inl ⟨fun h => by have := List.eq_of_mem_replicate h; revert this; decide, by rw [List.length_replicate]; omega,
      by rw [List.drop_replicate]; exact ⟨[], [], rfl, by decide, by decide, by decide, by decide⟩⟩)
    text [] { dim := 2 } 0 { dim := 3 }).1

end Examples

end GTMesh.Vtk
