import Verif.Model.VtkText
import Verif.Spec.VtkText
import Verif.Proofs.FpmaText

/-! # The characters of a VTK file -/

namespace GTMesh.Vtk
open Fpma (IsWord isSpace decimal_word printText_word wholeOf_decimal' stored_value)

/-! ## Pieces -/

theorem lexemesFrom_word : ∀ (w acc s : List Char), (∀ c ∈ w, isSpace c = false) → lexemesFrom acc (w ++ s) = lexemesFrom (acc ++ w) s := by
  intro w
  induction w with
  | nil => intro acc s _; simp
  | cons c w ih =>
    intro acc s h
    rw [List.cons_append, lexemesFrom, h c (by simp), if_neg (by simp), ih _ _ fun d hd => h d (by simp [hd])]
    simp

theorem lexemes_blank (s : List Char) : lexemes (' ' :: s) = lexemes s := by simp [lexemes, lexemesFrom, isSpace]

theorem lexemes_nl (s : List Char) : lexemes ('\n' :: s) = .nl :: lexemes s := by simp [lexemes, lexemesFrom, isSpace]

theorem lexemes_word_blank {w : List Char} (hw : IsWord w) (s : List Char) : lexemes (w ++ ' ' :: s) = .word w :: lexemes s := by
  unfold lexemes
  rw [lexemesFrom_word w [] _ hw.2, List.nil_append, lexemesFrom, if_neg hw.1]
  simp [isSpace]

theorem lexemes_word_nl {w : List Char} (hw : IsWord w) (s : List Char) : lexemes (w ++ '\n' :: s) = .word w :: .nl :: lexemes s := by
  unfold lexemes
  rw [lexemesFrom_word w [] _ hw.2, List.nil_append, lexemesFrom, if_neg hw.1]
  simp [isSpace]

/-! ## Numbers -/

theorem asIndex_decimal (n : Nat) (next : Nat → Spot) : asIndex (decimal n) next = (.num n, some (next n)) := by
  unfold asIndex
  rw [wholeOf_decimal']

theorem asCoord_value {w : List Char} {x : ℚ} (h : Numeral.value w = some x) (next : Spot) : asCoord w next = (.real x, some next) := by
  unfold asCoord
  rw [h]

/-! ## The points -/

/-- A line with three words. -/
def wordLine (w : List Char × List Char × List Char) : List Char := w.1 ++ ' ' :: (w.2.1 ++ ' ' :: (w.2.2 ++ ['\n']))

theorem read_points {α : Type} (w : α → List Char × List Char × List Char) (v : α → ℚ × ℚ × ℚ)
    (hw : ∀ a, IsWord (w a).1 ∧ IsWord (w a).2.1 ∧ IsWord (w a).2.2)
    (hv : ∀ a, Numeral.value (w a).1 = some (v a).1 ∧ Numeral.value (w a).2.1 = some (v a).2.1 ∧ Numeral.value (w a).2.2 = some (v a).2.2) (s : List Char) :
    ∀ l : List α, readPieces (.coordsLeft (3 * l.length)) (lexemes ((l.flatMap fun a => wordLine (w a)) ++ s)) =
      (l.flatMap fun a => [.real (v a).1, .real (v a).2.1, .real (v a).2.2, .nl]) ++ readPieces .cells (lexemes s) := by
  intro l
  induction l with
  | nil => rfl
  | cons a l ih =>
    obtain ⟨w1, w2, w3⟩ := hw a
    obtain ⟨v1, v2, v3⟩ := hv a
    have he : endOfLine (.coordsLeft (3 * l.length)) = .coordsLeft (3 * l.length) := by unfold Spot.coordsLeft; split <;> rfl
    have e0 : Spot.coordsLeft (3 * (l.length + 1)) = .coords (3 * (l.length + 1)) := if_neg (by omega)
    have e1 : Spot.coordsLeft (3 * (l.length + 1) - 1) = .coords (3 * (l.length + 1) - 1) := if_neg (by omega)
    have e2 : Spot.coordsLeft (3 * (l.length + 1) - 1 - 1) = .coords (3 * (l.length + 1) - 1 - 1) := if_neg (by omega)
    have e3 : 3 * (l.length + 1) - 1 - 1 - 1 = 3 * l.length := by omega
    simp only [List.flatMap_cons, wordLine, List.append_assoc, List.cons_append, List.nil_append, List.length_cons] at ih ⊢
    rw [lexemes_word_blank w1, lexemes_word_blank w2, lexemes_word_nl w3]
    simp only [e0, e1, e2, e3, he, readPieces, readPiece, asCoord_value v1, asCoord_value v2, asCoord_value v3, ih]

/-! ## The cells -/

theorem read_vertices (n : Nat) (s : List Char) : ∀ l : List Idx, readPieces (.verticesLeft n l.length) (lexemes (spacedText l ++ '\n' :: s)) =
    l.map .num ++ .nl :: readPieces (.cellsLeft n) (lexemes s) := by
  have he : endOfLine (.cellsLeft n) = .cellsLeft n := by unfold Spot.cellsLeft; split <;> rfl
  intro l
  induction l with
  | nil =>
    rw [spacedText, List.nil_append, lexemes_nl]
    simp [readPieces, Spot.verticesLeft, he]
  | cons a l ih =>
    have e : Spot.verticesLeft n (l.length + 1) = .vertices n (l.length + 1) := rfl
    cases l with
    | nil =>
      rw [spacedText, lexemes_word_nl (decimal_word a), List.length_cons, e]
      simp [readPieces, readPiece, asIndex_decimal, Spot.verticesLeft, he]
    | cons b l =>
      rw [spacedText, List.append_assoc, List.cons_append, lexemes_word_blank (decimal_word a), List.length_cons, e]
      simp only [readPieces, readPiece, asIndex_decimal, Nat.add_sub_cancel, ih, List.map_cons, List.cons_append]

theorem read_cells (s : List Char) : ∀ L : List (List Idx), readPieces (.cellsLeft L.length) (lexemes (L.flatMap cellText ++ s)) =
    L.flatMap cellLine ++ readPieces .types (lexemes s) := by
  intro L
  induction L with
  | nil => rfl
  | cons l L ih =>
    have e : Spot.cellsLeft (L.length + 1) = .cell (L.length + 1) := rfl
    simp only [List.flatMap_cons, cellText, List.append_assoc, List.cons_append, List.nil_append, List.length_cons, e] at ih ⊢
    rw [lexemes_word_blank (decimal_word _)]
    simp only [readPieces, readPiece, asIndex_decimal, Nat.add_sub_cancel, read_vertices, ih]
    simp [cellLine]

/-! ## The cell types -/

theorem read_codes (s : List Char) : ∀ l : List Nat, readPieces (.codesLeft l.length) (lexemes ((l.flatMap fun c => decimal c ++ ['\n']) ++ s)) =
    (l.flatMap fun c => [.num c, .nl]) ++ readPieces .rest (lexemes s) := by
  intro l
  induction l with
  | nil => rfl
  | cons a l ih =>
    have he : endOfLine (.codesLeft l.length) = .codesLeft l.length := by unfold Spot.codesLeft; split <;> rfl
    have e : Spot.codesLeft (l.length + 1) = .codes (l.length + 1) := rfl
    simp only [List.flatMap_cons, List.append_assoc, List.cons_append, List.nil_append, List.length_cons, e] at ih ⊢
    rw [lexemes_word_nl (decimal_word _)]
    simp only [readPieces, readPiece, asIndex_decimal, Nat.add_sub_cancel, he, ih]

/-! ## The sections -/

theorem isWord_points : IsWord "POINTS".toList := ⟨by decide, by decide⟩
theorem isWord_cells : IsWord "CELLS".toList := ⟨by decide, by decide⟩
theorem isWord_types : IsWord "CELL_TYPES".toList := ⟨by decide, by decide⟩
theorem isWord_double : IsWord "double".toList := ⟨by decide, by decide⟩
theorem isWord_ascii : IsWord "ASCII".toList := ⟨by decide, by decide⟩
theorem isWord_dataset : IsWord "DATASET".toList := ⟨by decide, by decide⟩
theorem isWord_grid : IsWord "UNSTRUCTURED_GRID".toList := ⟨by decide, by decide⟩

theorem asWord_toList (s : String) : asWord s.toList = .word s := by simp [asWord]

/-- The tokens of the three sections. -/
def sectionsTokens (points : List (VTok ℚ)) (numPoints numCells total : Nat) (L : List (List Idx)) (numTypes : Nat) (cs : List Nat) : List (VTok ℚ) :=
  (.word "POINTS" :: .num numPoints :: .word "double" :: .nl :: points ++ [.nl]) ++
  (.word "CELLS" :: .num numCells :: .num total :: .nl :: L.flatMap cellLine ++ [.nl]) ++
  (.word "CELL_TYPES" :: .num numTypes :: .nl :: (cs.flatMap fun c => [.num c, .nl]) ++ [.nl])

theorem read_sections {α : Type} (w : α → List Char × List Char × List Char) (v : α → ℚ × ℚ × ℚ)
    (hw : ∀ a, IsWord (w a).1 ∧ IsWord (w a).2.1 ∧ IsWord (w a).2.2)
    (hv : ∀ a, Numeral.value (w a).1 = some (v a).1 ∧ Numeral.value (w a).2.1 = some (v a).2.1 ∧ Numeral.value (w a).2.2 = some (v a).2.2)
    (l : List α) (L : List (List Idx)) (cs : List Nat) (total : Nat) (more : List Char) :
    readPieces .points (lexemes (sectionsText l.length (l.flatMap fun a => wordLine (w a)) L.length total L cs.length cs ++ more)) =
      sectionsTokens (l.flatMap fun a => [.real (v a).1, .real (v a).2.1, .real (v a).2.2, .nl]) l.length L.length total L cs.length cs ++
        readPieces .rest (lexemes more) := by
  unfold sectionsText
  have t1 : "POINTS ".toList = "POINTS".toList ++ [' '] := by decide
  have t2 : " double\n".toList = ' ' :: ("double".toList ++ ['\n']) := by decide
  have t3 : "CELLS ".toList = "CELLS".toList ++ [' '] := by decide
  have t4 : "CELL_TYPES ".toList = "CELL_TYPES".toList ++ [' '] := by decide
  have hc : ("CELLS".toList : List Char) = "CELLS".toList := rfl
  rw [t1, t2, t3, t4]
  simp only [List.append_assoc, List.cons_append, List.nil_append]
  rw [lexemes_word_blank isWord_points, lexemes_word_blank (decimal_word _), lexemes_word_nl isWord_double]
  simp only [readPieces, readPiece, if_true, asWord_toList, asIndex_decimal, endOfLine]
  rw [read_points w v hw hv, lexemes_nl]
  simp only [readPieces, endOfLine]
  rw [lexemes_word_blank isWord_cells, lexemes_word_blank (decimal_word _), lexemes_word_nl (decimal_word _)]
  simp only [readPieces, readPiece, if_true, asWord_toList, asIndex_decimal, endOfLine]
  rw [read_cells, lexemes_nl]
  simp only [readPieces, endOfLine]
  rw [lexemes_word_blank isWord_types, lexemes_word_nl (decimal_word _)]
  have hend : endOfLine (.codesLeft cs.length) = .codesLeft cs.length := by unfold Spot.codesLeft; split <;> rfl
  simp only [readPieces, readPiece, if_true, asWord_toList, asIndex_decimal]
  rw [hend, read_codes, lexemes_nl]
  simp [sectionsTokens, readPieces, endOfLine]

/-! ## The header -/

theorem dropLine_short : ∀ (l s : List Char) (n : Nat), '\n' ∉ l → l.length < n → dropLine n (l ++ '\n' :: s) = s := by
  intro l
  induction l with
  | nil => intro s n _ h; cases n with
    | zero => simp at h
    | succ n => simp [dropLine]
  | cons c l ih =>
    intro s n h hn
    cases n with
    | zero => simp at hn
    | succ n =>
      rw [List.cons_append, dropLine, if_neg (by rintro rfl; simp at h)]
      exact ih s n (fun h' => h (by simp [h'])) (by simpa using hn)

theorem dropLine_long : ∀ (l s : List Char) (n : Nat), '\n' ∉ l → n ≤ l.length → dropLine n (l ++ s) = l.drop n ++ s := by
  intro l
  induction l with
  | nil => intro s n _ h; simp at h; subst h; rfl
  | cons c l ih =>
    intro s n h hn
    cases n with
    | zero => rfl
    | succ n =>
      rw [List.cons_append, dropLine, if_neg (by rintro rfl; simp at h), List.drop_succ_cons]
      exact ih s n (fun h' => h (by simp [h'])) (by simpa using hn)

/-- What follows the name. -/
def behindName : List Char := "ASCII\nDATASET UNSTRUCTURED_GRID\n".toList

theorem headerText_eq (name : List Char) : headerText name = "# vtk DataFile Version 2.0".toList ++ '\n' :: (name ++ '\n' :: behindName) := by
  unfold headerText behindName
  have e1 : "# vtk DataFile Version 2.0\n".toList = "# vtk DataFile Version 2.0".toList ++ ['\n'] := by decide
  have e2 : "\nASCII\nDATASET UNSTRUCTURED_GRID\n".toList = '\n' :: "ASCII\nDATASET UNSTRUCTURED_GRID\n".toList := by decide
  rw [e1, e2]
  simp

theorem drop_first (name s : List Char) : dropLine 1024 (headerText name ++ s) = name ++ '\n' :: (behindName ++ s) := by
  rw [headerText_eq, List.append_assoc, List.cons_append, dropLine_short _ _ _ (by decide) (by decide)]
  simp

theorem read_behindName (s : List Char) : readPieces (.header 2) (lexemes (behindName ++ s)) =
    .word "ASCII" :: .nl :: .word "DATASET" :: .word "UNSTRUCTURED_GRID" :: .nl :: readPieces .points (lexemes s) := by
  have e : behindName = "ASCII".toList ++ '\n' :: ("DATASET".toList ++ ' ' :: ("UNSTRUCTURED_GRID".toList ++ ['\n'])) := by decide
  rw [e]
  simp only [List.append_assoc, List.cons_append, List.nil_append]
  rw [lexemes_word_nl isWord_ascii, lexemes_word_blank isWord_dataset, lexemes_word_nl isWord_grid]
  simp only [readPieces, readPiece, asWord_toList, endOfLine]
  rfl

section
variable {V : Type} (conv : Nat → Option Nat) (loadV loadC : List (VTok ℚ) → Mesh V → Res (Mesh V × List (VTok ℚ)))

theorem load_nl (ts : List (VTok ℚ)) (types : List Nat) (m : Mesh V) :
    loadFromStream conv loadV loadC (.nl :: .nl :: .nl :: ts) types m = loadFromStream conv loadV loadC (.nl :: .nl :: ts) types m := by
  simp only [loadFromStream, ignoreLine, readWord, skipNl]

theorem load_lines (a b : List String) (ts : List (VTok ℚ)) (types : List Nat) (m : Mesh V) :
    loadFromStream conv loadV loadC (a.map .word ++ .nl :: (b.map .word ++ .nl :: ts)) types m = loadFromStream conv loadV loadC (.nl :: .nl :: ts) types m := by
  have h : ∀ (l : List String) (ts : List (VTok ℚ)), ignoreLine (l.map .word ++ .nl :: ts) = ts := by
    intro l ts
    induction l with
    | nil => rfl
    | cons x l ih =>
      rw [List.map_cons, List.cons_append, ignoreLine, ih]
      intro h
      cases h
  simp only [loadFromStream, h, ignoreLine]

/-- Reading the header and what follows. -/
theorem load_scan {name : List Char} (h : GoodName name) (s : List Char) (types : List Nat) (m : Mesh V) :
    loadFromStream conv loadV loadC (scan (headerText name ++ s)) types m =
      loadFromStream conv loadV loadC (.nl :: .nl :: .word "ASCII" :: .nl :: .word "DATASET" :: .word "UNSTRUCTURED_GRID" :: .nl ::
        readPieces .points (lexemes s)) types m := by
  rw [scan, drop_first]
  by_cases hl : name.length < 1024
  · rw [dropLine_short _ _ _ h.1 hl, read_behindName]
  · have : name.length = 1024 := by have := h.2; omega
    rw [dropLine_long _ _ _ h.1 (by omega), ← this, List.drop_length, List.nil_append, lexemes_nl]
    simp only [readPieces, endOfLine]
    rw [load_nl, read_behindName]

/-- A word in place of `ASCII`. -/
theorem load_bad {p : Nat} {w : List Char} (hw : w ≠ "ASCII".toList) (ps : List Lexeme) (types : List Nat) (m : Mesh V) : ∀ k,
    loadFromStream conv loadV loadC (.nl :: .nl :: readPieces (.header p) (List.replicate k .nl ++ .word w :: ps)) types m = .throw .runtimeError := by
  intro k
  induction k with
  | zero =>
    have : String.ofList w ≠ "ASCII" := fun h => hw (by rw [← h]; simp)
    simp [readPieces, readPiece, asWord, loadFromStream, ignoreLine, readWord, skipNl, this]
  | succ k ih =>
    simp only [List.replicate_succ, List.cons_append, readPieces, endOfLine]
    rw [load_nl]
    exact ih

end

theorem isSpace_iff (c : Char) : isSpace c = true ↔ c ∈ [' ', '\n', '\t', '\r'] := by
  simp [isSpace, or_assoc]

theorem lexemes_first {s w : List Char} (h : FirstWord s w) (t : List Char) : ∃ k ps, lexemes (s ++ '\n' :: t) = List.replicate k .nl ++ .word w :: ps := by
  obtain ⟨a, b, rfl, hw, ha, hww, hb⟩ := h
  have hspace : ∀ c, c ∈ [' ', '\n', '\t', '\r'] → isSpace c = true := fun c => (isSpace_iff c).mpr
  induction a with
  | nil =>
    have hW : IsWord w := ⟨hw, fun c hc => by
      have := hww c hc
      rw [← isSpace_iff] at this
      simpa using this⟩
    cases b with
    | nil => exact ⟨0, _, by rw [List.nil_append, List.append_nil, lexemes_word_nl hW]; rfl⟩
    | cons c b =>
      refine ⟨0, (if c = '\n' then [.nl] else []) ++ lexemes (b ++ '\n' :: t), ?_⟩
      unfold lexemes
      rw [List.nil_append, List.append_assoc, lexemesFrom_word w [] _ hW.2, List.nil_append, List.cons_append, lexemesFrom,
        if_pos (hspace c (hb c rfl)), if_neg hw]
      simp
  | cons c a ih =>
    obtain ⟨k, ps, e⟩ := ih fun d hd => ha d (by simp [hd])
    have hc := hspace c (ha c (by simp))
    refine ⟨(if c = '\n' then k + 1 else k), ps, ?_⟩
    unfold lexemes at e ⊢
    rw [List.cons_append, List.cons_append, lexemesFrom, if_pos hc, if_pos rfl, e]
    split <;> simp [List.replicate_succ]

end GTMesh.Vtk
