import Verif.Model.FpmaText
import Verif.Proofs.Print
import Verif.Proofs.ToString
import Verif.Spec.Print
import Verif.Spec.Fpma

/-! # The characters of a FPMA file -/

namespace GTMesh.Fpma
open Numeral

/-! ## Words -/

/-- A word: some characters, none of which is a space. -/
def IsWord (w : List Char) : Prop := w ≠ [] ∧ ∀ c ∈ w, isSpace c = false

theorem wordsFrom_word : ∀ (w acc s : List Char), (∀ c ∈ w, isSpace c = false) → wordsFrom acc (w ++ s) = wordsFrom (acc ++ w) s := by
  intro w
  induction w with
  | nil => intro acc s _; simp
  | cons c w ih =>
    intro acc s h
    rw [List.cons_append, wordsFrom, h c (by simp), if_neg (by simp), ih _ _ fun d hd => h d (by simp [hd])]
    simp

theorem words_space {c : Char} (hc : isSpace c = true) (s : List Char) : words (c :: s) = words s := by
  simp [words, wordsFrom, hc]

theorem words_cons {w : List Char} (hw : IsWord w) {c : Char} (hc : isSpace c = true) (s : List Char) : words (w ++ c :: s) = w :: words s := by
  unfold words
  rw [wordsFrom_word w [] _ hw.2, List.nil_append, wordsFrom, if_pos hc, if_neg hw.1]

theorem words_one {w : List Char} (hw : IsWord w) : words w = [w] := by
  have := wordsFrom_word w [] [] hw.2
  rw [List.append_nil] at this
  unfold words
  rw [this]
  simp [wordsFrom, hw.1]

/-- The words of the beginning of a text: all but the last one are words of the text, the last one is the beginning of a word of the text. -/
theorem wordsFrom_prefix : ∀ (q r acc : List Char), ∃ k, wordsFrom acc q = (wordsFrom acc (q ++ r)).take k ∨
    ∃ w w', (wordsFrom acc (q ++ r))[k]? = some w ∧ w' <+: w ∧ w' ≠ [] ∧ wordsFrom acc q = (wordsFrom acc (q ++ r)).take k ++ [w'] := by
  intro q
  induction q with
  | nil =>
    intro r acc
    by_cases ha : acc = []
    · exact ⟨0, .inl (by simp [wordsFrom, ha])⟩
    · refine ⟨0, .inr ?_⟩
      have key : ∀ (r acc : List Char), acc ≠ [] → ∃ w, (wordsFrom acc r)[0]? = some w ∧ acc <+: w := by
        intro r
        induction r with
        | nil => intro acc h; exact ⟨acc, by simp [wordsFrom, h], List.prefix_refl _⟩
        | cons c r ih =>
          intro acc h
          rw [wordsFrom]
          by_cases hc : isSpace c = true
          · rw [if_pos hc, if_neg h]; exact ⟨acc, rfl, List.prefix_refl _⟩
          · rw [if_neg hc]
            obtain ⟨w, h1, h2⟩ := ih (acc ++ [c]) (by simp)
            exact ⟨w, h1, (List.prefix_append _ _).trans h2⟩
      obtain ⟨w, h1, h2⟩ := key r acc ha
      exact ⟨w, acc, h1, h2, ha, by simp [wordsFrom, ha]⟩
  | cons c q ih =>
    intro r acc
    rw [List.cons_append, wordsFrom, wordsFrom]
    by_cases hc : isSpace c = true
    · rw [if_pos hc, if_pos hc]
      by_cases ha : acc = []
      · rw [if_pos ha, if_pos ha]; exact ih r []
      · rw [if_neg ha, if_neg ha]
        obtain ⟨k, h | ⟨w, w', h1, h2, h3, h4⟩⟩ := ih r []
        · exact ⟨k + 1, .inl (by rw [List.take_succ_cons, ← h])⟩
        · exact ⟨k + 1, .inr ⟨w, w', by simpa using h1, h2, h3, by rw [h4, List.take_succ_cons, List.cons_append]⟩⟩
    · rw [if_neg hc, if_neg hc]; exact ih r _

/-! ## Numbers -/

theorem digit_noSpace {c : Char} (h : c.isDigit = true) : isSpace c = false := by
  unfold isSpace
  simp only [Bool.or_eq_false_iff, beq_eq_false_iff_ne]
  refine ⟨⟨⟨?_, ?_⟩, ?_⟩, ?_⟩ <;> (rintro rfl; simp [Char.isDigit] at h)

theorem decimal_word (n : Nat) : IsWord (decimal n) := by
  obtain ⟨ds, h1, _, h3, _⟩ := decimal_spec n
  exact ⟨by rw [h1]; simpa using h3, fun c hc => digit_noSpace (Vtk.decimal_digit hc)⟩

theorem wholeOf_digits {ds : List Nat} (h : ∀ d ∈ ds, d < 10) (hne : ds ≠ []) : wholeOf (ds.map Nat.digitChar) = some (natOf ds) := by
  have := takeDigits_map (l := ds) h (rest := []) (by simp)
  rw [List.append_nil] at this
  simp [wholeOf, this, hne]

theorem wholeOf_decimal' (n : Nat) : wholeOf (decimal n) = some n := by
  obtain ⟨ds, h1, h2, h3, h4⟩ := decimal_spec n
  rw [h1, wholeOf_digits h4 h3, h2]

theorem natOf_cons (d : Nat) (ds : List Nat) : natOf (d :: ds) = d * 10 ^ ds.length + natOf ds := by
  have := natOf_append [d] ds
  simpa [natOf] using this

theorem decimal_first {n d : Nat} {ds : List Nat} (h : decimal n = (d :: ds).map Nat.digitChar) (hl : ∀ x ∈ d :: ds, x < 10) (hn : n ≠ 0) : d ≠ 0 := by
  induction n using Nat.strong_induction_on generalizing ds d with
  | _ n ih =>
    by_cases h10 : n < 10
    · have e : decimal n = [n].map Nat.digitChar := by simp [decimal, Nat.toDigits_of_lt_base h10]
      have hw := wholeOf_digits hl (by simp)
      rw [← h, wholeOf_decimal', natOf_cons] at hw
      rintro rfl
      rw [e] at h
      cases ds with
      | nil => simp [natOf] at hw; exact hn hw
      | cons a ds => simp at h
    · have e : decimal n = decimal (n / 10) ++ [Nat.digitChar (n % 10)] := by
        unfold decimal
        rw [Nat.toDigits_of_base_le (by omega) (by omega)]
      obtain ⟨es, h1, _, h3, h4⟩ := decimal_spec (n / 10)
      cases es with
      | nil => exact absurd rfl h3
      | cons a es =>
        have hd : Nat.digitChar d = Nat.digitChar a := by
          rw [e, h1] at h
          simp only [List.map_cons, List.cons_append, List.cons.injEq] at h
          exact h.1.symm
        have ha := ih (n / 10) (by omega) (ds := es) (d := a)
        have hne : ∀ x < 10, ∀ y < 10, Nat.digitChar x = Nat.digitChar y → x = y := by decide
        have : d = a := hne d (hl d (by simp)) a (h4 a (by simp)) hd
        subst this
        exact ha h1 (fun x hx => h4 x hx) (by omega)

/-- The beginning of a number: a smaller number, which is 0 only for 0. -/
theorem decimal_prefix {n : Nat} {w : List Char} (h : w <+: decimal n) (hw : w ≠ []) :
    ∃ n', wholeOf w = some n' ∧ n' ≤ n ∧ (n ≠ 0 → n' ≠ 0) ∧ (w ≠ decimal n → n' < n) := by
  obtain ⟨ds, h1, h2, h3, h4⟩ := decimal_spec n
  rw [h1] at h
  obtain ⟨r, hr⟩ := h
  obtain ⟨a, b, rfl, rfl, rfl⟩ := List.append_eq_map_iff.mp hr
  have ha : a ≠ [] := by simpa using hw
  rw [natOf_append] at h2
  have hpos : n ≠ 0 → natOf a ≠ 0 := by
    intro hn
    cases a with
    | nil => exact absurd rfl ha
    | cons d a =>
      have := decimal_first (d := d) (ds := a ++ b) (by simpa using h1) (by simpa using h4) hn
      rw [natOf_cons]
      have : 0 < d * 10 ^ a.length := Nat.mul_pos (by omega) (Nat.pow_pos (by omega))
      omega
  refine ⟨natOf a, wholeOf_digits (fun d hd => h4 d (by simp [hd])) ha, ?_, hpos, ?_⟩
  · have : natOf a * 1 ≤ natOf a * 10 ^ b.length := Nat.mul_le_mul_left _ (Nat.pow_pos (by omega))
    omega
  · intro hne
    have hb : b ≠ [] := by rintro rfl; exact hne (by rw [h1]; simp)
    by_cases hn : n = 0
    · subst hn
      have : decimal 0 = ['0'] := by decide
      rw [this] at h1
      have hlen := congrArg List.length h1
      have hb' : 0 < b.length := List.length_pos_iff.mpr hb
      have ha' : 0 < a.length := List.length_pos_iff.mpr ha
      simp at hlen
      omega
    · have h5 := hpos hn
      have : natOf a * 2 ≤ natOf a * 10 ^ b.length := by
        refine Nat.mul_le_mul_left _ ?_
        have : 10 ^ 1 ≤ 10 ^ b.length := Nat.pow_le_pow_right (by omega) (List.length_pos_iff.mpr hb)
        omega
      omega

theorem lastDigits_lt {w n : Nat} : ∀ d ∈ lastDigits w n, d < 10 := (natOf_lastDigits w n).2.2

theorem pointText_chars {d w : Nat} : ∀ c ∈ pointText d w, c.isDigit = true ∨ c = '.' := by
  intro c hc
  unfold pointText at hc
  rcases List.mem_append.mp hc with h | h
  · exact .inl (Vtk.decimal_digit h)
  · have hs : ∀ x ∈ stripZeros (lastDigits w (d % 10 ^ w)), x < 10 := by
      intro x hx
      obtain ⟨k, hk⟩ := strip_spec (lastDigits w (d % 10 ^ w))
      exact lastDigits_lt x (by rw [hk]; simp [hx])
    generalize stripZeros (lastDigits w (d % 10 ^ w)) = l at h hs
    cases l with
    | nil => simp at h
    | cons a l =>
      rcases List.mem_cons.mp h with rfl | h
      · exact .inr rfl
      · obtain ⟨x, hx, rfl⟩ := List.mem_map.mp h
        have key : ∀ d < 10, (Nat.digitChar d).isDigit = true := by decide
        exact .inl (key x (hs x hx))

theorem printText_word (x : ℚ) : IsWord (printText x) := by
  have hchar : ∀ c ∈ printText x, c.isDigit = true ∨ c = '.' ∨ c = '-' ∨ c = 'e' ∨ c = '+' := by
    intro c hc
    unfold printText at hc
    split at hc
    · simp at hc; subst hc; exact .inl (by decide)
    · rcases List.mem_append.mp hc with h | h
      · split at h
        · simp at h; exact .inr (.inr (.inl h))
        · simp at h
      · simp only at h
        split at h
        · rcases pointText_chars c h with h | h
          · exact .inl h
          · exact .inr (.inl h)
        · rcases List.mem_append.mp h with h | h
          · rcases pointText_chars c h with h | h
            · exact .inl h
            · exact .inr (.inl h)
          · unfold exponentText at h
            rcases List.mem_cons.mp h with h | h
            · exact .inr (.inr (.inr (.inl h)))
            · rcases List.mem_cons.mp h with h | h
              · split at h
                · exact .inr (.inr (.inl h))
                · exact .inr (.inr (.inr (.inr h)))
              · rcases List.mem_append.mp h with h | h
                · split at h
                  · simp at h; subst h; exact .inl (by decide)
                  · simp at h
                · exact .inl (Vtk.decimal_digit h)
  constructor
  · intro h
    have := value_print x
    rw [h] at this
    simp [value, unsigned, takeDigits] at this
  · intro c hc
    rcases hchar c hc with h | rfl | rfl | rfl | rfl
    · exact digit_noSpace h
    · rfl
    · rfl
    · rfl
    · rfl

/-! ## Reading -/

/-- The text of a token. -/
def tokText : Tok ℚ → List Char
  | .num n => decimal n
  | .real x => printText x

theorem tokText_word (t : Tok ℚ) : IsWord (tokText t) := by
  cases t with
  | num n => exact decimal_word n
  | real x => exact printText_word x

/-- The tokens a reader expects: an index in front, coordinates, indices. -/
def Fits : Place → List (Tok ℚ) → Prop
  | _, [] => True
  | .start, .num n :: ts => Fits (.left (3 * n)) ts
  | .coords n, .real _ :: ts => Fits (.left (n - 1)) ts
  | .numbers, .num _ :: ts => Fits .numbers ts
  | _, _ => False

theorem stored_value (x : ℚ) : value (printText x) = some (stored x) := by
  rw [stored, value_print]; rfl

theorem readWords_texts : ∀ (ts : List (Tok ℚ)) (p : Place), Fits p ts → readWords p (ts.map tokText) = ts.map (Tok.printed stored) := by
  intro ts
  induction ts with
  | nil => intro p _; rfl
  | cons t ts ih =>
    intro p h
    rw [List.map_cons, readWords]
    cases p <;> cases t <;> simp only [Fits] at h <;>
      simp only [readWord, tokText, wholeOf_decimal', stored_value, Option.map_some, ih _ h, List.map_cons, Tok.printed]

/-- What is read when the last word is a piece of the word that should be there. -/
theorem readWords_cut : ∀ (ts : List (Tok ℚ)) (p : Place) (t : Tok ℚ) (w : List Char), Fits p (ts ++ [t]) →
    readWords p (ts.map tokText ++ [w]) = ts.map (Tok.printed stored) ++
      (match t with | .num _ => ((wholeOf w).map Tok.num).toList | .real _ => ((value w).map Tok.real).toList) := by
  intro ts
  induction ts with
  | nil =>
    intro p t w h
    simp only [List.map_nil, List.nil_append, readWords]
    cases p <;> cases t <;> simp only [List.nil_append, Fits] at h <;> simp only [readWord]
    · cases wholeOf w <;> rfl
    · cases value w <;> rfl
    · cases wholeOf w <;> rfl
  | cons a ts ih =>
    intro p t w h
    rw [List.map_cons, List.cons_append, readWords]
    cases p <;> cases a <;> simp only [List.cons_append, Fits] at h <;>
      simp only [readWord, tokText, wholeOf_decimal', stored_value, Option.map_some, ih _ _ _ h, List.map_cons, Tok.printed, List.cons_append]

theorem fits_prefix : ∀ (a b : List (Tok ℚ)) (p : Place), Fits p (a ++ b) → Fits p a := by
  intro a
  induction a with
  | nil => intro b p _; cases p <;> trivial
  | cons t a ih =>
    intro b p h
    cases p <;> cases t <;> simp only [List.cons_append, Fits] at h ⊢ <;> exact ih _ _ h

theorem fits_numbers (l : List Nat) : Fits .numbers (l.map .num) := by
  induction l with
  | nil => trivial
  | cons a l ih => exact ih

theorem fits_points : ∀ (ps : List (Point ℚ)) (ts : List (Tok ℚ)), Fits .numbers ts →
    Fits (.left (3 * ps.length)) ((ps.flatMap fun p => [.real p.1, .real p.2.1, .real p.2.2]) ++ ts) := by
  intro ps
  induction ps with
  | nil => intro ts h; exact h
  | cons p ps ih =>
    intro ts h
    have := ih ts h
    simp only [List.flatMap_cons, List.length_cons, List.cons_append, List.nil_append, Place.left]
    rw [if_neg (by omega)]
    simp only [Fits, Place.left]
    rw [if_neg (by omega)]
    simp only [Fits, Place.left]
    rw [if_neg (by omega)]
    simp only [Fits]
    rw [show 3 * (ps.length + 1) - 1 - 1 - 1 = 3 * ps.length by omega]
    exact this

theorem numbers_all {ts : List (Tok ℚ)} (h : ∀ t ∈ ts, ∃ n, t = .num n) : Fits .numbers ts := by
  induction ts with
  | nil => trivial
  | cons t ts ih =>
    obtain ⟨n, rfl⟩ := h t (by simp)
    exact ih fun x hx => h x (by simp [hx])

theorem list_numbers (L : List (List Idx)) : ∀ t ∈ (L.flatMap listTokens : List (Tok ℚ)), ∃ n, t = .num n := by
  intro t ht
  obtain ⟨l, _, h⟩ := List.mem_flatMap.mp ht
  unfold listTokens at h
  rcases List.mem_cons.mp h with rfl | h
  · exact ⟨_, rfl⟩
  · obtain ⟨n, _, rfl⟩ := List.mem_map.mp h
    exact ⟨_, rfl⟩

/-- The numbers of a file are where the reader expects them. -/
theorem fits_file (F : File ℚ) (ns : List Nat) : Fits .start (F.tokens ++ ns.map .num) := by
  simp only [File.tokens, List.cons_append, List.append_assoc, Fits]
  refine fits_points _ _ (numbers_all fun t ht => ?_)
  simp only [List.mem_cons, List.mem_append] at ht
  rcases ht with rfl | h | rfl | h | h
  · exact ⟨_, rfl⟩
  · exact list_numbers _ t h
  · exact ⟨_, rfl⟩
  · exact list_numbers _ t h
  · obtain ⟨n, _, rfl⟩ := List.mem_map.mp h
    exact ⟨_, rfl⟩

/-! ## Writing -/

theorem words_line (l : List Idx) (s : List Char) : words (lineText l ++ s) = (listTokens l).map tokText ++ words s := by
  unfold lineText listTokens
  rw [List.append_assoc, List.cons_append, words_cons (decimal_word _) (by rfl)]
  simp only [List.map_cons, List.map_map, tokText, List.cons_append, List.cons.injEq, true_and]
  induction l with
  | nil => simp [words_space (c := '\n') rfl]
  | cons a l ih =>
    simp only [List.flatMap_cons, List.append_assoc, List.cons_append, List.nil_append] at ih ⊢
    rw [words_cons (decimal_word _) rfl]
    simp only [List.map_cons, Function.comp, tokText, List.cons_append, List.cons.injEq, true_and]
    exact ih

theorem words_lines (L : List (List Idx)) (s : List Char) : words (L.flatMap lineText ++ s) = (L.flatMap listTokens).map tokText ++ words s := by
  induction L with
  | nil => rfl
  | cons l L ih => rw [List.flatMap_cons, List.append_assoc, words_line, ih]; simp

theorem words_points (ps : List (Point ℚ)) (s : List Char) : words (ps.flatMap pointText3 ++ s) =
    (ps.flatMap fun p => [Tok.real p.1, .real p.2.1, .real p.2.2]).map tokText ++ words s := by
  induction ps with
  | nil => rfl
  | cons p ps ih =>
    rw [List.flatMap_cons, pointText3]
    simp only [List.append_assoc, List.cons_append, List.nil_append]
    rw [words_cons (printText_word _) rfl, words_cons (printText_word _) rfl, words_cons (printText_word _) rfl, ih]
    simp [tokText]

/-- The characters of a file. -/
def fileText (F : File ℚ) : List Char :=
  decimal F.verts.length ++ '\n' :: (F.verts.flatMap pointText3 ++ '\n' ::
    (decimal F.faces.length ++ '\n' :: (F.faces.flatMap lineText ++
    (decimal F.cells.length ++ '\n' :: (F.cells.flatMap lineText ++ ['0'])))))

theorem words_fileText (F : File ℚ) : words (fileText F) = (F.tokens ++ [Tok.num 0]).map tokText := by
  unfold fileText File.tokens
  have h0 : words ['0'] = [decimal 0] := words_one ⟨by simp, by decide⟩
  rw [words_cons (decimal_word _) rfl, words_points, words_space rfl, words_cons (decimal_word _) rfl, words_lines,
    words_cons (decimal_word _) rfl, words_lines, h0]
  simp [tokText]

theorem writeText_of_write (m : Mesh (Point ℚ)) (ts : List (Tok ℚ)) (h : write m = .ok ts) :
    ∃ F : File ℚ, ts = F.tokens ++ [.num 0] ∧ writeText m = .ok (fileText F) := by
  unfold write at h
  unfold writeText
  cases h1 : Std'.forEach (fun f : Face => indexFace m.edges f.sub) (m.midElems 2) <;> rw [h1] at h <;> simp only [Res.bind, reduceCtorEq] at h
  rename_i fv
  cases h2 : m.connectionsOrig 3 2 <;> rw [h2] at h <;> simp only [reduceCtorEq, Res.ok.injEq] at h
  rename_i cf
  refine ⟨⟨m.vertices, fv, cf⟩, ?_, rfl⟩
  rw [← h]
  simp [File.tokens]
  rfl

end GTMesh.Fpma
