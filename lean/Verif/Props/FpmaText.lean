import Verif.Proofs.FpmaShort
import Verif.Props.FpmaCut
import Verif.Props.PrintMesh

/-! # C80: the characters of a FPMA file, and a writer that is stopped -/

namespace GTMesh.Fpma
open Spec GTMesh.Props

/-! ## The characters and the numbers -/

/-- The file with the positions as they are read. -/
def File.stored (F : File ℚ) : File ℚ := { F with verts := F.verts.map (point3 GTMesh.stored) }

theorem stored_tokens (F : File ℚ) : F.tokens.map (Tok.printed GTMesh.stored) = F.stored.tokens := by
  have h : ∀ L : List (List Idx), ((L.flatMap listTokens : List (Tok ℚ)).map (Tok.printed GTMesh.stored)) = L.flatMap listTokens := by
    intro L
    induction L with
    | nil => rfl
    | cons l L ih =>
      rw [List.flatMap_cons, List.map_append, ih]
      simp [listTokens, Tok.printed]
  have hp : ∀ ps : List (Point ℚ), (ps.flatMap fun p => [Tok.real p.1, .real p.2.1, .real p.2.2]).map (Tok.printed GTMesh.stored) =
      (ps.map (point3 GTMesh.stored)).flatMap fun p => [Tok.real p.1, .real p.2.1, .real p.2.2] := by
    intro ps
    induction ps with
    | nil => rfl
    | cons p ps ih => rw [List.flatMap_cons, List.map_append, ih]; rfl
  simp only [File.tokens, File.stored, List.map_append, List.map_cons, h, hp, Tok.printed, List.length_map]

theorem stored_wellFormed {F : File ℚ} (h : F.WellFormed) : F.stored.WellFormed := ⟨h.1, h.2, h.3, h.4, h.5, h.6⟩

/-- C80. Writing and reading the characters of a file is writing and reading its numbers, where each coordinate is changed to what its text says: for
every mesh that can be written, and reading into any mesh. -/
theorem C80_text (m : Mesh (Point ℚ)) (ts : List (Tok ℚ)) (h : write m = .ok ts) :
    ∃ text, writeText m = .ok text ∧ ∀ res m0, loadText res text m0 = load res (ts.map (Tok.printed stored)) m0 := by
  obtain ⟨F, rfl, h2⟩ := writeText_of_write m ts h
  refine ⟨_, h2, fun res m0 => ?_⟩
  rw [loadText, words_fileText]
  exact congrArg (load res · m0) (readWords_texts _ _ (fits_file F [0]))

/-! ## The last number of the file -/

/-- The text of the file up to the last number of its content, a face of the last cell. -/
def beforeLast (F : File ℚ) (L : List (List Idx)) (a : List Idx) : List Char :=
  decimal F.verts.length ++ '\n' :: (F.verts.flatMap pointText3 ++ '\n' ::
    (decimal F.faces.length ++ '\n' :: (F.faces.flatMap lineText ++
    (decimal F.cells.length ++ '\n' :: (L.flatMap lineText ++ (decimal (a.length + 1) ++ ' ' :: (a.flatMap fun i => decimal i ++ [' '])))))))

theorem fileText_last {F : File ℚ} {L : List (List Idx)} {a : List Idx} {f : Idx} (h : F.cells = L ++ [a ++ [f]]) :
    fileText F = beforeLast F L a ++ decimal f ++ [' ', '\n', '0'] := by
  unfold fileText beforeLast
  rw [h]
  simp [lineText]

theorem words_numbers (a : List Idx) (s : List Char) : words ((a.flatMap fun i => decimal i ++ [' ']) ++ s) = (a.map (Tok.num (R := ℚ))).map tokText ++ words s := by
  induction a with
  | nil => rfl
  | cons i a ih =>
    simp only [List.flatMap_cons, List.append_assoc, List.cons_append, List.nil_append] at ih ⊢
    rw [words_cons (decimal_word _) rfl, ih]
    rfl

/-- The numbers in front of the last one. -/
def firstTokens {R : Type} (F : File R) (L : List (List Idx)) (a : List Idx) : List (Tok R) :=
  .num F.verts.length :: (F.verts.flatMap fun p => [.real p.1, .real p.2.1, .real p.2.2])
    ++ .num F.faces.length :: F.faces.flatMap listTokens
    ++ .num F.cells.length :: (L.flatMap listTokens ++ .num (a.length + 1) :: a.map .num)

theorem tokens_last {R : Type} {F : File R} {L : List (List Idx)} {a : List Idx} {f : Idx} (h : F.cells = L ++ [a ++ [f]]) :
    F.tokens = firstTokens F L a ++ [.num f] := by
  simp [File.tokens, firstTokens, h, listTokens]

theorem words_beforeLast (F : File ℚ) (L : List (List Idx)) (a : List Idx) (s : List Char) :
    words (beforeLast F L a ++ s) = (firstTokens F L a).map tokText ++ words s := by
  unfold beforeLast firstTokens
  simp only [List.append_assoc, List.cons_append]
  rw [words_cons (decimal_word _) rfl, words_points, words_space rfl, words_cons (decimal_word _) rfl, words_lines,
    words_cons (decimal_word _) rfl, words_lines, words_cons (decimal_word _) rfl, words_numbers]
  simp [tokText]

theorem altCut_take {R : Type} {more : Prop} (q0 : List (Tok R)) (x : Tok R) (l : List (Tok R)) : AltCut more q0 (q0 ++ x :: l) := by
  induction q0 with
  | nil => exact .nil x l
  | cons y q0 ih => exact .cons y ih

theorem altCut_snoc {R : Type} {more : Prop} (q0 : List (Tok R)) {x x' : Tok R} {l : List (Tok R)} (h : Short x x') (hl : l ≠ []) :
    AltCut more (q0 ++ [x']) (q0 ++ x :: l) := by
  induction q0 with
  | nil => exact .one h (.inr hl)
  | cons y q0 ih => exact .cons y ih

/-- What is read of a text that ends in front of the last number. -/
theorem readWords_beforeLast {F : File ℚ} {L : List (List Idx)} {a : List Idx} {f : Idx} (hc : F.cells = L ++ [a ++ [f]]) {q : List Char}
    (h : q <+: beforeLast F L a) : AltCut False (readWords .start (words q)) F.stored.tokens := by
  obtain ⟨r, hr⟩ := h
  have hw := words_beforeLast F L a []
  rw [List.append_nil, show words [] = [] from rfl, List.append_nil] at hw
  have hfit : Fits .start (firstTokens F L a) := by
    have := fits_file F []
    rw [tokens_last hc, List.map_nil, List.append_nil] at this
    exact fits_prefix _ _ _ this
  have hst : F.stored.tokens = (firstTokens F L a).map (Tok.printed GTMesh.stored) ++ [.num f] := by
    rw [← stored_tokens, tokens_last hc]
    simp [Tok.printed]
  rw [hst]
  have htake : ∀ k, AltCut False (((firstTokens F L a).take k).map (Tok.printed GTMesh.stored)) ((firstTokens F L a).map (Tok.printed GTMesh.stored) ++ [.num f]) := by
    intro k
    have e : (firstTokens F L a).map (Tok.printed GTMesh.stored) ++ [.num f] =
        ((firstTokens F L a).take k).map (Tok.printed GTMesh.stored) ++ (((firstTokens F L a).drop k).map (Tok.printed GTMesh.stored) ++ [.num f]) := by
      rw [← List.append_assoc, ← List.map_append, List.take_append_drop]
    rw [e]
    cases hd : ((firstTokens F L a).drop k).map (Tok.printed GTMesh.stored) ++ [.num f] with
    | nil => simp at hd
    | cons x l => exact altCut_take _ x l
  obtain ⟨k, h | ⟨w, w', h1, h2, h3, h4⟩⟩ := wordsFrom_prefix q r []
  · change words q = _ at h
    rw [h, hr]
    change AltCut False (readWords .start ((words (beforeLast F L a)).take k)) _
    rw [hw, ← List.map_take, readWords_texts _ _ (fits_prefix _ ((firstTokens F L a).drop k) _ (by rwa [List.take_append_drop]))]
    exact htake k
  · rw [hr] at h1 h4
    change (words (beforeLast F L a))[k]? = some w at h1
    change words q = (words (beforeLast F L a)).take k ++ [w'] at h4
    rw [hw] at h1 h4
    rw [List.getElem?_map, Option.map_eq_some_iff] at h1
    obtain ⟨t, ht, rfl⟩ := h1
    have hk := (List.getElem?_eq_some_iff.mp ht).1
    have hsplit : firstTokens F L a = (firstTokens F L a).take k ++ t :: (firstTokens F L a).drop (k + 1) := by
      have := (List.getElem?_eq_some_iff.mp ht).2
      rw [← this, List.getElem_cons_drop, List.take_append_drop]
    have hfit' : Fits .start ((firstTokens F L a).take k ++ [t]) := by
      refine fits_prefix _ ((firstTokens F L a).drop (k + 1)) _ ?_
      rw [List.append_assoc, List.singleton_append, ← hsplit]
      exact hfit
    rw [h4, ← List.map_take, readWords_cut _ _ _ _ hfit']
    have hcut : ∀ x', Short (Tok.printed GTMesh.stored t) x' →
        AltCut False (((firstTokens F L a).take k).map (Tok.printed GTMesh.stored) ++ [x']) ((firstTokens F L a).map (Tok.printed GTMesh.stored) ++ [.num f]) := by
      intro x' hs
      have e : (firstTokens F L a).map (Tok.printed GTMesh.stored) ++ [.num f] =
          ((firstTokens F L a).take k).map (Tok.printed GTMesh.stored) ++ (Tok.printed GTMesh.stored t ::
            (((firstTokens F L a).drop (k + 1)).map (Tok.printed GTMesh.stored) ++ [.num f])) := by
        conv_lhs => rw [hsplit]
        simp
      rw [e]
      exact altCut_snoc _ hs (by simp)
    cases t with
    | num n =>
      obtain ⟨n', e1, e2, e3, _⟩ := decimal_prefix (by simpa [tokText] using h2) h3
      simp only [e1, Option.map_some, Option.toList_some]
      exact hcut _ ⟨e2, e3⟩
    | real x =>
      cases hv : Numeral.value w' with
      | none => simpa using htake k
      | some y =>
        simp only [Option.map_some, Option.toList_some]
        exact hcut _ trivial

/-! ## Two meshes that differ in the last cell -/

theorem getNext_unlisted {ls : List (List Idx)} {c : Nat} {l : List Idx} {f : Idx} (hl : ls[c]? = some l) (hf : f ∉ l) :
    (({} : Conn).runNext (histOf f (chainCalls 0 ls))).getNextBElem c = .throw .runtimeError := by
  rw [getNext_runNext, if_neg]
  intro hc
  obtain ⟨g, hg⟩ := lastFor_isSome_of_registered hc
  have := histOf_filter f ls 0 c l hl
  rw [Nat.zero_add, consecutive_filter_nil hf] at this
  unfold lastFor at hg
  rw [this] at hg
  simp at hg

theorem other_mesh {F G : File ℚ} (hF : F.WellFormed) (hfa : G.faces = F.faces) {L : List (List Idx)} {a : List Idx} {f f' : Idx}
    (hc : F.cells = L ++ [a ++ [f]]) (hg : G.cells = L ++ [a ++ [f']]) (hlt : f' < f) {m' : Mesh (Point ℚ)}
    (hm : load 0 F.tokens { dim := 3 } = .ok m') : ∃ m'', load 0 G.tokens { dim := 3 } = .ok m'' ∧ m'' ≠ m' := by
  have hlast : F.cells[L.length]? = some (a ++ [f]) := by rw [hc]; simp
  have hlast' : G.cells[L.length]? = some (a ++ [f']) := by rw [hg]; simp
  have hmem : a ++ [f] ∈ F.cells := by rw [hc]; simp
  have hfa' : f < F.faces.length := hF.cells_range _ hmem f (by simp)
  have hnot : f ∉ a ++ [f'] := by
    have hn := hF.cells_nodup _ hmem
    intro h
    rcases List.mem_append.mp h with h | h
    · exact (List.pairwise_append.mp hn).2.2 f h f (by simp) rfl
    · simp at h; omega
  obtain ⟨d, x, h1, -, -, -, -, h2, -⟩ := load_spec F hF 0 (fun _ _ => .inl rfl) []
  rw [List.append_nil, hm] at h1
  cases h1
  obtain ⟨d', m'', g1, -, -, -, -, g2, -⟩ := load_listed G
    (by
      intro l hl
      rw [hg] at hl
      rcases List.mem_append.mp hl with hl | hl
      · exact hF.cells_ne l (by rw [hc]; simp [hl])
      · simp at hl; rw [hl]; simp)
    (by
      intro l hl g hgl
      rw [hfa]
      rw [hg] at hl
      rcases List.mem_append.mp hl with hl | hl
      · exact hF.cells_range l (by rw [hc]; simp [hl]) g hgl
      · simp only [List.mem_singleton] at hl
        rw [hl] at hgl
        rcases List.mem_append.mp hgl with h | h
        · exact hF.cells_range _ hmem g (by simp [h])
        · simp at h; omega)
    (by rw [hfa]; exact hF.faces_fit) 0 (fun _ _ => .inl rfl) []
  rw [List.append_nil] at g1
  refine ⟨m'', g1, ?_⟩
  rintro rfl
  obtain ⟨y, y1, -, -, y2⟩ := h2 f F.faces[f] (by simp [hfa'])
  obtain ⟨z, z1, -, -, z2⟩ := g2 f F.faces[f] (by rw [hfa]; simp [hfa'])
  rw [y1] at z1
  cases z1
  have e1 := chainCalls_next (c := L.length) (j := a.length) (f := f) (g := (a ++ [f])[0]'(by simp)) hF.cells_nodup hF.cells_fit (hF.two f) hlast (by simp)
    (by simp [cyc]) (by simp [cyc])
  have e2 := getNext_unlisted hlast' hnot
  rw [← y2] at e1
  rw [← z2, e1] at e2
  cases e2

/-! ## The writer is stopped -/

theorem lists_inj {R : Type} : ∀ (A B : List (List Idx)) (r r' : List (Tok R)), A.length = B.length →
    A.flatMap listTokens ++ r = B.flatMap listTokens ++ r' → A = B ∧ r = r' := by
  intro A
  induction A with
  | nil =>
    intro B r r' hl h
    rw [List.length_eq_zero_iff.mp hl.symm] at h ⊢
    exact ⟨rfl, h⟩
  | cons x A ih =>
    intro B r r' hl h
    cases B with
    | nil => simp at hl
    | cons y B =>
      simp only [List.flatMap_cons, listTokens, List.cons_append, List.append_assoc, List.cons.injEq, Tok.num.injEq] at h
      obtain ⟨h1, h2⟩ := h
      obtain ⟨h3, h4⟩ := List.append_inj h2 (by simp [h1])
      obtain ⟨rfl, h5⟩ := ih B r r' (by simpa using hl) h4
      have : x = y := (List.map_inj_right (f := (Tok.num : Nat → Tok R)) fun a b h => by cases h; rfl).mp h3
      exact ⟨by rw [this], h5⟩

theorem points_inj {R : Type} : ∀ (A B : List (Point R)) (r r' : List (Tok R)), A.length = B.length →
    (A.flatMap fun p => [Tok.real p.1, .real p.2.1, .real p.2.2]) ++ r = (B.flatMap fun p => [.real p.1, .real p.2.1, .real p.2.2]) ++ r' → A = B ∧ r = r' := by
  intro A
  induction A with
  | nil =>
    intro B r r' hl h
    rw [List.length_eq_zero_iff.mp hl.symm] at h ⊢
    exact ⟨rfl, h⟩
  | cons x A ih =>
    intro B r r' hl h
    cases B with
    | nil => simp at hl
    | cons y B =>
      simp only [List.flatMap_cons, List.cons_append, List.nil_append, List.cons.injEq, Tok.real.injEq] at h
      obtain ⟨h1, h2, h3, h4⟩ := h
      obtain ⟨rfl, h5⟩ := ih B r r' (by simpa using hl) h4
      exact ⟨by rw [Prod.ext h1 (Prod.ext h2 h3)], h5⟩

theorem tokens_inj {R : Type} {F G : File R} (h : F.tokens = G.tokens) : F = G := by
  simp only [File.tokens, List.cons_append, List.append_assoc, List.cons.injEq, Tok.num.injEq] at h
  obtain ⟨h1, h2⟩ := h
  obtain ⟨h3, h4⟩ := points_inj _ _ _ _ h1 h2
  simp only [List.cons.injEq, Tok.num.injEq] at h4
  obtain ⟨h5, h6⟩ := lists_inj _ _ _ _ h4.1 h4.2
  simp only [List.cons.injEq, Tok.num.injEq] at h6
  obtain ⟨h7, -⟩ := lists_inj F.cells G.cells [] [] h6.1 (by simpa using h6.2)
  cases F
  cases G
  simp only at h3 h5 h7
  rw [h3, h5, h7]

theorem written_last (m : Mesh (Point ℚ)) (bd poly : Idx → List Idx) (hd : m.dim = 3) (hv : ValidMesh m bd)
    (hpoly : ∀ (i : Nat) f, (m.midElems 2)[i]? = some f → IsPolygon m.edges f.sub (poly i))
    (hc : m.cells.length ≤ INVALID) (hf : (m.midElems 2).length ≤ INVALID) (hne : m.cells ≠ []) :
    ∃ (F : File ℚ) (L : List (List Idx)) (a : List Idx) (f : Idx), writeText m = .ok (fileText F) ∧ F.WellFormed ∧ F.cells = L ++ [a ++ [f]] ∧
      (bd (m.cells.length - 1)).getLast? = some f := by
  obtain ⟨F, h1, h2, h3, h4, h5, h6⟩ := written m bd poly hd hv hpoly hc hf
  obtain ⟨F', e1, e2⟩ := writeText_of_write m _ h1
  have hFF : F = F' := tokens_inj ((List.append_left_inj _).mp e1)
  rw [← hFF] at e2
  have hpos : 0 < m.cells.length := List.length_pos_iff.mpr hne
  have hmem : bd (m.cells.length - 1) ∈ F.cells := by
    rw [h5]
    exact List.mem_map_of_mem (List.mem_range.mpr (by omega))
  have hb := h2.cells_ne _ hmem
  refine ⟨F, (List.range (m.cells.length - 1)).map bd, (bd (m.cells.length - 1)).dropLast, (bd (m.cells.length - 1)).getLast hb, e2, h2, ?_, List.getLast?_eq_some_getLast hb⟩
  rw [List.dropLast_append_getLast, h5]
  conv_lhs => rw [show m.cells.length = (m.cells.length - 1) + 1 by omega, List.range_succ, List.map_append]
  rfl

/-- The text of a file that ends with the number `f`, and its beginnings. -/
theorem file_cut {F : File ℚ} (hF : F.WellFormed) {L : List (List Idx)} {a : List Idx} {f : Idx} (hcells : F.cells = L ++ [a ++ [f]]) :
    ∃ (before : List Char) (m' : Mesh (Point ℚ)), fileText F = before ++ decimal f ++ [' ', '\n', '0'] ∧
      (∀ e, e <+: [' ', '\n', '0'] → loadText 0 (before ++ decimal f ++ e) { dim := 3 } = .ok m') ∧
      (∀ q, q <+: before → loadText 0 q { dim := 3 } = .ub) ∧
      (∀ w, w <+: decimal f → w ≠ [] → w ≠ decimal f → ∃ m'', loadText 0 (before ++ w) { dim := 3 } = .ok m'' ∧ m'' ≠ m') := by
  have hS := stored_wellFormed hF
  have hcS : F.stored.cells = L ++ [a ++ [f]] := hcells
  have hst : F.stored.tokens = (firstTokens F L a).map (Tok.printed GTMesh.stored) ++ [.num f] := by
    rw [← stored_tokens, tokens_last hcells]
    simp [Tok.printed]
  have hfit : Fits .start (firstTokens F L a ++ [.num f]) := by
    have := fits_file F []
    rwa [tokens_last hcells, List.map_nil, List.append_nil] at this
  obtain ⟨d, m', l1, -⟩ := load_spec F.stored hS 0 (fun _ _ => .inl rfl) []
  rw [List.append_nil] at l1
  -- what follows the numbers does not matter
  have hext : ∀ ext, load 0 (F.stored.tokens ++ ext) { dim := 3 } = .ok m' := by
    obtain ⟨F2, rest, b1, b2, b3⟩ := accepted_text 0 _ _ _ l1
    cases rest with
    | nil => intro ext; rw [b1, List.append_nil]; exact b2 ext
    | cons x rest =>
      have := load_alt F.stored hS 0 (fun _ _ => .inl rfl) F2.tokens (by rw [b1]; exact altCut_take _ x rest)
      have hb := b2 []
      rw [List.append_nil, this] at hb
      cases hb
  have hsame : ∀ (e : List Char) (k : Nat), words (decimal f ++ e) = ([Tok.num f] ++ (([0].take k).map (Tok.num (R := ℚ)))).map tokText →
      loadText 0 (beforeLast F L a ++ decimal f ++ e) { dim := 3 } = .ok m' := by
    intro e k hw
    have hfk := fits_prefix (F.tokens ++ ([0].take k).map .num) (([0].drop k).map .num) .start (by
      rw [List.append_assoc, ← List.map_append, List.take_append_drop]; exact fits_file F [0])
    rw [loadText, List.append_assoc, words_beforeLast, hw, ← List.map_append, ← List.append_assoc, ← tokens_last hcells,
      readWords_texts _ _ hfk, List.map_append, stored_tokens]
    exact hext _
  refine ⟨beforeLast F L a, m', fileText_last hcells, fun e he => ?_, fun q hq => ?_, fun w hw h0 hn => ?_⟩
  · have hcases : e = [] ∨ e = [' '] ∨ e = [' ', '\n'] ∨ e = [' ', '\n', '0'] := by
      obtain ⟨t, ht⟩ := he
      match e with
      | [] => simp
      | [x] => simp at ht; simp [ht]
      | [x, y] => simp at ht; simp [ht]
      | [x, y, z] => simp at ht; simp [ht]
      | x :: y :: z :: u :: v => simp at ht
    rcases hcases with rfl | rfl | rfl | rfl
    · exact hsame [] 0 (by rw [List.append_nil, words_one (decimal_word f)]; rfl)
    · exact hsame [' '] 0 (by rw [words_cons (decimal_word f) rfl]; rfl)
    · exact hsame [' ', '\n'] 0 (by rw [words_cons (decimal_word f) rfl, words_space rfl]; rfl)
    · exact hsame [' ', '\n', '0'] 1 (by
        rw [words_cons (decimal_word f) rfl, words_space rfl, words_one ⟨by simp, by decide⟩]
        rfl)
  · rw [loadText]
    exact load_alt _ hS 0 (fun _ _ => .inl rfl) _ (readWords_beforeLast hcells hq)
  · obtain ⟨f', e1, e2, e3, e4⟩ := decimal_prefix hw h0
    have hww : IsWord w := ⟨h0, fun c hc => (decimal_word f).2 c (hw.subset hc)⟩
    obtain ⟨m'', g1, g2⟩ := other_mesh (G := { F.stored with cells := L ++ [a ++ [f']] }) hS rfl hcS rfl (e4 hn) l1
    refine ⟨m'', ?_, g2⟩
    rw [loadText, words_beforeLast, words_one hww, readWords_cut _ _ _ _ hfit]
    simp only [e1, Option.map_some, Option.toList_some]
    rw [← g1]
    congr 1
    rw [tokens_last (F := { F.stored with cells := L ++ [a ++ [f']] }) rfl]
    rw [tokens_last hcS] at hst
    rw [(List.append_left_inj _).mp hst.symm]
    simp [firstTokens, File.stored, hcells]

/-- C80, a writer that is stopped: `text` is the file of a valid mesh with cells, and `f` the last face of the last cell. As long as the digits of `f` are
not all there, no mesh or another mesh is read: in front of `f` reading is undefined behaviour (there is no exception), in the middle of its digits
a mesh is read without an error and is another one. Behind `f` the mesh is the one of the whole file. -/
theorem C80_cut_violated (m : Mesh (Point ℚ)) (bd poly : Idx → List Idx) (hd : m.dim = 3) (hv : ValidMesh m bd)
    (hpoly : ∀ (i : Nat) f, (m.midElems 2)[i]? = some f → IsPolygon m.edges f.sub (poly i))
    (hc : m.cells.length ≤ INVALID) (hf : (m.midElems 2).length ≤ INVALID) (hne : m.cells ≠ []) :
    ∃ (before : List Char) (f : Idx) (m' : Mesh (Point ℚ)),
      (bd (m.cells.length - 1)).getLast? = some f ∧ writeText m = .ok (before ++ decimal f ++ [' ', '\n', '0']) ∧
      (∀ e, e <+: [' ', '\n', '0'] → loadText 0 (before ++ decimal f ++ e) { dim := 3 } = .ok m') ∧
      (∀ q, q <+: before → loadText 0 q { dim := 3 } = .ub) ∧
      (∀ w, w <+: decimal f → w ≠ [] → w ≠ decimal f → ∃ m'', loadText 0 (before ++ w) { dim := 3 } = .ok m'' ∧ m'' ≠ m') := by
  obtain ⟨F, L, a, f, h1, hF, hcells, hlast⟩ := written_last m bd poly hd hv hpoly hc hf hne
  obtain ⟨before, m', h2, h3⟩ := file_cut hF hcells
  exact ⟨before, f, m', hlast, by rw [← h2]; exact h1, h3⟩

/-- A number with two digits or more. -/
theorem decimal_dropLast {f : Nat} (h : 10 ≤ f) : (decimal f).dropLast ≠ [] ∧ (decimal f).dropLast ≠ decimal f := by
  obtain ⟨ds, h1, h2, h3, h4⟩ := decimal_spec f
  constructor
  · intro e
    rw [h1, ← List.map_dropLast, List.map_eq_nil_iff] at e
    match ds with
    | [] => exact h3 rfl
    | [d] =>
      have := h4 d (by simp)
      simp [Numeral.natOf] at h2
      omega
    | x :: y :: l => simp at e
  · intro e
    have hl := congrArg List.length e
    have hpos := List.length_pos_iff.mpr (decimal_word f).1
    rw [List.length_dropLast] at hl
    omega

/-- C80: a mesh whose last cell ends with a face number of two digits or more has a file of which a part, at most four characters shorter, is read without
an error as another mesh. -/
theorem C80_other_mesh_violated (m : Mesh (Point ℚ)) (bd poly : Idx → List Idx) (hd : m.dim = 3) (hv : ValidMesh m bd)
    (hpoly : ∀ (i : Nat) f, (m.midElems 2)[i]? = some f → IsPolygon m.edges f.sub (poly i))
    (hc : m.cells.length ≤ INVALID) (hf : (m.midElems 2).length ≤ INVALID) (hne : m.cells ≠ [])
    (h10 : ∀ f, (bd (m.cells.length - 1)).getLast? = some f → 10 ≤ f) :
    ∃ (text q r : List Char) (m' m'' : Mesh (Point ℚ)), writeText m = .ok text ∧ text = q ++ r ∧ r.length = 4 ∧
      loadText 0 text { dim := 3 } = .ok m' ∧ loadText 0 q { dim := 3 } = .ok m'' ∧ m'' ≠ m' := by
  obtain ⟨before, f, m', h1, h2, h3, h4, h5⟩ := C80_cut_violated m bd poly hd hv hpoly hc hf hne
  obtain ⟨d1, d2⟩ := decimal_dropLast (h10 f h1)
  obtain ⟨m'', g1, g2⟩ := h5 _ (List.dropLast_prefix _) d1 d2
  refine ⟨_, before ++ (decimal f).dropLast, [(decimal f).getLast (decimal_word f).1] ++ [' ', '\n', '0'], m', m'', h2, ?_, rfl, h3 _ (List.prefix_refl _), g1, g2⟩
  conv_lhs => rw [← List.dropLast_append_getLast (decimal_word f).1]
  simp

-- the two cells of C21's example
example : ∃ text, writeText longMesh = .ok text ∧ ∃ m', loadText 0 text { dim := 3 } = .ok m' ∧ ∃ q, q <+: text ∧ loadText 0 q { dim := 3 } = .ub := by
  obtain ⟨poly, hpoly⟩ := longMesh_polygons
  obtain ⟨before, f, m', h1, h2, h3, h4, _⟩ := C80_cut_violated longMesh Vtk.exampleBd3 poly rfl longMesh_valid hpoly (by decide +kernel) (by decide +kernel) (by decide +kernel)
  exact ⟨_, h2, m', h3 _ (List.prefix_refl _), before, ⟨decimal f ++ [' ', '\n', '0'], by simp⟩, h4 _ (List.prefix_refl _)⟩

/-- Two cubes. -/
def cubes : File ℚ where
  verts := [(0, 0, 0), (1, 0, 0), (1, 1, 0), (0, 1, 0), (0, 0, 1), (1, 0, 1), (1, 1, 1), (0, 1, 1), (0, 0, 2), (1, 0, 2), (1, 1, 2), (0, 1, 2)]
  faces := [[0, 1, 2, 3], [0, 1, 5, 4], [1, 2, 6, 5], [2, 3, 7, 6], [3, 0, 4, 7], [4, 5, 6, 7],
    [4, 5, 9, 8], [5, 6, 10, 9], [6, 7, 11, 10], [7, 4, 8, 11], [8, 9, 10, 11]]
  cells := [[0, 1, 2, 3, 4, 5], [5, 6, 7, 8, 9, 10]]

instance (F : File ℚ) : Decidable (∀ f, (F.cells.filter fun l => decide (f ∈ l)).length ≤ 2) :=
  decidable_of_iff (∀ f ∈ F.cells.flatten, (F.cells.filter fun l => decide (f ∈ l)).length ≤ 2) (by
    constructor
    · intro h f
      by_cases hf : f ∈ F.cells.flatten
      · exact h f hf
      · have : F.cells.filter (fun l => decide (f ∈ l)) = [] := by
          rw [List.filter_eq_nil_iff]
          intro l hl hh
          exact hf (List.mem_flatten.mpr ⟨l, hl, by simpa using hh⟩)
        rw [this]; simp
    · exact fun h f _ => h f)

theorem cubes_wellFormed : cubes.WellFormed where
  cells_ne := by decide
  cells_nodup := by simp only [NoRepetition]; decide
  cells_range := by decide
  two := by decide
  cells_fit := by decide
  faces_fit := by decide

-- the digit 0 of the last 10 is lost: the second cube gets the face 1 of the first one
example : ∃ before m' m'', fileText cubes = before ++ ['1'] ++ ['0', ' ', '\n', '0'] ∧ loadText 0 (fileText cubes) { dim := 3 } = .ok m' ∧
    loadText 0 (before ++ ['1']) { dim := 3 } = .ok m'' ∧ m'' ≠ m' := by
  obtain ⟨before, m', h1, h2, h3, h4⟩ := file_cut cubes_wellFormed (L := [[0, 1, 2, 3, 4, 5]]) (a := [5, 6, 7, 8, 9]) (f := 10) rfl
  have e : decimal 10 = ['1', '0'] := by decide
  obtain ⟨m'', g1, g2⟩ := h4 ['1'] (by rw [e]; exact ⟨['0'], rfl⟩) (by simp) (by rw [e]; simp)
  refine ⟨before, m', m'', by rw [h1, e]; simp, ?_, g1, g2⟩
  rw [h1]
  exact h2 _ (List.prefix_refl _)

end GTMesh.Fpma
