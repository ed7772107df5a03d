import Verif.Props.VtkRefuse
import Verif.Props.FpmaCut

/-! # C57: VTK texts that are cut off -/

namespace GTMesh.Vtk
open Spec GTMesh.Props
variable {R V : Type}

/-! ## Texts -/

/-- The text up to and including the keyword of the points: two lines and the keywords. -/
def introTokens (l1 l2 : List (VTok R)) (ts : List (VTok R)) : List (VTok R) :=
  l1 ++ .nl :: (l2 ++ .nl :: .word "ASCII" :: .nl :: .word "DATASET" :: .word "UNSTRUCTURED_GRID" :: .nl :: .word "POINTS" :: ts)

/-- Numbers, in any arrangement on lines. -/
def AreNumbers (xs : List Nat) (ts : List (VTok R)) : Prop := tokensOnly ts = xs.map .num

/-- Coordinates, in any arrangement on lines. -/
def AreReals (xs : List R) (ts : List (VTok R)) : Prop := tokensOnly ts = xs.map .real

/-- A text that ends, or goes on with a word instead of a number, after at most `n` coordinates `xs`. -/
def CutReals (n : Nat) (xs : List R) (ts : List (VTok R)) : Prop :=
  (AreReals xs ts ∧ xs.length ≤ n) ∨ ∃ body w more, ts = body ++ .word w :: more ∧ AreReals xs body ∧ xs.length < n

/-- A text that ends, or goes on with a word instead of a number, after at most `n` numbers `xs`. -/
def CutNumbers (n : Nat) (xs : List Nat) (ts : List (VTok R)) : Prop :=
  (AreNumbers xs ts ∧ xs.length ≤ n) ∨ ∃ body w more, ts = body ++ .word w :: more ∧ AreNumbers xs body ∧ xs.length < n

/-- `n` positions from the coordinates `xs`; a coordinate that is missing is 0. -/
def positions [Zero R] (n : Nat) (xs : List R) : List (R × R × R) :=
  (List.range n).map fun i => (xs.getD (3 * i) 0, xs.getD (3 * i + 1) 0, xs.getD (3 * i + 2) 0)

/-! ## Reading numbers from a text that ends -/

theorem skipNl_tokens : ∀ (ts : List (VTok R)),
    (tokensOnly ts = [] → skipNl ts = []) ∧
    ∀ t us, tokensOnly ts = t :: us → ∃ r, skipNl ts = t :: r ∧ tokensOnly r = us
  | [] => ⟨fun _ => rfl, fun t us h => by simp [tokensOnly] at h⟩
  | .nl :: ts => skipNl_tokens ts
  | .word w :: ts => ⟨fun h => by simp [tokensOnly] at h, fun t us h => by
      simp only [tokensOnly, List.filter_cons, if_true, List.cons.injEq] at h
      exact ⟨ts, by rw [← h.1]; rfl, h.2⟩⟩
  | .num n :: ts => ⟨fun h => by simp [tokensOnly] at h, fun t us h => by
      simp only [tokensOnly, List.filter_cons, if_true, List.cons.injEq] at h
      exact ⟨ts, by rw [← h.1]; rfl, h.2⟩⟩
  | .real x :: ts => ⟨fun h => by simp [tokensOnly] at h, fun t us h => by
      simp only [tokensOnly, List.filter_cons, if_true, List.cons.injEq] at h
      exact ⟨ts, by rw [← h.1]; rfl, h.2⟩⟩

theorem readReal_reals [Zero R] (xs : List R) (ts : List (VTok R)) (h : AreReals xs ts) :
    ∃ r, readReal ts = .ok (xs.getD 0 0, r) ∧ AreReals (xs.drop 1) r := by
  obtain ⟨h1, h2⟩ := skipNl_tokens ts
  unfold AreReals at h
  cases xs with
  | nil => refine ⟨[], ?_, rfl⟩; unfold readReal; rw [h1 h]; rfl
  | cons x xs =>
    obtain ⟨r, a, b⟩ := h2 _ _ h
    refine ⟨r, ?_, b⟩
    unfold readReal
    rw [a]
    rfl

theorem readPoints_reals [Zero R] : ∀ (n : Nat) (xs : List R) (ts : List (VTok R)), AreReals xs ts →
    ∃ r, readPoints n ts = .ok (positions n xs, r) ∧ AreReals (xs.drop (3 * n)) r := by
  intro n
  induction n with
  | zero => intro xs ts h; exact ⟨ts, rfl, by simpa using h⟩
  | succ n ih =>
    intro xs ts h
    obtain ⟨r1, a1, b1⟩ := readReal_reals xs ts h
    obtain ⟨r2, a2, b2⟩ := readReal_reals _ r1 b1
    obtain ⟨r3, a3, b3⟩ := readReal_reals _ r2 b2
    obtain ⟨r4, a4, b4⟩ := ih _ r3 b3
    refine ⟨r4, ?_, ?_⟩
    · simp only [readPoints, a1, a2, a3, a4, Res.bind, positions, List.range_succ_eq_map, List.map_cons, List.map_map,
        Res.ok.injEq, Prod.mk.injEq, List.cons.injEq, and_true]
      refine ⟨by simp [List.getD_eq_getElem?_getD], ?_⟩
      apply List.map_congr_left
      intro i _
      simp only [Function.comp_apply, List.getD_eq_getElem?_getD, List.getElem?_drop, Prod.mk.injEq]
      refine ⟨by congr 2; omega, by congr 2; omega, by congr 2; omega⟩
    · simp only [List.drop_drop] at b4
      rw [show 3 * (n + 1) = 1 + 1 + 1 + 3 * n by omega]
      simpa [Nat.add_comm, Nat.add_left_comm, Nat.add_assoc] using b4

/-- `n` numbers, missing ones being 0. -/
def padded (n : Nat) (xs : List Nat) : List Nat := xs.take n ++ List.replicate (n - xs.length) 0

theorem readNums_numbers : ∀ (n : Nat) (xs : List Nat) (ts : List (VTok R)), AreNumbers xs ts →
    ∃ r, readNums n ts = .ok (padded n xs, r) ∧ AreNumbers (xs.drop n) r := by
  intro n
  induction n with
  | zero => intro xs ts h; exact ⟨ts, by simp [readNums, padded], by simpa using h⟩
  | succ n ih =>
    intro xs ts h
    obtain ⟨h1, h2⟩ := skipNl_tokens ts
    unfold AreNumbers at h
    cases xs with
    | nil =>
      obtain ⟨r, a, b⟩ := ih [] [] rfl
      refine ⟨r, ?_, by simpa using b⟩
      simp only [readNums, readNumInto, h1 h, Res.bind, a]
      simp [padded, List.replicate_succ]
    | cons x xs =>
      obtain ⟨r, a, b⟩ := h2 _ _ h
      obtain ⟨r', a', b'⟩ := ih xs r b
      refine ⟨r', ?_, by simpa using b'⟩
      simp only [readNums, readNumInto, a, Res.bind, a']
      simp [padded]

/-! A word in the place of a number -/

theorem skipNl_append (W : List (VTok R)) : ∀ (ts : List (VTok R)), tokensOnly ts ≠ [] → skipNl (ts ++ W) = skipNl ts ++ W
  | [] => fun h => absurd rfl h
  | .nl :: ts => fun h => skipNl_append W ts h
  | .word _ :: _ => fun _ => rfl
  | .num _ :: _ => fun _ => rfl
  | .real _ :: _ => fun _ => rfl

theorem skipNl_append_word (w : String) (more : List (VTok R)) : ∀ (ts : List (VTok R)), tokensOnly ts = [] →
    skipNl (ts ++ .word w :: more) = .word w :: more
  | [] => fun _ => rfl
  | .nl :: ts => fun h => skipNl_append_word w more ts h
  | .word _ :: _ => fun h => by simp [tokensOnly] at h
  | .num _ :: _ => fun h => by simp [tokensOnly] at h
  | .real _ :: _ => fun h => by simp [tokensOnly] at h

theorem readReal_word [Zero R] (w : String) (more : List (VTok R)) (xs : List R) (ts : List (VTok R)) (h : AreReals xs ts) :
    (xs = [] ∧ readReal ts = .ok (0, []) ∧ readReal (ts ++ .word w :: more) = .ok (0, [])) ∨
    ∃ x r, readReal ts = .ok (x, r) ∧ readReal (ts ++ .word w :: more) = .ok (x, r ++ .word w :: more) ∧ AreReals (xs.drop 1) r ∧ xs ≠ [] := by
  obtain ⟨h1, h2⟩ := skipNl_tokens ts
  unfold AreReals at h
  cases xs with
  | nil =>
    refine .inl ⟨rfl, ?_, ?_⟩
    · unfold readReal; rw [h1 h]
    · unfold readReal; rw [skipNl_append_word w more ts h]
  | cons x xs =>
    obtain ⟨r, a, b⟩ := h2 _ _ h
    refine .inr ⟨x, r, ?_, ?_, b, by simp⟩
    · unfold readReal; rw [a]
    · unfold readReal; rw [skipNl_append _ ts (by rw [h]; simp), a]; rfl

theorem readPoints_word [Zero R] (w : String) (more : List (VTok R)) : ∀ (n : Nat) (xs : List R) (ts : List (VTok R)), AreReals xs ts →
    xs.length < 3 * n → readPoints n (ts ++ .word w :: more) = readPoints n ts := by
  intro n
  induction n with
  | zero => intro xs ts _ h; omega
  | succ n ih =>
    intro xs ts h hl
    simp only [readPoints]
    rcases readReal_word w more xs ts h with ⟨_, a, b⟩ | ⟨x, r, a, b, c, hx⟩
    · rw [a, b]
    · rw [a, b]
      simp only [Res.bind]
      rcases readReal_word w more _ r c with ⟨_, a', b'⟩ | ⟨x', r', a', b', c', hx'⟩
      · rw [a', b']
      · rw [a', b']
        simp only
        rcases readReal_word w more _ r' c' with ⟨_, a'', b''⟩ | ⟨x'', r'', a'', b'', c'', hx''⟩
        · rw [a'', b'']
        · rw [a'', b'']
          simp only
          have := List.length_pos_iff.mpr hx''
          simp only [List.length_drop] at this
          rw [ih _ _ c'' (by simp only [List.length_drop]; omega)]

theorem readPoints_cut [Zero R] (n : Nat) (xs : List R) (ts : List (VTok R)) (h : CutReals (3 * n) xs ts) :
    ∃ r, readPoints n ts = .ok (positions n xs, r) ∧ tokensOnly r = [] := by
  rcases h with ⟨h, hl⟩ | ⟨body, w, more, rfl, h, hl⟩
  · obtain ⟨r, a, b⟩ := readPoints_reals n xs ts h
    rw [List.drop_of_length_le hl] at b
    exact ⟨r, a, b⟩
  · obtain ⟨r, a, b⟩ := readPoints_reals n xs body h
    rw [List.drop_of_length_le (by omega)] at b
    exact ⟨r, (readPoints_word w more n xs body h hl).trans a, b⟩

theorem readNums_word (w : String) (more : List (VTok R)) : ∀ (n : Nat) (xs : List Nat) (ts : List (VTok R)), AreNumbers xs ts →
    xs.length < n → readNums n (ts ++ .word w :: more) = readNums n ts := by
  intro n
  induction n with
  | zero => intro xs ts _ h; omega
  | succ n ih =>
    intro xs ts h hl
    obtain ⟨h1, h2⟩ := skipNl_tokens ts
    unfold AreNumbers at h
    cases xs with
    | nil =>
      simp only [readNums, readNumInto]
      rw [h1 h, skipNl_append_word w more ts h]
    | cons x xs =>
      obtain ⟨r, a, b⟩ := h2 _ _ h
      simp only [readNums, readNumInto]
      rw [skipNl_append _ ts (by rw [h]; simp), a]
      simp only [List.cons_append, Res.bind]
      rw [ih xs r b (by simpa using hl)]

theorem readNums_cut (n : Nat) (xs : List Nat) (ts : List (VTok R)) (h : CutNumbers n xs ts) :
    ∃ r, readNums n ts = .ok (padded n xs, r) ∧ tokensOnly r = [] := by
  rcases h with ⟨h, hl⟩ | ⟨body, w, more, rfl, h, hl⟩
  · obtain ⟨r, a, b⟩ := readNums_numbers n xs ts h
    rw [List.drop_of_length_le hl] at b
    exact ⟨r, a, b⟩
  · obtain ⟨r, a, b⟩ := readNums_numbers n xs body h
    rw [List.drop_of_length_le (by omega)] at b
    exact ⟨r, (readNums_word w more n xs body h hl).trans a, b⟩

theorem readWord_end (prev : String) (ts : List (VTok R)) (h : tokensOnly ts = []) : readWord prev ts = (prev, []) :=
  (readWord_tokens prev ts).1 h

/-! ## The parts of `loadFromStream` -/

/-- What follows the points. -/
def fromCells (conv : Nat → Option Nat) (loadC : List (VTok R) → Mesh V → Res (Mesh V × List (VTok R))) (types : List Nat)
    (prev : String) (ts : List (VTok R)) (m : Mesh V) : Res (Mesh V × List Nat) :=
  let w5 := readWord prev ts
  (if w5.1 = "CELLS" then loadC w5.2 m else .ok (m, w5.2)).bind fun q =>
  let w6 := readWord w5.1 q.2
  (if w6.1 = "CELL_TYPES" then loadCellTypes conv q.1.cells.length types w6.2
   else .ok (types, w6.2)).bind fun t => .ok (q.1, t.1)

theorem loadFromStream_intro (conv : Nat → Option Nat) (loadV loadC : List (VTok R) → Mesh V → Res (Mesh V × List (VTok R)))
    (types : List Nat) (m : Mesh V) (l1 l2 ts : List (VTok R)) (h1 : IsLine l1) (h2 : IsLine l2) :
    loadFromStream conv loadV loadC (introTokens l1 l2 ts) types m =
      (loadV ts m.clear).bind fun p => fromCells conv loadC types "POINTS" p.2 p.1 := by
  unfold loadFromStream introTokens
  have hnl : ∀ (p : String) (us : List (VTok R)), readWord p (.nl :: us) = readWord p us := fun _ _ => rfl
  simp only [ignoreLine_line h1, ignoreLine_line h2, readWord_word, hnl]
  rw [if_neg (by decide), if_neg (by decide), if_neg (by decide), if_pos trivial]
  rfl

/-- C57, VTK, is violated: a text that ends among the coordinates of the points (here after `xs`, at most three for each announced
point), or has a word in the place of a coordinate, is read without an error by both readers. The missing coordinates are 0, there are no cells, and the cell types of the
reader stay those of the previous file. -/
theorem C57_vtk_points_violated [Zero R] (l1 l2 body : List (VTok R)) (h1 : IsLine l1) (h2 : IsLine l2) (n : Nat) (precision : String)
    (xs : List R) (hx : CutReals (3 * n) xs body) (types : List Nat) (res : Nat)
    (m : Mesh (Point2 R)) (m' : Mesh (Point3 R)) :
    load2 (introTokens l1 l2 (.num n :: .word precision :: .nl :: body)) types m =
      .ok ({ m.clear with vertices := (positions n xs).map fun p => (p.1, p.2.1) }, types) ∧
    load3 res (introTokens l1 l2 (.num n :: .word precision :: .nl :: body)) types m' =
      .ok ({ m'.clear with vertices := positions n xs }, types) := by
  obtain ⟨r, a, hr⟩ := readPoints_cut n xs body hx
  constructor
  · rw [load2, loadFromStream_intro _ _ _ _ _ _ _ _ h1 h2]
    simp only [loadVertices, readNum_num, Res.bind, ignoreLine, a]
    simp only [fromCells, readWord_end _ _ hr]
    rw [if_neg (by decide)]
    simp only [Res.bind]
    rw [readWord_end _ [] rfl]
    simp only
    rw [if_neg (by decide)]
  · rw [load3, loadFromStream_intro _ _ _ _ _ _ _ _ h1 h2]
    simp only [loadVertices, readNum_num, Res.bind, ignoreLine, a, List.map_id]
    simp only [fromCells, readWord_end _ _ hr]
    rw [if_neg (by decide)]
    simp only [Res.bind]
    rw [readWord_end _ [] rfl]
    simp only
    rw [if_neg (by decide)]

/-- A triangle of three points, cut off after four coordinates. -/
example : load2 (introTokens [.word "#"] [.word "t"] [.num 3, .word "double", .nl, .real 5, .real 6, .real 0, .nl, .real 7] : List (VTok Int))
    [200] { dim := 2 } = .ok ({ dim := 2, vertices := [(5, 6), (7, 0), (0, 0)] }, [200]) :=
  (C57_vtk_points_violated [.word "#"] [.word "t"] [.real 5, .real 6, .real 0, .nl, .real 7] (by simp [IsLine]) (by simp [IsLine]) 3 "double"
    [5, 6, 0, 7] (.inl ⟨rfl, by decide⟩) [200] 0 { dim := 2 } { dim := 3 }).1

/-- The same with a word in the place of the fifth coordinate. -/
example : load2 (introTokens [.word "#"] [.word "t"] [.num 3, .word "double", .nl, .real 5, .real 6, .real 0, .nl, .real 7, .word "x", .real 8] : List (VTok Int))
    [200] { dim := 2 } = .ok ({ dim := 2, vertices := [(5, 6), (7, 0), (0, 0)] }, [200]) :=
  (C57_vtk_points_violated [.word "#"] [.word "t"] [.real 5, .real 6, .real 0, .nl, .real 7, .word "x", .real 8] (by simp [IsLine]) (by simp [IsLine])
    3 "double" [5, 6, 0, 7] (.inr ⟨[.real 5, .real 6, .real 0, .nl, .real 7], "x", [.real 8], rfl, rfl, by decide⟩) [200] 0 { dim := 2 } { dim := 3 }).1

/-! ## Cut among the cells -/

/-- The text with complete points, up to and including the keyword of the cells. -/
def pointsTokens (l1 l2 : List (VTok R)) (precision : String) (verts : List (R × R × R)) (ts : List (VTok R)) : List (VTok R) :=
  introTokens l1 l2 (.num verts.length :: .word precision :: .nl ::
    ((verts.flatMap fun p => [.real p.1, .real p.2.1, .real p.2.2, .nl]) ++ .nl :: .word "CELLS" :: ts))

/-- What follows the cells. -/
def fromTypes (conv : Nat → Option Nat) (types : List Nat) (ts : List (VTok R)) (m : Mesh V) : Res (Mesh V × List Nat) :=
  let w6 := readWord "CELLS" ts
  (if w6.1 = "CELL_TYPES" then loadCellTypes conv m.cells.length types w6.2
   else .ok (types, w6.2)).bind fun t => .ok (m, t.1)

theorem loadFromStream_points [Zero R] (conv : Nat → Option Nat) (proj : R × R × R → V)
    (loadC : List (VTok R) → Mesh V → Res (Mesh V × List (VTok R)))
    (types : List Nat) (m : Mesh V) (l1 l2 ts : List (VTok R)) (h1 : IsLine l1) (h2 : IsLine l2) (precision : String)
    (verts : List (R × R × R)) :
    loadFromStream conv (loadVertices proj) loadC (pointsTokens l1 l2 precision verts ts) types m =
      (loadC ts { m.clear with vertices := verts.map proj }).bind fun q => fromTypes conv types q.2 q.1 := by
  obtain ⟨r, p1, p2⟩ := readPoints_spec verts
    ((verts.flatMap fun p => [.real p.1, .real p.2.1, .real p.2.2, .nl]) ++ .nl :: .word "CELLS" :: ts)
    (.nl :: .word "CELLS" :: ts) rfl
  rw [pointsTokens, loadFromStream_intro _ _ _ _ _ _ _ _ h1 h2]
  simp only [loadVertices, readNum_num, Res.bind, ignoreLine, p1]
  unfold fromCells
  rw [readWord_congr p2]
  have : readWord "POINTS" (.nl :: .word "CELLS" :: ts) = ("CELLS", ts) := rfl
  rw [this]
  simp only [if_true]
  rfl

theorem fromTypes_end (conv : Nat → Option Nat) (types : List Nat) (ts : List (VTok R)) (h : tokensOnly ts = []) (m : Mesh V) :
    fromTypes conv types ts m = .ok (m, types) := by
  unfold fromTypes
  rw [readWord_end _ _ h]
  simp only
  rw [if_neg (by decide)]
  rfl

theorem padded_length (n : Nat) (xs : List Nat) : (padded n xs).length = n := by
  simp [padded]; omega

theorem bind_ok_snd {α β : Type} {A : Res α} {f : α → β} {y : β} (h : (A.bind fun x => .ok (f x)) = .ok y) : ∃ x, A = .ok x ∧ f x = y := by
  cases A <;> simp only [Res.bind, reduceCtorEq, Res.ok.injEq] at h
  exact ⟨_, rfl, h⟩

/-- Complete lines, then a last line whose numbers are cut off. -/
theorem loadCellList2_cut (k : Nat) (part : List Nat) (tail rest : List (VTok R)) (ht : CutNumbers k part tail) :
    ∃ r, tokensOnly r = [] ∧ ∀ (cs : List (List Idx)) (cl : List Cell), cl.length = cs.length + 1 → ∀ i d es (ts us : List (VTok R)),
      skipNl ts = skipNl (cs.flatMap lineTokens ++ .num k :: tail) →
      skipNl us = skipNl ((cs ++ [padded k part]).flatMap lineTokens ++ rest) →
      ∃ A : Res (List Cell × List Edge), loadCellList2 cl i d es ts = (A.bind fun x => .ok (x.1, x.2, r)) ∧
        loadCellList2 cl i d es us = (A.bind fun x => .ok (x.1, x.2, .nl :: rest)) := by
  obtain ⟨r, a, b⟩ := readNums_cut k part tail ht
  refine ⟨r, b, fun cs => ?_⟩
  induction cs with
  | nil =>
    intro cl hl i d es ts us hts hus
    match cl, hl with
    | [c], _ =>
      simp only [loadCellList2]
      rw [readNum_congr hts, readNum_congr hus]
      simp only [List.flatMap_nil, List.nil_append, List.flatMap_cons, lineTokens, List.cons_append, readNum_num, Res.bind,
        List.append_assoc]
      have hm := readNums_map (padded k part) (.nl :: rest)
      rw [padded_length] at hm ⊢
      rw [a, hm]
      simp only
      cases addCellEdges i INVALID none d es (consecutive (padded k part)) with
      | ok s => exact ⟨.ok ([{ index := i, bElem := s.1.getD c.bElem }], s.2.2), rfl, rfl⟩
      | throw e => exact ⟨.throw e, rfl, rfl⟩
      | ub => exact ⟨.ub, rfl, rfl⟩
      | diverge => exact ⟨.diverge, rfl, rfl⟩
  | cons l cs ih =>
    intro cl hl i d es ts us hts hus
    match cl, hl with
    | c :: cl, hl =>
      simp only [loadCellList2]
      rw [readNum_congr hts, readNum_congr hus]
      simp only [List.cons_append, List.flatMap_cons, lineTokens, readNum_num, Res.bind, List.append_assoc]
      rw [readNums_map, readNums_map]
      simp only
      cases addCellEdges i INVALID none d es (consecutive l) with
      | ok s =>
        simp only
        obtain ⟨A, h1, h2⟩ := ih cl (by simpa using hl) (i + 1) s.2.1 s.2.2 (.nl :: (cs.flatMap lineTokens ++ .num k :: tail))
          (.nl :: ((cs ++ [padded k part]).flatMap lineTokens ++ rest)) rfl rfl
        refine ⟨A.bind fun x => .ok ({ index := i, bElem := s.1.getD c.bElem } :: x.1, x.2), ?_, ?_⟩
        · simp only [List.nil_append]
          rw [h1]
          cases A <;> rfl
        · simp only [List.nil_append]
          rw [h2]
          cases A <;> rfl
      | throw e => exact ⟨.throw e, rfl, rfl⟩
      | ub => exact ⟨.ub, rfl, rfl⟩
      | diverge => exact ⟨.diverge, rfl, rfl⟩

theorem loadCellList3_cut (res k : Nat) (part : List Nat) (tail rest : List (VTok R)) (ht : CutNumbers k part tail) :
    ∃ r, tokensOnly r = [] ∧ ∀ (cs : List (List Idx)) (cl : List Cell), cl.length = cs.length + 1 → ∀ i de df es fs (ts us : List (VTok R)),
      skipNl ts = skipNl (cs.flatMap lineTokens ++ .num k :: tail) →
      skipNl us = skipNl ((cs ++ [padded k part]).flatMap lineTokens ++ rest) →
      ∃ A : Res (List Cell × List Edge × List Face), loadCellList3 res cl i de df es fs ts = (A.bind fun x => .ok (x.1, x.2.1, x.2.2, r)) ∧
        loadCellList3 res cl i de df es fs us = (A.bind fun x => .ok (x.1, x.2.1, x.2.2, .nl :: rest)) := by
  obtain ⟨r, a, b⟩ := readNums_cut k part tail ht
  refine ⟨r, b, fun cs => ?_⟩
  induction cs with
  | nil =>
    intro cl hl i de df es fs ts us hts hus
    match cl, hl with
    | [c], _ =>
      simp only [loadCellList3]
      rw [readNum_congr hts, readNum_congr hus]
      simp only [List.flatMap_nil, List.nil_append, List.flatMap_cons, lineTokens, List.cons_append, readNum_num, Res.bind,
        List.append_assoc]
      have hm := readNums_map (padded k part) (.nl :: rest)
      rw [padded_length] at hm ⊢
      rw [a, hm]
      simp only
      cases template k with
      | none => exact ⟨.throw .outOfRange, rfl, rfl⟩
      | some T =>
        simp only
        cases templateEdges (padded k part) de es T.edges with
        | ok s =>
          simp only
          cases addCellFaces res i s.1 INVALID none df fs T.faces with
          | ok u => exact ⟨.ok ([{ index := i, bElem := u.1.getD c.bElem }], s.2.2, u.2.2), rfl, rfl⟩
          | throw e => exact ⟨.throw e, rfl, rfl⟩
          | ub => exact ⟨.ub, rfl, rfl⟩
          | diverge => exact ⟨.diverge, rfl, rfl⟩
        | throw e => exact ⟨.throw e, rfl, rfl⟩
        | ub => exact ⟨.ub, rfl, rfl⟩
        | diverge => exact ⟨.diverge, rfl, rfl⟩
  | cons l cs ih =>
    intro cl hl i de df es fs ts us hts hus
    match cl, hl with
    | c :: cl, hl =>
      simp only [loadCellList3]
      rw [readNum_congr hts, readNum_congr hus]
      simp only [List.cons_append, List.flatMap_cons, lineTokens, readNum_num, Res.bind, List.append_assoc]
      rw [readNums_map, readNums_map]
      simp only
      cases template l.length with
      | none => exact ⟨.throw .outOfRange, rfl, rfl⟩
      | some T =>
        simp only
        cases templateEdges l de es T.edges with
        | ok s =>
          simp only
          cases addCellFaces res i s.1 INVALID none df fs T.faces with
          | ok u =>
            simp only
            obtain ⟨A, h1, h2⟩ := ih cl (by simpa using hl) (i + 1) s.2.1 u.2.1 s.2.2 u.2.2
              (.nl :: (cs.flatMap lineTokens ++ .num k :: tail))
              (.nl :: ((cs ++ [padded k part]).flatMap lineTokens ++ rest)) rfl rfl
            refine ⟨A.bind fun x => .ok ({ index := i, bElem := u.1.getD c.bElem } :: x.1, x.2), ?_, ?_⟩
            · simp only [List.nil_append]
              rw [h1]
              cases A <;> rfl
            · simp only [List.nil_append]
              rw [h2]
              cases A <;> rfl
          | throw e => exact ⟨.throw e, rfl, rfl⟩
          | ub => exact ⟨.ub, rfl, rfl⟩
          | diverge => exact ⟨.diverge, rfl, rfl⟩
        | throw e => exact ⟨.throw e, rfl, rfl⟩
        | ub => exact ⟨.ub, rfl, rfl⟩
        | diverge => exact ⟨.diverge, rfl, rfl⟩

theorem resize_length {α : Type} (l : List α) (n : Nat) (x : α) : (resize l n x).length = n := by
  simp [resize]; omega

/-- C57, VTK, is violated: a text that ends among the vertices of its last cell, or has a word in the place of a vertex there, is read by both readers exactly as the text in which
the missing vertices are 0 (and which ends after the cells), so that the cell gets wrong vertices. The cell types of the reader stay
those of the previous file. -/
theorem C57_vtk_cells_violated [Zero R] (l1 l2 : List (VTok R)) (h1 : IsLine l1) (h2 : IsLine l2) (precision : String)
    (verts : List (R × R × R)) (total : Nat) (cs : List (List Idx)) (k : Nat) (part : List Idx) (tail : List (VTok R))
    (ht : CutNumbers k part tail) (types : List Nat) (res : Nat) (m : Mesh (Point2 R)) (m' : Mesh (Point3 R)) :
    load2 (pointsTokens l1 l2 precision verts (.num (cs.length + 1) :: .num total :: .nl :: (cs.flatMap lineTokens ++ .num k :: tail))) types m =
      load2 (pointsTokens l1 l2 precision verts (.num (cs.length + 1) :: .num total :: .nl ::
        ((cs ++ [padded k part]).flatMap lineTokens))) types m ∧
    load3 res (pointsTokens l1 l2 precision verts (.num (cs.length + 1) :: .num total :: .nl :: (cs.flatMap lineTokens ++ .num k :: tail))) types m' =
      load3 res (pointsTokens l1 l2 precision verts (.num (cs.length + 1) :: .num total :: .nl ::
        ((cs ++ [padded k part]).flatMap lineTokens))) types m' := by
  constructor
  · obtain ⟨r, hr, h⟩ := loadCellList2_cut k part tail [] ht
    rw [load2, load2, loadFromStream_points _ _ _ _ _ _ _ _ h1 h2, loadFromStream_points _ _ _ _ _ _ _ _ h1 h2]
    simp only [loadCells2, readNum_num, Res.bind, ignoreLine]
    obtain ⟨A, a1, a2⟩ := h cs (resize (Mesh.clear m).cells (cs.length + 1) {}) (resize_length _ _ _) 0 [] (Mesh.clear m).edges
      (cs.flatMap lineTokens ++ .num k :: tail) ((cs ++ [padded k part]).flatMap lineTokens) rfl (by rw [List.append_nil])
    rw [a1, a2]
    cases A with
    | ok x => simp only [Res.bind]; rw [fromTypes_end _ _ _ hr, fromTypes_end _ _ _ (by rfl)]
    | _ => rfl
  · obtain ⟨r, hr, h⟩ := loadCellList3_cut res k part tail [] ht
    rw [load3, load3, loadFromStream_points _ _ _ _ _ _ _ _ h1 h2, loadFromStream_points _ _ _ _ _ _ _ _ h1 h2]
    simp only [loadCells3, readNum_num, Res.bind, ignoreLine]
    obtain ⟨A, a1, a2⟩ := h cs (resize (Mesh.clear m').cells (cs.length + 1) {}) (resize_length _ _ _) 0 [] [] (Mesh.clear m').edges
      ((Mesh.clear m').midElems 2) (cs.flatMap lineTokens ++ .num k :: tail) ((cs ++ [padded k part]).flatMap lineTokens) rfl
      (by rw [List.append_nil])
    have hmid : Mesh.midElems { Mesh.clear m' with vertices := verts.map id } 2 = (Mesh.clear m').midElems 2 := rfl
    rw [hmid, a1, a2]
    cases A with
    | ok x => simp only [Res.bind]; rw [fromTypes_end _ _ _ hr, fromTypes_end _ _ _ (by rfl)]
    | _ => rfl

/-- Two triangles, the text ends before the last vertex of the second one, which becomes 0: it is read without an error. -/
example : ∃ m t, load2 (pointsTokens [.word "#"] [.word "t"] "double" [(0, 0, 0), (1, 0, 0), (0, 1, 0), (1, 1, 0)]
    [.num 2, .num 8, .nl, .num 3, .num 0, .num 1, .num 2, .nl, .num 3, .num 3, .num 2] : List (VTok Int)) [] { dim := 2 } = .ok (m, t) ∧
    m.edges.map (fun e => (e.a, e.b)) = [(0, 1), (1, 2), (2, 0), (3, 2), (0, 3)] ∧ t = [] := by
  have h := (C57_vtk_cells_violated [.word "#"] [.word "t"] (by simp [IsLine]) (by simp [IsLine]) "double"
    [(0, 0, 0), (1, 0, 0), (0, 1, 0), (1, 1, 0)] 8 [[0, 1, 2]] 3 [3, 2] [.num 3, .num 2] (.inl ⟨rfl, by decide⟩) [] 0
    ({ dim := 2 } : Mesh (Point2 Int)) { dim := 3 }).1
  exact ⟨_, _, h.trans rfl, by decide, rfl⟩

/-! ## Cut among the cell types -/

theorem loadCellList2_lines (rest rest' : List (VTok R)) : ∀ (cs : List (List Idx)) (cl : List Cell), cl.length = cs.length →
    ∀ i d es (ts us : List (VTok R)), skipNl ts = skipNl (cs.flatMap lineTokens ++ rest) → skipNl us = skipNl (cs.flatMap lineTokens ++ rest') →
      ∃ (A : Res (List Cell × List Edge)) (r r' : List (VTok R)), skipNl r = skipNl rest ∧ skipNl r' = skipNl rest' ∧
        loadCellList2 cl i d es ts = (A.bind fun x => .ok (x.1, x.2, r)) ∧
        loadCellList2 cl i d es us = (A.bind fun x => .ok (x.1, x.2, r')) := by
  intro cs
  induction cs with
  | nil =>
    intro cl hl i d es ts us hts hus
    obtain rfl := List.length_eq_zero_iff.mp (by simpa using hl : cl.length = 0)
    exact ⟨.ok ([], es), ts, us, by simpa using hts, by simpa using hus, rfl, rfl⟩
  | cons l cs ih =>
    intro cl hl i d es ts us hts hus
    match cl, hl with
    | c :: cl, hl =>
      simp only [loadCellList2]
      rw [readNum_congr hts, readNum_congr hus]
      simp only [List.cons_append, List.flatMap_cons, lineTokens, readNum_num, Res.bind, List.append_assoc]
      rw [readNums_map, readNums_map]
      simp only
      cases addCellEdges i INVALID none d es (consecutive l) with
      | ok s =>
        simp only
        obtain ⟨A, r, r', e, e', h1, h2⟩ := ih cl (by simpa using hl) (i + 1) s.2.1 s.2.2 (.nl :: (cs.flatMap lineTokens ++ rest))
          (.nl :: (cs.flatMap lineTokens ++ rest')) rfl rfl
        refine ⟨A.bind fun x => .ok ({ index := i, bElem := s.1.getD c.bElem } :: x.1, x.2), r, r', e, e', ?_, ?_⟩
        · simp only [List.nil_append]
          rw [h1]
          cases A <;> rfl
        · simp only [List.nil_append]
          rw [h2]
          cases A <;> rfl
      | throw e => exact ⟨.throw e, rest, rest', rfl, rfl, rfl, rfl⟩
      | ub => exact ⟨.ub, rest, rest', rfl, rfl, rfl, rfl⟩
      | diverge => exact ⟨.diverge, rest, rest', rfl, rfl, rfl, rfl⟩

theorem loadCellList3_lines (res : Nat) (rest rest' : List (VTok R)) : ∀ (cs : List (List Idx)) (cl : List Cell), cl.length = cs.length →
    ∀ i de df es fs (ts us : List (VTok R)), skipNl ts = skipNl (cs.flatMap lineTokens ++ rest) → skipNl us = skipNl (cs.flatMap lineTokens ++ rest') →
      ∃ (A : Res (List Cell × List Edge × List Face)) (r r' : List (VTok R)), skipNl r = skipNl rest ∧ skipNl r' = skipNl rest' ∧
        loadCellList3 res cl i de df es fs ts = (A.bind fun x => .ok (x.1, x.2.1, x.2.2, r)) ∧
        loadCellList3 res cl i de df es fs us = (A.bind fun x => .ok (x.1, x.2.1, x.2.2, r')) := by
  intro cs
  induction cs with
  | nil =>
    intro cl hl i de df es fs ts us hts hus
    obtain rfl := List.length_eq_zero_iff.mp (by simpa using hl : cl.length = 0)
    exact ⟨.ok ([], es, fs), ts, us, by simpa using hts, by simpa using hus, rfl, rfl⟩
  | cons l cs ih =>
    intro cl hl i de df es fs ts us hts hus
    match cl, hl with
    | c :: cl, hl =>
      simp only [loadCellList3]
      rw [readNum_congr hts, readNum_congr hus]
      simp only [List.cons_append, List.flatMap_cons, lineTokens, readNum_num, Res.bind, List.append_assoc]
      rw [readNums_map, readNums_map]
      simp only
      cases template l.length with
      | none => exact ⟨.throw .outOfRange, rest, rest', rfl, rfl, rfl, rfl⟩
      | some T =>
        simp only
        cases templateEdges l de es T.edges with
        | ok s =>
          simp only
          cases addCellFaces res i s.1 INVALID none df fs T.faces with
          | ok u =>
            simp only
            obtain ⟨A, r, r', e, e', h1, h2⟩ := ih cl (by simpa using hl) (i + 1) s.2.1 u.2.1 s.2.2 u.2.2
              (.nl :: (cs.flatMap lineTokens ++ rest)) (.nl :: (cs.flatMap lineTokens ++ rest')) rfl rfl
            refine ⟨A.bind fun x => .ok ({ index := i, bElem := u.1.getD c.bElem } :: x.1, x.2), r, r', e, e', ?_, ?_⟩
            · simp only [List.nil_append]
              rw [h1]
              cases A <;> rfl
            · simp only [List.nil_append]
              rw [h2]
              cases A <;> rfl
          | throw e => exact ⟨.throw e, rest, rest', rfl, rfl, rfl, rfl⟩
          | ub => exact ⟨.ub, rest, rest', rfl, rfl, rfl, rfl⟩
          | diverge => exact ⟨.diverge, rest, rest', rfl, rfl, rfl, rfl⟩
        | throw e => exact ⟨.throw e, rest, rest', rfl, rfl, rfl, rfl⟩
        | ub => exact ⟨.ub, rest, rest', rfl, rfl, rfl, rfl⟩
        | diverge => exact ⟨.diverge, rest, rest', rfl, rfl, rfl, rfl⟩

/-- The text with complete cells, up to and including the keyword of the cell types. -/
def cellsTokens (l1 l2 : List (VTok R)) (precision : String) (verts : List (R × R × R)) (total : Nat) (cs : List (List Idx))
    (ts : List (VTok R)) : List (VTok R) :=
  pointsTokens l1 l2 precision verts (.num cs.length :: .num total :: .nl :: (cs.flatMap lineTokens ++ .nl :: .word "CELL_TYPES" :: ts))

theorem fromTypes_types (conv : Nat → Option Nat) (types : List Nat) (r ts : List (VTok R)) (h : skipNl r = skipNl (.nl :: .word "CELL_TYPES" :: ts))
    (m : Mesh V) : fromTypes conv types r m = (loadCellTypes conv m.cells.length types ts).bind fun t => .ok (m, t.1) := by
  unfold fromTypes
  rw [readWord_congr h]
  have : readWord "CELLS" (.nl :: .word "CELL_TYPES" :: ts) = ("CELL_TYPES", ts) := rfl
  rw [this]
  simp

/-- Two texts that differ only in what follows the keyword of the cell types. -/
theorem load_types [Zero R] (l1 l2 : List (VTok R)) (h1 : IsLine l1) (h2 : IsLine l2) (precision : String)
    (verts : List (R × R × R)) (total : Nat) (cs : List (List Idx)) (ts us : List (VTok R)) (types : List Nat) (res : Nat)
    (m : Mesh (Point2 R)) (m' : Mesh (Point3 R)) :
    (∃ A : Res (Mesh (Point2 R)),
      load2 (cellsTokens l1 l2 precision verts total cs ts) types m =
        (A.bind fun x => (loadCellTypes fromVtk2 x.cells.length types ts).bind fun t => .ok (x, t.1)) ∧
      load2 (cellsTokens l1 l2 precision verts total cs us) types m =
        (A.bind fun x => (loadCellTypes fromVtk2 x.cells.length types us).bind fun t => .ok (x, t.1))) ∧
    (∃ A : Res (Mesh (Point3 R)),
      load3 res (cellsTokens l1 l2 precision verts total cs ts) types m' =
        (A.bind fun x => (loadCellTypes fromVtk3 x.cells.length types ts).bind fun t => .ok (x, t.1)) ∧
      load3 res (cellsTokens l1 l2 precision verts total cs us) types m' =
        (A.bind fun x => (loadCellTypes fromVtk3 x.cells.length types us).bind fun t => .ok (x, t.1))) := by
  constructor
  · obtain ⟨A, r, r', e, e', a1, a2⟩ := loadCellList2_lines (.nl :: .word "CELL_TYPES" :: ts) (.nl :: .word "CELL_TYPES" :: us) cs
      (resize (Mesh.clear m).cells cs.length {}) (resize_length _ _ _) 0 [] (Mesh.clear m).edges _ _ rfl rfl
    refine ⟨A.bind fun x => .ok { m.clear with vertices := verts.map (fun p => (p.1, p.2.1)), cells := x.1, edges := x.2 }, ?_, ?_⟩
    · rw [load2, cellsTokens, loadFromStream_points _ _ _ _ _ _ _ _ h1 h2]
      simp only [loadCells2, readNum_num, Res.bind, ignoreLine]
      rw [a1]
      cases A with
      | ok x => simp only [Res.bind]; rw [fromTypes_types _ _ _ _ e]; rfl
      | _ => rfl
    · rw [load2, cellsTokens, loadFromStream_points _ _ _ _ _ _ _ _ h1 h2]
      simp only [loadCells2, readNum_num, Res.bind, ignoreLine]
      rw [a2]
      cases A with
      | ok x => simp only [Res.bind]; rw [fromTypes_types _ _ _ _ e']; rfl
      | _ => rfl
  · obtain ⟨A, r, r', e, e', a1, a2⟩ := loadCellList3_lines res (.nl :: .word "CELL_TYPES" :: ts) (.nl :: .word "CELL_TYPES" :: us) cs
      (resize (Mesh.clear m').cells cs.length {}) (resize_length _ _ _) 0 [] [] (Mesh.clear m').edges ((Mesh.clear m').midElems 2) _ _ rfl rfl
    have hmid : Mesh.midElems { Mesh.clear m' with vertices := verts.map id } 2 = (Mesh.clear m').midElems 2 := rfl
    refine ⟨A.bind fun x => .ok { m'.clear with vertices := verts.map id, cells := x.1, edges := x.2.1, mids := [x.2.2] }, ?_, ?_⟩
    · rw [load3, cellsTokens, loadFromStream_points _ _ _ _ _ _ _ _ h1 h2]
      simp only [loadCells3, readNum_num, Res.bind, ignoreLine]
      rw [hmid, a1]
      cases A with
      | ok x => simp only [Res.bind]; rw [fromTypes_types _ _ _ _ e]; rfl
      | _ => rfl
    · rw [load3, cellsTokens, loadFromStream_points _ _ _ _ _ _ _ _ h1 h2]
      simp only [loadCells3, readNum_num, Res.bind, ignoreLine]
      rw [hmid, a2]
      cases A with
      | ok x => simp only [Res.bind]; rw [fromTypes_types _ _ _ _ e']; rfl
      | _ => rfl

/-- C57, VTK, is violated: a text that ends among the codes of the cell types is read by both readers exactly as the text in which the
missing codes are 0. No cell type has the code 0, so that the types of the remaining cells are those of the previous file. -/
theorem C57_vtk_types_violated [Zero R] (l1 l2 : List (VTok R)) (h1 : IsLine l1) (h2 : IsLine l2) (precision : String)
    (verts : List (R × R × R)) (total : Nat) (cs : List (List Idx)) (n : Nat) (codes : List Nat) (body : List (VTok R))
    (hb : AreNumbers codes body) (types : List Nat) (res : Nat) (m : Mesh (Point2 R)) (m' : Mesh (Point3 R)) :
    load2 (cellsTokens l1 l2 precision verts total cs (.num n :: body)) types m =
      load2 (cellsTokens l1 l2 precision verts total cs (.num n :: (padded n codes).map .num)) types m ∧
    load3 res (cellsTokens l1 l2 precision verts total cs (.num n :: body)) types m' =
      load3 res (cellsTokens l1 l2 precision verts total cs (.num n :: (padded n codes).map .num)) types m' ∧
    fromVtk2 0 = none ∧ fromVtk3 0 = none := by
  obtain ⟨r, a, -⟩ := readNums_numbers n codes body hb
  have hm := readNums_map (R := R) (padded n codes) []
  rw [padded_length, List.append_nil] at hm
  have key : ∀ conv k, ∃ t r r', loadCellTypes conv k types (.num n :: body) = (Res.bind t fun x => .ok (x, r)) ∧
      loadCellTypes conv k types (.num n :: (padded n codes).map (VTok.num (R := R))) = (Res.bind t fun x => .ok (x, r')) := by
    intro conv k
    refine ⟨storeTypes conv 0 (padded n codes) (resize types k 0), r, [], ?_, ?_⟩
    · simp only [loadCellTypes, readNum_num, Res.bind, a]
    · simp only [loadCellTypes, readNum_num, Res.bind, hm]
  obtain ⟨⟨A, e1, e2⟩, ⟨B, e3, e4⟩⟩ := load_types l1 l2 h1 h2 precision verts total cs (.num n :: body)
    (.num n :: (padded n codes).map .num) types res m m'
  refine ⟨?_, ?_, rfl, rfl⟩
  · rw [e1, e2]
    cases A with
    | ok x =>
      obtain ⟨t, r, r', k1, k2⟩ := key fromVtk2 x.cells.length
      simp only [Res.bind]
      rw [k1, k2]
      cases t <;> rfl
    | _ => rfl
  · rw [e3, e4]
    cases B with
    | ok x =>
      obtain ⟨t, r, r', k1, k2⟩ := key fromVtk3 x.cells.length
      simp only [Res.bind]
      rw [k1, k2]
      cases t <;> rfl
    | _ => rfl

/-- Two triangles, the text ends after the first code; the second cell keeps the type from the previous file. -/
example : ∃ m, load2 (cellsTokens [.word "#"] [.word "t"] "double" [(0, 0, 0), (1, 0, 0), (0, 1, 0), (1, 1, 0)] 8 [[0, 1, 2], [3, 2, 1]]
    [.num 2, .nl, .num 5] : List (VTok Int)) [201, 201, 201] { dim := 2 } = .ok (m, [200, 201]) := by
  have h := (C57_vtk_types_violated [.word "#"] [.word "t"] (by simp [IsLine]) (by simp [IsLine]) "double"
    [(0, 0, 0), (1, 0, 0), (0, 1, 0), (1, 1, 0)] 8 [[0, 1, 2], [3, 2, 1]] 2 [5] [.nl, .num 5] rfl [201, 201, 201] 0
    ({ dim := 2 } : Mesh (Point2 Int)) { dim := 3 }).1
  exact ⟨_, h.trans rfl⟩

/-! ## Cut in front of a number of elements -/

theorem readNum_end (ts : List (VTok R)) (h : tokensOnly ts = []) : readNum ts = .ub := by
  unfold readNum readNumInto
  rw [(skipNl_tokens ts).1 h]

/-- C57, VTK, is violated: a text that ends after the keyword of the points or of the cells is not refused, the number of points or
cells, which is missing, is used without having been set. -/
theorem C57_vtk_counts_violated [Zero R] (l1 l2 : List (VTok R)) (h1 : IsLine l1) (h2 : IsLine l2) (precision : String)
    (verts : List (R × R × R)) (ts : List (VTok R)) (ht : tokensOnly ts = []) (types : List Nat) (res : Nat) (m : Mesh (Point2 R))
    (m' : Mesh (Point3 R)) :
    load2 (introTokens l1 l2 ts) types m = .ub ∧ load3 res (introTokens l1 l2 ts) types m' = .ub ∧
    load2 (pointsTokens l1 l2 precision verts ts) types m = .ub ∧ load3 res (pointsTokens l1 l2 precision verts ts) types m' = .ub := by
  refine ⟨?_, ?_, ?_, ?_⟩
  · rw [load2, loadFromStream_intro _ _ _ _ _ _ _ _ h1 h2]
    simp only [loadVertices, readNum_end _ ht, Res.bind]
  · rw [load3, loadFromStream_intro _ _ _ _ _ _ _ _ h1 h2]
    simp only [loadVertices, readNum_end _ ht, Res.bind]
  · rw [load2, loadFromStream_points _ _ _ _ _ _ _ _ h1 h2]
    simp only [loadCells2, readNum_end _ ht, Res.bind]
  · rw [load3, loadFromStream_points _ _ _ _ _ _ _ _ h1 h2]
    simp only [loadCells3, readNum_end _ ht, Res.bind]

example : load3 0 (introTokens [.word "#"] [.word "t"] [.nl] : List (VTok Int)) [] { dim := 3 } = .ub :=
  (C57_vtk_counts_violated [.word "#"] [.word "t"] (by simp [IsLine]) (by simp [IsLine]) "double" [] [.nl] rfl [] 0 { dim := 2 } { dim := 3 }).2.1

/-! ## Nothing but the keywords is checked in 2D -/

/-- The entries of a dictionary are indices of a list of length `n`. -/
def InRange (d : Dict) (n : Nat) : Prop := ∀ k i, d.find k = some i → i < n

theorem InRange.put {d : Dict} {n : Nat} (h : InRange d n) (k : List Char) {i n' : Nat} (hi : i < n') (hn : n ≤ n') : InRange (d.put k i) n' := by
  intro k' i' h'
  simp only [Dict.find, Dict.put, List.lookup_cons] at h'
  split at h'
  · simp only [Option.some.injEq] at h'; omega
  · exact Nat.lt_of_lt_of_le (h _ _ h') hn

theorem findOrAddEdge_range (d : Dict) (es : List Edge) (iA iB : Idx) (h : InRange d es.length) :
    (findOrAddEdge d es iA iB).2.2.1 < (findOrAddEdge d es iA iB).2.1.length ∧
    InRange (findOrAddEdge d es iA iB).1 (findOrAddEdge d es iA iB).2.1.length ∧ es.length ≤ (findOrAddEdge d es iA iB).2.1.length := by
  unfold findOrAddEdge
  split
  · exact ⟨by simp, h.put _ (by simp) (by simp), by simp⟩
  · rename_i i hi
    exact ⟨h _ _ hi, h, Nat.le_refl _⟩

theorem modifyAt_ok {α : Type} (l : List α) (i : Nat) (f : α → α) (h : i < l.length) : ∃ l', modifyAt l i f = .ok l' ∧ l'.length = l.length := by
  refine ⟨l.set i (f l[i]), ?_, by simp⟩
  unfold modifyAt
  rw [show Res.at' l i = .ok l[i] from Res.at'_eq_ok.mpr (by simp [h])]
  rfl

theorem linkFacet_ok {α : Type} (wc : (Conn → Conn) → α → α) (cell prev first e : Idx) (isNew isLast : Bool) (fs : List α)
    (he : e < fs.length) (hp : prev = INVALID ∨ prev < fs.length) :
    ∃ fs', linkFacet wc cell prev first e isNew isLast fs = .ok fs' ∧ fs'.length = fs.length := by
  unfold linkFacet
  obtain ⟨l1, a1, b1⟩ := modifyAt_ok fs e (wc fun c => if isNew then c.setCellLeftIndex cell else c.setCellRightIndex cell) he
  rw [a1]
  simp only [Res.bind]
  have h2 : ∃ l2, (if prev ≠ INVALID then modifyAt l1 prev (wc fun c => (c.setNextBElem e cell).1) else .ok l1) = .ok l2 ∧ l2.length = l1.length := by
    split
    · exact modifyAt_ok _ _ _ (by rcases hp with h | h <;> [contradiction; omega])
    · exact ⟨l1, rfl, rfl⟩
  obtain ⟨l2, a2, b2⟩ := h2
  rw [a2]
  simp only
  split
  · obtain ⟨l3, a3, b3⟩ := modifyAt_ok l2 e (wc fun c => (c.setNextBElem first cell).1) (by omega)
    exact ⟨l3, a3, by omega⟩
  · exact ⟨l2, rfl, by omega⟩

theorem addCellEdges_ok (cell : Idx) : ∀ (ps : List (Idx × Idx)) (prev : Idx) (first : Option Idx) (d : Dict) (es : List Edge),
    InRange d es.length → (prev = INVALID ∨ prev < es.length) →
    ∃ r, addCellEdges cell prev first d es ps = .ok r ∧ InRange r.2.1 r.2.2.length := by
  intro ps
  induction ps with
  | nil => intro prev first d es hd _; exact ⟨_, rfl, hd⟩
  | cons p ps ih =>
    intro prev first d es hd hp
    obtain ⟨iA, iB⟩ := p
    obtain ⟨g1, g2, g3⟩ := findOrAddEdge_range d es iA iB hd
    simp only [addCellEdges]
    obtain ⟨es', a, b⟩ := linkFacet_ok edgeConn cell prev (first.getD (findOrAddEdge d es iA iB).2.2.1) _
      (findOrAddEdge d es iA iB).2.2.2 (decide (ps = [])) _ g1 (by rcases hp with h | h <;> [exact .inl h; exact .inr (by omega)])
    rw [a]
    simp only [Res.bind]
    exact ih _ _ _ _ (by rw [b]; exact g2) (.inr (by omega))

theorem readNumInto_safe (prev : Option Nat) (ts : List (VTok R)) (e : Exc) : readNumInto prev ts ≠ .throw e := by
  unfold readNumInto
  split <;> (try split) <;> simp

theorem readNums_safe (e : Exc) : ∀ (n : Nat) (ts : List (VTok R)), readNums n ts ≠ .throw e := by
  intro n
  induction n with
  | zero => intro ts; simp [readNums]
  | succ n ih =>
    intro ts h
    simp only [readNums] at h
    cases h1 : readNumInto (some 0) ts <;> rw [h1] at h <;> simp only [Res.bind, reduceCtorEq] at h
    · rename_i p
      cases h2 : readNums n p.2 <;> rw [h2] at h <;> simp only [reduceCtorEq] at h
      exact ih _ (h2.trans (by rw [h]))
    · exact readNumInto_safe _ _ _ h1

theorem readReal_safe [Zero R] (ts : List (VTok R)) (e : Exc) : readReal ts ≠ .throw e := by
  unfold readReal
  split <;> simp

theorem readPoints_safe [Zero R] (e : Exc) : ∀ (n : Nat) (ts : List (VTok R)), readPoints n ts ≠ .throw e := by
  intro n
  induction n with
  | zero => intro ts; simp [readPoints]
  | succ n ih =>
    intro ts h
    simp only [readPoints] at h
    cases h1 : readReal ts <;> rw [h1] at h <;> simp only [Res.bind, reduceCtorEq] at h
    · rename_i x
      cases h2 : readReal x.2 <;> rw [h2] at h <;> simp only [reduceCtorEq] at h
      · rename_i y
        cases h3 : readReal y.2 <;> rw [h3] at h <;> simp only [reduceCtorEq] at h
        · rename_i z
          cases h4 : readPoints n z.2 <;> rw [h4] at h <;> simp only [reduceCtorEq] at h
          exact ih _ (h4.trans (by rw [h]))
        · exact readReal_safe _ _ h3
      · exact readReal_safe _ _ h2
    · exact readReal_safe _ _ h1

theorem loadCellList2_safe (e : Exc) : ∀ (cl : List Cell) (i : Nat) (d : Dict) (es : List Edge) (ts : List (VTok R)), InRange d es.length →
    loadCellList2 cl i d es ts ≠ .throw e := by
  intro cl
  induction cl with
  | nil => intro i d es ts _; simp [loadCellList2]
  | cons c cl ih =>
    intro i d es ts hd h
    simp only [loadCellList2] at h
    cases h1 : readNum ts <;> rw [h1] at h <;> simp only [Res.bind, reduceCtorEq] at h
    · rename_i p
      cases h2 : readNums p.1 p.2 <;> rw [h2] at h <;> simp only [reduceCtorEq] at h
      · rename_i q
        obtain ⟨r, a, b⟩ := addCellEdges_ok i (consecutive q.1) INVALID none d es hd (.inl rfl)
        rw [a] at h
        simp only at h
        cases h4 : loadCellList2 cl (i + 1) r.2.1 r.2.2 q.2 <;> rw [h4] at h <;> simp only [reduceCtorEq] at h
        exact ih _ _ _ _ b (h4.trans (by rw [h]))
      · exact readNums_safe _ _ _ h2
    · exact readNumInto_safe _ _ _ h1

/-! What is left of the text is a part of the text. -/

theorem skipNl_sub : ∀ (ts : List (VTok R)), skipNl ts ⊆ ts
  | [] => by simp [skipNl]
  | .nl :: ts => List.subset_cons_of_subset _ (skipNl_sub ts)
  | .word _ :: _ => List.Subset.refl _
  | .num _ :: _ => List.Subset.refl _
  | .real _ :: _ => List.Subset.refl _

theorem ignoreLine_sub : ∀ (ts : List (VTok R)), ignoreLine ts ⊆ ts
  | [] => by simp [ignoreLine]
  | .nl :: ts => by simp [ignoreLine]
  | .word _ :: ts => List.subset_cons_of_subset _ (ignoreLine_sub ts)
  | .num _ :: ts => List.subset_cons_of_subset _ (ignoreLine_sub ts)
  | .real _ :: ts => List.subset_cons_of_subset _ (ignoreLine_sub ts)

theorem readNumInto_sub (prev : Option Nat) (ts : List (VTok R)) {x : Nat × List (VTok R)} (h : readNumInto prev ts = .ok x) : x.2 ⊆ ts := by
  have hs := skipNl_sub ts
  unfold readNumInto at h
  split at h <;> (try split at h) <;> simp only [Res.ok.injEq, reduceCtorEq] at h <;> subst h <;> try simp
  all_goals (rename_i he; rw [he] at hs; exact fun y hy => hs (by simp [hy]))

theorem readReal_sub [Zero R] (ts : List (VTok R)) {x : R × List (VTok R)} (h : readReal ts = .ok x) : x.2 ⊆ ts := by
  have hs := skipNl_sub ts
  unfold readReal at h
  split at h <;> simp only [Res.ok.injEq, reduceCtorEq] at h <;> subst h <;> try simp
  all_goals (rename_i he; rw [he] at hs; exact fun y hy => hs (by simp [hy]))

theorem bind_eq_ok' {α β : Type} {A : Res α} {f : α → Res β} {y : β} (h : A.bind f = .ok y) : ∃ x, A = .ok x ∧ f x = .ok y := by
  cases A <;> simp only [Res.bind, reduceCtorEq] at h
  exact ⟨_, rfl, h⟩

theorem readNums_sub : ∀ (n : Nat) (ts : List (VTok R)) {x : List Nat × List (VTok R)}, readNums n ts = .ok x → x.2 ⊆ ts := by
  intro n
  induction n with
  | zero => intro ts x h; simp only [readNums, Res.ok.injEq] at h; subst h; exact List.Subset.refl _
  | succ n ih =>
    intro ts x h
    simp only [readNums] at h
    obtain ⟨p, hp, h⟩ := bind_eq_ok' h
    obtain ⟨q, hq, h⟩ := bind_eq_ok' h
    simp only [Res.ok.injEq] at h
    subst h
    exact List.Subset.trans (ih _ (x := q) hq) (readNumInto_sub _ _ hp)

theorem readPoints_sub [Zero R] : ∀ (n : Nat) (ts : List (VTok R)) {x : List (R × R × R) × List (VTok R)}, readPoints n ts = .ok x → x.2 ⊆ ts := by
  intro n
  induction n with
  | zero => intro ts x h; simp only [readPoints, Res.ok.injEq] at h; subst h; exact List.Subset.refl _
  | succ n ih =>
    intro ts x h
    simp only [readPoints] at h
    obtain ⟨p, hp, h⟩ := bind_eq_ok' h
    obtain ⟨p', hp', h⟩ := bind_eq_ok' h
    obtain ⟨p'', hp'', h⟩ := bind_eq_ok' h
    obtain ⟨q, hq, h⟩ := bind_eq_ok' h
    simp only [Res.ok.injEq] at h
    subst h
    exact List.Subset.trans (ih _ (x := q) hq) (List.Subset.trans (readReal_sub _ hp'') (List.Subset.trans (readReal_sub _ hp') (readReal_sub _ hp)))

theorem loadCellList2_sub : ∀ (cl : List Cell) (i : Nat) (d : Dict) (es : List Edge) (ts : List (VTok R)) {x : List Cell × List Edge × List (VTok R)},
    loadCellList2 cl i d es ts = .ok x → x.2.2 ⊆ ts := by
  intro cl
  induction cl with
  | nil => intro i d es ts x h; simp only [loadCellList2, Res.ok.injEq] at h; subst h; exact List.Subset.refl _
  | cons c cl ih =>
    intro i d es ts x h
    simp only [loadCellList2] at h
    obtain ⟨p, hp, h⟩ := bind_eq_ok' h
    obtain ⟨p', hp', h⟩ := bind_eq_ok' h
    obtain ⟨p'', hp'', h⟩ := bind_eq_ok' h
    obtain ⟨q, hq, h⟩ := bind_eq_ok' h
    simp only [Res.ok.injEq] at h
    subst h
    exact List.Subset.trans (ih _ _ _ _ (x := q) hq) (List.Subset.trans (readNums_sub _ _ hp') (readNumInto_sub _ _ hp))

theorem loadVertices_safe [Zero R] (proj : R × R × R → V) (ts : List (VTok R)) (m : Mesh V) :
    (∀ e, loadVertices proj ts m ≠ .throw e) ∧ ∀ x, loadVertices proj ts m = .ok x → x.2 ⊆ ts ∧ x.1.edges = m.edges := by
  unfold loadVertices
  refine ⟨fun e h => ?_, fun x h => ?_⟩
  · cases h1 : readNum ts <;> rw [h1] at h <;> simp only [Res.bind, reduceCtorEq] at h
    · rename_i p
      cases h2 : readPoints p.1 (ignoreLine p.2) <;> rw [h2] at h <;> simp only [reduceCtorEq] at h
      exact readPoints_safe _ _ _ h2
    · exact readNumInto_safe _ _ _ h1
  · obtain ⟨p, hp, h⟩ := bind_eq_ok' h
    obtain ⟨p', hp', h⟩ := bind_eq_ok' h
    simp only [Res.ok.injEq] at h
    subst h
    exact ⟨List.Subset.trans (readPoints_sub _ _ hp') (List.Subset.trans (ignoreLine_sub _) (readNumInto_sub _ _ hp)), rfl⟩

theorem loadCells2_safe (ts : List (VTok R)) (m : Mesh V) :
    (∀ e, loadCells2 ts m ≠ .throw e) ∧ ∀ x, loadCells2 ts m = .ok x → x.2 ⊆ ts := by
  unfold loadCells2
  refine ⟨fun e h => ?_, fun x h => ?_⟩
  · cases h1 : readNum ts <;> rw [h1] at h <;> simp only [Res.bind, reduceCtorEq] at h
    · rename_i p
      cases h2 : loadCellList2 (resize m.cells p.1 {}) 0 [] m.edges (ignoreLine p.2) <;> rw [h2] at h <;> simp only [reduceCtorEq] at h
      exact loadCellList2_safe _ _ _ _ _ _ (by intro k i hk; simp [Dict.find] at hk) h2
    · exact readNumInto_safe _ _ _ h1
  · obtain ⟨p, hp, h⟩ := bind_eq_ok' h
    obtain ⟨p', hp', h⟩ := bind_eq_ok' h
    simp only [Res.ok.injEq] at h
    subst h
    exact List.Subset.trans (loadCellList2_sub _ _ _ _ _ hp') (List.Subset.trans (ignoreLine_sub _) (readNumInto_sub _ _ hp))

/-- C57, VTK, is violated: once the first two lines and the three keywords are there, the 2D reader refuses no text that has no section
of cell types (a text cut off in front of it, for instance), whatever the rest of the text is. -/
theorem C57_vtk2_accepts_violated [Zero R] (l1 l2 ts : List (VTok R)) (h1 : IsLine l1) (h2 : IsLine l2)
    (hk : (tokensOnly ts).take 3 = keywords)
    (hw : VTok.word "CELL_TYPES" ∉ ts) (types : List Nat) (m : Mesh (Point2 R)) (e : Exc) :
    load2 (l1 ++ .nl :: (l2 ++ .nl :: ts)) types m ≠ .throw e := by
  have hword : ∀ (p : String) (us : List (VTok R)), VTok.word "CELL_TYPES" ∉ us → p ≠ "CELL_TYPES" →
      (readWord p us).1 ≠ "CELL_TYPES" ∧ VTok.word "CELL_TYPES" ∉ (readWord p us).2 := by
    intro p us
    induction us with
    | nil => intro _ hp; exact ⟨hp, by simp [readWord, skipNl]⟩
    | cons u us ih =>
      intro hu hp
      have hu' : VTok.word "CELL_TYPES" ∉ us := fun x => hu (by simp [x])
      cases u with
      | nl => exact ih hu' hp
      | word s => exact ⟨fun x => hu (by simp only [readWord, skipNl] at x; simp [x]), hu'⟩
      | num n => exact ⟨by simp [readWord, skipNl], hu'⟩
      | real x => exact ⟨by simp [readWord, skipNl], hu'⟩
  obtain ⟨k0, n0⟩ := hword "" ts hw (by decide)
  unfold load2 loadFromStream
  simp only [ignoreLine_line h1, ignoreLine_line h2]
  match hts : tokensOnly ts, hk with
  | t1 :: t2 :: t3 :: us, hk =>
    simp only [List.take_succ_cons, List.take_zero, keywords, List.cons.injEq, and_true] at hk
    obtain ⟨rfl, rfl, rfl⟩ := hk
    obtain ⟨b1, a1⟩ := (readWord_tokens "" ts).2 _ _ hts
    rw [if_neg (by simpa using a1)]
    obtain ⟨b2, a2⟩ := (readWord_tokens (readWord "" ts).1 _).2 _ _ b1
    rw [if_neg (by simpa using a2)]
    obtain ⟨k1, n1⟩ := hword _ _ n0 k0
    obtain ⟨b3, a3⟩ := (readWord_tokens (readWord (readWord "" ts).1 (readWord "" ts).2).1 _).2 _ _ b2
    rw [if_neg (by simpa using a3)]
    obtain ⟨k2, n2⟩ := hword _ _ n1 k1
    obtain ⟨k3, n3⟩ := hword _ _ n2 k2
    generalize readWord (readWord (readWord (readWord "" ts).1 (readWord "" ts).2).1 (readWord (readWord "" ts).1 (readWord "" ts).2).2).1
      (readWord (readWord (readWord "" ts).1 (readWord "" ts).2).1 (readWord (readWord "" ts).1 (readWord "" ts).2).2).2 = w4 at k3 n3 ⊢
    have hv : (∀ e, (if w4.1 = "POINTS" then loadVertices (fun p => (p.1, p.2.1)) w4.2 m.clear else .ok (m.clear, w4.2)) ≠ .throw e) ∧
        ∀ x, (if w4.1 = "POINTS" then loadVertices (fun p => (p.1, p.2.1)) w4.2 m.clear else .ok (m.clear, w4.2)) = .ok x →
          x.2 ⊆ w4.2 := by
      split
      · exact ⟨(loadVertices_safe _ _ _).1, fun x hx => ((loadVertices_safe _ _ _).2 x hx).1⟩
      · exact ⟨fun e => by simp, fun x hx => by simp only [Res.ok.injEq] at hx; subst hx; exact List.Subset.refl _⟩
    intro h
    cases hp : (if w4.1 = "POINTS" then loadVertices (fun p => (p.1, p.2.1)) w4.2 m.clear else .ok (m.clear, w4.2)) with
    | throw e' => exact hv.1 _ hp
    | ub => rw [hp] at h; simp [Res.bind] at h
    | diverge => rw [hp] at h; simp [Res.bind] at h
    | ok p =>
      have n4 : VTok.word "CELL_TYPES" ∉ p.2 := fun x => n3 (hv.2 _ hp x)
      rw [hp] at h
      simp only [Res.bind] at h
      obtain ⟨k5, n5⟩ := hword w4.1 p.2 n4 k3
      generalize readWord w4.1 p.2 = w5 at k5 n5 h
      have hc : (∀ e, (if w5.1 = "CELLS" then loadCells2 w5.2 p.1 else .ok (p.1, w5.2)) ≠ .throw e) ∧
          ∀ x, (if w5.1 = "CELLS" then loadCells2 w5.2 p.1 else .ok (p.1, w5.2)) = .ok x → x.2 ⊆ w5.2 := by
        split
        · exact loadCells2_safe _ _
        · exact ⟨fun e => by simp, fun x hx => by simp only [Res.ok.injEq] at hx; subst hx; exact List.Subset.refl _⟩
      cases hq : (if w5.1 = "CELLS" then loadCells2 w5.2 p.1 else .ok (p.1, w5.2)) with
      | throw e' => exact hc.1 _ hq
      | ub => rw [hq] at h; simp at h
      | diverge => rw [hq] at h; simp at h
      | ok q =>
        have n6 : VTok.word "CELL_TYPES" ∉ q.2 := fun x => n5 (hc.2 _ hq x)
        rw [hq] at h
        simp only at h
        rw [if_neg (hword w5.1 q.2 n6 k5).1] at h
        simp at h

/-- A text that means nothing. -/
example (e : Exc) : load2 ([.word "#", .nl, .word "t", .nl, .word "ASCII", .nl, .word "DATASET", .word "UNSTRUCTURED_GRID", .nl,
    .word "POINTS", .num 2, .word "CELLS", .nl, .word "CELLS", .num 7] : List (VTok Int)) [] { dim := 2 } ≠ .throw e :=
  C57_vtk2_accepts_violated [.word "#"] [.word "t"] [.word "ASCII", .nl, .word "DATASET", .word "UNSTRUCTURED_GRID", .nl,
    .word "POINTS", .num 2, .word "CELLS", .nl, .word "CELLS", .num 7] (by simp [IsLine]) (by simp [IsLine]) (by decide) (by decide) [] _ e

/-! ## Cut in front of the last keyword -/

theorem ignoreLine_prefix {l : List (VTok R)} (hl : IsLine l) {q ts : List (VTok R)} (h : Fpma.ProperPrefix q (l ++ .nl :: ts)) :
    ignoreLine q = [] ∨ Fpma.ProperPrefix (ignoreLine q) ts := by
  induction l generalizing q with
  | nil =>
    rcases Fpma.properPrefix_cons h with rfl | ⟨q', rfl, hq⟩
    · exact .inl rfl
    · exact .inr hq
  | cons t l ih =>
    rcases Fpma.properPrefix_cons h with rfl | ⟨q', rfl, hq⟩
    · exact .inl rfl
    · have ht := hl t (by simp)
      have := ih (fun x hx => hl x (by simp [hx])) hq
      cases t <;> simp_all [ignoreLine]

theorem loadFromStream_short (conv : Nat → Option Nat) (loadV loadC : List (VTok R) → Mesh V → Res (Mesh V × List (VTok R)))
    (types : List Nat) (m : Mesh V) (q : List (VTok R)) (h : (tokensOnly (ignoreLine (ignoreLine q))).take 3 ≠ keywords) :
    loadFromStream conv loadV loadC q types m = .throw .runtimeError := by
  have := (loadFromStream_header conv loadV loadC types m [] [] (ignoreLine (ignoreLine q)) (by simp [IsLine]) (by simp [IsLine])).1 h
  simpa only [loadFromStream, List.nil_append, ignoreLine] using this

/-- The part of C57 that holds for VTK texts: a text cut off in front of the end of the last of the three keywords is refused by both
readers. -/
theorem C57_vtk_keywords_partial [Zero R] (l1 l2 ts : List (VTok R)) (h1 : IsLine l1) (h2 : IsLine l2)
    (hk : tokensOnly ts = keywords) (hlast : ∃ us, ts = us ++ [.word "UNSTRUCTURED_GRID"]) (q : List (VTok R))
    (hq : Fpma.ProperPrefix q (l1 ++ .nl :: (l2 ++ .nl :: ts)))
    (types : List Nat) (res : Nat) (m : Mesh (Point2 R)) (m' : Mesh (Point3 R)) :
    load2 q types m = .throw .runtimeError ∧ load3 res q types m' = .throw .runtimeError := by
  have key : (tokensOnly (ignoreLine (ignoreLine q))).take 3 ≠ keywords := by
    have hnil : (tokensOnly ([] : List (VTok R))).take 3 ≠ keywords := by simp [tokensOnly, keywords]
    rcases ignoreLine_prefix h1 hq with e | hq'
    · rw [e]; exact hnil
    · rcases ignoreLine_prefix h2 hq' with e | ⟨t, rest, e⟩
      · rw [e]; exact hnil
      · intro hc
        obtain ⟨us, hu⟩ := hlast
        have hlen : (tokensOnly ts).length = 3 := by rw [hk]; rfl
        have hlen' : 3 ≤ (tokensOnly (ignoreLine (ignoreLine q))).length := by
          have := congrArg List.length hc
          simp only [List.length_take, keywords, List.length_cons, List.length_nil] at this
          omega
        have hlastIn : VTok.word "UNSTRUCTURED_GRID" ∈ tokensOnly (t :: rest) := by
          have hm : VTok.word "UNSTRUCTURED_GRID" ∈ t :: rest := by
            have : (t :: rest).getLast (by simp) = VTok.word "UNSTRUCTURED_GRID" := by
              have h' : (ignoreLine (ignoreLine q) ++ t :: rest).getLast (by simp) = (us ++ [VTok.word "UNSTRUCTURED_GRID"]).getLast (by simp) := by
                simp only [← e, ← hu]
              rw [List.getLast_append_of_ne_nil _ (by simp)] at h'
              rw [h']
              simp
            rw [← this]
            exact List.getLast_mem _
          simpa [tokensOnly] using hm
        have : (tokensOnly ts).length = (tokensOnly (ignoreLine (ignoreLine q))).length + (tokensOnly (t :: rest)).length := by
          conv_lhs => rw [e]
          simp only [tokensOnly, List.filter_append, List.length_append]
        have := List.length_pos_of_mem hlastIn
        omega
  exact ⟨loadFromStream_short _ _ _ _ _ _ key, loadFromStream_short _ _ _ _ _ _ key⟩

example : load2 ([.word "#", .nl, .word "t", .nl, .word "ASCII", .nl, .word "DATASET"] : List (VTok Int)) [] { dim := 2 } = .throw .runtimeError :=
  (C57_vtk_keywords_partial [.word "#"] [.word "t"] [.word "ASCII", .nl, .word "DATASET", .word "UNSTRUCTURED_GRID"] (by simp [IsLine])
    (by simp [IsLine]) (by decide) ⟨[.word "ASCII", .nl, .word "DATASET"], rfl⟩ _ ⟨.word "UNSTRUCTURED_GRID", [], rfl⟩ [] 0 _ { dim := 3 }).1

end GTMesh.Vtk
