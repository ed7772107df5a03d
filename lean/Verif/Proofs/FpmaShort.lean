import Verif.Proofs.FpmaText
import Verif.Proofs.Fpma

/-! # FPMA tokens that end too early, the last of them possibly with too few digits -/

namespace GTMesh.Fpma
open Spec
variable {R : Type}

/-- What may be left of a token: a number that is not larger, and not 0 unless it was. -/
def Short : Tok R → Tok R → Prop
  | .num n, .num n' => n' ≤ n ∧ (n ≠ 0 → n' ≠ 0)
  | .real _, .real _ => True
  | _, _ => False

/-- The first tokens, the last of them possibly shortened; without `more` at least one is missing or is not whole and not the last one. -/
inductive AltCut (more : Prop) : List (Tok R) → List (Tok R) → Prop
  | nil (x : Tok R) (l : List (Tok R)) : AltCut more [] (x :: l)
  | one {x x' : Tok R} {l : List (Tok R)} : Short x x' → (more ∨ l ≠ []) → AltCut more [x'] (x :: l)
  | cons (x : Tok R) {q l : List (Tok R)} : AltCut more q l → AltCut more (x :: q) (x :: l)

theorem AltCut.mono {a b : Prop} (hab : a → b) {q l : List (Tok R)} (h : AltCut a q l) : AltCut b q l := by
  induction h with
  | nil x l => exact .nil x l
  | one h1 h2 => exact .one h1 (h2.imp_left hab)
  | cons x _ ih => exact .cons x ih

theorem altCut_nil {more : Prop} {q : List (Tok R)} (h : AltCut more q []) : False := by cases h

theorem AltCut.append {more : Prop} {r : List (Tok R)} : ∀ {l q : List (Tok R)}, AltCut more q (l ++ r) →
    AltCut (more ∨ r ≠ []) q l ∨ ∃ q', q = l ++ q' ∧ AltCut more q' r := by
  intro l
  induction l with
  | nil => intro q h; exact .inr ⟨q, rfl, h⟩
  | cons x l ih =>
    intro q h
    rw [List.cons_append] at h
    cases h with
    | nil => exact .inl (.nil x l)
    | one h1 h2 =>
      refine .inl (.one h1 ?_)
      by_cases hl : l = []
      · left
        subst hl
        exact h2.imp_right (by simp)
      · exact .inr hl
    | cons _ h =>
      rcases ih h with h | ⟨q', rfl, hq⟩
      · exact .inl (.cons x h)
      · exact .inr ⟨q', rfl, hq⟩

theorem readPoints_alt {more : Prop} : ∀ (l : List (Point R)) (q : List (Tok R)),
    AltCut more q (l.flatMap fun p => [.real p.1, .real p.2.1, .real p.2.2]) →
    readPoints l.length q = .ub ∨ ∃ l', readPoints l.length q = .ok (l', []) := by
  intro l
  induction l with
  | nil => intro q h; exact (altCut_nil h).elim
  | cons p l ih =>
    intro q h
    rw [List.flatMap_cons] at h
    rcases h.append with h | ⟨q', rfl, hq⟩
    · cases h with
      | nil => exact .inl rfl
      | @one _ x' _ h1 h2 => cases x' <;> simp [Short, readPoints, readReal] at h1 ⊢
      | cons _ h =>
        cases h with
        | nil => exact .inl rfl
        | @one _ x' _ h1 h2 => cases x' <;> simp [Short, readPoints, readReal] at h1 ⊢
        | cons _ h =>
          cases h with
          | nil => exact .inl rfl
          | @one _ x' _ h1 h2 =>
            cases x' with
            | num n => simp [Short] at h1
            | real x =>
              cases l with
              | nil => right; exact ⟨_, rfl⟩
              | cons p' l => left; simp [readPoints, readReal]
          | cons _ h => exact (altCut_nil h).elim
    · rcases ih q' hq with h | ⟨l', h⟩
      · left; simp [readPoints, readReal, h]
      · right; simp [readPoints, readReal, h]

theorem readNumsZ_none : ∀ (n : Nat), readNumsZ n ([] : List (Tok R)) = .ok (List.replicate n 0, [])
  | 0 => rfl
  | n + 1 => by simp [readNumsZ, readNumZ, readNumsZ_none n, List.replicate_succ]

theorem readNumsZ_alt {more : Prop} : ∀ (l : List Nat) (q : List (Tok R)), AltCut more q (l.map .num) →
    ∃ l', readNumsZ l.length q = .ok (l', []) ∧ l'.length = l.length := by
  intro l
  induction l with
  | nil => intro q h; exact (altCut_nil h).elim
  | cons x l ih =>
    intro q h
    rw [List.map_cons] at h
    cases h with
    | nil => exact ⟨_, readNumsZ_none _, by simp⟩
    | @one _ x' _ h1 h2 =>
      cases x' with
      | real x => simp [Short] at h1
      | num n => exact ⟨n :: List.replicate l.length 0, by simp [readNumsZ, readNumZ, readNumsZ_none], by simp⟩
    | cons _ h =>
      obtain ⟨l', a, b⟩ := ih _ h
      exact ⟨x :: l', by simp [readNumsZ, readNumZ, a], by simp [b]⟩

theorem readNums_alt {more : Prop} : ∀ (l : List Nat) (q : List (Tok R)), AltCut more q (l.map .num) →
    readNums l.length q = .ub ∨ (more ∧ ∃ a t t', l = a ++ [t] ∧ t' ≤ t ∧ readNums l.length q = .ok (a ++ [t'], [])) := by
  intro l
  induction l with
  | nil => intro q h; exact (altCut_nil h).elim
  | cons x l ih =>
    intro q h
    rw [List.map_cons] at h
    cases h with
    | nil => exact .inl rfl
    | @one _ x' _ h1 h2 =>
      cases x' with
      | real x => simp [Short] at h1
      | num n =>
        cases l with
        | nil => exact .inr ⟨h2.resolve_right (by simp), [], x, n, rfl, h1.1, rfl⟩
        | cons y l => left; simp [readNums, readNum]
    | cons _ h =>
      rcases ih _ h with h | ⟨hm, a, t, t', rfl, ht, h⟩
      · left; simp [readNums, readNum, h]
      · right
        refine ⟨hm, x :: a, t, t', rfl, ht, ?_⟩
        rw [List.length_cons, readNums]
        simp only [readNum, Res.bind, h, List.cons_append]

theorem addFaceEdges_ok (res : Nat) : ∀ (ps : List (Idx × Idx)) (f : Face) (d : Dict) (es : List Edge),
    (res = 0 ∨ f.sub.length + ps.length ≤ res) → ∃ r, addFaceEdges res f d es ps = .ok r := by
  intro ps
  induction ps with
  | nil => intro f d es _; exact ⟨_, rfl⟩
  | cons p ps ih =>
    intro f d es h
    simp only [List.length_cons] at h
    simp only [addFaceEdges]
    rw [if_neg (by omega)]
    exact ih _ _ _ (by simp; omega)

theorem faces_alt (res : Nat) : ∀ (ls : List (List Idx)) (fs : List Face) (k : Nat) (d : Dict) (es : List Edge) (q : List (Tok R)),
    (∀ l ∈ ls, res = 0 ∨ l.length ≤ res) → (∀ f ∈ fs, f.sub = []) → fs.length = ls.length →
    AltCut True q (ls.flatMap listTokens) →
    loadFaceList res fs k d es q = .ub ∨ ∃ x y, loadFaceList res fs k d es q = .ok (x, y, []) := by
  intro ls
  induction ls with
  | nil => intro fs k d es q _ _ _ h; exact (altCut_nil h).elim
  | cons l ls ih =>
    intro fs k d es q hres hfs hlen h
    obtain ⟨f, fs, rfl⟩ : ∃ f fs', fs = f :: fs' := by
      cases fs with
      | nil => simp at hlen
      | cons f fs => exact ⟨f, fs, rfl⟩
    have hf : f.sub = [] := hfs f (by simp)
    have hl := hres l (by simp)
    -- once the tokens are used up
    have key : ∀ (n : Nat) (q1 : List (Tok R)) (l' : List Nat), l'.length ≤ l.length → readNumsZ n q1 = .ok (l', []) →
        loadFaceList res (f :: fs) k d es (.num n :: q1) = .ub ∨ ∃ x y, loadFaceList res (f :: fs) k d es (.num n :: q1) = .ok (x, y, []) := by
      intro n q1 l' hle hr
      obtain ⟨r, hr'⟩ := addFaceEdges_ok res (consecutive l') { f with index := k } d es (by
        rw [consecutive_length, hf]; simp; omega)
      simp only [loadFaceList, readNum, Res.bind, hr, hr']
      cases fs with
      | nil => right; exact ⟨_, _, rfl⟩
      | cons f' fs => left; simp [loadFaceList, readNum]
    rw [List.flatMap_cons] at h
    rcases h.append with h | ⟨q', rfl, hq⟩
    · unfold listTokens at h
      cases h with
      | nil => left; rfl
      | @one _ x' _ h1 h2 =>
        cases x' with
        | real x => simp [Short] at h1
        | num n => exact key n [] _ (by simpa using h1.1) (readNumsZ_none n)
      | cons _ h =>
        obtain ⟨l', a, b⟩ := readNumsZ_alt l _ h
        exact key _ _ l' (by omega) a
    · obtain ⟨r, hr⟩ := addFaceEdges_ok res (consecutive l) { f with index := k } d es (by
        rw [consecutive_length, hf]; simp; omega)
      have := ih fs (k + 1) r.2.1 r.2.2 q' (fun l hl => hres l (by simp [hl])) (fun g hg => hfs g (by simp [hg])) (by simpa using hlen) hq
      simp only [listTokens, List.cons_append, loadFaceList, readNum, Res.bind]
      rw [readNumsZ_map]
      simp only [hr]
      rcases this with h | ⟨x, y, h⟩
      · left; rw [h]
      · right; rw [h]; exact ⟨_, _, rfl⟩

theorem linkFaces_ok (k : Nat) (l : List Idx) (c : Idx) (fs : List Face) (hne : l ≠ []) (hr : ∀ f ∈ l, f < fs.length) (hfit : fs.length ≤ INVALID) :
    ∃ fs1, linkFaces k (l.head?.getD c) INVALID l fs = .ok fs1 ∧ fs1.length = fs.length := by
  obtain ⟨cs', h, _⟩ := loadCellList_spec (R := Unit) [l] [{ bElem := c }] k fs [] (by simpa using hne) (by simpa using hr) hfit rfl
  simp only [List.flatMap_cons, List.flatMap_nil, List.append_nil, loadCellList, listTokens, readNum, Res.bind] at h
  have hm := readNums_map (R := Unit) l []
  rw [List.append_nil] at hm
  rw [hm] at h
  simp only at h
  cases h1 : linkFaces k (l.head?.getD c) INVALID l fs <;> rw [h1] at h <;> simp only [reduceCtorEq] at h
  rename_i fs1
  refine ⟨fs1, rfl, ?_⟩
  simp only [Res.ok.injEq, Prod.mk.injEq] at h
  rw [h.2.1]
  simp

theorem cells_alt : ∀ (ls : List (List Idx)) (cs : List Cell) (k : Nat) (fs : List Face) (q : List (Tok R)),
    (∀ l ∈ ls, l ≠ []) → (∀ l ∈ ls, ∀ f ∈ l, f < fs.length) → fs.length ≤ INVALID → cs.length = ls.length →
    AltCut False q (ls.flatMap listTokens) → loadCellList cs k fs q = .ub := by
  intro ls
  induction ls with
  | nil => intro cs k fs q _ _ _ _ h; exact (altCut_nil h).elim
  | cons l ls ih =>
    intro cs k fs q hne hr hfit hlen h
    obtain ⟨c, cs, rfl⟩ : ∃ c cs', cs = c :: cs' := by
      cases cs with
      | nil => simp at hlen
      | cons c cs => exact ⟨c, cs, rfl⟩
    have hl := hne l (by simp)
    rw [List.flatMap_cons] at h
    rcases h.append with h | ⟨q', rfl, hq⟩
    · unfold listTokens at h
      cases h with
      | nil => rfl
      | @one _ x' _ h1 h2 =>
        cases x' with
        | real x => simp [Short] at h1
        | num n =>
          have : n ≠ 0 := h1.2 (by simpa using hl)
          obtain ⟨n, rfl⟩ := Nat.exists_eq_succ_of_ne_zero this
          simp [loadCellList, readNums, readNum]
      | cons _ h =>
        rcases readNums_alt l _ h with h | ⟨hm, a, t, t', e, ht, h⟩
        · simp only [loadCellList, readNum, Res.bind, h]
        · have hne' : ls ≠ [] := by
            rintro rfl
            simp at hm
          obtain ⟨fs1, h1, _⟩ := linkFaces_ok k (a ++ [t']) c.bElem fs (by simp) (by
            intro f hf
            rcases List.mem_append.mp hf with hf | hf
            · exact hr l (by simp) f (by rw [e]; simp [hf])
            · have := hr l (by simp) t (by rw [e]; simp)
              simp at hf
              omega) hfit
          simp only [loadCellList, readNum, Res.bind, h, h1]
          cases cs with
          | nil => cases ls <;> simp at hlen hne'
          | cons c' cs => simp [loadCellList, readNum]
    · obtain ⟨fs1, h1, h2⟩ := linkFaces_ok k l c.bElem fs hl (hr l (by simp)) hfit
      simp only [listTokens, List.cons_append, loadCellList, readNum, Res.bind]
      rw [readNums_map]
      simp only [h1]
      rw [ih cs (k + 1) fs1 q' (fun l hl => hne l (by simp [hl])) (fun l hl f hf => by rw [h2]; exact hr l (by simp [hl]) f hf) (by omega) (by simpa using hlen) hq]

/-- A file that ends too early is not read, even if some digits of the last number are there. -/
theorem load_alt (F : File R) (hF : F.WellFormed) (res : Nat) (hres : ∀ l ∈ F.faces, res = 0 ∨ l.length ≤ res) (q : List (Tok R))
    (h : AltCut False q F.tokens) : load res q { dim := 3 } = .ub := by
  have e : F.tokens = .num F.verts.length :: ((F.verts.flatMap fun p => [.real p.1, .real p.2.1, .real p.2.2]) ++
      (.num F.faces.length :: (F.faces.flatMap listTokens ++ (.num F.cells.length :: F.cells.flatMap listTokens)))) := by
    simp [File.tokens]
  rw [e] at h
  cases h with
  | nil => rfl
  | @one _ x' _ h1 h2 =>
    cases x' with
    | real x => simp [Short] at h1
    | num n =>
      cases n with
      | zero => simp [load, loadVertices, readNum, readPoints, loadFaces]
      | succ n => simp [load, loadVertices, readNum, readPoints, readReal]
  | cons _ h =>
  rcases h.append with h | ⟨q', rfl, hq⟩
  · rcases readPoints_alt _ _ h with h | ⟨l', h⟩
    · simp [load, loadVertices, readNum, h]
    · simp [load, loadVertices, readNum, h, loadFaces]
  have hv : ∀ x2 : List (Tok R), loadVertices (.num F.verts.length :: ((F.verts.flatMap fun p => [.real p.1, .real p.2.1, .real p.2.2]) ++ x2)) { dim := 3 } =
      .ok ({ dim := 3, vertices := F.verts }, x2) := by
    intro x2
    simp only [loadVertices, readNum, Res.bind]
    rw [readPoints_flatMap]
  have hz : ∀ n, (resize (({ dim := 3, vertices := F.verts } : Mesh (Point R)).midElems 2) n {}) = List.replicate n {} := by
    intro n
    simp [Mesh.midElems, resize]
  rw [load, hv]
  simp only [Res.bind]
  cases hq with
  | nil => rfl
  | @one _ x' _ h1 h2 =>
    cases x' with
    | real x => simp [Short] at h1
    | num n =>
      simp only [loadFaces, readNum, Res.bind, hz]
      cases n with
      | zero => simp [loadFaceList, loadCells, readNum]
      | succ n => simp [List.replicate_succ, loadFaceList, readNum]
  | cons _ hq =>
  rcases hq.append with h | ⟨q', rfl, hr⟩
  · have := faces_alt res F.faces (List.replicate F.faces.length {}) 0 [] [] _ hres (by
      intro f hf
      rw [List.eq_of_mem_replicate hf]) (by simp) (h.mono fun _ => trivial)
    simp only [loadFaces, readNum, Res.bind, hz]
    rcases this with h | ⟨x, y, h⟩
    · rw [h]
    · rw [h]; simp [loadCells, readNum]
  · obtain ⟨d, es, fs, f1, _, _, f4, _⟩ := loadFaceList_spec (R := R) res (allPairs F.faces) F.faces
      (List.replicate F.faces.length {}) 0 [] [] q' (TableInv.empty _) (fun p hp => hp) hres rfl
    simp only [loadFaces, readNum, Res.bind, hz]
    rw [f1]
    simp only
    cases hr with
    | nil => rfl
    | @one _ x' _ h1 h2 =>
      cases x' with
      | real x => simp [Short] at h1
      | num n =>
        have hn : n ≠ 0 := h1.2 (by
          intro h0
          simp [h0] at h2
          have := List.length_eq_zero_iff.mp h0
          simp [this] at h2)
        obtain ⟨n, rfl⟩ := Nat.exists_eq_succ_of_ne_zero hn
        simp [loadCells, readNum, resize, List.replicate_succ, loadCellList]
    | cons _ h =>
      have := cells_alt F.cells (List.replicate F.cells.length {}) 0 fs _ hF.cells_ne (by rw [f4]; exact hF.cells_range) (by rw [f4]; exact hF.faces_fit) (by simp) h
      simp [loadCells, readNum, resize, Mesh.midElems, this]

end GTMesh.Fpma
