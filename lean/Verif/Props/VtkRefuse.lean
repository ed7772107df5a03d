import Verif.Props.Vtk3

/-! # C52: what the VTK readers refuse -/

namespace GTMesh.Vtk
open Spec GTMesh.Props
variable {R V : Type}

/-- The tokens of a text, without the ends of lines. -/
def tokensOnly (ts : List (VTok R)) : List (VTok R) := ts.filter fun t => match t with | .nl => false | _ => true

/-- A line: tokens without an end of line. -/
def IsLine (l : List (VTok R)) : Prop := ∀ t ∈ l, t ≠ .nl

theorem ignoreLine_line {l : List (VTok R)} (h : IsLine l) (ts : List (VTok R)) : ignoreLine (l ++ .nl :: ts) = ts := by
  induction l with
  | nil => rfl
  | cons t l ih =>
    have ht := h t (by simp)
    have := ih fun x hx => h x (by simp [hx])
    cases t <;> simp_all [ignoreLine]

theorem readWord_tokens (prev : String) (ts : List (VTok R)) :
    (tokensOnly ts = [] → readWord prev ts = (prev, [])) ∧
    ∀ t us, tokensOnly ts = t :: us → tokensOnly (readWord prev ts).2 = us ∧
      (readWord prev ts).1 = match t with | .word s => s | _ => "" := by
  induction ts with
  | nil => exact ⟨fun _ => rfl, fun t us h => by simp [tokensOnly] at h⟩
  | cons a ts ih =>
    cases a with
    | nl => exact ih
    | word s =>
      refine ⟨fun h => by simp [tokensOnly] at h, fun t us h => ?_⟩
      simp only [tokensOnly, List.filter_cons] at h
      simp only [if_true, List.cons.injEq] at h
      obtain ⟨rfl, rfl⟩ := h
      exact ⟨rfl, rfl⟩
    | num n =>
      refine ⟨fun h => by simp [tokensOnly] at h, fun t us h => ?_⟩
      simp only [tokensOnly, List.filter_cons] at h
      simp only [if_true, List.cons.injEq] at h
      obtain ⟨rfl, rfl⟩ := h
      exact ⟨rfl, rfl⟩
    | real x =>
      refine ⟨fun h => by simp [tokensOnly] at h, fun t us h => ?_⟩
      simp only [tokensOnly, List.filter_cons] at h
      simp only [if_true, List.cons.injEq] at h
      obtain ⟨rfl, rfl⟩ := h
      exact ⟨rfl, rfl⟩

theorem readWord_is {prev s : String} {ts : List (VTok R)} (hp : prev ≠ s) (hs : s ≠ "") :
    (readWord prev ts).1 = s ↔ ∃ us, tokensOnly ts = .word s :: us ∧ tokensOnly (readWord prev ts).2 = us := by
  obtain ⟨h1, h2⟩ := readWord_tokens prev ts
  cases h : tokensOnly ts with
  | nil => rw [h1 h]; simp [hp]
  | cons t us =>
    obtain ⟨a, b⟩ := h2 t us h
    rw [a, b]
    cases t with
    | word x => simp
    | nl => simp [Ne.symm hs]
    | num n => simp [Ne.symm hs]
    | real x => simp [Ne.symm hs]

/-- The three keywords that follow the first two lines. -/
def keywords : List (VTok R) := [.word "ASCII", .word "DATASET", .word "UNSTRUCTURED_GRID"]

theorem loadFromStream_header (conv : Nat → Option Nat) (loadV loadC : List (VTok R) → Mesh V → Res (Mesh V × List (VTok R)))
    (types : List Nat) (m : Mesh V) (l1 l2 ts : List (VTok R)) (h1 : IsLine l1) (h2 : IsLine l2) :
    ((tokensOnly ts).take 3 ≠ keywords → loadFromStream conv loadV loadC (l1 ++ .nl :: (l2 ++ .nl :: ts)) types m = .throw .runtimeError) ∧
    (tokensOnly ts = keywords → loadFromStream conv loadV loadC (l1 ++ .nl :: (l2 ++ .nl :: ts)) types m = .ok (m.clear, types)) := by
  unfold loadFromStream
  simp only [ignoreLine_line h1, ignoreLine_line h2]
  by_cases a1 : (readWord "" ts).1 = "ASCII"
  · rw [if_neg (by simpa using a1)]
    obtain ⟨us, b1, b2⟩ := (readWord_is (by decide) (by decide)).mp a1
    rw [a1]
    by_cases a2 : (readWord "ASCII" (readWord "" ts).2).1 = "DATASET"
    · rw [if_neg (by simpa using a2)]
      obtain ⟨us', c1, c2⟩ := (readWord_is (by decide) (by decide)).mp a2
      rw [b2] at c1
      rw [a2]
      by_cases a3 : (readWord "DATASET" (readWord "ASCII" (readWord "" ts).2).2).1 = "UNSTRUCTURED_GRID"
      · rw [if_neg (by simpa using a3)]
        obtain ⟨us'', d1, d2⟩ := (readWord_is (by decide) (by decide)).mp a3
        rw [c2] at d1
        rw [a3]
        refine ⟨fun h => ?_, fun h => ?_⟩
        · exfalso; apply h; rw [b1, c1, d1]; rfl
        · rw [b1, c1, d1] at h
          simp only [keywords, List.cons.injEq, true_and] at h
          subst h
          have e := (readWord_tokens "UNSTRUCTURED_GRID" _).1 d2
          rw [e]
          simp only
          rw [if_neg (by decide)]
          simp only [Res.bind]
          rw [show readWord "UNSTRUCTURED_GRID" ([] : List (VTok R)) = ("UNSTRUCTURED_GRID", []) from rfl]
          simp only
          rw [if_neg (by decide)]
          simp only
          rw [show readWord "UNSTRUCTURED_GRID" ([] : List (VTok R)) = ("UNSTRUCTURED_GRID", []) from rfl]
          simp only
          rw [if_neg (by decide)]
      · rw [if_pos (by simpa using a3)]
        refine ⟨fun _ => rfl, fun h => ?_⟩
        exfalso
        apply a3
        rw [b1, c1] at h
        simp only [keywords, List.cons.injEq, true_and] at h
        exact ((readWord_tokens _ _).2 _ _ (by rw [c2]; exact h)).2
    · rw [if_pos (by simpa using a2)]
      refine ⟨fun _ => rfl, fun h => ?_⟩
      exfalso
      apply a2
      rw [b1] at h
      simp only [keywords, List.cons.injEq, true_and] at h
      exact ((readWord_tokens _ _).2 _ _ (by rw [b2]; exact h)).2
  · rw [if_pos (by simpa using a1)]
    refine ⟨fun _ => rfl, fun h => ?_⟩
    exfalso
    exact a1 ((readWord_tokens _ _).2 _ _ h).2

/-- C52. A text whose first three words after the first two lines are not the keywords `ASCII`, `DATASET`, `UNSTRUCTURED_GRID`
is refused by both VTK readers with `std::runtime_error`, whatever else it contains. -/
theorem C52_keywords [Zero R] (l1 l2 ts : List (VTok R)) (h1 : IsLine l1) (h2 : IsLine l2)
    (h : (tokensOnly ts).take 3 ≠ keywords) (res : Nat) (types : List Nat) (m : Mesh (Point2 R)) (m' : Mesh (Point3 R)) :
    load2 (l1 ++ .nl :: (l2 ++ .nl :: ts)) types m = .throw .runtimeError ∧
    load3 res (l1 ++ .nl :: (l2 ++ .nl :: ts)) types m' = .throw .runtimeError :=
  ⟨(loadFromStream_header _ _ _ types m l1 l2 ts h1 h2).1 h, (loadFromStream_header _ _ _ types m' l1 l2 ts h1 h2).1 h⟩

example : load2 ([.word "x", .nl, .word "title", .nl, .word "BINARY", .nl, .word "DATASET", .word "UNSTRUCTURED_GRID"] : List (VTok Int)) []
    { dim := 2 } = .throw .runtimeError :=
  (C52_keywords [.word "x"] [.word "title"] [.word "BINARY", .nl, .word "DATASET", .word "UNSTRUCTURED_GRID"] (by simp [IsLine])
    (by simp [IsLine]) (by decide) 0 [] { dim := 2 } { dim := 3 }).1

/-- C52 is violated by a text that ends after the keywords: it is read without an error, as an empty mesh, and the types of the previous file
stay. -/
theorem C52_missing_sections_violated [Zero R] (l1 l2 ts : List (VTok R)) (h1 : IsLine l1) (h2 : IsLine l2)
    (h : tokensOnly ts = keywords) (res : Nat) (types : List Nat) (m : Mesh (Point2 R)) (m' : Mesh (Point3 R)) :
    load2 (l1 ++ .nl :: (l2 ++ .nl :: ts)) types m = .ok (m.clear, types) ∧
    load3 res (l1 ++ .nl :: (l2 ++ .nl :: ts)) types m' = .ok (m'.clear, types) :=
  ⟨(loadFromStream_header _ _ _ types m l1 l2 ts h1 h2).2 h, (loadFromStream_header _ _ _ types m' l1 l2 ts h1 h2).2 h⟩

example : load3 4 (([.word "x", .nl, .word "title", .nl, .word "ASCII", .nl, .word "DATASET", .word "UNSTRUCTURED_GRID"] : List (VTok Int)))
    [301] { dim := 3 } = .ok ({ dim := 3 }, [301]) :=
  (C52_missing_sections_violated [.word "x"] [.word "title"] [.word "ASCII", .nl, .word "DATASET", .word "UNSTRUCTURED_GRID"] (by simp [IsLine])
    (by simp [IsLine]) (by decide) 4 [301] { dim := 2 } { dim := 3 }).2

end GTMesh.Vtk
