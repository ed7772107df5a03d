import Verif.Props.VtkData
import Verif.Props.VtkCut

/-! # C57: data of a VTK file that is cut off -/

namespace GTMesh.Vtk
open Spec GTMesh.Props Std'
variable {R : Type}

/-- A text that ends among the values `xs` of a scalar column named `w`. -/
def cutColumn (w : String) (xs : List R) : List (VTok R) :=
  [.word "SCALARS", .word w, .word "double", .num 1, .nl, .word "LOOKUP_TABLE", .word "default", .nl] ++ xs.map .real

theorem indexData_reals (xs : List R) : indexData (xs.map VTok.real) = [] := by
  have h : ∀ xs : List R, splitLine (xs.map VTok.real) = (xs.map VTok.real, []) := by
    intro xs
    induction xs with
    | nil => rfl
    | cons x xs ih => simp [splitLine, ih]
  cases xs with
  | nil => rw [List.map_nil, indexData]
  | cons x xs =>
    have hx := h (x :: xs)
    rw [List.map_cons] at hx ⊢
    rw [indexData_cons, hx, lineHas_false (by simp), lineHas_false (by simp)]
    rw [if_neg (by simp), indexData]

theorem indexData_cut (w : String) (xs : List R) : indexData (cutColumn w xs) = [([w], xs.map .real)] := by
  unfold cutColumn
  simp only [List.cons_append, List.nil_append]
  have hs : lineHas "SCALARS" [(VTok.word "SCALARS" : VTok R), .word w, .word "double", .num 1] = true := by
    simp only [lineHas, List.any_cons, Bool.or_eq_true]
    exact .inl (by decide)
  have hn : lineName [(VTok.word "SCALARS" : VTok R), .word w, .word "double", .num 1] = [w] := by
    simp only [lineName, tokenName]
    rw [if_neg (by decide)]
  rw [indexData_cons]
  simp only [splitLine, hs, Bool.true_or, if_true, hn, afterHeader, ignoreLine, indexData_reals]

theorem readRows_failed [Zero R] (dim i : Nat) (x : R) : ∀ rows : List (Row R),
    readRows dim .scalar i [some x] rows none = .ok (rows.map fun r => r.set i [x], none) := by
  intro rows
  induction rows with
  | nil => rfl
  | cons r rows ih => simp only [readRows, readValue, extractAll, extract, Res.bind, determinate, ih, List.map_cons]

theorem readRows_cut [Zero R] (dim i : Nat) : ∀ (rows : List (Row R)) (v : R) (xs : List R),
    ∃ s, readRows dim .scalar i [some v] rows (some (xs.map .real)) =
      .ok (rows.mapIdx fun j r => r.set i [xs.getD j ((v :: xs).getLast (by simp))], s) := by
  intro rows
  induction rows with
  | nil => intro v xs; exact ⟨_, rfl⟩
  | cons r rows ih =>
    intro v xs
    cases xs with
    | nil =>
      refine ⟨none, ?_⟩
      simp only [List.map_nil, readRows, readValue, extractAll, extract, skipNl, Res.bind, determinate, readRows_failed]
      simp [List.mapIdx_eq_zipIdx_map]
      apply List.ext_getElem <;> simp
    | cons x xs =>
      obtain ⟨s, h⟩ := ih x xs
      refine ⟨s, ?_⟩
      simp only [List.map_cons, readRows, readValue, extractAll, extract, skipNl, Res.bind, determinate, h, List.mapIdx_cons]
      simp

theorem readRows_cut' [Zero R] (dim i : Nat) (r : Row R) (rows : List (Row R)) (x : R) (xs : List R) :
    ∃ s, readRows dim .scalar i [none] (r :: rows) (some ((x :: xs).map .real)) =
      .ok ((r :: rows).mapIdx fun j r => r.set i [(x :: xs).getD j ((x :: xs).getLast (by simp))], s) := by
  obtain ⟨s, h⟩ := readRows_cut dim i rows x xs
  refine ⟨s, ?_⟩
  simp only [List.map_cons, readRows, readValue, extractAll, extract, skipNl, Res.bind, determinate, h, List.mapIdx_cons]
  simp

/-- C57, data, is violated: a text that ends among the values of a scalar column, after `x` and `xs` (at most as many as there are
cells), is read without an error, and the cells without a value get the last value that is there. -/
theorem C57_data_violated [Zero R] (dim : Nat) (w : String) (pre : List (VTok R)) (hp : NoColumns pre) (x : R) (xs : List R)
    (rows : List (Row R)) (hl : xs.length < rows.length) (h1 : ∀ r ∈ rows, r.length = 1) :
    ∃ out, readData dim [([w], .scalar)] (pre ++ cutColumn w (x :: xs)) rows = .ok out ∧ out.length = rows.length ∧
      (∀ (j : Nat), j < (x :: xs).length → out[j]? = ((x :: xs)[j]?).map fun y => [[y]]) ∧
      ∀ (j : Nat), (x :: xs).length ≤ j → j < rows.length → out[j]? = some [[(x :: xs).getLast (by simp)]] := by
  cases rows with
  | nil => simp at hl
  | cons r rows =>
    obtain ⟨s, h⟩ := readRows_cut' dim 0 r rows x xs
    have hpos : position (pre ++ cutColumn w (x :: xs)) (indexData (pre ++ cutColumn w (x :: xs))) [w] = (x :: xs).map VTok.real := by
      rw [indexData_skip _ _ _ le_rfl hp, indexData_cut]
      simp [position]
    have hset : ∀ (j : Nat) r', (r :: rows)[j]? = some r' → ∀ y : R, r'.set 0 [y] = [[y]] := by
      intro j r' hj y
      have := h1 r' (List.mem_of_getElem? hj)
      match r', this with
      | [m], _ => rfl
    refine ⟨(r :: rows).mapIdx fun j r => r.set 0 [(x :: xs).getD j ((x :: xs).getLast (by simp))], ?_, by simp, fun j hj => ?_, fun j hj hj' => ?_⟩
    · simp only [readData, readColumns, hpos, readColumn, Kind.width, List.replicate_one, Option.map_some, h, Res.bind]
    · have hj' : j < (r :: rows).length := by simp only [List.length_cons] at hj hl ⊢; omega
      rw [List.getElem?_mapIdx, List.getElem?_eq_getElem hj', List.getElem?_eq_getElem hj, Option.map_some, Option.map_some,
        hset j _ (List.getElem?_eq_getElem hj')]
      simp [List.getD_eq_getElem?_getD, List.getElem?_eq_getElem hj]
    · rw [List.getElem?_mapIdx, List.getElem?_eq_getElem hj', Option.map_some, hset j _ (List.getElem?_eq_getElem hj')]
      rw [List.getD_eq_getElem?_getD, List.getElem?_eq_none hj]
      rfl

/-- Three cells, two values. -/
example : readData 2 [(["p"], .scalar)] (cutColumn "p" [5, 6] : List (VTok Int)) [[[0]], [[0]], [[0]]] = .ok [[[5]], [[6]], [[6]]] := by
  obtain ⟨out, h1, h2, h3, h4⟩ := C57_data_violated 2 "p" [] ⟨.inl rfl, by simp⟩ (5 : Int) [6] [[[0]], [[0]], [[0]]] (by decide) (by decide)
  rw [List.nil_append] at h1
  rw [h1]
  have e0 := h3 0 (by decide)
  have e1 := h3 1 (by decide)
  have e2 := h4 2 (by decide) (by decide)
  match out, h2 with
  | [a, b, c], _ => simp at e0 e1 e2; simp [e0, e1, e2]

/-- C57, data, is violated: when not even the first value is there, a variable is used that was never set. -/
theorem C57_data_empty_violated [Zero R] (dim : Nat) (w : String) (pre : List (VTok R)) (hp : NoColumns pre)
    (rows : List (Row R)) (hl : rows ≠ []) : readData dim [([w], .scalar)] (pre ++ cutColumn w []) rows = .ub := by
  have hpos : position (pre ++ cutColumn w []) (indexData (pre ++ cutColumn w [])) [w] = [] := by
    rw [indexData_skip _ _ _ le_rfl hp, indexData_cut]
    simp [position]
  cases rows with
  | nil => contradiction
  | cons r rows =>
    simp only [readData, readColumns, hpos, readColumn, Kind.width, List.replicate_one, Option.map_some, readRows, readValue, extractAll, extract,
      skipNl, Res.bind, determinate]

example : readData 2 [(["p"], .scalar)] (cutColumn "p" [] : List (VTok Int)) [[[0]]] = .ub :=
  C57_data_empty_violated 2 "p" [] ⟨.inl rfl, by simp⟩ [[[0]]] (by simp)

/-! ## More objects than values -/

/-- A complete scalar column, as the writer writes it (`scalarColumn_written`). -/
def scalarColumn (w : String) (xs : List R) : List (VTok R) := cutColumn w xs ++ [.nl]

/-- This is what the writer writes for a class with one number. -/
theorem scalarColumn_written (fmt : R → R) (zero : R) (n : Nat) (w : String) (xs : List R) :
    writeData fmt zero 2 [] n [([w], .scalar)] (xs.map fun x => [[x]]) =
      .ok (.word "CELL_DATA" :: .num n :: .nl :: scalarColumn w (xs.map fmt)) := by
  have hc : column (xs.map fun x => [[x]]) [] 0 0 = .ok (xs.map fun x => ([[x]] : Row R)) := column_plain _
  have hvs : forEach (fun r : Row R => Res.idx r 0) (xs.map fun x => [[x]]) = .ok (xs.map fun x => [x]) := by
    rw [forEach_ok (f := fun r : Row R => r.getD 0 [])]
    · simp [List.map_map, Function.comp_def]
    · intro r hr
      obtain ⟨x, _, rfl⟩ := List.mem_map.mp hr
      rfl
  simp only [writeData, writeColumns, writeColumn, columnHeader, if_true, hc, hvs, Res.bind, scalarColumn, cutColumn, List.map_cons, List.map_nil]
  have : ∀ xs : List R, (xs.map fun x => [(VTok.real (fmt x) : VTok R)]).flatten = xs.map fun x => VTok.real (fmt x) := by
    intro xs
    induction xs with
    | nil => rfl
    | cons x xs ih => simp [ih]
  simp [valueTokens, List.flatMap_def, List.map_map, Function.comp_def, this]

theorem indexData_scalarColumn (w : String) (xs : List R) (rest : List (VTok R)) :
    indexData (scalarColumn w xs ++ rest) = ([w], xs.map .real ++ .nl :: rest) :: indexData rest := by
  have hs : lineHas "SCALARS" [(VTok.word "SCALARS" : VTok R), .word w, .word "double", .num 1] = true := by
    simp only [lineHas, List.any_cons, Bool.or_eq_true]
    exact .inl (by decide)
  have hn : lineName [(VTok.word "SCALARS" : VTok R), .word w, .word "double", .num 1] = [w] := by
    simp only [lineName, tokenName]
    rw [if_neg (by decide)]
  have hskip : indexData (xs.map VTok.real ++ .nl :: rest) = indexData rest := by
    have := indexData_skip _ (xs.map VTok.real ++ [.nl]) rest le_rfl ⟨.inr ⟨_, rfl⟩, by simp⟩
    simpa using this
  simp only [scalarColumn, cutColumn, List.cons_append, List.append_assoc, List.nil_append]
  rw [indexData_cons]
  simp only [splitLine, hs, Bool.true_or, if_true, hn, afterHeader, ignoreLine, hskip]

/-- When a word comes instead of a value, the stream has failed behind the column. -/
theorem readRows_word [Zero R] (dim i : Nat) (u : String) (more : List (VTok R)) : ∀ (rows : List (Row R)) (v : Option R) (xs : List R),
    xs.length < rows.length → ∃ out, readRows dim .scalar i [v] rows (some (xs.map .real ++ .nl :: .word u :: more)) = .ok (out, none) := by
  intro rows
  induction rows with
  | nil => intro v xs h; simp at h
  | cons r rows ih =>
    intro v xs h
    cases xs with
    | nil => exact ⟨_, by simp only [List.map_nil, List.nil_append, readRows, readValue, extractAll, extract, skipNl, Res.bind, determinate,
        readRows_failed]; rfl⟩
    | cons x xs =>
      obtain ⟨out, h'⟩ := ih (some x) xs (by simpa using h)
      exact ⟨_, by simp only [List.map_cons, List.cons_append, readRows, readValue, extractAll, extract, skipNl, Res.bind, determinate, h']; rfl⟩

/-- C57, data, is violated: data of fewer cells than the container has objects are not refused. The first column runs into the
header of the second one, the stream fails, and nothing brings it back: the second column is never read and a variable is used that
was never set. -/
theorem C57_data_short_violated [Zero R] (dim : Nat) (w1 w2 : String) (pre : List (VTok R)) (hp : NoColumns pre) (xs ys : List R)
    (rows : List (Row R)) (hl : xs.length < rows.length) :
    readData dim [([w1], .scalar), ([w2], .scalar)] (pre ++ scalarColumn w1 xs ++ scalarColumn w2 ys) rows = .ub := by
  have hi : indexData (pre ++ scalarColumn w1 xs ++ scalarColumn w2 ys) =
      [([w1], xs.map .real ++ .nl :: scalarColumn w2 ys), ([w2], ys.map .real ++ [.nl])] := by
    rw [List.append_assoc, indexData_skip _ _ _ le_rfl hp, indexData_scalarColumn]
    have := indexData_scalarColumn w2 ys []
    rw [List.append_nil] at this
    rw [this, indexData]
  obtain ⟨out, ho⟩ := readRows_word dim 0 "SCALARS" ([.word w2, .word "double", .num 1, .nl, .word "LOOKUP_TABLE", .word "default", .nl] ++
    ys.map .real ++ [.nl]) rows none xs hl
  have hpos : position (pre ++ scalarColumn w1 xs ++ scalarColumn w2 ys) [([w1], xs.map .real ++ .nl :: scalarColumn w2 ys), ([w2], ys.map .real ++ [.nl])]
      [w1] = xs.map .real ++ .nl :: scalarColumn w2 ys := by
    simp [position]
  have hc : (xs.map VTok.real ++ .nl :: scalarColumn w2 ys : List (VTok R)) = xs.map VTok.real ++ .nl :: .word "SCALARS" ::
      ([.word w2, .word "double", .num 1, .nl, .word "LOOKUP_TABLE", .word "default", .nl] ++ ys.map .real ++ [.nl]) := rfl
  have hlen : ∃ r rs, out = r :: rs := by
    cases rows with
    | nil => simp at hl
    | cons r rows =>
      simp only [readRows] at ho
      obtain ⟨p, _, ho⟩ := bind_eq_ok' ho
      obtain ⟨p, _, ho⟩ := bind_eq_ok' ho
      obtain ⟨p, _, ho⟩ := bind_eq_ok' ho
      simp only [Res.ok.injEq, Prod.mk.injEq] at ho
      exact ⟨_, _, ho.1.symm⟩
  obtain ⟨r, rs, rfl⟩ := hlen
  rw [readData, hi]
  simp only [readColumns, readColumn, Kind.width, List.replicate_one, Option.map_some, hpos]
  rw [hc, ho]
  simp only [Res.bind, Option.map_none, readRows, readValue, extractAll, extract, determinate]

example : readData 2 [(["p"], .scalar), (["q"], .scalar)] (scalarColumn "p" [5] ++ scalarColumn "q" [6] : List (VTok Int))
    [[[0], [0]], [[0], [0]]] = .ub :=
  C57_data_short_violated 2 "p" "q" [] ⟨.inl rfl, by simp⟩ [5] [6] [[[0], [0]], [[0], [0]]] (by decide)

end GTMesh.Vtk
