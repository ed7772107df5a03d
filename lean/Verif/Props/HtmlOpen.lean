import Verif.Props.HtmlScript

/-! # C62: the page in a browser, from the text of the document -/

namespace GTMesh.HtmlScript

variable {V X : Type}

/-- The page and the content of the element `listDiv`. -/
structure Browser (V X : Type) where
  page : Page V X
  shown : List Char := []

/-- The statements of a script without the spaces and line breaks around them. -/
def statements (t : List Char) : List (List Char) :=
  (t.splitOnP (· = ';')).map (fun s => ((s.dropWhile Char.isWhitespace).reverse.dropWhile Char.isWhitespace).reverse) |>.filter (· ≠ [])

/-- The text up to `</script>`. -/
def untilEnd : List Char → List Char
  | [] => []
  | c :: t => if "</script>".toList.isPrefixOf (c :: t) then [] else c :: untilEnd t

/-- A call of one of the functions of the page. -/
def exec (cmp : Compare V X) (zero : X) (stringify : V → List Char) (b : Browser V X) (s : List Char) : Option (Browser V X) :=
  if s = "copyData()".toList then some { b with page := copyData b.page }
  else if s = "filterData()".toList then some { b with page := filterData cmp b.page }
  else if s = "addFilter()".toList then some { b with page := addFilter zero b.page }
  else if s = "showData()".toList then some { b with shown := showData stringify b.page }
  else none

/-- All statements of a script. -/
def execAll (cmp : Compare V X) (zero : X) (stringify : V → List Char) (b : Browser V X) (t : List Char) : Option (Browser V X) :=
  (statements t).foldlM (exec cmp zero stringify) b

/-- The text of a document in front of its first script. -/
def beforeScript : List Char → Option (List Char)
  | [] => none
  | c :: t => if "<script".toList.isPrefixOf (c :: t) then some [] else (beforeScript t).map (c :: ·)

/-- The elements with `onclick` of a text: the script and the label. -/
def clickables : List Char → List (List Char × List Char)
  | [] => []
  | c :: t =>
    let rest := clickables t
    let key := "onclick=\"".toList
    if key.isPrefixOf (c :: t) then
      let u := (c :: t).drop key.length
      let v := u.dropWhile (· ≠ '"')
      (u.takeWhile (· ≠ '"'), (v.dropWhile (· ≠ '>')).drop 1 |>.takeWhile (· ≠ '<')) :: rest
    else rest

/-- The label of the button of an action. -/
def label : Action X → Option String
  | .showAll => some "show all data"
  | .filter => some "filter"
  | .addFilter => some "add filter"
  | .editFilter _ _ => none
  | .editLine _ => none

/-- The user's action: a click runs the script of the button with the label; the fields are edited. -/
def perform (cmp : Compare V X) (zero : X) (stringify : V → List Char) (doc : List Char) (b : Browser V X) (a : Action X) : Option (Browser V X) :=
  match label a with
  | some l => ((clickables ((beforeScript doc).getD [])).find? fun p => p.2 = l.toList).bind fun p => execAll cmp zero stringify b p.1
  | none =>
    match a with
    | .editFilter i f => some { b with page := { b.page with filters := b.page.filters.set i f } }
    | .editLine l => some { b with page := { b.page with selectedLine := l } }
    | _ => none

theorem clickables_body : (beforeScript HtmlLog.documentBody.toList).map clickables =
    some [("addFilter() ".toList, "add filter".toList), ("copyData(); showData() ".toList, "show all data".toList),
     ("filterData(); showData() ".toList, "filter".toList)] := by
  decide +kernel

theorem tail_statements : statements (untilEnd HtmlLog.documentTail.toList) = ["copyData()".toList, "showData()".toList] := by
  decide +kernel

theorem beforeScript_append {a x : List Char} (b : List Char) (h : beforeScript a = some x) : x.length + 7 ≤ a.length ∧ beforeScript (a ++ b) = some x := by
  induction a generalizing x with
  | nil => simp [beforeScript] at h
  | cons c t ih =>
    unfold beforeScript at h
    split at h
    · rename_i hp
      cases h
      have hp' := List.isPrefixOf_iff_prefix.mp hp
      refine ⟨by have := hp'.length_le; simpa using this, ?_⟩
      rw [List.cons_append, beforeScript, if_pos]
      rw [List.isPrefixOf_iff_prefix, ← List.cons_append]
      exact hp'.trans (List.prefix_append _ _)
    · rename_i hp
      obtain ⟨y, h1, rfl⟩ := Option.map_eq_some_iff.mp h
      obtain ⟨h2, h3⟩ := ih h1
      refine ⟨by simp; omega, ?_⟩
      rw [List.cons_append, beforeScript, if_neg, h3]
      · rfl
      · intro hq
        apply hp
        rw [List.isPrefixOf_iff_prefix] at hq ⊢
        rw [← List.cons_append] at hq
        exact List.prefix_of_prefix_length_le hq (List.prefix_append _ _) (by simp; omega)

theorem document_clickables (a : List Char) : clickables ((beforeScript (HtmlLog.document a)).getD []) =
    [("addFilter() ".toList, "add filter".toList), ("copyData(); showData() ".toList, "show all data".toList),
     ("filterData(); showData() ".toList, "filter".toList)] := by
  have hc := clickables_body
  obtain ⟨x, h1, h2⟩ := Option.map_eq_some_iff.mp hc
  have : HtmlLog.document a = HtmlLog.documentBody.toList ++ (HtmlLog.documentScript.toList ++ "data = ".toList ++ a ++ [';'] ++ HtmlLog.documentTail.toList) := by
    simp [HtmlLog.document, HtmlLog.documentHead, String.toList_append]
  rw [this, (beforeScript_append _ h1).2]
  exact h2

/-- The page when it is opened: the script sets `data` and runs the statements behind it. -/
def opened (cmp : Compare V X) (zero : X) (stringify : V → List Char) (data : List (Entry V)) : Option (Browser V X) :=
  execAll cmp zero stringify { page := { data := data } } (untilEnd HtmlLog.documentTail.toList)

/-- Whether the table is built again. -/
def shows : Action X → Bool
  | .showAll => true
  | .filter => true
  | _ => false

theorem st1 : statements "addFilter() ".toList = ["addFilter()".toList] := by decide +kernel
theorem st2 : statements "copyData(); showData() ".toList = ["copyData()".toList, "showData()".toList] := by decide +kernel
theorem st3 : statements "filterData(); showData() ".toList = ["filterData()".toList, "showData()".toList] := by decide +kernel

/-- C62. The page of a written document: when it is opened all variables are in the table; each button runs the script that the
document has for it, no action fails, and the table is built again by `show all data` and by `filter`, and by no other action. -/
theorem C62_browser (cmp : Compare V X) (zero : X) (stringify : V → List Char) (a : List Char) (data : List (Entry V)) :
    opened cmp zero stringify data = some ⟨loaded data, showData stringify (loaded data : Page V X)⟩ ∧
    ∀ (b : Browser V X) (x : Action X), perform cmp zero stringify (HtmlLog.document a) b x =
      some ⟨act cmp zero b.page x, if shows x then showData stringify (act cmp zero b.page x) else b.shown⟩ := by
  have e1 : ∀ b : Browser V X, exec cmp zero stringify b "copyData()".toList = some { b with page := copyData b.page } := fun b => by
    unfold exec; rw [if_pos rfl]
  have e2 : ∀ b : Browser V X, exec cmp zero stringify b "filterData()".toList = some { b with page := filterData cmp b.page } := fun b => by
    unfold exec; rw [if_neg (by decide +kernel), if_pos rfl]
  have e3 : ∀ b : Browser V X, exec cmp zero stringify b "addFilter()".toList = some { b with page := addFilter zero b.page } := fun b => by
    unfold exec; rw [if_neg (by decide +kernel), if_neg (by decide +kernel), if_pos rfl]
  have e4 : ∀ b : Browser V X, exec cmp zero stringify b "showData()".toList = some { b with shown := showData stringify b.page } := fun b => by
    unfold exec; rw [if_neg (by decide +kernel), if_neg (by decide +kernel), if_neg (by decide +kernel), if_pos rfl]
  constructor
  · unfold opened execAll
    rw [tail_statements]
    simp only [List.foldlM_cons, List.foldlM_nil, e1, e4, Option.bind_eq_bind, Option.bind_some]
    rfl
  · intro b x
    cases x with
    | showAll =>
      simp only [perform, label, document_clickables]
      rw [show List.find? _ _ = some ("copyData(); showData() ".toList, "show all data".toList) by decide +kernel]
      simp only [Option.bind_some, execAll, st2, List.foldlM_cons, List.foldlM_nil, e1, e4, Option.bind_eq_bind]
      rfl
    | filter =>
      simp only [perform, label, document_clickables]
      rw [show List.find? _ _ = some ("filterData(); showData() ".toList, "filter".toList) by decide +kernel]
      simp only [Option.bind_some, execAll, st3, List.foldlM_cons, List.foldlM_nil, e2, e4, Option.bind_eq_bind]
      rfl
    | addFilter =>
      simp only [perform, label, document_clickables]
      rw [show List.find? _ _ = some ("addFilter() ".toList, "add filter".toList) by decide +kernel]
      simp only [Option.bind_some, execAll, st1, List.foldlM_cons, List.foldlM_nil, e3, Option.bind_eq_bind]
      rfl
    | editFilter i f => rfl
    | editLine l => rfl

/-- C62 with C58: whatever the user does with the page of a written log, a click on `show all data` shows the table of all the variables. -/
theorem C62_browser_show_all (cmp : Compare V X) (zero : X) (stringify : V → List Char) (a : List Char) (data : List (Entry V))
    (xs : List (Action X)) : ∃ b : Browser V X,
      ((opened cmp zero stringify data).bind fun b => (xs ++ [Action.showAll]).foldlM (perform cmp zero stringify (HtmlLog.document a)) b) = some b ∧
      b.shown = showData stringify (loaded data : Page V X) := by
  obtain ⟨h1, h2⟩ := C62_browser cmp zero stringify a data
  have key : ∀ (xs : List (Action X)) (b : Browser V X), b.page.data = data → ∃ b' : Browser V X,
      xs.foldlM (perform cmp zero stringify (HtmlLog.document a)) b = some b' ∧ b'.page.data = data := by
    intro xs
    induction xs with
    | nil => intro b hb; exact ⟨b, rfl, hb⟩
    | cons x xs ih =>
      intro b hb
      rw [List.foldlM_cons, h2]
      exact ih _ (by cases x <;> exact hb)
  rw [h1, Option.bind_some, List.foldlM_append]
  obtain ⟨b', k1, k2⟩ := key xs ⟨loaded data, showData stringify (loaded data : Page V X)⟩ rfl
  rw [k1]
  simp only [Option.bind_eq_bind, Option.bind_some, List.foldlM_cons, List.foldlM_nil, h2]
  refine ⟨_, rfl, ?_⟩
  simp only [shows, if_true, act]
  unfold showData copyData loaded copyData
  rw [k2]

/-- The example with three rows: the filter is added, the line is selected, all is shown. -/
example : ∃ b : Browser Int Int, ((opened ⟨(· < ·), (· > ·), (· = ·)⟩ 0 (fun v : Int => (toString v).toList) (sample.take 3)).bind fun b =>
    [Action.addFilter, .editLine (some 12), .filter, .showAll].foldlM (perform ⟨(· < ·), (· > ·), (· = ·)⟩ 0 (fun v : Int => (toString v).toList)
      (HtmlLog.document [])) b) = some b ∧ readTable b.shown =
    ["GroupIndex".toList, "Line".toList, "File".toList, "var name".toList, "value".toList] ::
    [[['0'], ['1', '0'], ['f'], ['a'], ['1']], [['0'], ['1', '0'], ['f'], ['b'], ['5']], [['1'], ['1', '2'], ['f'], ['a'], ['2']]] := by
  obtain ⟨b, h1, h2⟩ := C62_browser_show_all ⟨(· < ·), (· > ·), (· = ·)⟩ (0 : Int) (fun v : Int => (toString v).toList) [] (sample.take 3)
    [Action.addFilter, .editLine (some 12), .filter]
  refine ⟨b, h1, ?_⟩
  rw [h2]
  decide +kernel

end GTMesh.HtmlScript
