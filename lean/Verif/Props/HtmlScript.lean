import Verif.Proofs.HtmlScript
import Verif.Props.HtmlLog

/-!
# C62: the page of an HTML log shows and filters the variables
-/

namespace GTMesh.HtmlScript

variable {V X : Type}

/-! ## What is shown -/

/-- C62: whatever the user does, the logged variables stay; and when the page is loaded, and after "show all data", all of them are
shown, in the order in which they were logged. -/
theorem C62_show_all (cmp : Compare V X) (zero : X) (data : List (Entry V)) (actions : List (Action X)) :
    (loaded data : Page V X).dataToShow = data ∧
    (actions.foldl (act cmp zero) (loaded data)).data = data ∧
    ((actions ++ [Action.showAll]).foldl (act cmp zero) (loaded data)).dataToShow = data := by
  have key : ∀ (p : Page V X), (actions.foldl (act cmp zero) p).data = p.data := by
    induction actions with
    | nil => intro p; rfl
    | cons a as ih =>
      intro p
      rw [List.foldl_cons, ih]
      cases a <;> rfl
  refine ⟨rfl, key _, ?_⟩
  rw [List.foldl_append]
  show (actions.foldl (act cmp zero) (loaded data)).data = data
  exact key _

/-- C62: with filters of rows, "filter" shows the variables on the selected line that are meant by one of the filters: each once, in
the order of the log. Missing: pages without a filter, variables without a name, and an empty field of the line (see below). -/
theorem C62_rows_partial (cmp : Compare V X) (p : Page V X) (line : Int) (hl : p.selectedLine = some line) (hf : p.filters ≠ [])
    (hr : ∀ f ∈ p.filters, f.wholeGroup = false) (hn : ∀ e ∈ p.data, e.name ≠ []) (wanted : Entry V → Bool)
    (hw : ∀ e, wanted e = true ↔ OnLine line e ∧ ∃ f ∈ p.filters, Meant cmp f e) :
    (filterData cmp p).dataToShow = p.data.filter wanted := by
  have h := filterLoop_rows cmp p hf hr p.data [] (p.data.length + 1) p.apliedRule [] rfl (by omega)
  simp only [List.length_nil, List.nil_append] at h
  simp only [filterData, h, hl]
  refine List.filter_congr fun e he => ?_
  rw [Bool.eq_iff_iff, hw, ruleOf_isSome cmp _ line e (hn e he)]

/-- C62: with filters of groups, "filter" shows the calls in which one of the variables on the selected line is meant by one of the
filters: all the variables of the call, each once, in the order of the log. Missing as above. -/
theorem C62_groups_partial (cmp : Compare V X) (p : Page V X) (line : Int) (hl : p.selectedLine = some line) (hf : p.filters ≠ [])
    (hr : ∀ f ∈ p.filters, f.wholeGroup = true) (hn : ∀ e ∈ p.data, e.name ≠ []) (hg : Grouped p.data) (wanted : Entry V → Bool)
    (hw : ∀ e, wanted e = true ↔ ∃ x ∈ p.data, x.group = e.group ∧ OnLine line x ∧ ∃ f ∈ p.filters, Meant cmp f x) :
    (filterData cmp p).dataToShow = p.data.filter wanted := by
  refine shown_groups ?_ (filterData_shown cmp p hf hg) wanted fun e => ?_
  · intro e h
    simp only [ruleOf] at h
    split at h
    · obtain ⟨f, hf1, hf2⟩ := Option.map_eq_some_iff.mp h
      rw [hr f (List.mem_of_find?_eq_some hf1)] at hf2
      cases hf2
    · cases h
  · rw [hw]
    refine exists_congr fun x => and_congr_right fun hx => and_congr_right fun _ => ?_
    rw [hl, ruleOf_isSome cmp _ line x (hn x hx)]

/-- C62: with filters of both kinds, nothing that is meant is missed, and what is shown is meant, or a variable of its call is meant by
a filter of groups. -/
theorem C62_mixed_partial (cmp : Compare V X) (p : Page V X) (line : Int) (hl : p.selectedLine = some line) (hf : p.filters ≠ [])
    (hn : ∀ e ∈ p.data, e.name ≠ []) (hg : Grouped p.data) (e : Entry V) :
    (e ∈ p.data → OnLine line e → (∃ f ∈ p.filters, Meant cmp f e) → e ∈ (filterData cmp p).dataToShow) ∧
    (e ∈ (filterData cmp p).dataToShow → e ∈ p.data ∧ ((OnLine line e ∧ ∃ f ∈ p.filters, f.wholeGroup = false ∧ Meant cmp f e) ∨
      ∃ x ∈ p.data, x.group = e.group ∧ OnLine line x ∧ ∃ f ∈ p.filters, f.wholeGroup = true ∧ Meant cmp f x)) := by
  have hm := mem_shown (filterData_shown cmp p hf hg) e
  rw [hl] at hm
  have rule_mem : ∀ x ∈ p.data, ∀ b, ruleOf cmp p.filters (some line) x = some b →
      OnLine line x ∧ ∃ f ∈ p.filters, f.wholeGroup = b ∧ Meant cmp f x := by
    intro x hx b h
    refine ⟨((ruleOf_isSome cmp p.filters line x (hn x hx)).mp (by simp [h])).1, ?_⟩
    simp only [ruleOf] at h
    split at h
    · obtain ⟨f, hf1, hf2⟩ := Option.map_eq_some_iff.mp h
      refine ⟨f, List.mem_of_find?_eq_some hf1, hf2, (matchesFilter_iff cmp f x (hn x hx)).mp ?_⟩
      simpa using List.find?_some hf1
    · cases h
  constructor
  · intro he hon hmeant
    have hs := (ruleOf_isSome cmp p.filters line e (hn e he)).mpr ⟨hon, hmeant⟩
    obtain ⟨b, hb⟩ := Option.isSome_iff_exists.mp hs
    refine hm.mpr ⟨he, ?_⟩
    cases b with
    | false => exact .inl hb
    | true => exact .inr ⟨e, he, rfl, hb⟩
  · intro he
    obtain ⟨hd, h | ⟨x, hx, hxg, hxr⟩⟩ := hm.mp he
    · exact ⟨hd, .inl (rule_mem e hd false h)⟩
    · exact ⟨hd, .inr ⟨x, hx, hxg, rule_mem x hx true hxr⟩⟩

/-- Numbers, as JavaScript compares a number and the text of a number field. -/
def intCompare : Compare Int Int := ⟨fun a b => decide (a < b), fun a b => decide (a > b), fun a b => decide (a = b)⟩

/-- Three calls: two variables, three variables, one variable. -/
def sample : List (Entry Int) :=
  [⟨0, 10, ['f'], ['a'], 1⟩, ⟨0, 10, ['f'], ['b'], 5⟩,
   ⟨1, 12, ['f'], ['a'], 2⟩, ⟨1, 12, ['f'], ['b'], 7⟩, ⟨1, 12, ['f'], ['c'], 7⟩,
   ⟨2, 10, ['f'], ['b'], -3⟩]

example : (∀ e ∈ sample, e.name ≠ []) ∧ Grouped sample := by
  constructor
  · decide
  · show List.Pairwise _ _
    decide

/-- Rows: `b` between 0 and 6. -/
example : (filterData intCompare { data := sample, filters := [⟨false, ['b'], .between, 0, 6⟩] }).dataToShow =
    [⟨0, 10, ['f'], ['b'], 5⟩] := by decide +kernel

/-- Two filters, the second is edited. -/
example : ((act intCompare 0 { data := sample, filters := [⟨false, ['b'], .between, 0, 6⟩, ⟨false, ['a'], .equal, 0, 0⟩] }
    (.editFilter 1 ⟨true, ['a'], .less, 2, 0⟩)).filters).map (·.wholeGroup) = [false, true] := by decide +kernel

/-- Groups: the calls with `b` greater than 4; the second with the line. -/
example : (filterData intCompare { data := sample, filters := [⟨true, ['b'], .greater, 4, 0⟩] }).dataToShow = sample.take 5 ∧
    (filterData intCompare { data := sample, filters := [⟨true, ['b'], .greater, 4, 0⟩], selectedLine := some 12 }).dataToShow =
      (sample.drop 2).take 3 := by decide +kernel

/-- C62: what the user enters is what is kept: an edit of a filter that is on the page makes it the entered one, keeps all the others
and their number, and an edit of the line changes the line only; neither changes what is logged or shown before "filter" is pressed. -/
theorem C62_edit (cmp : Compare V X) (zero : X) (p : Page V X) (i : Nat) (f : Filter X) (l : Option Int) :
    (i < p.filters.length → (act cmp zero p (.editFilter i f)).filters[i]? = some f) ∧
    (∀ (j : Nat), j ≠ i → (act cmp zero p (.editFilter i f)).filters[j]? = p.filters[j]?) ∧
    (act cmp zero p (.editFilter i f)).filters.length = p.filters.length ∧
    (act cmp zero p (.editFilter i f)).dataToShow = p.dataToShow ∧
    (act cmp zero p (.editFilter i f)).data = p.data ∧
    (act cmp zero p (.editFilter i f)).selectedLine = p.selectedLine ∧
    (act cmp zero p (.editLine l)).selectedLine = l ∧
    (act cmp zero p (.editLine l)).filters = p.filters ∧
    (act cmp zero p (.editLine l)).dataToShow = p.dataToShow ∧
    (act cmp zero p (.editLine l)).data = p.data := by
  refine ⟨fun h => ?_, fun j hj => ?_, ?_, rfl, rfl, rfl, rfl, rfl, rfl, rfl⟩
  · show (p.filters.set i f)[i]? = some f
    simp [h]
  · show (p.filters.set i f)[j]? = p.filters[j]?
    rw [List.getElem?_set_ne (Ne.symm hj)]
  · show (p.filters.set i f).length = p.filters.length
    simp

/-! ## What is wrong -/

/-- C62 is false without filters: on a page that was just loaded "filter" shows nothing, whatever was logged and whatever line is
selected (the code means to show all the variables of the line). -/
theorem C62_no_filter_violated (cmp : Compare V X) (data : List (Entry V)) (line : Option Int) :
    (filterData cmp { (loaded data : Page V X) with selectedLine := line }).dataToShow = [] := by
  have key : ∀ (p : Page V X), p.filters = [] → ∀ n i, filterLoop cmp p n i none [] = (none, []) := by
    intro p hp n
    induction n with
    | zero => intro i; rfl
    | succ n ih =>
      intro i
      simp only [filterLoop]
      split
      · rfl
      · split <;> simp [checkData, hp, ih]
  simp [filterData, key, loaded, copyData]

/-- C62 is false for a filter without a name: the code means that it is a filter for all the variables, but it shows none. -/
theorem C62_any_name_violated : (filterData intCompare { data := sample, filters := [⟨false, [], .less, 100, 0⟩] }).dataToShow = [] := by
  decide +kernel

/-- C62 is false for filters of both kinds: a variable is shown twice when it is meant by a filter of rows and a later variable of its
call by a filter of groups. -/
theorem C62_mixed_violated : (filterData intCompare { data := sample, filters := [⟨false, ['a'], .equal, 1, 0⟩, ⟨true, ['b'], .equal, 5, 0⟩] }).dataToShow =
    [⟨0, 10, ['f'], ['a'], 1⟩, ⟨0, 10, ['f'], ['a'], 1⟩, ⟨0, 10, ['f'], ['b'], 5⟩] := by decide +kernel

/-- The order of the filters matters: the first that means a variable decides, so a filter of groups has no effect behind a filter of
rows for the same variables. -/
theorem C62_order_violated :
    (filterData intCompare { data := sample, filters := [⟨false, ['b'], .equal, 5, 0⟩, ⟨true, ['b'], .equal, 5, 0⟩] }).dataToShow =
      [⟨0, 10, ['f'], ['b'], 5⟩] ∧
    (filterData intCompare { data := sample, filters := [⟨true, ['b'], .equal, 5, 0⟩, ⟨false, ['b'], .equal, 5, 0⟩] }).dataToShow =
      sample.take 2 := by decide +kernel

/-- C62 is false when a filter is added: the fields of the filters that are there lose their content. -/
theorem C62_add_filter_violated (zero : X) (p : Page V X) (f : Filter X) (hf : p.filters = [f]) :
    (addFilter zero p).filters = [⟨false, [], .less, zero, zero⟩, ⟨false, [], .less, zero, zero⟩] := by
  simp [addFilter, hf, newFilter]

/-- An empty field of the line selects the line 0. -/
theorem C62_empty_line_violated (cmp : Compare V X) (p : Page V X) (h : p.selectedLine = none) (hf : p.filters ≠ [])
    (hr : ∀ f ∈ p.filters, f.wholeGroup = false) : ∀ e ∈ (filterData cmp p).dataToShow, e.line = 0 := by
  intro e he
  have hk := filterLoop_rows cmp p hf hr p.data [] (p.data.length + 1) p.apliedRule [] rfl (by omega)
  simp only [List.length_nil, List.nil_append] at hk
  simp only [filterData, hk] at he
  have := (List.mem_filter.mp he).2
  simp only [ruleOf, h, lineSelected, Option.getD] at this
  split at this
  · rename_i hs
    simp at hs
    omega
  · cases this

/-! ## The table -/

/-- C62: a browser that reads the table sees the heading and one row for each variable that is shown, in order, with the number of the
call, the line, the file, the name and the text of the value. Missing: files, names and values with `<` or `&`. -/
theorem C62_table_partial (stringify : V → List Char) (p : Page V X)
    (h : ∀ e ∈ p.dataToShow, PlainText e.file ∧ PlainText e.name ∧ PlainText (stringify e.value)) :
    readTable (showData stringify p) = heading :: p.dataToShow.map (cells stringify) :=
  readTable_showData stringify p h

example : readTable (showData (fun v : Int => (toString v).toList) (loaded (sample.take 3) : Page Int Int)) =
    ["GroupIndex".toList, "Line".toList, "File".toList, "var name".toList, "value".toList] ::
    [[['0'], ['1', '0'], ['f'], ['a'], ['1']], [['0'], ['1', '0'], ['f'], ['b'], ['5']], [['1'], ['1', '2'], ['f'], ['a'], ['2']]] := by
  decide +kernel

/-- C62 is false for names with tags, such as `size<int>()`: the table has another name. -/
theorem C62_tag_violated : readTable (showData (fun v : Int => (toString v).toList)
      (loaded [⟨0, 10, ['f'], "size<int>()".toList, 4⟩] : Page Int Int)) =
    [heading, [['0'], ['1', '0'], ['f'], "size()".toList, ['4']]] := by
  decide +kernel

/-! ## From the log to the page -/

theorem rows_eq (cs : List HtmlLog.Call) : ∀ g, HtmlLog.rows g cs = (entriesOf g cs).map Entry.row := by
  induction cs with
  | nil => intro g; rfl
  | cons c cs ih =>
    intro g
    cases c with
    | vars x xs => exact ih g
    | at_ line path n v rest =>
      simp only [HtmlLog.rows, entriesOf, HtmlLog.rowsOf, ih, List.map_append, List.map_map]
      rfl

theorem group_le (cs : List HtmlLog.Call) : ∀ g, ∀ e ∈ entriesOf g cs, g ≤ e.group := by
  induction cs with
  | nil => intro g e he; cases he
  | cons c cs ih =>
    intro g e he
    cases c with
    | vars x xs => exact ih g e he
    | at_ line path n v rest =>
      simp only [entriesOf, List.mem_append, List.mem_map] at he
      rcases he with ⟨x, _, rfl⟩ | he
      · exact Nat.le_refl _
      · exact Nat.le_of_succ_le (ih (g + 1) e he)

theorem entriesOf_grouped (cs : List HtmlLog.Call) : ∀ g, Grouped (entriesOf g cs) := by
  induction cs with
  | nil => intro g; exact List.Pairwise.nil
  | cons c cs ih =>
    intro g
    cases c with
    | vars x xs => exact ih g
    | at_ line path n v rest =>
      refine List.pairwise_append.mpr ⟨?_, ih _, ?_⟩
      · exact List.pairwise_map.mpr (List.pairwise_of_forall (fun _ _ => Nat.le_refl _))
      · intro a ha b hb
        obtain ⟨x, _, rfl⟩ := List.mem_map.mp ha
        exact Nat.le_of_succ_le (group_le cs (g + 1) b hb)

/-- C62 with C58: the document that a session of the logger writes sets `data` to the variables of the calls; they are as the filters of
groups need them, and the page shows all of them when it is opened. -/
theorem C62_log_partial (file : List Char) (cs : List HtmlLog.Call) (hne : cs ≠ []) (h : ∀ c ∈ cs, HtmlLog.GoodCall c) :
    ∃ l a data, HtmlLog.session file cs = .ok l ∧ l.closed = [(file, HtmlLog.document a)] ∧
      HtmlLog.jsArray a = some (data.map Entry.row) ∧ Grouped data ∧ data = entriesOf 0 cs ∧
      (loaded data : Page Json.J X).dataToShow = data := by
  obtain ⟨l, a, h1, h2, h3⟩ := HtmlLog.C58_log_partial file cs hne h
  exact ⟨l, a, entriesOf 0 cs, h1, h2, by rw [h3, rows_eq], entriesOf_grouped cs 0, rfl, rfl⟩

example : entriesOf 0 [.at_ 7 "m.cpp".toList ['x'] (.plain ['1']) [(['y'], .plain ['2'])], .at_ 9 "m.cpp".toList ['z'] (.plain ['3']) []] =
    [⟨0, 7, "m.cpp".toList, ['x'], JsonLog.json (.plain ['1'])⟩, ⟨0, 7, "m.cpp".toList, ['y'], JsonLog.json (.plain ['2'])⟩,
     ⟨1, 9, "m.cpp".toList, ['z'], JsonLog.json (.plain ['3'])⟩] := rfl

end GTMesh.HtmlScript
