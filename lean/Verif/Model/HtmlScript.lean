import Verif.Base

/-!
# The script of an HTML log (the JavaScript in Debug/HTMLLogger.h)

The functions of the page which show and filter the logged variables.  `V` are the values of variables, `X` what is written in
the number fields of a filter; how JavaScript compares them is a parameter (numbers are compared as numbers).
-/

namespace GTMesh.HtmlScript

/-- An element `[group, line, file, name, value]` of `data`. -/
structure Entry (V : Type) where
  group : Nat
  line : Nat
  file : List Char
  name : List Char
  value : V
  deriving DecidableEq, Repr

/-- The operators `<`, `>` and `==` of a value and the content of a number field. -/
structure Compare (V X : Type) where
  lt : V → X → Bool
  gt : V → X → Bool
  eq : V → X → Bool

/-- The third field of a filter. -/
inductive Operator where
  | less | greater | equal | between
  deriving DecidableEq, Repr

/-- The fields of a filter, HTMLLogger.h:179 -/
structure Filter (X : Type) where
  /-- `group` is selected, not `row` -/
  wholeGroup : Bool
  varName : List Char
  op : Operator
  val1 : X
  val2 : X
  deriving DecidableEq, Repr

/-- The state of the page. -/
structure Page (V X : Type) where
  data : List (Entry V)
  dataToShow : List (Entry V) := []
  filters : List (Filter X) := []
  /-- `apliedRule`; at first it is undefined -/
  apliedRule : Option Bool := none
  /-- the field `selected_line`, it may be empty -/
  selectedLine : Option Int := some (-1)

variable {V X : Type}

/-- `copyData`, HTMLLogger.h:172-174 -/
def copyData (p : Page V X) : Page V X := { p with dataToShow := p.data }

/-- The page when it is loaded: `data` is set and copied, HTMLLogger.h:280, 287-288 -/
def loaded (data : List (Entry V)) : Page V X := copyData { data := data }

/-- The fields of a new filter: the first options, no name and zeros, HTMLLogger.h:179 -/
def newFilter (zero : X) : Filter X := ⟨false, [], .less, zero, zero⟩

/-- `addFilter`, HTMLLogger.h:176-182: `innerHTML +=` builds all the rows again, with the fields as in the text. -/
def addFilter (zero : X) (p : Page V X) : Page V X :=
  { p with filters := p.filters.map (fun _ => newFilter zero) ++ [newFilter zero] }

/-- The body of the loop in `checkData`, HTMLLogger.h:193-202 -/
def matchesFilter (cmp : Compare V X) (f : Filter X) (e : Entry V) : Bool :=
  (e.name = f.varName || e.name = []) &&
  match f.op with
  | .less => cmp.lt e.value f.val1
  | .greater => cmp.gt e.value f.val1
  | .equal => cmp.eq e.value f.val1
  | .between => cmp.gt e.value f.val1 && cmp.lt e.value f.val2

/-- The loop in `checkData`, HTMLLogger.h:186-203: the result and `apliedRule` -/
def checkLoop (cmp : Compare V X) (e : Entry V) (rule : Option Bool) : List (Filter X) → Bool × Option Bool
  | [] => (false, rule)
  | f :: fs => if matchesFilter cmp f e then (true, some f.wholeGroup) else checkLoop cmp e rule fs

/-- `checkData`, HTMLLogger.h:184-209 -/
def checkData (cmp : Compare V X) (fs : List (Filter X)) (rule : Option Bool) (e : Entry V) : Bool × Option Bool :=
  if fs.length > 0 then checkLoop cmp e rule fs else (true, rule)

/-- `for(var j = i; j >= 0 && data[j][0] == groupIndex; j--) index = j`, HTMLLogger.h:227-229; the first argument is `j + 1` -/
def groupStart (data : List (Entry V)) (groupIndex : Nat) : Nat → Nat → Nat
  | 0, index => index
  | j + 1, index =>
    match data[j]? with
    | some e => if e.group = groupIndex then groupStart data groupIndex j j else index
    | none => index

/-- `while(index < data.length && data[index][0] == groupIndex)`, HTMLLogger.h:230-233; the first argument is
`data.length - index` -/
def pushGroup (data : List (Entry V)) (groupIndex : Nat) : Nat → Nat → List (Entry V) → Nat × List (Entry V)
  | 0, index, out => (index, out)
  | n + 1, index, out =>
    match data[index]? with
    | some e => if e.group = groupIndex then pushGroup data groupIndex n (index + 1) (out ++ [e]) else (index, out)
    | none => (index, out)

/-- `restrLine < 0 || data[i][1] == restrLine`; an empty field counts as 0, HTMLLogger.h:215, 219 -/
def lineSelected (selected : Option Int) (e : Entry V) : Bool :=
  let restrLine := selected.getD 0
  decide ((e.line : Int) = restrLine) || decide (restrLine < 0)

/-- The loop of `filterData`, HTMLLogger.h:218-239; the first argument bounds the number of its steps -/
def filterLoop (cmp : Compare V X) (p : Page V X) : Nat → Nat → Option Bool → List (Entry V) → Option Bool × List (Entry V)
  | 0, _, rule, out => (rule, out)
  | n + 1, i, rule, out =>
    match p.data[i]? with
    | none => (rule, out)
    | some e =>
      if lineSelected p.selectedLine e then
        let c := checkData cmp p.filters rule e
        if c.1 then
          match c.2 with
          | some false => filterLoop cmp p n (i + 1) c.2 (out ++ [e])
          | some true =>
            let index := groupStart p.data e.group (i + 1) i
            let g := pushGroup p.data e.group (p.data.length - index) index out
            filterLoop cmp p n (g.1 - 1 + 1) c.2 g.2
          | none => filterLoop cmp p n (i + 1) c.2 out
        else filterLoop cmp p n (i + 1) c.2 out
      else filterLoop cmp p n (i + 1) rule out

/-- `filterData`, HTMLLogger.h:211-240 -/
def filterData (cmp : Compare V X) (p : Page V X) : Page V X :=
  let r := filterLoop cmp p (p.data.length + 1) 0 p.apliedRule []
  { p with apliedRule := r.1, dataToShow := r.2 }

/-- What the user can do with the page: the buttons (HTMLLogger.h:161, 163, 164) and the fields (158, 179). -/
inductive Action (X : Type) where
  | showAll
  | filter
  | addFilter
  | editFilter (i : Nat) (f : Filter X)
  | editLine (l : Option Int)

/-- One action, HTMLLogger.h:158-164 -/
def act (cmp : Compare V X) (zero : X) (p : Page V X) : Action X → Page V X
  | .showAll => copyData p
  | .filter => filterData cmp p
  | .addFilter => addFilter zero p
  | .editFilter i f => { p with filters := p.filters.set i f }
  | .editLine l => { p with selectedLine := l }

/-! ## The table -/

/-- The beginning of the table, HTMLLogger.h:246 -/
def tableHead : String :=
  "<table style=\"position: absolute; width:90%; left:5%\"><tr style=\"background-color:lightgrey\"><th>GroupIndex</th><th>Line</th><th>File</th><th>var name</th><th>value</th></tr>"

/-- The color of a row, HTMLLogger.h:259-265 -/
def rowColor (odd oddGroup : Bool) : String :=
  if odd then (if oddGroup then "#ccffcc" else "#ffeecc") else (if oddGroup then "#66ff66" else "#ffcc66")

/-- The text of a row, HTMLLogger.h:259-267; `stringify` is `JSON.stringify` -/
def showRow (stringify : V → List Char) (odd oddGroup : Bool) (e : Entry V) : List Char :=
  "<tr style=\"background-color:".toList ++ (rowColor odd oddGroup).toList ++ "\"><td>".toList ++
    Nat.toDigits 10 e.group ++ "</td><td>".toList ++ Nat.toDigits 10 e.line ++ "</td><td>".toList ++ e.file ++ "</td><td>".toList ++
    e.name ++ "</td><td>".toList ++ stringify e.value ++ "</td></tr>".toList

/-- The loop of `showData`, HTMLLogger.h:252-269 -/
def showRows (stringify : V → List Char) (odd oddGroup : Bool) (curGroup : Nat) : List (Entry V) → List Char
  | [] => []
  | e :: rest =>
    let oddGroup := if curGroup ≠ e.group then !oddGroup else oddGroup
    showRow stringify odd oddGroup e ++ showRows stringify (!odd) oddGroup e.group rest

/-- `showData`: what is put in the document, HTMLLogger.h:243-273 -/
def showData (stringify : V → List Char) (p : Page V X) : List Char :=
  tableHead.toList ++ showRows stringify false false ((p.dataToShow.head?.map (·.group)).getD 0) p.dataToShow ++ "</table>".toList

end GTMesh.HtmlScript
