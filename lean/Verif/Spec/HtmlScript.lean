import Verif.Model.HtmlScript
import Verif.Spec.HtmlLog

/-!
# What the page of an HTML log should show

Filters select variables; the table has one row for each selected variable.
-/

namespace GTMesh.HtmlScript

variable {V X : Type}

/-- The variable is meant by the filter: it has the name and its value is in the range. -/
def Meant (cmp : Compare V X) (f : Filter X) (e : Entry V) : Prop :=
  e.name = f.varName ∧
  (f.op = .less → cmp.lt e.value f.val1 = true) ∧
  (f.op = .greater → cmp.gt e.value f.val1 = true) ∧
  (f.op = .equal → cmp.eq e.value f.val1 = true) ∧
  (f.op = .between → cmp.gt e.value f.val1 = true ∧ cmp.lt e.value f.val2 = true)

/-- The variable is on the selected line; a negative number selects all the lines. -/
def OnLine (line : Int) (e : Entry V) : Prop := line < 0 ∨ (e.line : Int) = line

/-- The variables of a call follow each other: the numbers of the groups do not decrease. -/
def Grouped (data : List (Entry V)) : Prop := data.Pairwise fun a b => a.group ≤ b.group

/-! ## Reading a table

Tags are between `<` and `>`, the rest is text.  A row is what is between `<tr …>` and `</tr>`, a cell is the text between `<td>` and
`</td>` (or `th`). -/

/-- A part of the text of a document. -/
inductive Token where
  | tag (t : List Char)
  | text (t : List Char)
  deriving DecidableEq, Repr

/-- The parts of a text; the first argument says if the second is the beginning of a tag. -/
def tokens : Bool → List Char → List Char → List Token
  | true, acc, [] => [.tag acc]
  | false, acc, [] => [.text acc]
  | true, acc, c :: s => if c = '>' then .tag acc :: tokens false [] s else tokens true (acc ++ [c]) s
  | false, acc, c :: s => if c = '<' then .text acc :: tokens true [] s else tokens false (acc ++ [c]) s

/-- The cells of the rows; the first arguments are the row and the cell that are read. -/
def tableRows : List (List Char) → List Char → List Token → List (List (List Char))
  | _, _, [] => []
  | row, cell, .text t :: r => tableRows row (cell ++ t) r
  | row, cell, .tag t :: r =>
    if t = ['/', 't', 'r'] then row :: tableRows [] [] r
    else if t = ['/', 't', 'd'] ∨ t = ['/', 't', 'h'] then tableRows (row ++ [cell]) [] r
    else if t = ['t', 'd'] ∨ t = ['t', 'h'] then tableRows row [] r
    else if t.take 2 = ['t', 'r'] then tableRows [] [] r
    else tableRows row cell r

/-- The rows that a browser shows. Entities are not decoded. -/
def readTable (s : List Char) : List (List (List Char)) := tableRows [] [] (tokens false [] s)

/-- Text that a document shows as it is. -/
def PlainText (s : List Char) : Prop := ∀ c ∈ s, c ≠ '<' ∧ c ≠ '&'

/-- The row of a variable. -/
def cells (stringify : V → List Char) (e : Entry V) : List (List Char) :=
  [Nat.toDigits 10 e.group, Nat.toDigits 10 e.line, e.file, e.name, stringify e.value]

/-- The first row of the table. -/
def heading : List (List Char) :=
  ["GroupIndex".toList, "Line".toList, "File".toList, "var name".toList, "value".toList]

/-! ## The variables of a log -/

/-- The variables of a log as the script sees them. -/
def entriesOf : Nat → List HtmlLog.Call → List (Entry Json.J)
  | _, [] => []
  | g, .vars _ _ :: cs => entriesOf g cs
  | g, .at_ line path n v rest :: cs =>
    ((n, v) :: rest).map (fun x => ⟨g, line, path, x.1, JsonLog.json x.2⟩) ++ entriesOf (g + 1) cs

/-- A row of the array as an entry. -/
def Entry.row (e : Entry Json.J) : HtmlLog.Row := ⟨Nat.toDigits 10 e.group, Nat.toDigits 10 e.line, e.file, e.name, e.value⟩

end GTMesh.HtmlScript
