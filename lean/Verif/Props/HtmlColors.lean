import Verif.Model.HtmlScript

/-! # C62: the exact text of the table, with the colours of its rows -/

namespace GTMesh.HtmlScript

variable {V X : Type}

/-- How often the group changes up to row `i`. -/
def groupChanges (data : List (Entry V)) (i : Nat) : Nat :=
  ((List.range i).filter fun (j : Nat) => decide ((data[j]?).map (·.group) ≠ (data[j + 1]?).map (·.group))).length

/-- The colour of row `i`: orange or green by the group, dark or light by the row. -/
def colorOf (data : List (Entry V)) (i : Nat) : String :=
  if groupChanges data i % 2 = 0 then (if i % 2 = 0 then "#ffcc66" else "#ffeecc") else (if i % 2 = 0 then "#66ff66" else "#ccffcc")

/-- The text of row `i`. -/
def rowText (stringify : V → List Char) (data : List (Entry V)) (i : Nat) : List Char :=
  match data[i]? with
  | none => []
  | some e => "<tr style=\"background-color:".toList ++ (colorOf data i).toList ++ "\"><td>".toList ++
      Nat.toDigits 10 e.group ++ "</td><td>".toList ++ Nat.toDigits 10 e.line ++ "</td><td>".toList ++ e.file ++ "</td><td>".toList ++
      e.name ++ "</td><td>".toList ++ stringify e.value ++ "</td></tr>".toList

theorem rowColor_eq (data : List (Entry V)) (i : Nat) :
    rowColor (decide (i % 2 = 1)) (decide (groupChanges data i % 2 = 1)) = colorOf data i := by
  unfold rowColor colorOf
  rcases Nat.mod_two_eq_zero_or_one i with h | h <;> rcases Nat.mod_two_eq_zero_or_one (groupChanges data i) with h' | h' <;> simp [h, h']

theorem groupChanges_succ (data : List (Entry V)) (i : Nat) {a b : Entry V} (ha : data[i]? = some a) (hb : data[i + 1]? = some b) :
    groupChanges data (i + 1) = groupChanges data i + if a.group ≠ b.group then 1 else 0 := by
  unfold groupChanges
  rw [List.range_succ, List.filter_append, List.length_append]
  congr 1
  by_cases h : a.group = b.group <;> simp [ha, hb, h]

theorem showRows_eq (stringify : V → List Char) (data : List (Entry V)) : ∀ (n k cur : Nat) (og : Bool), data.length - k = n →
    (∀ e, data[k]? = some e → (if cur ≠ e.group then !og else og) = decide (groupChanges data k % 2 = 1)) →
    showRows stringify (decide (k % 2 = 1)) og cur (data.drop k) = (List.range' k n).flatMap (rowText stringify data) := by
  intro n
  induction n with
  | zero =>
    intro k cur og hn _
    rw [List.drop_eq_nil_of_le (by omega)]
    rfl
  | succ n ih =>
    intro k cur og hn ho
    have hk : k < data.length := by omega
    have he : data[k]? = some data[k] := by simp [hk]
    rw [List.drop_eq_getElem_cons hk, showRows, List.range'_succ, List.flatMap_cons]
    have h1 := ho _ he
    rw [show (if cur ≠ data[k].group then !og else og) = decide (groupChanges data k % 2 = 1) from h1]
    have hodd : (!decide (k % 2 = 1)) = decide ((k + 1) % 2 = 1) := by
      rcases Nat.mod_two_eq_zero_or_one k with h | h
      · simp [h, show (k + 1) % 2 = 1 by omega]
      · simp [h, show (k + 1) % 2 = 0 by omega]
    simp only [hodd]
    rw [ih (k + 1) data[k].group _ (by omega)]
    · congr 1
      unfold rowText showRow
      rw [he, rowColor_eq]
    · intro b hb
      rw [groupChanges_succ data k he hb]
      by_cases h : data[k].group = b.group
      · simp [h]
      · rcases Nat.mod_two_eq_zero_or_one (groupChanges data k) with h' | h'
        · simp [h, h', show (groupChanges data k + 1) % 2 = 1 by omega]
        · simp [h, h', show (groupChanges data k + 1) % 2 = 0 by omega]

/-- C62, the exact text of the table: the heading and a row for each variable shown; the colour of a row changes between orange and green
with the group, and between dark and light with every row. -/
theorem C62_text (stringify : V → List Char) (p : Page V X) :
    showData stringify p = "<table style=\"position: absolute; width:90%; left:5%\"><tr style=\"background-color:lightgrey\"><th>GroupIndex</th><th>Line</th><th>File</th><th>var name</th><th>value</th></tr>".toList ++
      (List.range p.dataToShow.length).flatMap (rowText stringify p.dataToShow) ++ "</table>".toList := by
  have := showRows_eq stringify p.dataToShow p.dataToShow.length 0 ((p.dataToShow.head?.map (·.group)).getD 0) false rfl (by
    intro e he
    rw [show p.dataToShow.head? = some e by rw [← he]; cases p.dataToShow <;> rfl]
    simp [groupChanges])
  unfold showData
  rw [List.range_eq_range', ← this, List.drop_zero]
  congr 1

example : (List.range 4).map (colorOf [⟨0, 1, [], [], 1⟩, ⟨0, 1, [], [], 1⟩, ⟨3, 1, [], [], 1⟩, (⟨5, 1, [], [], 1⟩ : Entry Nat)]) =
    ["#ffcc66", "#ffeecc", "#66ff66", "#ffeecc"] := by decide

end GTMesh.HtmlScript
