import Verif.Spec.Json
import Verif.Model.JsonLog

/-!
# What a JSON log should say
-/

namespace GTMesh.JsonLog

open Json

/-- Characters that a JSON string may contain without an escape. -/
def Unescaped (s : List Char) : Prop := ∀ c ∈ s, c ≠ '"' ∧ c ≠ '\\' ∧ 32 ≤ c.toNat

/-- Characters that `std::quoted` takes care of: all but control characters. -/
def NoControl (s : List Char) : Prop := ∀ c ∈ s, 32 ≤ c.toNat

mutual
/-- The values for which the log is right: finite numbers and bools, texts without quotes and backslashes, pairs whose
first part is a text. -/
def Loggable : LVal → Prop
  | .plain put => isNumber put = true ∨ put = ['t', 'r', 'u', 'e'] ∨ put = ['f', 'a', 'l', 's', 'e']
  | .text s => Unescaped s
  | .list es => AllLoggable es
  | .tuple es => AllLoggable es
  | .pair (.text s) b => Unescaped s ∧ Loggable b
  | .pair _ _ => False
  | .obj ms => MembersLoggable ms
/-- All elements. -/
def AllLoggable : LVals → Prop
  | .nil => True
  | .cons v vs => Loggable v ∧ AllLoggable vs
/-- All members. -/
def MembersLoggable : Members → Prop
  | .nil => True
  | .cons name v ms => Unescaped name ∧ Loggable v ∧ MembersLoggable ms
end

mutual
/-- The JSON value of a variable. -/
def json : LVal → J
  | .plain put => if put = ['t', 'r', 'u', 'e'] then .bool true else if put = ['f', 'a', 'l', 's', 'e'] then .bool false else .num put
  | .text s => .text s
  | .list es => .arr (jsons es)
  | .tuple es => .arr (jsons es)
  | .pair (.text s) b => .obj [(s, json b)]
  | .pair _ _ => .null
  | .obj ms => .obj (jsonMembers ms)
/-- The JSON values of the elements. -/
def jsons : LVals → List J
  | .nil => []
  | .cons v vs => json v :: jsons vs
/-- The JSON values of the members. -/
def jsonMembers : Members → List (List Char × J)
  | .nil => []
  | .cons name v ms => (name, json v) :: jsonMembers ms
end

/-- The record of a variable that is logged without its place. -/
def record (x : List Char × LVal) : J := .obj [("expr".toList, .text x.1), ("data".toList, json x.2)]

/-- The record of a variable that is logged with its place. -/
def recordAt (group line : Nat) (path : List Char) (x : List Char × LVal) : J :=
  .obj [("gInd".toList, .num (Nat.toDigits 10 group)), ("file".toList, .text path), ("line".toList, .num (Nat.toDigits 10 line)),
    ("expr".toList, .text x.1), ("data".toList, json x.2)]

/-- One record for each variable, in order; the variables of one call with a place share a group. -/
def records : Nat → List Call → List J
  | _, [] => []
  | g, .vars n v rest :: cs => ((n, v) :: rest).map record ++ records g cs
  | g, .at_ line path n v rest :: cs => ((n, v) :: rest).map (recordAt g line path) ++ records (g + 1) cs

/-- A path for which `doubleBackSlash` is right: it has no quotes, and no backslash among the first two characters. -/
def GoodPath (path : List Char) : Prop :=
  (∀ c ∈ path, c ≠ '"' ∧ 32 ≤ c.toNat) ∧ '\\' ∉ path.take 2

/-- Calls for which the log is right. -/
def GoodCall : Call → Prop
  | .vars n v rest => ∀ x ∈ (n, v) :: rest, NoControl x.1 ∧ Loggable x.2
  | .at_ _ path n v rest => GoodPath path ∧ ∀ x ∈ (n, v) :: rest, NoControl x.1 ∧ Loggable x.2

end GTMesh.JsonLog
