import Verif.Model.AbsOverload

/-! # What C66 means -/

namespace GTMesh.AbsOverload

mutual
/-- The object with the absolute values of its numbers. -/
def absolute : Obj → Obj
  | .num t x => .num t x.abs
  | .arr g es => .arr g (absolutes es)
  | .cls g as => .cls g (absolutes as)
def absolutes : Objs → Objs
  | .nil => .nil
  | .cons o os => .cons (absolute o) (absolutes os)
end

/-- A number of the type. -/
def Fits (t : Ty) (x : Rat) : Prop := t.floating = true ∨ ∃ n : Int, x = n ∧ t.lo ≤ n ∧ n < t.hi

/-- Types of integers that are smaller than `int`. -/
def Ty.small : Ty → Bool
  | .bool | .char | .short | .ushort => true
  | _ => false

mutual
/-- The objects for which `abs` is right: the numbers are none of the smallest ones; their types are types of the visible functions, or,
for attributes of classes, small; and attributes that are arrays or classes belong to the global namespace. -/
def Suits (vis : List Ty) : Bool → Obj → Prop
  | outer, .num t x => Fits t x ∧ (t.signed = true → x ≠ t.lo) ∧ (t ∈ vis ∨ (outer = false ∧ t.small = true))
  | outer, .arr g es => (outer = true ∨ g = true) ∧ SuitsAll vis true es
  | outer, .cls g as => (outer = true ∨ g = true) ∧ SuitsAll vis false as
def SuitsAll (vis : List Ty) : Bool → Objs → Prop
  | _, .nil => True
  | outer, .cons o os => Suits vis outer o ∧ SuitsAll vis outer os
end

end GTMesh.AbsOverload
