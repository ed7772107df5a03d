import Verif.Model.TraitsAlgorithm

/-! # Member-wise arithmetic: the numbers of an object in order -/

namespace GTMesh.TA
variable {R : Type}

mutual
/-- The numbers in a value, in the order of the members. -/
def numbers : Val R → List R
  | .num x => [x]
  | .obj ms => numbersList ms
/-- The numbers in a list of members. -/
def numbersList : List (Val R) → List R
  | [] => []
  | m :: ms => numbers m ++ numbersList ms
end

mutual
/-- The values are of the same type. -/
def sameShape : Val R → Val R → Prop
  | .num _, .num _ => True
  | .obj ms, .obj ns => sameShapes ms ns
  | .num _, .obj _ => False
  | .obj _, .num _ => False
/-- The members are of the same types. -/
def sameShapes : List (Val R) → List (Val R) → Prop
  | [], [] => True
  | m :: ms, n :: ns => sameShape m n ∧ sameShapes ms ns
  | [], _ :: _ => False
  | _ :: _, [] => False
end

/-- `vs` is an object of the same class as `xs` whose numbers are `op` of the numbers of `xs` and `ys`, one by one. -/
def Memberwise2 (op : R → R → R) (xs ys vs : List (Val R)) : Prop :=
  sameShapes vs xs ∧ numbersList vs = List.zipWith op (numbersList xs) (numbersList ys)

/-- `vs` is an object of the same class as `xs` whose numbers are `f` of the numbers of `xs`. -/
def Memberwise1 (f : R → R) (xs vs : List (Val R)) : Prop :=
  sameShapes vs xs ∧ numbersList vs = (numbersList xs).map f

mutual
/-- There is no empty array in the value. -/
def noEmptyArray : Val R → Prop
  | .num _ => True
  | .obj ms => ms ≠ [] ∧ noEmptyArrays ms
/-- There is no empty array in the members. -/
def noEmptyArrays : List (Val R) → Prop
  | [] => True
  | m :: ms => noEmptyArray m ∧ noEmptyArrays ms
end

end GTMesh.TA
