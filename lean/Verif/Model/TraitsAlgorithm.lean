import Verif.Base

/-!
# Arithmetic of traited classes (Traits/TraitsAlgorithm/TraitsAlgorithm.h)

A value of a traited class is the list of its members; a member is a number, or an object: a nested traited class or an
array (`Vector`), on which the operators act in the same way, entry by entry.  Objects live at addresses so that the
operands of an operator may be the same object.  Numbers are exact; conversions between number types are not modelled.
Members of the two operands of an operator have the same type, hence the same shape.
-/

namespace GTMesh.TA

/-- The value of a member. -/
inductive Val (R : Type) where
  | num (x : R)
  | obj (ms : List (Val R))

variable {R : Type}

mutual
/-- A binary operator on two members of the same type: the operators of nested classes and arrays are member-wise again
(they build a new object). TraitsAlgorithm.h:44-48 with `Operator` = `BinaryPlus`, `BinaryMinus`, `BinaryStar` -/
def bin (op : R → R → R) : Val R → Val R → Val R
  | .num x, .num y => .num (op x y)
  | .obj ms, .obj ns => .obj (binList op ms ns)
  | v, _ => v
/-- The members of two objects. -/
def binList (op : R → R → R) : List (Val R) → List (Val R) → List (Val R)
  | m :: ms, n :: ns => bin op m n :: binList op ms ns
  | _, _ => []
end

mutual
/-- A function of one number on a member, TraitsAlgorithm.h:102-104; with a fixed real operand `k` also lines 71-75. -/
def un (f : R → R) : Val R → Val R
  | .num x => .num (f x)
  | .obj ms => .obj (unList f ms)
/-- The members of an object. -/
def unList (f : R → R) : List (Val R) → List (Val R)
  | [] => []
  | m :: ms => un f m :: unList f ms
end

/-- Objects of a traited class: the members at each address. -/
abbrev Store (R : Type) := Nat → List (Val R)

/-- `getAttr<Index>(res) = v` -/
def Store.setMember (s : Store R) (res i : Nat) (v : Val R) : Store R :=
  fun a => if a = res then (s a).set i v else s a

/-- `TraitsBinaryExpressionProcesor::evaluate(res, op1, op2)` for the members `i`, `i + 1`, … (`k` of them),
TraitsAlgorithm.h:29-49: member after member, in place. -/
def evaluate2 (op : R → R → R) (res a b : Nat) : Nat → Nat → Store R → Res (Store R)
  | _, 0, s => .ok s
  | i, k + 1, s =>
    (Res.idx (s a) i).bind fun x => (Res.idx (s b) i).bind fun y =>
    evaluate2 op res a b (i + 1) k (s.setMember res i (bin op x y))

/-- A real operand passed by reference: a separate variable, or a number that is member `i` of the object at `a`. -/
inductive Factor (R : Type) where
  | value (k : R)
  | member (a i : Nat)

/-- The present value of the operand. -/
def Factor.get (s : Store R) : Factor R → Res R
  | .value k => .ok k
  | .member a i => (Res.idx (s a) i).bind fun v => match v with | .num x => .ok x | .obj _ => .ub

/-- `TraitsBinaryExpressionProcesor::evaluate(res, op1, Real op2)`, TraitsAlgorithm.h:55-76 -/
def evaluateReal (op : R → R → R) (res a : Nat) (f : Factor R) : Nat → Nat → Store R → Res (Store R)
  | _, 0, s => .ok s
  | i, k + 1, s =>
    (Res.idx (s a) i).bind fun x => (f.get s).bind fun y =>
    evaluateReal op res a f (i + 1) k (s.setMember res i (un (fun z => op z y) x))

/-- `TraitsUnaryExpressionProcesor::evaluate(res, op1)`, TraitsAlgorithm.h:86-105 -/
def evaluate1 (f : R → R) (res a : Nat) : Nat → Nat → Store R → Res (Store R)
  | _, 0, s => .ok s
  | i, k + 1, s =>
    (Res.idx (s a) i).bind fun x => evaluate1 f res a (i + 1) k (s.setMember res i (un f x))

/-! ## Operators

`n` is the number of members of the class, `res` the address of the local `TraitT res`. A function returns the store and
the value it returns; `a` and `b` are the addresses of `op1` and `op2`. -/

/-- Value of the object at `a` after `s`. -/
def ret (a : Nat) (s : Store R) : Res (Store R × List (Val R)) := .ok (s, s a)

/-- `op1 ∘= op2`: `operator+=`, `operator-=`, `operator*=`. TraitsAlgorithm.h:122-129, 182-189, 295-302 -/
def assign (op : R → R → R) (n a b : Nat) (s : Store R) : Res (Store R × List (Val R)) :=
  (evaluate2 op a a b 0 n s).bind (ret a)

/-- `op1 ∘ op2` with two constant references. TraitsAlgorithm.h:132-139, 192-199, 305-312 -/
def both (op : R → R → R) (n res a b : Nat) (s : Store R) : Res (Store R × List (Val R)) :=
  (evaluate2 op res a b 0 n s).bind (ret res)

/-- `operator+(const&, &&)` (144-149), `operator+(&&, &&)` (159-163), `operator*(const&, &&)` (314-318): the second
operand is updated with the operands exchanged. -/
def swapped (op : R → R → R) (n a b : Nat) (s : Store R) : Res (Store R × List (Val R)) := assign op n b a s

/-- `operator-(const&, &&)`, TraitsAlgorithm.h:204-210: there is no return statement. -/
def minusTemporary [Sub R] (n a b : Nat) (s : Store R) : Res (Store R × List (Val R)) :=
  (evaluate2 (fun x y => x - y) b a b 0 n s).bind fun _ => .ub

/-- `op1 += op2`, TraitsAlgorithm.h:122-129; also `operator+(&&, const&)`, 152-156 -/
def plusAssign [Add R] (n a b : Nat) (s : Store R) : Res (Store R × List (Val R)) := assign (fun x y => x + y) n a b s

/-- `op1 + op2`, TraitsAlgorithm.h:132-139 -/
def plus [Add R] (n res a b : Nat) (s : Store R) : Res (Store R × List (Val R)) := both (fun x y => x + y) n res a b s

/-- `operator+(const&, &&)` and `operator+(&&, &&)`, TraitsAlgorithm.h:144-149, 159-163 -/
def plusTemporary [Add R] (n a b : Nat) (s : Store R) : Res (Store R × List (Val R)) := swapped (fun x y => x + y) n a b s

/-- `op1 -= op2`, TraitsAlgorithm.h:182-189; also `operator-(&&, const&)` and `operator-(&&, &&)`, 213-224 -/
def minusAssign [Sub R] (n a b : Nat) (s : Store R) : Res (Store R × List (Val R)) := assign (fun x y => x - y) n a b s

/-- `op1 - op2`, TraitsAlgorithm.h:192-199 -/
def minus [Sub R] (n res a b : Nat) (s : Store R) : Res (Store R × List (Val R)) := both (fun x y => x - y) n res a b s

/-- `op1 *= op2`, TraitsAlgorithm.h:295-302; also `operator*(&&, const&)`, 320-324 -/
def timesAssign [Mul R] (n a b : Nat) (s : Store R) : Res (Store R × List (Val R)) := assign (fun x y => x * y) n a b s

/-- `op1 * op2`, TraitsAlgorithm.h:305-312 -/
def times [Mul R] (n res a b : Nat) (s : Store R) : Res (Store R × List (Val R)) := both (fun x y => x * y) n res a b s

/-- `operator*(const&, &&)`, TraitsAlgorithm.h:314-318 -/
def timesTemporary [Mul R] (n a b : Nat) (s : Store R) : Res (Store R × List (Val R)) := swapped (fun x y => x * y) n a b s

/-- `op1 *= k`, TraitsAlgorithm.h:248-255; also `operator*(k, &&)` and `operator*(&&, k)`, 276-286 -/
def scaleAssign [Mul R] (n a : Nat) (k : Factor R) (s : Store R) : Res (Store R × List (Val R)) :=
  (evaluateReal (fun x y => x * y) a a k 0 n s).bind (ret a)

/-- `op1 * k` and `k * op1`, TraitsAlgorithm.h:258-272 -/
def scale [Mul R] (n res a : Nat) (k : Factor R) (s : Store R) : Res (Store R × List (Val R)) :=
  (evaluateReal (fun x y => x * y) res a k 0 n s).bind (ret res)

/-- `op1 / k`: `(1.0/op2) * op1`, TraitsAlgorithm.h:331-344 -/
def divide [Mul R] [Div R] [One R] (n res a : Nat) (k : Factor R) (s : Store R) : Res (Store R × List (Val R)) :=
  (k.get s).bind fun y => scale n res a (.value (1 / y)) s

/-- `pow(op1, k)`, TraitsAlgorithm.h:377-384; `pw` is the power of numbers. -/
def power (pw : R → R → R) (n res a : Nat) (k : Factor R) (s : Store R) : Res (Store R × List (Val R)) :=
  (evaluateReal pw res a k 0 n s).bind (ret res)

/-- `pow(&&, k)`, TraitsAlgorithm.h:367-374 -/
def powerTemporary (pw : R → R → R) (n a : Nat) (k : Factor R) (s : Store R) : Res (Store R × List (Val R)) :=
  (evaluateReal pw a a k 0 n s).bind (ret a)

/-- `pow(k, op2)`: `return pow(op2, op1)`, TraitsAlgorithm.h:387-399 -/
def powerOfReal (pw : R → R → R) (n res a : Nat) (k : Factor R) (s : Store R) : Res (Store R × List (Val R)) :=
  power pw n res a k s

/-- `exp`, `log`, `log2`, `log10`, `sqrt`, `cbrt`, unary minus and `abs` of a constant reference,
TraitsAlgorithm.h:475-482, 517-524, 557-564, 598-605, 639-646, 678-685, 700-707, 736-743 -/
def function (f : R → R) (n res a : Nat) (s : Store R) : Res (Store R × List (Val R)) :=
  (evaluate1 f res a 0 n s).bind (ret res)

/-- The same of a temporary, TraitsAlgorithm.h:465-472, 507-514, 547-554, 588-595, 629-636, 668-675, 709-716, 745-752 -/
def functionTemporary (f : R → R) (n a : Nat) (s : Store R) : Res (Store R × List (Val R)) :=
  (evaluate1 f a a 0 n s).bind (ret a)

/-- `-op1`, TraitsAlgorithm.h:700-707 -/
def negate [Neg R] (n res a : Nat) (s : Store R) : Res (Store R × List (Val R)) := function (fun x => -x) n res a s

/-- `-op1` of a temporary, TraitsAlgorithm.h:709-716 -/
def negateTemporary [Neg R] (n a : Nat) (s : Store R) : Res (Store R × List (Val R)) := functionTemporary (fun x => -x) n a s

/-! ## Aggregation -/

mutual
/-- `TraitsAggregationProcesor::evaluate`, TraitsAlgorithm.h:872-916: a number is itself, the members of a class and the
entries of an array are combined from the first to the last; an empty array gives `0.0`. -/
def aggregate (op : R → R → R) (zero : R) : Val R → R
  | .num x => x
  | .obj [] => zero
  | .obj (m :: ms) => aggregateList op zero (aggregate op zero m) ms
/-- The remaining members, with the result so far. -/
def aggregateList (op : R → R → R) (zero : R) : R → List (Val R) → R
  | r, [] => r
  | r, m :: ms => aggregateList op zero (op r (aggregate op zero m)) ms
end

/-- `max(val)`, TraitsAlgorithm.h:921-931 -/
def maxOf [Max R] [Zero R] (v : Val R) : R := aggregate max 0 v

/-- `min(val)`, TraitsAlgorithm.h:934-944 -/
def minOf [Min R] [Zero R] (v : Val R) : R := aggregate min 0 v

/-- `sum(val)`, TraitsAlgorithm.h:947-950 -/
def sumOf [Add R] [Zero R] (v : Val R) : R := aggregate (fun x y => x + y) 0 v

end GTMesh.TA
