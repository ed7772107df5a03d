import Verif.Base
import Mathlib.Data.Real.Sqrt

/-!
# Points and vectors (Vertex.h, InlineArrayOperations.h, Vector.h, GramSchmidt.h)

The operations on the coordinates are those of the type of the coordinates, which is a parameter: with a field or the real numbers the
arithmetic is exact, with the numbers of `Model/Rounding.lean` each operation is rounded. Division by zero gives 0 in Lean, not an
infinity; the theorems exclude it where it matters.
-/

namespace GTMesh

/-- `sqrt` for the type of the coordinates. -/
class HasSqrt (F : Type) where
  sqrt : F → F

/-- `std::abs` for the type of the coordinates. -/
class HasAbs (F : Type) where
  abs : F → F

/-- The square root of a real number. -/
noncomputable instance : HasSqrt ℝ := ⟨Real.sqrt⟩

/-- The absolute value of a real number. -/
noncomputable instance : HasAbs ℝ := ⟨fun x => |x|⟩

namespace Vec
variable {n : Nat} {F : Type}

/-- `Vertex<n, F>`, a `std::array<F, n>`: the value stored at each position. Vertex.h:9-10 -/
abbrev _root_.GTMesh.Vec (n : Nat) (F : Type) := Fin n → F

/-- `a[k] = x` -/
def store (a : Vec n F) (k : Nat) (x : F) : Vec n F := fun i => if i.val = k then x else a i

/-- `inlineScalarProduct<k>::computation(x, y)`, InlineArrayOperations.h:5-20. (With `k = 0`, which does not compile, 0.) -/
def dotUpTo [Mul F] [Add F] [Zero F] (x y : Vec n F) : Nat → F
  | 0 => 0
  | k + 1 => if h : k < n then (if k = 0 then x ⟨k, h⟩ * y ⟨k, h⟩ else dotUpTo x y k + x ⟨k, h⟩ * y ⟨k, h⟩) else dotUpTo x y k

/-- Scalar product, `operator*(const Vertex&)`, Vertex.h:140-144 -/
def dot [Mul F] [Add F] [Zero F] (x y : Vec n F) : F := dotUpTo x y n

/-- `inlineAddition<k>::computation(res, x, y)`, `inlineSubtraction` and `inlineMultiplication` with a separate result: the
values `f i` are stored at the positions `0 .. k - 1`, in this order. InlineArrayOperations.h:26-29, 38-40, 49-52,
61-63, 74-77, 88-90 -/
def fillUpTo (f : Fin n → F) : Nat → Vec n F → Vec n F
  | 0, res => res
  | k + 1, res => if h : k < n then store (fillUpTo f k res) k (f ⟨k, h⟩) else fillUpTo f k res

/-- The versions of the same functions that change `x`: the value stored at a position is computed from the current
content of the array, which has been changed at the positions before. InlineArrayOperations.h:30-33, 41-43, 53-56,
64-66, 79-82, 92-94 -/
def assignUpTo (f : Vec n F → Fin n → F) : Nat → Vec n F → Vec n F
  | 0, x => x
  | k + 1, x => if h : k < n then store (assignUpTo f k x) k (f (assignUpTo f k x) ⟨k, h⟩) else assignUpTo f k x

/-- The content of an object before its constructor `Vertex() = default`; never used. -/
def raw [Zero F] : Vec n F := fun _ => 0

/-- `operator+`, Vertex.h:109-114 -/
def add [Add F] [Zero F] (x y : Vec n F) : Vec n F := fillUpTo (fun i => x i + y i) n raw

/-- `operator-`, Vertex.h:101-106 -/
def sub [Sub F] [Zero F] (x y : Vec n F) : Vec n F := fillUpTo (fun i => x i - y i) n raw

/-- `operator*(const RealOp&)`, Vertex.h:117-123, and `x * vertex`, 126-129 -/
def smul [Mul F] [Zero F] (x : Vec n F) (a : F) : Vec n F := fillUpTo (fun i => x i * a) n raw

/-- `operator/(const RealOp& x)` where `RealOp` is a floating point type: `*this * (RealOp(1.0) / x)`. Vertex.h:133-137 -/
def div [Mul F] [Zero F] [One F] [Div F] (x : Vec n F) (a : F) : Vec n F := smul x (1 / a)

/-- `operator/(const RealOp& x)` where `RealOp` is an integer type: `RealOp(1.0) / x` is an integer division, which
truncates. Vertex.h:133-137 -/
def divInt [Mul F] [Zero F] [IntCast F] (x : Vec n F) (k : Int) : Vec n F := smul x ((Int.tdiv 1 k : Int) : F)

/-- An operand of a compound assignment: another object, or the object that is assigned. -/
inductive Operand (α : Type) where
  | other (a : α)
  | self

/-- The vector to which the operand refers, when the object has the content `cur`. -/
def Operand.get {α : Type} (cur : α) : Operand α → α
  | .other a => a
  | .self => cur

/-- `operator+=`, Vertex.h:149-153 -/
def addAssign [Add F] (x : Vec n F) (y : Operand (Vec n F)) : Vec n F := assignUpTo (fun cur i => cur i + y.get cur i) n x

/-- `operator-=`, Vertex.h:156-160 -/
def subAssign [Sub F] (x : Vec n F) (y : Operand (Vec n F)) : Vec n F := assignUpTo (fun cur i => cur i - y.get cur i) n x

/-- A factor: a value outside of the object, or a coordinate of the object, passed by reference. -/
inductive Factor (n : Nat) (F : Type) where
  | value (a : F)
  | coord (i : Fin n)

/-- The value to which the factor refers, when the object has the content `cur`. -/
def Factor.get (cur : Vec n F) : Factor n F → F
  | .value a => a
  | .coord i => cur i

/-- `operator*=(const RealOp& x)`, Vertex.h:164-169 -/
def smulAssign [Mul F] (x : Vec n F) (a : Factor n F) : Vec n F := assignUpTo (fun cur i => cur i * a.get cur) n x

/-- `operator/=(const RealOp& x)`, Vertex.h:172-177: `*= (Real(1.0) / x)`, where the factor is a temporary. -/
def divAssign [Mul F] [One F] [Div F] (x : Vec n F) (a : Factor n F) : Vec n F := smulAssign x (.value (1 / a.get x))

/-- The loop of `operator==`: the first different coordinate ends it. Vertex.h:180-188 -/
def eqFrom [DecidableEq F] (x y : Vec n F) : List (Fin n) → Bool
  | [] => true
  | i :: is => if x i ≠ y i then false else eqFrom x y is

/-- `operator==`, Vertex.h:180-188 -/
def eq [DecidableEq F] (x y : Vec n F) : Bool := eqFrom x y (List.finRange n)

/-- `operator!=`, Vertex.h:191-194 -/
def ne [DecidableEq F] (x y : Vec n F) : Bool := !eq x y

/-- The first loop of the assignment of an initializer list: stores at `i, i + 1, …`; returns the array and the final `i`.
Vertex.h:69-78 -/
def initLoop (n : Nat) : List F → Nat → Vec n F → Vec n F × Nat
  | [], i, a => (a, i)
  | x :: l, i, a => if i < n then initLoop n l (i + 1) (store a i x) else (a, i)

/-- The second loop: zeros from `i` on. Vertex.h:79-83 -/
def zeroLoop [Zero F] (n : Nat) : Nat → Nat → Vec n F → Vec n F
  | 0, _, a => a
  | fuel + 1, i, a => if i < n then zeroLoop n fuel (i + 1) (store a i 0) else a

/-- `operator=(initializer_list)`, Vertex.h:67-85; the previous content is `a`. -/
def assignList [Zero F] (a : Vec n F) (l : List F) : Vec n F :=
  let p := initLoop n l 0 a
  if p.2 < n then zeroLoop n (n - p.2) p.2 p.1 else p.1

/-- `sumOfSquares`, Vertex.h:34-36 -/
def sumSq [Mul F] [Add F] [Zero F] (x : Vec n F) : F := dot x x

/-- `normEuclid`, Vertex.h:89-92 -/
def norm [Mul F] [Add F] [Zero F] [HasSqrt F] (x : Vec n F) : F := HasSqrt.sqrt (sumSq x)

/-- The norm with real numbers. -/
theorem norm_real (x : Vec n ℝ) : norm x = Real.sqrt (dot x x) := rfl

/-- `vectorProduct`, Vector.h:10-17 -/
def cross [Mul F] [Sub F] [Zero F] (v1 v2 : Vec 3 F) : Vec 3 F :=
  let r0 : Vec 3 F := raw
  let r1 := store r0 0 (v1 1 * v2 2 - v1 2 * v2 1)
  let r2 := store r1 1 (v1 2 * v2 0 - v1 0 * v2 2)
  store r2 2 (v1 0 * v2 1 - v1 1 * v2 0)

/-! ## Gram-Schmidt -/

/-- Body of the loop over `i`: the coefficients are computed from the original vector, then the multiples of the vectors
before are subtracted one after another. `done` holds `(vectors[j], invSumOfSquares[j])` for `j < i`.
GramSchmidt.h:25-38, 61-74 -/
def orthoStep [Mul F] [Add F] [Sub F] [Zero F] (done : List (Vec n F × F)) (v : Vec n F) : Vec n F :=
  let coef := done.map fun p => dot v p.1 * p.2
  (done.zip coef).foldl (fun v p => subAssign v (.other (smul p.1.1 p.2))) v

/-- The loop over `i`. -/
def orthoLoop [Mul F] [Add F] [Sub F] [Zero F] [One F] [Div F] : List (Vec n F × F) → List (Vec n F) → List (Vec n F × F)
  | done, [] => done
  | done, v :: vs => let u := orthoStep done v; orthoLoop (done ++ [(u, 1 / sumSq u)]) vs

/-- `gramSchmidt(vectors)`, GramSchmidt.h:16-42 (array) and 52-78 (vector). Without vectors `at(0)` throws. -/
def gramSchmidt [Mul F] [Add F] [Sub F] [Zero F] [One F] [Div F] (vs : List (Vec n F)) : Res (List (Vec n F)) :=
  match vs with
  | [] => .throw .outOfRange
  | v :: vs => .ok ((orthoLoop [(v, 1 / sumSq v)] vs).map (·.1))

/-- Body of the loop of the normalizing version before the normalization. GramSchmidt.h:101-114, 142-155 -/
def normStep [Mul F] [Add F] [Sub F] [Zero F] (done : List (Vec n F)) (v : Vec n F) : Vec n F :=
  let coef := done.map fun u => dot v u
  (done.zip coef).foldl (fun v p => subAssign v (.other (smul p.1 p.2))) v

/-- The loop over `i` with `norms`. GramSchmidt.h:100-118, 141-159 -/
def normLoop [Mul F] [Add F] [Sub F] [Zero F] [One F] [Div F] [HasSqrt F] :
    List (Vec n F) → List F → List (Vec n F) → List (Vec n F) × List F
  | done, norms, [] => (done, norms)
  | done, norms, v :: vs =>
    let u := normStep done v
    normLoop (done ++ [divAssign u (.value (norm u))]) (norms ++ [norm u]) vs

/-- `gramSchmidt(vectors, norms)`, GramSchmidt.h:90-119 (array) and 131-160 (vector); returns both. -/
def gramSchmidtN [Mul F] [Add F] [Sub F] [Zero F] [One F] [Div F] [HasSqrt F] (vs : List (Vec n F)) : Res (List (Vec n F) × List F) :=
  match vs with
  | [] => .throw .outOfRange
  | v :: vs => .ok (normLoop [divAssign v (.value (norm v))] [norm v] vs)

end Vec
end GTMesh
