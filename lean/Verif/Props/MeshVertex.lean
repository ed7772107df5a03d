import Verif.Model.MeshVertex
import Verif.Props.Vector

/-! # C88: the position of a vertex of a mesh -/

namespace GTMesh.Props
open GTMesh

variable {n : Nat} {F : Type} [Field F]

/-- What the user means with a statement that changes the position: its effect on the coordinates. -/
def Moves (s : VertexStmt n F) (p q : Vec n F) : Prop :=
  match s with
  | .coord i x => q i = x ∧ ∀ j, j ≠ i → q j = p j
  | .add (.other y) => ∀ i, q i = p i + y i
  | .add .self => ∀ i, q i = p i + p i
  | .sub (.other y) => ∀ i, q i = p i - y i
  | .sub .self => ∀ i, q i = 0
  | .mul (.value x) => ∀ i, q i = p i * x
  | .mul (.coord _) => False
  | .div (.value x) => ∀ i, q i = p i / x
  | .div (.coord k) => ∀ i, q i = p i / p k
  | .braces l => ∀ i : Fin n, q i = l[i.val]?.getD 0
  | .setIndex _ | .copy _ | .number _ => False

/-- The coordinates change step by step in the way the statements mean. -/
def MovesAll : List (VertexStmt n F) → Vec n F → Vec n F → Prop
  | [], p, q => q = p
  | s :: ss, p, q => ∃ r, Moves s p r ∧ MovesAll ss r q

/-- The statements that change coordinates, except for the list of coordinates and a factor that is a coordinate of the vertex itself (C35_self_factor_violated). -/
def IsMove : VertexStmt n F → Prop
  | .coord .. | .add _ | .sub _ | .mul (.value _) | .div _ => True
  | _ => False

theorem exec_move (v : MVertex n F) (s : VertexStmt n F) (h : IsMove s) : ∃ w, s.exec v = .ok w ∧ w.index = v.index ∧ Moves s v.pos w.pos := by
  cases s with
  | coord i x =>
    refine ⟨_, rfl, rfl, ?_, fun j hj => ?_⟩
    · simp [Vec.store]
    · have : j.val ≠ i.val := fun e => hj (Fin.ext e)
      simp [Vec.store, this]
  | add y =>
    refine ⟨_, rfl, rfl, ?_⟩
    cases y <;> (intro i; simp [Vec.addAssign_eq, Vec.Operand.get])
  | sub y =>
    refine ⟨_, rfl, rfl, ?_⟩
    cases y <;> (intro i; simp [Vec.subAssign_eq, Vec.Operand.get])
  | mul x =>
    cases x with
    | value a => refine ⟨_, rfl, rfl, fun i => ?_⟩; simp [Vec.smulAssign_eq, mul_comm]
    | coord i => exact h.elim
  | div x =>
    cases x <;> (refine ⟨_, rfl, rfl, fun i => ?_⟩; simp [Vec.divAssign_eq, div_eq_mul_inv, Vec.Factor.get, mul_comm])
  | _ => exact h.elim

/-- C88, where it holds: any number of statements that change single coordinates, or add, subtract, multiply or divide, give the coordinates they mean and leave the
index of the vertex as it is. -/
theorem C88_moves_partial : ∀ (ss : List (VertexStmt n F)) (v : MVertex n F), (∀ s ∈ ss, IsMove s) →
    ∃ w, execStmts v ss = .ok w ∧ w.index = v.index ∧ MovesAll ss v.pos w.pos
  | [], v, _ => ⟨v, rfl, rfl, rfl⟩
  | s :: ss, v, h => by
    obtain ⟨u, u1, u2, u3⟩ := exec_move v s (h s (by simp))
    obtain ⟨w, w1, w2, w3⟩ := C88_moves_partial ss u fun t ht => h t (by simp [ht])
    exact ⟨w, by simp only [execStmts, u1, Res.bind, w1], w2.trans u2, u.pos, u3, w3⟩

/-- C88, false of the code: after statements that are all right, assigning coordinates in braces is undefined behaviour, whatever they are. -/
theorem C88_braces_violated (ss ss' : List (VertexStmt n F)) (v : MVertex n F) (h : ∀ s ∈ ss, IsMove s) (l : List F) :
    execStmts v (ss ++ .braces l :: ss') = .ub := by
  induction ss generalizing v with
  | nil => rfl
  | cons s ss ih =>
    obtain ⟨u, u1, -⟩ := exec_move v s (h s (by simp))
    simp only [List.cons_append, execStmts, u1, Res.bind]
    exact ih u fun t ht => h t (by simp [ht])

/-- C88, false of the code: assigning a number is accepted, it changes the index of the vertex and moves it to the origin. -/
theorem C88_number_violated (v : MVertex n F) (k : Idx) : ∃ w, (VertexStmt.number k).exec v = .ok w ∧ w.index = k ∧ ∀ i, w.pos i = 0 :=
  ⟨_, rfl, rfl, fun i => by simp [C35_initializer_list]⟩

example : ∃ w, execStmts ({ index := 4, pos := ![1, 2] } : MVertex 2 ℚ) [.coord 0 5, .add .self, .mul (.value 3), .div (.coord 1)] = .ok w ∧ w.index = 4 := by
  obtain ⟨w, h1, h2, -⟩ := C88_moves_partial [.coord 0 5, .add .self, .mul (.value 3), .div (.coord 1)] ({ index := 4, pos := ![1, 2] } : MVertex 2 ℚ)
    (by simp [IsMove])
  exact ⟨w, h1, h2⟩

end GTMesh.Props
