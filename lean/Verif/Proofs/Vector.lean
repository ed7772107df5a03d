import Verif.Model.Vector
import Mathlib.Algebra.BigOperators.Fin
import Mathlib.Tactic.Ring
import Mathlib.Tactic.Linarith

/-! # The loops over the coordinates compute the component-wise operations -/

namespace GTMesh.Vec
variable {n : Nat} {F : Type}

theorem fillUpTo_spec (f : Fin n → F) (res : Vec n F) : ∀ (k : Nat), k ≤ n → ∀ i : Fin n,
    fillUpTo f k res i = if i.val < k then f i else res i := by
  intro k
  induction k with
  | zero => intro _ i; simp [fillUpTo]
  | succ k ih =>
    intro hk i
    rw [fillUpTo, dif_pos (by omega), store]
    by_cases h : i.val = k
    · rw [if_pos h, if_pos (by omega)]
      congr 1
      exact Fin.ext h.symm
    · rw [if_neg h, ih (by omega)]
      by_cases h2 : i.val < k
      · rw [if_pos h2, if_pos (by omega)]
      · rw [if_neg h2, if_neg (by omega)]

theorem fill_all (f : Fin n → F) (res : Vec n F) : fillUpTo f n res = f := by
  funext i
  rw [fillUpTo_spec f res n (le_refl n) i, if_pos i.isLt]

/-- In-place computation where the value at a position depends only on the values at this position. -/
theorem assignUpTo_spec (f : Vec n F → Fin n → F) (hf : ∀ (a b : Vec n F) i, a i = b i → f a i = f b i) (x : Vec n F) :
    ∀ (k : Nat), k ≤ n → ∀ i : Fin n, assignUpTo f k x i = if i.val < k then f x i else x i := by
  intro k
  induction k with
  | zero => intro _ i; simp [assignUpTo]
  | succ k ih =>
    intro hk i
    rw [assignUpTo, dif_pos (by omega), store]
    by_cases h : i.val = k
    · rw [if_pos h, if_pos (by omega)]
      have e : (⟨k, by omega⟩ : Fin n) = i := Fin.ext h.symm
      rw [e]
      apply hf
      rw [ih (by omega), if_neg (by omega)]
    · rw [if_neg h, ih (by omega)]
      by_cases h2 : i.val < k
      · rw [if_pos h2, if_pos (by omega)]
      · rw [if_neg h2, if_neg (by omega)]

theorem assign_all (f : Vec n F → Fin n → F) (hf : ∀ (a b : Vec n F) i, a i = b i → f a i = f b i) (x : Vec n F) :
    assignUpTo f n x = f x := by
  funext i
  rw [assignUpTo_spec f hf x n (le_refl n) i, if_pos i.isLt]

theorem at_add [Add F] [Zero F] (x y : Vec n F) (i : Fin n) : add x y i = x i + y i := by rw [add, fill_all]
theorem at_sub [Sub F] [Zero F] (x y : Vec n F) (i : Fin n) : sub x y i = x i - y i := by rw [sub, fill_all]
theorem at_smul [Mul F] [Zero F] (x : Vec n F) (a : F) (i : Fin n) : smul x a i = x i * a := by rw [smul, fill_all]

theorem add_eq [Add F] [Zero F] (x y : Vec n F) : add x y = x + y := funext (at_add x y)
theorem sub_eq [Sub F] [Zero F] (x y : Vec n F) : sub x y = x - y := funext (at_sub x y)
theorem smul_eq [CommRing F] (x : Vec n F) (a : F) : smul x a = a • x := by
  funext i; rw [at_smul, Pi.smul_apply, smul_eq_mul, mul_comm]
theorem div_eq [Field F] (x : Vec n F) (a : F) : div x a = a⁻¹ • x := by rw [div, smul_eq, one_div]

theorem addAssign_eq [AddCommGroup F] (x : Vec n F) (y : Operand (Vec n F)) : addAssign x y = x + y.get x := by
  rw [addAssign, assign_all]
  · rfl
  · intro a b i h
    cases y <;> simp [Operand.get, h]

theorem subAssign_eq [AddCommGroup F] (x : Vec n F) (y : Operand (Vec n F)) : subAssign x y = x - y.get x := by
  rw [subAssign, assign_all]
  · rfl
  · intro a b i h
    cases y <;> simp [Operand.get, h]

theorem smulAssign_eq [CommRing F] (x : Vec n F) (a : F) : smulAssign x (.value a) = a • x := by
  rw [smulAssign, assign_all]
  · funext i; simp [Factor.get, mul_comm]
  · intro a b i h; simp [Factor.get, h]

theorem divAssign_eq [Field F] (x : Vec n F) (a : Factor n F) : divAssign x a = (a.get x)⁻¹ • x := by
  rw [divAssign, smulAssign_eq, one_div]

theorem dotUpTo_eq [CommRing F] (x y : Vec n F) : ∀ k, k ≤ n → dotUpTo x y k = ∑ i : Fin n, if i.val < k then x i * y i else 0 := by
  intro k
  induction k with
  | zero => intro _; simp [dotUpTo]
  | succ k ih =>
    intro hk
    have e : dotUpTo x y (k + 1) = dotUpTo x y k + x ⟨k, by omega⟩ * y ⟨k, by omega⟩ := by
      rw [dotUpTo, dif_pos (by omega)]
      by_cases h0 : k = 0
      · subst h0; simp [dotUpTo]
      · rw [if_neg h0]
    rw [e, ih (by omega)]
    have : ∀ i : Fin n, (if i.val < k + 1 then x i * y i else 0) =
        (if i.val < k then x i * y i else 0) + (if i = ⟨k, by omega⟩ then x i * y i else 0) := by
      intro i
      by_cases h1 : i.val < k
      · rw [if_pos (by omega), if_pos h1, if_neg (by intro h; rw [h] at h1; exact absurd h1 (lt_irrefl k)), add_zero]
      · by_cases h2 : i.val = k
        · rw [if_pos (by omega), if_neg h1, if_pos (Fin.ext h2), zero_add]
        · rw [if_neg (by omega), if_neg h1, if_neg (fun h => h2 (by rw [h])), add_zero]
    simp only [this, Finset.sum_add_distrib, Finset.sum_ite_eq', Finset.mem_univ, if_true]

theorem dot_eq [CommRing F] (x y : Vec n F) : dot x y = ∑ i : Fin n, x i * y i := by
  rw [dot, dotUpTo_eq x y n (le_refl n)]
  exact Finset.sum_congr rfl fun i _ => if_pos i.isLt

theorem dot_comm [CommRing F] (x y : Vec n F) : dot x y = dot y x := by
  simp only [dot_eq, mul_comm]

theorem dot_add [CommRing F] (x y z : Vec n F) : dot (x + y) z = dot x z + dot y z := by
  simp only [dot_eq, Pi.add_apply, add_mul, Finset.sum_add_distrib]

theorem dot_sub [CommRing F] (x y z : Vec n F) : dot (x - y) z = dot x z - dot y z := by
  simp only [dot_eq, Pi.sub_apply, sub_mul, Finset.sum_sub_distrib]

theorem dot_smul [CommRing F] (a : F) (x z : Vec n F) : dot (a • x) z = a * dot x z := by
  simp only [dot_eq, Pi.smul_apply, smul_eq_mul, Finset.mul_sum, mul_assoc]

theorem dot_add_right [CommRing F] (x y z : Vec n F) : dot z (x + y) = dot z x + dot z y := by
  rw [dot_comm, dot_add, dot_comm x, dot_comm y]
theorem dot_sub_right [CommRing F] (x y z : Vec n F) : dot z (x - y) = dot z x - dot z y := by
  rw [dot_comm, dot_sub, dot_comm x, dot_comm y]
theorem dot_smul_right [CommRing F] (a : F) (x z : Vec n F) : dot z (a • x) = a * dot z x := by
  rw [dot_comm, dot_smul, dot_comm]
theorem dot_zero [CommRing F] (x : Vec n F) : dot x 0 = 0 := by simp [dot_eq]
theorem zero_dot [CommRing F] (x : Vec n F) : dot 0 x = 0 := by simp [dot_eq]

theorem dot_self_nonneg [CommRing F] [LinearOrder F] [IsStrictOrderedRing F] (x : Vec n F) : 0 ≤ dot x x := by
  rw [dot_eq]; exact Finset.sum_nonneg fun i _ => mul_self_nonneg _

theorem dot_self_eq_zero [CommRing F] [LinearOrder F] [IsStrictOrderedRing F] (x : Vec n F) : dot x x = 0 ↔ x = 0 := by
  rw [dot_eq, Finset.sum_eq_zero_iff_of_nonneg fun i _ => mul_self_nonneg _]
  constructor
  · intro h; funext i; exact mul_self_eq_zero.mp (h i (Finset.mem_univ i))
  · rintro rfl i _; simp

theorem eq_iff [DecidableEq F] (x y : Vec n F) : eq x y = true ↔ x = y := by
  have : ∀ l : List (Fin n), eqFrom x y l = true ↔ ∀ i ∈ l, x i = y i := by
    intro l
    induction l with
    | nil => simp [eqFrom]
    | cons i l ih =>
      rw [eqFrom]
      by_cases h : x i = y i
      · rw [if_neg (by simpa using h), ih]; simp [h]
      · rw [if_pos h]; simp [h]
  rw [eq, this]
  constructor
  · intro h; funext i; exact h i (List.mem_finRange i)
  · rintro rfl i _; rfl

theorem initLoop_spec (l : List F) : ∀ (i : Nat) (a : Vec n F), i ≤ n →
    (initLoop n l i a).2 = min n (i + l.length) ∧
    ∀ j : Fin n, (initLoop n l i a).1 j = if i ≤ j.val ∧ j.val < i + l.length then (l[j.val - i]?).getD (a j) else a j := by
  induction l with
  | nil => intro i a hi; simp [initLoop, hi]
  | cons x l ih =>
    intro i a hi
    rw [initLoop]
    by_cases h : i < n
    · rw [if_pos h]
      obtain ⟨h1, h2⟩ := ih (i + 1) (store a i x) (by omega)
      refine ⟨by rw [h1, List.length_cons]; congr 1; omega, fun j => ?_⟩
      rw [h2 j, List.length_cons]
      by_cases hj : j.val = i
      · rw [if_neg (by omega), if_pos (by omega), store, if_pos hj, hj]; simp
      · by_cases hj2 : i + 1 ≤ j.val ∧ j.val < i + 1 + l.length
        · rw [if_pos hj2, if_pos (by omega), show j.val - i = (j.val - (i + 1)) + 1 by omega, List.getElem?_cons_succ, store, if_neg hj]
        · rw [if_neg hj2, if_neg (by omega), store, if_neg hj]
    · rw [if_neg h]
      refine ⟨by simp; omega, fun j => ?_⟩
      rw [if_neg (by omega)]

theorem zeroLoop_spec [Zero F] : ∀ (fuel i : Nat) (a : Vec n F), n ≤ i + fuel → ∀ j : Fin n,
    zeroLoop n fuel i a j = if i ≤ j.val then 0 else a j := by
  intro fuel
  induction fuel with
  | zero => intro i a h j; rw [zeroLoop, if_neg (by omega)]
  | succ fuel ih =>
    intro i a h j
    rw [zeroLoop]
    by_cases hi : i < n
    · rw [if_pos hi, ih (i + 1) _ (by omega) j]
      by_cases hj : j.val = i
      · rw [if_neg (by omega), if_pos (by omega), store, if_pos hj]
      · rw [store, if_neg hj]
        by_cases hj2 : i + 1 ≤ j.val
        · rw [if_pos hj2, if_pos (by omega)]
        · rw [if_neg hj2, if_neg (by omega)]
    · rw [if_neg hi, if_neg (by omega)]

theorem assignList_apply [Zero F] (a : Vec n F) (l : List F) (j : Fin n) : assignList a l j = (l[j.val]?).getD 0 := by
  obtain ⟨h1, h2⟩ := initLoop_spec l 0 a (Nat.zero_le n)
  unfold assignList
  by_cases h : (initLoop n l 0 a).2 < n
  · rw [if_pos h, zeroLoop_spec _ _ _ (by omega) j]
    rw [h1] at h ⊢
    by_cases hj : min n (0 + l.length) ≤ j.val
    · rw [if_pos hj, List.getElem?_eq_none (by omega)]; rfl
    · rw [if_neg hj, h2 j, if_pos (by omega)]
      have : j.val < l.length := by omega
      simp [this]
  · rw [if_neg h, h2 j]
    rw [h1] at h
    have hj : j.val < l.length := by have := j.isLt; omega
    rw [if_pos (by omega)]
    simp [hj]

end GTMesh.Vec
