import Verif.Proofs.Vector
import Mathlib.LinearAlgebra.LinearIndependent.Lemmas
import Mathlib.LinearAlgebra.Matrix.Block
import Mathlib.Tactic.FieldSimp
import Mathlib.Tactic.LinearCombination
import Mathlib.Tactic.NormNum
import Mathlib.Tactic.FinCases

/-! # C35, C36, C37: points, vector product, Gram-Schmidt -/

namespace GTMesh.Props
open GTMesh Vec
variable {n : Nat} {F : Type}

/-! ## C35 -/

/-- C35. The operators act on each coordinate. -/
theorem C35_componentwise [Field F] (x y : Vec n F) (a : F) (i : Fin n) :
    add x y i = x i + y i ∧ sub x y i = x i - y i ∧ smul x a i = x i * a ∧ div x a i = x i / a := by
  refine ⟨at_add x y i, at_sub x y i, at_smul x a i, ?_⟩
  rw [div, at_smul, mul_one_div]

/-- C35. The laws of a vector space. -/
theorem C35_vector_space [Field F] (x y z : Vec n F) (a b : F) :
    add (add x y) z = add x (add y z) ∧ add x y = add y x ∧ add x 0 = x ∧ sub x x = 0 ∧ add (sub x y) y = x ∧
    smul (add x y) a = add (smul x a) (smul y a) ∧ smul x (a + b) = add (smul x a) (smul x b) ∧
    smul (smul x a) b = smul x (a * b) ∧ smul x 1 = x ∧ (a ≠ 0 → div (smul x a) a = x) := by
  simp only [add_eq, sub_eq, smul_eq, div_eq]
  refine ⟨add_assoc _ _ _, add_comm _ _, add_zero _, sub_self _, sub_add_cancel _ _, smul_add _ _ _, add_smul _ _ _, ?_,
    one_smul _ _, ?_⟩
  · rw [smul_smul, mul_comm]
  · intro h; rw [smul_smul, inv_mul_cancel₀ h, one_smul]

/-- C35. The scalar product is the sum of the products of the coordinates; it is symmetric, bilinear and positive. -/
theorem C35_scalar_product [Field F] [LinearOrder F] [IsStrictOrderedRing F] (x y z : Vec n F) (a : F) :
    dot x y = ∑ i : Fin n, x i * y i ∧ dot x y = dot y x ∧ dot (add x y) z = dot x z + dot y z ∧ dot (smul x a) z = a * dot x z ∧
    0 ≤ dot x x ∧ (dot x x = 0 ↔ x = 0) := by
  simp only [add_eq, smul_eq]
  exact ⟨dot_eq x y, dot_comm x y, dot_add x y z, dot_smul a x z, dot_self_nonneg x, dot_self_eq_zero x⟩

/-- C35. `==` compares all coordinates, `!=` is its negation. -/
theorem C35_compare [DecidableEq F] (x y : Vec n F) : (Vec.eq x y = true ↔ ∀ i, x i = y i) ∧ (Vec.ne x y = true ↔ ∃ i, x i ≠ y i) := by
  have h : Vec.eq x y = true ↔ ∀ i, x i = y i := by rw [eq_iff, funext_iff]
  refine ⟨h, ?_⟩
  rw [Vec.ne, Bool.not_eq_true', ← Bool.not_eq_true, h, not_forall]

/-- C35. `+=` and `-=` agree with `+` and `-`, also when the operand is the assigned object; so do `*=` with a factor that
is not a coordinate of the object, and `/=` with any divisor. -/
theorem C35_compound_partial [Field F] (x y : Vec n F) (a : F) (d : Factor n F) :
    addAssign x (.other y) = add x y ∧ addAssign x .self = add x x ∧ subAssign x (.other y) = sub x y ∧
    subAssign x .self = sub x x ∧ smulAssign x (.value a) = smul x a ∧ divAssign x d = div x (d.get x) := by
  simp only [addAssign_eq, subAssign_eq, smulAssign_eq, divAssign_eq, add_eq, sub_eq, smul_eq, div_eq, Operand.get]
  trivial

/-- C35 is violated: in `v *= v[0]` the factor is a reference to a coordinate that is changed on the way. With two
coordinates the second one is multiplied by the square of the first one. -/
theorem C35_self_factor_violated [CommRing F] (x : Vec 2 F) :
    smulAssign x (.coord 0) 1 = x 1 * (x 0 * x 0) ∧ smul x (x 0) 1 = x 1 * x 0 := by
  constructor
  · simp [smulAssign, assignUpTo, store, Factor.get]
  · rw [at_smul]

/-- C35 is violated: `v / k` with an integer `k` of magnitude at least 2 is the zero vector, `v /= k` is right. -/
theorem C35_integer_divisor_violated [Field F] (x : Vec n F) (k : Int) (h : 2 ≤ k.natAbs) :
    divInt x k = 0 ∧ divAssign x (.value (k : F)) = div x (k : F) := by
  constructor
  · have : Int.tdiv 1 k = 0 := by
      rcases Int.natAbs_eq k with e | e
      · rw [e]; exact Int.tdiv_eq_zero_of_lt (by decide) (by omega)
      · rw [e, Int.tdiv_neg, Int.tdiv_eq_zero_of_lt (by decide) (by omega)]; rfl
    rw [divInt, this, smul_eq]
    simp
  · rw [divAssign_eq, div_eq]; rfl

/-- C35. Assigning an initializer list of any length: the rest is zero, what is too much is ignored; the previous content
does not matter. -/
theorem C35_initializer_list [Zero F] (a : Vec n F) (l : List F) (i : Fin n) :
    assignList a l i = if h : i.val < l.length then l[i.val] else 0 := by
  rw [assignList_apply]
  by_cases h : i.val < l.length
  · rw [dif_pos h]; simp [h]
  · rw [dif_neg h, List.getElem?_eq_none (by omega)]; rfl

example : add (![1, 2, 3] : Vec 3 ℚ) ![4, 5, 6] 2 = 9 ∧ dot (![1, 2, 3] : Vec 3 ℚ) ![4, 5, 6] = 32 := by
  decide +kernel

/-! ## C36 -/

theorem cross_apply [CommRing F] (a b : Vec 3 F) :
    cross a b 0 = a 1 * b 2 - a 2 * b 1 ∧ cross a b 1 = a 2 * b 0 - a 0 * b 2 ∧ cross a b 2 = a 0 * b 1 - a 1 * b 0 := by
  refine ⟨?_, ?_, ?_⟩ <;> simp [cross, store]

theorem dot3 [CommRing F] (a b : Vec 3 F) : dot a b = a 0 * b 0 + a 1 * b 1 + a 2 * b 2 := by
  rw [dot_eq, Fin.sum_univ_three]

theorem ext3 {a b : Vec 3 F} (h0 : a 0 = b 0) (h1 : a 1 = b 1) (h2 : a 2 = b 2) : a = b := by
  funext i
  fin_cases i
  exacts [h0, h1, h2]

/-- C36. The vector product is orthogonal to both factors, antisymmetric and bilinear, its square is
`|a|² |b|² - (a·b)²`, and the orientation is the right-handed one. -/
theorem C36_vector_product [CommRing F] (a b c : Vec 3 F) (t : F) :
    dot (cross a b) a = 0 ∧ dot (cross a b) b = 0 ∧ cross a b = sub 0 (cross b a) ∧
    cross (add a c) b = add (cross a b) (cross c b) ∧ cross (smul a t) b = smul (cross a b) t ∧
    sumSq (cross a b) = sumSq a * sumSq b - dot a b * dot a b ∧
    cross (![1, 0, 0] : Vec 3 F) ![0, 1, 0] = ![0, 0, 1] := by
  have h := cross_apply a b
  have h' := cross_apply b a
  refine ⟨?_, ?_, ?_, ?_, ?_, ?_, ?_⟩
  · rw [dot3, h.1, h.2.1, h.2.2]; ring
  · rw [dot3, h.1, h.2.1, h.2.2]; ring
  · apply ext3 <;> simp only [at_sub, h, h', Pi.zero_apply] <;> ring
  · have h1 := cross_apply (add a c) b
    have h2 := cross_apply c b
    apply ext3 <;> simp only [at_add, h, h1, h2] <;> ring
  · have h1 := cross_apply (smul a t) b
    apply ext3 <;> simp only [at_smul, h, h1] <;> ring
  · simp only [sumSq, dot3, h]; ring
  · have h1 := cross_apply (![1, 0, 0] : Vec 3 F) ![0, 1, 0]
    apply ext3
    · rw [h1.1]; simp
    · rw [h1.2.1]; simp
    · rw [h1.2.2]; simp

/-! ## C37 -/

/-- The lines spanned by the first `k` vectors agree, for every `k`. -/
def SameFlags [Field F] (vs us : List (Vec n F)) : Prop :=
  ∀ k, Submodule.span F {x | x ∈ us.take k} = Submodule.span F {x | x ∈ vs.take k}

/-- The vectors are pairwise orthogonal. -/
def PairwiseOrthogonal [Field F] (us : List (Vec n F)) : Prop := us.Pairwise fun a b => dot a b = 0

/-- The vectors are linearly independent. -/
def Independent [Field F] (vs : List (Vec n F)) : Prop := LinearIndependent F vs.get

section
variable [Field F]

/-- One step is the subtraction of the components along the vectors before. -/
theorem orthoStep_eq (ps : List (Vec n F × F)) (v : Vec n F) :
    orthoStep ps v = v - (ps.map fun p => (dot v p.1 * p.2) • p.1).sum := by
  have : ∀ (ps : List (Vec n F × F)) (cs : List F), cs.length = ps.length → ∀ w : Vec n F,
      (ps.zip cs).foldl (fun v p => subAssign v (.other (smul p.1.1 p.2))) w
        = w - ((ps.zip cs).map fun q => q.2 • q.1.1).sum := by
    intro ps
    induction ps with
    | nil => intro cs _ w; simp
    | cons p ps ih =>
      intro cs hl w
      cases cs with
      | nil => simp at hl
      | cons c cs =>
        rw [List.zip_cons_cons, List.foldl_cons, ih cs (by simpa using hl), List.map_cons, List.sum_cons, subAssign_eq, smul_eq]
        simp only [Operand.get]
        abel
  unfold orthoStep
  rw [this _ _ (by simp)]
  congr 2
  induction ps with
  | nil => rfl
  | cons p ps ih => simp [ih]

theorem dot_list_sum (l : List (Vec n F)) (u : Vec n F) : dot l.sum u = (l.map fun x => dot x u).sum := by
  induction l with
  | nil => simp [zero_dot]
  | cons x l ih => rw [List.sum_cons, dot_add, ih]; simp

/-- Vectors with the inverses of their squares. -/
structure Ortho (ps : List (Vec n F × F)) : Prop where
  orth : ps.Pairwise fun a b => dot a.1 b.1 = 0
  inv : ∀ p ∈ ps, p.2 * dot p.1 p.1 = 1

theorem orthoStep_orth {ps : List (Vec n F × F)} (h : Ortho ps) (v : Vec n F) : ∀ p ∈ ps, dot (orthoStep ps v) p.1 = 0 := by
  intro p hp
  rw [orthoStep_eq, dot_sub, dot_list_sum, List.map_map]
  have key : ∀ qs : List (Vec n F × F), qs.Pairwise (fun a b => dot a.1 b.1 = 0) → (∀ q ∈ qs, q.2 * dot q.1 q.1 = 1) → p ∈ qs →
      (qs.map ((fun x => dot x p.1) ∘ fun q => (dot v q.1 * q.2) • q.1)).sum = dot v p.1 := by
    intro qs
    induction qs with
    | nil => intro _ _ h; simp at h
    | cons q qs ih =>
      intro ho hi hm
      rw [List.pairwise_cons] at ho
      rw [List.map_cons, List.sum_cons]
      simp only [Function.comp_apply, dot_smul]
      by_cases e : p = q
      · have hz : (qs.map ((fun x => dot x p.1) ∘ fun q => (dot v q.1 * q.2) • q.1)).sum = 0 := by
          apply List.sum_eq_zero
          intro x hx
          obtain ⟨r, hr, rfl⟩ := List.mem_map.mp hx
          simp only [Function.comp_apply, dot_smul]
          rw [dot_comm r.1 p.1, e, ho.1 r hr, mul_zero]
        have := hi q (by simp)
        rw [hz, add_zero, e, mul_assoc, this, mul_one]
      · have hm : p ∈ qs := by
          rcases List.mem_cons.mp hm with h | h
          · exact absurd h e
          · exact h
        rw [ih ho.2 (fun q hq => hi q (by simp [hq])) hm, ho.1 p hm, mul_zero, zero_add]
  rw [key ps h.orth h.inv hp, sub_self]

theorem orthoStep_span (ps : List (Vec n F × F)) (v : Vec n F) :
    v - orthoStep ps v ∈ Submodule.span F {x | x ∈ ps.map (·.1)} := by
  rw [orthoStep_eq, sub_sub_cancel]
  apply list_sum_mem
  intro x hx
  obtain ⟨p, hp, rfl⟩ := List.mem_map.mp hx
  exact Submodule.smul_mem _ _ (Submodule.subset_span (List.mem_map_of_mem hp))

theorem SameFlags.full {vs us : List (Vec n F)} (hl : us.length = vs.length) (h : SameFlags vs us) :
    Submodule.span F {x | x ∈ us} = Submodule.span F {x | x ∈ vs} := by
  have := h us.length
  rwa [List.take_length, hl, List.take_length] at this

theorem SameFlags.snoc {vs us : List (Vec n F)} (hl : us.length = vs.length) (h : SameFlags vs us) {u v : Vec n F} {c : F} (hc : c ≠ 0)
    (huv : v - c • u ∈ Submodule.span F {x | x ∈ us}) : SameFlags (vs ++ [v]) (us ++ [u]) := by
  have hf := h.full hl
  intro k
  by_cases hk : k ≤ us.length
  · rw [List.take_append_of_le_length hk, List.take_append_of_le_length (by omega)]
    exact h k
  · rw [List.take_of_length_le (by simp; omega), List.take_of_length_le (by simp; omega)]
    have e1 : {x | x ∈ us ++ [u]} = insert u {x | x ∈ us} := by ext x; simp [or_comm]
    have e2 : {x | x ∈ vs ++ [v]} = insert v {x | x ∈ vs} := by ext x; simp [or_comm]
    rw [e1, e2, Submodule.span_insert, Submodule.span_insert, hf]
    rw [hf] at huv
    apply le_antisymm
    · refine sup_le ?_ le_sup_right
      rw [Submodule.span_singleton_le_iff_mem]
      have : u = c⁻¹ • (v - (v - c • u)) := by
        rw [sub_sub_cancel, smul_smul, inv_mul_cancel₀ hc, one_smul]
      rw [this]
      apply Submodule.smul_mem
      apply Submodule.sub_mem
      · exact Submodule.mem_sup_left (Submodule.mem_span_singleton_self v)
      · exact Submodule.mem_sup_right huv
    · refine sup_le ?_ le_sup_right
      rw [Submodule.span_singleton_le_iff_mem]
      have : v = c • u + (v - c • u) := by abel
      rw [this]
      apply Submodule.add_mem
      · exact Submodule.mem_sup_left (Submodule.smul_mem _ _ (Submodule.mem_span_singleton_self u))
      · exact Submodule.mem_sup_right huv

theorem Independent.not_mem {vs ws : List (Vec n F)} {v : Vec n F} (h : Independent (vs ++ v :: ws)) :
    v ∉ Submodule.span F {x | x ∈ vs} := by
  intro hv
  have hlt : vs.length < (vs ++ v :: ws).length := by simp
  have := h.notMem_span_image (s := {i : Fin (vs ++ v :: ws).length | i.val < vs.length}) (x := ⟨vs.length, hlt⟩) (by simp)
  apply this
  rw [show (vs ++ v :: ws).get ⟨vs.length, hlt⟩ = v by simp]
  refine Submodule.span_mono ?_ hv
  intro x hx
  obtain ⟨i, hi, rfl⟩ := List.getElem_of_mem hx
  exact ⟨⟨i, by simp; omega⟩, hi, by simp [hi]⟩

end

section
variable [Field F] [LinearOrder F] [IsStrictOrderedRing F]

/-- The state of the loop after the vectors `vs`. -/
structure GState (vs : List (Vec n F)) (ps : List (Vec n F × F)) : Prop where
  len : ps.length = vs.length
  ortho : Ortho ps
  flags : SameFlags vs (ps.map (·.1))

theorem GState.step {vs : List (Vec n F)} {ps : List (Vec n F × F)} (h : GState vs ps) {v : Vec n F}
    (hv : v ∉ Submodule.span F {x | x ∈ vs}) {c : F} (hc : c ≠ 0) {w : F} (hw : w * dot (c • orthoStep ps v) (c • orthoStep ps v) = 1) :
    GState (vs ++ [v]) (ps ++ [(c • orthoStep ps v, w)]) where
  len := by simp [h.len]
  ortho := by
    constructor
    · rw [List.pairwise_append]
      refine ⟨h.ortho.orth, by simp, ?_⟩
      intro a ha b hb
      simp at hb
      subst hb
      rw [dot_smul_right, dot_comm, orthoStep_orth h.ortho v a ha, mul_zero]
    · intro p hp
      rcases List.mem_append.mp hp with hp | hp
      · exact h.ortho.inv p hp
      · simp at hp; subst hp; exact hw
  flags := by
    rw [List.map_append]
    refine SameFlags.snoc (by simp [h.len]) h.flags (c := c⁻¹) (inv_ne_zero hc) ?_
    rw [smul_smul, inv_mul_cancel₀ hc, one_smul]
    exact orthoStep_span ps v

theorem orthoStep_ne_zero {vs : List (Vec n F)} {ps : List (Vec n F × F)} (h : GState vs ps) {v : Vec n F}
    (hv : v ∉ Submodule.span F {x | x ∈ vs}) : orthoStep ps v ≠ 0 := by
  intro h0
  have := orthoStep_span ps v
  rw [h0, sub_zero, h.flags.full (by simp [h.len])] at this
  exact hv this

theorem GState.first {v : Vec n F} (hv : v ≠ 0) {c : F} (hc : c ≠ 0) {w : F} (hw : w * dot (c • v) (c • v) = 1) : GState [v] [(c • v, w)] := by
  have h0 : GState ([] : List (Vec n F)) [] := ⟨rfl, ⟨List.Pairwise.nil, by simp⟩, fun k => by simp⟩
  have e : orthoStep ([] : List (Vec n F × F)) v = v := by simp [orthoStep]
  have := h0.step (v := v) (by simp [hv]) hc (w := w) (by rw [e]; exact hw)
  rw [e] at this
  exact this

/-- C37. Without normalization: linearly independent vectors are replaced by pairwise orthogonal non-zero vectors with the same
first vector; the first `k` vectors span the same space as before, for every `k`. -/
theorem C37_orthogonal (vs : List (Vec n F)) (hne : vs ≠ []) (hi : Independent vs) :
    ∃ us, gramSchmidt vs = .ok us ∧ us.length = vs.length ∧ us.head? = vs.head? ∧ PairwiseOrthogonal us ∧ (∀ u ∈ us, u ≠ 0) ∧
      SameFlags vs us := by
  have loop : ∀ (ws vs : List (Vec n F)) (ps : List (Vec n F × F)), GState vs ps → Independent (vs ++ ws) →
      GState (vs ++ ws) (orthoLoop ps ws) ∧ ∃ qs, orthoLoop ps ws = ps ++ qs := by
    intro ws
    induction ws with
    | nil => intro vs ps h _; simp only [List.append_nil, orthoLoop]; exact ⟨h, [], by simp⟩
    | cons v ws ih =>
      intro vs ps h hi
      rw [orthoLoop]
      have hv := hi.not_mem
      have hz := orthoStep_ne_zero h hv
      have hd : dot (orthoStep ps v) (orthoStep ps v) ≠ 0 := fun h => hz ((dot_self_eq_zero _).mp h)
      have hs := h.step hv (c := 1) one_ne_zero (w := 1 / sumSq (orthoStep ps v)) (by
        rw [one_smul, sumSq, one_div, inv_mul_cancel₀ hd])
      rw [one_smul] at hs
      obtain ⟨h1, qs, h2⟩ := ih (vs ++ [v]) _ hs (by simpa using hi)
      refine ⟨by simpa using h1, _, by rw [h2, List.append_assoc]⟩
  cases vs with
  | nil => exact absurd rfl hne
  | cons v vs =>
    have hv : v ≠ 0 := by
      intro h0
      have := Independent.not_mem (vs := []) hi
      simp [h0] at this
    have hd : dot v v ≠ 0 := fun h => hv ((dot_self_eq_zero _).mp h)
    have h1 := GState.first hv (c := 1) one_ne_zero (w := 1 / sumSq v) (by rw [one_smul, sumSq, one_div, inv_mul_cancel₀ hd])
    rw [one_smul] at h1
    obtain ⟨h2, qs, h3⟩ := loop vs [v] _ h1 hi
    refine ⟨_, rfl, by simpa using h2.len, by rw [h3]; simp, ?_, ?_, h2.flags⟩
    · exact List.pairwise_map.mpr h2.ortho.orth
    · intro u hu
      obtain ⟨p, hp, rfl⟩ := List.mem_map.mp hu
      intro h0
      have := h2.ortho.inv p hp
      rw [h0, dot_zero, mul_zero] at this
      exact zero_ne_one this

end

theorem map_pair (us : List (Vec n ℝ)) : (us.map fun u => (u, (1 : ℝ))).map (·.1) = us := by
  induction us with
  | nil => rfl
  | cons u us ih => simp only [List.map_cons, ih]

theorem normStep_eq (us : List (Vec n ℝ)) (v : Vec n ℝ) : normStep us v = orthoStep (us.map fun u => (u, 1)) v := by
  unfold normStep orthoStep
  have : ∀ (us : List (Vec n ℝ)) (w : Vec n ℝ),
      (us.zip (us.map fun u => dot v u)).foldl (fun v p => subAssign v (.other (smul p.1 p.2))) w =
      ((us.map fun u => (u, (1 : ℝ))).zip ((us.map fun u => (u, (1 : ℝ))).map fun p => dot v p.1 * p.2)).foldl
        (fun v p => subAssign v (.other (smul p.1.1 p.2))) w := by
    intro us
    induction us with
    | nil => intro w; rfl
    | cons u us ih =>
      intro w
      simp only [List.map_cons, List.zip_cons_cons, List.foldl_cons, mul_one]
      rw [ih]
  exact this us v

/-- `norms` are the lengths of the components of the vectors orthogonal to the vectors before. -/
def Heights (vs : List (Vec n ℝ)) (norms : List ℝ) : Prop :=
  norms.length = vs.length ∧ ∀ (i : Nat) v, vs[i]? = some v → ∃ r, norms[i]? = some (Vec.norm r) ∧ r ≠ 0 ∧
    v - r ∈ Submodule.span ℝ {x | x ∈ vs.take i} ∧ ∀ s ∈ Submodule.span ℝ {x | x ∈ vs.take i}, dot r s = 0

theorem dot_span {r : Vec n ℝ} {S : Set (Vec n ℝ)} (h : ∀ s ∈ S, dot r s = 0) : ∀ s ∈ Submodule.span ℝ S, dot r s = 0 := by
  intro s hs
  induction hs using Submodule.span_induction with
  | mem x hx => exact h x hx
  | zero => exact dot_zero r
  | add x y _ _ hx hy => rw [dot_add_right, hx, hy, add_zero]
  | smul a x _ hx => rw [dot_smul_right, hx, mul_zero]

theorem Heights.snoc {vs : List (Vec n ℝ)} {norms : List ℝ} (h : Heights vs norms) {us : List (Vec n ℝ)}
    (hs : GState vs (us.map fun u => (u, 1))) {v : Vec n ℝ} (hv : v ∉ Submodule.span ℝ {x | x ∈ vs}) :
    Heights (vs ++ [v]) (norms ++ [Vec.norm (normStep us v)]) := by
  refine ⟨by simp [h.1], ?_⟩
  intro i w hw
  by_cases hi : i < vs.length
  · rw [List.getElem?_append_left hi] at hw
    obtain ⟨r, h1, h2, h3, h4⟩ := h.2 i w hw
    refine ⟨r, by rw [List.getElem?_append_left (by rw [h.1]; exact hi)]; exact h1, h2, ?_, ?_⟩ <;>
      rw [List.take_append_of_le_length (by omega)]
    exacts [h3, h4]
  · have hi' : i = vs.length := by
      have := (List.getElem?_eq_some_iff.mp hw).1
      simp at this
      omega
    subst hi'
    simp at hw
    subst hw
    rw [List.take_append_of_le_length (le_refl _), List.take_length]
    have hfull := hs.flags.full (by rw [List.length_map, hs.len])
    have e : (us.map fun u => (u, (1 : ℝ))).map (·.1) = us := map_pair us
    rw [e] at hfull
    refine ⟨normStep us v, by rw [List.getElem?_append_right (by rw [h.1])]; simp [h.1], ?_, ?_, ?_⟩
    · rw [normStep_eq]; exact orthoStep_ne_zero hs hv
    · rw [normStep_eq, ← hfull]
      have := orthoStep_span (us.map fun u => (u, (1 : ℝ))) v
      rwa [e] at this
    · rw [← hfull]
      apply dot_span
      intro s hs'
      rw [normStep_eq]
      exact orthoStep_orth hs.ortho v (s, 1) (List.mem_map_of_mem (f := fun u => (u, (1 : ℝ))) hs')

theorem norm_sq (x : Vec n ℝ) : Vec.norm x * Vec.norm x = dot x x := Real.mul_self_sqrt (dot_self_nonneg x)

theorem norm_pos {x : Vec n ℝ} (h : x ≠ 0) : 0 < Vec.norm x :=
  Real.sqrt_pos.mpr (lt_of_le_of_ne (dot_self_nonneg x) fun e => h ((dot_self_eq_zero x).mp e.symm))

theorem normalize_unit {x : Vec n ℝ} (h : x ≠ 0) : (1 : ℝ) * dot ((Vec.norm x)⁻¹ • x) ((Vec.norm x)⁻¹ • x) = 1 := by
  rw [one_mul, dot_smul, dot_smul_right, ← norm_sq]
  have := (norm_pos h).ne'
  field_simp

/-- What the normalizing version computes for linearly independent vectors. -/
theorem gramSchmidtN_spec (vs : List (Vec n ℝ)) (hne : vs ≠ []) (hi : Independent vs) :
    ∃ us norms, gramSchmidtN vs = .ok (us, norms) ∧ GState vs (us.map fun u => (u, 1)) ∧ Heights vs norms := by
  have loop : ∀ (ws vs us : List (Vec n ℝ)) (norms : List ℝ), GState vs (us.map fun u => (u, 1)) → Heights vs norms →
      Independent (vs ++ ws) →
      GState (vs ++ ws) ((normLoop us norms ws).1.map fun u => (u, 1)) ∧ Heights (vs ++ ws) (normLoop us norms ws).2 := by
    intro ws
    induction ws with
    | nil => intro vs us norms h1 h2 _; simp only [List.append_nil, normLoop]; exact ⟨h1, h2⟩
    | cons v ws ih =>
      intro vs us norms h1 h2 hi
      rw [normLoop]
      have hv := hi.not_mem
      have hz := orthoStep_ne_zero h1 hv
      rw [← normStep_eq] at hz
      have hs := h1.step hv (c := (Vec.norm (normStep us v))⁻¹) (inv_ne_zero (norm_pos hz).ne') (w := 1) (by
        rw [← normStep_eq]; exact normalize_unit hz)
      rw [← normStep_eq] at hs
      have := ih (vs ++ [v]) (us ++ [divAssign (normStep us v) (.value (Vec.norm (normStep us v)))])
        (norms ++ [Vec.norm (normStep us v)]) (by rw [divAssign_eq]; simpa [Factor.get] using hs) (h2.snoc h1 hv) (by simpa using hi)
      simpa using this
  cases vs with
  | nil => exact absurd rfl hne
  | cons v vs =>
    have hnm := Independent.not_mem (vs := []) hi
    have hv : v ≠ 0 := by
      intro h0
      simp [h0] at hnm
    have h1 := GState.first hv (c := (Vec.norm v)⁻¹) (inv_ne_zero (norm_pos hv).ne') (w := 1) (normalize_unit hv)
    have h0 : GState ([] : List (Vec n ℝ)) (([] : List (Vec n ℝ)).map fun u => (u, 1)) :=
      ⟨rfl, ⟨List.Pairwise.nil, by simp⟩, fun k => by simp⟩
    have h2 := Heights.snoc (vs := []) (norms := []) (us := []) ⟨rfl, by simp⟩ h0 hnm
    have e : normStep ([] : List (Vec n ℝ)) v = v := by simp [normStep]
    rw [e] at h2
    have := loop vs [v] [divAssign v (.value (Vec.norm v))] [Vec.norm v] (by rw [divAssign_eq]; simpa [Factor.get] using h1) h2 hi
    exact ⟨_, _, rfl, this.1, this.2⟩

/-- C37. With normalization: the vectors become pairwise orthogonal unit vectors, the first `k` vectors span the same space as
before, for every `k`; the norms are positive, and each one is the distance of the original vector from the space
spanned by the vectors before it. -/
theorem C37_normalized (vs : List (Vec n ℝ)) (hne : vs ≠ []) (hi : Independent vs) :
    ∃ us norms, gramSchmidtN vs = .ok (us, norms) ∧ us.length = vs.length ∧ norms.length = vs.length ∧ PairwiseOrthogonal us ∧
      (∀ u ∈ us, Vec.norm u = 1) ∧ SameFlags vs us ∧
      ∀ (i : Nat) v, vs[i]? = some v → ∃ d, norms[i]? = some d ∧ 0 < d ∧
        (∀ s ∈ Submodule.span ℝ {x | x ∈ vs.take i}, d ≤ Vec.norm (sub v s)) ∧
        ∃ s ∈ Submodule.span ℝ {x | x ∈ vs.take i}, d = Vec.norm (sub v s) := by
  obtain ⟨us, norms, h1, h2, h3⟩ := gramSchmidtN_spec vs hne hi
  have e : (us.map fun u => (u, (1 : ℝ))).map (·.1) = us := map_pair us
  refine ⟨us, norms, h1, by simpa using h2.len, h3.1, ?_, ?_, ?_, ?_⟩
  · exact List.pairwise_map.mp h2.ortho.orth
  · intro u hu
    have := h2.ortho.inv (u, 1) (List.mem_map_of_mem (f := fun u => (u, (1 : ℝ))) hu)
    simp only [one_mul] at this
    rw [norm_real, this, Real.sqrt_one]
  · have := h2.flags
    rwa [e] at this
  · intro i v hv
    obtain ⟨r, r1, r2, r3, r4⟩ := h3.2 i v hv
    refine ⟨_, r1, norm_pos r2, ?_, v - r, r3, ?_⟩
    · intro s hs
      apply Real.sqrt_le_sqrt
      have hm : (v - r) - s ∈ Submodule.span ℝ {x | x ∈ vs.take i} := Submodule.sub_mem _ r3 hs
      have e2 : sub v s = r + ((v - r) - s) := by rw [sub_eq]; abel
      rw [e2, sumSq, sumSq, dot_add, dot_add_right, dot_add_right, dot_comm (v - r - s) r, r4 _ hm]
      have := dot_self_nonneg (v - r - s)
      linarith
    · rw [sub_eq, sub_sub_cancel]

/-- Each new vector is on the side of the vector it is made from; their scalar product is the norm. -/
def Diagonal (vs us : List (Vec n ℝ)) (norms : List ℝ) : Prop :=
  us.length = vs.length ∧ norms.length = vs.length ∧
  ∀ (i : Nat) v u d, vs[i]? = some v → us[i]? = some u → norms[i]? = some d → dot u v = d

theorem Diagonal.snoc {vs us : List (Vec n ℝ)} {norms : List ℝ} (h : Diagonal vs us norms) {v u : Vec n ℝ} {d : ℝ} (hd : dot u v = d) :
    Diagonal (vs ++ [v]) (us ++ [u]) (norms ++ [d]) := by
  obtain ⟨h1, h2, h3⟩ := h
  refine ⟨by simp [h1], by simp [h2], ?_⟩
  intro i v' u' d' e1 e2 e3
  by_cases hi : i < vs.length
  · rw [List.getElem?_append_left hi] at e1
    rw [List.getElem?_append_left (by omega)] at e2 e3
    exact h3 i v' u' d' e1 e2 e3
  · have hi' : i = vs.length := by
      have := (List.getElem?_eq_some_iff.mp e1).1
      simp at this
      omega
    subst hi'
    rw [List.getElem?_append_right (by omega)] at e1 e2 e3
    rw [h1] at e2
    rw [h2] at e3
    simp at e1 e2 e3
    rw [← e1, ← e2, ← e3]; exact hd

theorem step_dot {vs us : List (Vec n ℝ)} (h : GState vs (us.map fun u => (u, 1))) {v : Vec n ℝ} (hz : normStep us v ≠ 0) :
    dot ((Vec.norm (normStep us v))⁻¹ • normStep us v) v = Vec.norm (normStep us v) := by
  have e : (us.map fun u => (u, (1 : ℝ))).map (·.1) = us := map_pair us
  have hs : v - normStep us v ∈ Submodule.span ℝ {x | x ∈ us} := by
    have := orthoStep_span (us.map fun u => (u, (1 : ℝ))) v
    rw [e] at this
    rwa [normStep_eq]
  have ho : ∀ s ∈ Submodule.span ℝ {x | x ∈ us}, dot (normStep us v) s = 0 := by
    apply dot_span
    intro s hs'
    rw [normStep_eq]
    exact orthoStep_orth h.ortho v (s, 1) (List.mem_map_of_mem (f := fun u => (u, (1 : ℝ))) hs')
  have h1 : dot (normStep us v) v = dot (normStep us v) (normStep us v) := by
    have := ho _ hs
    rw [dot_sub_right] at this
    linarith
  have hp := (norm_pos hz).ne'
  rw [dot_smul, h1, ← norm_sq]
  field_simp

/-- C37. The normalized vectors keep the side of the original ones: the scalar product of each with the vector it replaces is its norm,
which is positive. -/
theorem C37_side (vs us : List (Vec n ℝ)) (norms : List ℝ) (hi : Independent vs) (h : gramSchmidtN vs = .ok (us, norms)) (i : Nat)
    (v u : Vec n ℝ) (hv : vs[i]? = some v) (hu : us[i]? = some u) : 0 < dot u v ∧ norms[i]? = some (dot u v) := by
  have loop : ∀ (ws vs us : List (Vec n ℝ)) (norms : List ℝ), GState vs (us.map fun u => (u, 1)) → Diagonal vs us norms →
      Independent (vs ++ ws) → Diagonal (vs ++ ws) (normLoop us norms ws).1 (normLoop us norms ws).2 := by
    intro ws
    induction ws with
    | nil => intro vs us norms h1 h2 _; simp only [List.append_nil, normLoop]; exact h2
    | cons v ws ih =>
      intro vs us norms h1 h2 hi
      rw [normLoop]
      have hv := hi.not_mem
      have hz := orthoStep_ne_zero h1 hv
      rw [← normStep_eq] at hz
      have hs := h1.step hv (c := (Vec.norm (normStep us v))⁻¹) (inv_ne_zero (norm_pos hz).ne') (w := 1) (by
        rw [← normStep_eq]; exact normalize_unit hz)
      rw [← normStep_eq] at hs
      have := ih (vs ++ [v]) (us ++ [divAssign (normStep us v) (.value (Vec.norm (normStep us v)))])
        (norms ++ [Vec.norm (normStep us v)]) (by rw [divAssign_eq]; simpa [Factor.get] using hs)
        (h2.snoc (by rw [divAssign_eq]; exact step_dot h1 hz)) (by simpa using hi)
      simpa using this
  have hne : vs ≠ [] := by rintro rfl; simp at hv
  have hdiag : Diagonal vs us norms := by
    cases vs with
    | nil => exact absurd rfl hne
    | cons w vs =>
      have hnm := Independent.not_mem (vs := []) hi
      have hw : w ≠ 0 := by
        intro h0
        simp [h0] at hnm
      have h1 := GState.first hw (c := (Vec.norm w)⁻¹) (inv_ne_zero (norm_pos hw).ne') (w := 1) (normalize_unit hw)
      have h0 : GState ([] : List (Vec n ℝ)) (([] : List (Vec n ℝ)).map fun u => (u, 1)) :=
        ⟨rfl, ⟨List.Pairwise.nil, by simp⟩, fun k => by simp⟩
      have e : normStep ([] : List (Vec n ℝ)) w = w := by simp [normStep]
      have h2 := Diagonal.snoc (vs := []) (us := []) (norms := []) ⟨rfl, rfl, by simp⟩ (step_dot h0 (v := w) (by rw [e]; exact hw))
      rw [e] at h2
      have := loop vs [w] [divAssign w (.value (Vec.norm w))] [Vec.norm w] (by rw [divAssign_eq]; simpa [Factor.get] using h1)
        (by rw [divAssign_eq]; simpa [Factor.get] using h2) hi
      have h : Res.ok (normLoop [divAssign w (.value (Vec.norm w))] [Vec.norm w] vs) = .ok (us, norms) := h
      rw [Res.ok.inj h] at this
      exact this
  obtain ⟨us', norms', h1, _, h3⟩ := gramSchmidtN_spec vs hne hi
  rw [h] at h1
  simp only [Res.ok.injEq, Prod.mk.injEq] at h1
  obtain ⟨rfl, rfl⟩ := h1
  obtain ⟨r, r1, r2, _⟩ := h3.2 i v hv
  have := hdiag.2.2 i v u _ hv hu r1
  rw [this]
  exact ⟨norm_pos r2, r1⟩

/-- C37. The square of the product of the norms is the Gram determinant of the vectors: the product is the volume of
the parallelepiped. -/
theorem C37_volume (vs us : List (Vec n ℝ)) (norms : List ℝ) (hne : vs ≠ []) (hi : Independent vs)
    (h : gramSchmidtN vs = .ok (us, norms)) :
    norms.prod ^ 2 = Matrix.det (Matrix.of fun i j : Fin vs.length => dot vs[i] vs[j]) := by
  obtain ⟨us', norms', h1, _, h3⟩ := gramSchmidtN_spec vs hne hi
  rw [h1] at h
  simp only [Res.ok.injEq, Prod.mk.injEq] at h
  obtain ⟨rfl, rfl⟩ := h
  have hr : ∀ i : Fin vs.length, ∃ r, norms'[i.val]? = some (Vec.norm r) ∧ vs[i] - r ∈ Submodule.span ℝ {x | x ∈ vs.take i} ∧
      ∀ s ∈ Submodule.span ℝ {x | x ∈ vs.take i}, dot r s = 0 := by
    intro i
    obtain ⟨r, r1, _, r3, r4⟩ := h3.2 i vs[i] (by simp)
    exact ⟨r, r1, r3, r4⟩
  choose R hR1 hR2 hR3 using hr
  have hspan : ∀ (i : Fin vs.length) x, x ∈ Submodule.span ℝ {x | x ∈ vs.take i} →
      ∃ c : Fin vs.length → ℝ, (∀ j, ¬ j < i → c j = 0) ∧ x = ∑ j, c j • vs[j] := by
    intro i x hx
    induction hx using Submodule.span_induction with
    | mem x hx =>
      obtain ⟨j, hj, rfl⟩ := List.mem_take_iff_getElem.mp hx
      have hji : j < i.val := by omega
      refine ⟨fun k => if k = ⟨j, by omega⟩ then 1 else 0, ?_, by simp⟩
      intro k hk
      beta_reduce
      rw [if_neg]
      rintro rfl
      exact hk hji
    | zero => exact ⟨fun _ => 0, by simp, by simp⟩
    | add x y _ _ hx hy =>
      obtain ⟨c, c1, c2⟩ := hx
      obtain ⟨d, d1, d2⟩ := hy
      exact ⟨fun j => c j + d j, fun j hj => by beta_reduce; rw [c1 j hj, d1 j hj, add_zero], by
        rw [c2, d2, ← Finset.sum_add_distrib]; exact Finset.sum_congr rfl fun j _ => (add_smul _ _ _).symm⟩
    | smul a x _ hx =>
      obtain ⟨c, c1, c2⟩ := hx
      exact ⟨fun j => a * c j, fun j hj => by beta_reduce; rw [c1 j hj, mul_zero], by
        rw [c2, Finset.smul_sum]; exact Finset.sum_congr rfl fun j _ => (mul_smul _ _ _).symm⟩
  have hc : ∀ i : Fin vs.length, ∃ t : Fin vs.length → ℝ, t i = 1 ∧ (∀ j, i < j → t j = 0) ∧ R i = ∑ j, t j • vs[j] := by
    intro i
    obtain ⟨c, c1, c2⟩ := hspan i _ (hR2 i)
    refine ⟨fun j => (if j = i then 1 else 0) - c j, by simp [c1 i (lt_irrefl i)], ?_, ?_⟩
    · intro j hj
      beta_reduce
      rw [if_neg (ne_of_gt hj), c1 j (not_lt_of_gt hj), sub_zero]
    · simp only [sub_smul, Finset.sum_sub_distrib, ite_smul, one_smul, zero_smul, Finset.sum_ite_eq', Finset.mem_univ, if_true]
      rw [← c2]
      abel
  choose T T1 T2 T3 using hc
  have hmem : ∀ i j : Fin vs.length, j < i → R j ∈ Submodule.span ℝ {x | x ∈ vs.take i} := by
    intro i j hj
    rw [T3 j]
    apply Submodule.sum_mem
    intro k _
    by_cases hk : j < k
    · rw [T2 j k hk, zero_smul]; exact Submodule.zero_mem _
    · apply Submodule.smul_mem
      apply Submodule.subset_span
      exact List.mem_take_iff_getElem.mpr ⟨k.val, by have := k.isLt; have : k.val < i.val := lt_of_le_of_lt (not_lt.mp hk) hj; omega, rfl⟩
  have horth : ∀ i j : Fin vs.length, i ≠ j → dot (R i) (R j) = 0 := by
    intro i j hij
    rcases lt_or_gt_of_ne hij with h | h
    · rw [dot_comm]; exact hR3 j _ (hmem j i h)
    · exact hR3 i _ (hmem i j h)
  have hdotsum : ∀ (f : Fin vs.length → Vec n ℝ) (y : Vec n ℝ), dot (∑ j, f j) y = ∑ j, dot (f j) y := by
    intro f y
    have : ∀ S : Finset (Fin vs.length), dot (∑ j ∈ S, f j) y = ∑ j ∈ S, dot (f j) y := by
      intro S
      induction S using Finset.induction_on with
      | empty => simp [zero_dot]
      | insert a S ha ih => rw [Finset.sum_insert ha, Finset.sum_insert ha, dot_add, ih]
    exact this _
  have hdet : Matrix.diagonal (fun i => dot (R i) (R i)) =
      Matrix.of T * (Matrix.of fun i j : Fin vs.length => dot vs[i] vs[j]) * (Matrix.of T).transpose := by
    ext i j
    rw [Matrix.mul_apply]
    have e : dot (R i) (R j) = ∑ k, (∑ l, T i l * dot vs[l] vs[k]) * T j k := by
      conv_lhs => rw [T3 j, dot_comm, hdotsum]
      apply Finset.sum_congr rfl
      intro k _
      rw [dot_smul, mul_comm, dot_comm]
      congr 1
      rw [T3 i, hdotsum]
      exact Finset.sum_congr rfl fun l _ => dot_smul _ _ _
    simp only [Matrix.mul_apply, Matrix.of_apply, Matrix.transpose_apply]
    rw [← e]
    by_cases hij : i = j
    · subst hij; simp
    · rw [Matrix.diagonal_apply_ne _ hij, horth i j hij]
  have hT : (Matrix.of T).det = 1 := by
    rw [Matrix.det_of_isLowerTriangular]
    · exact Finset.prod_eq_one fun i _ => T1 i
    · intro i j hij
      exact T2 i j hij
  have hfin := congrArg Matrix.det hdet
  rw [Matrix.det_diagonal, Matrix.det_mul, Matrix.det_mul, Matrix.det_transpose, hT, one_mul, mul_one] at hfin
  rw [← hfin]
  have hn : norms' = List.ofFn fun i => Vec.norm (R i) := by
    apply List.ext_getElem
    · simp [h3.1]
    · intro i g1 g2
      have hi : i < vs.length := by rw [← h3.1]; exact g1
      have := hR1 ⟨i, hi⟩
      simp [g1] at this
      simp [this]
  rw [hn, List.prod_ofFn, ← Finset.prod_pow]
  exact Finset.prod_congr rfl fun i _ => by rw [pow_two, norm_sq]

/-- Example: two vectors that are not orthogonal. -/
theorem example_independent (F : Type) [Field F] : Independent ([![1, 1], ![1, 0]] : List (Vec 2 F)) := by
  unfold Independent
  rw [Fintype.linearIndependent_iff]
  intro g hg
  have e : ∑ i : Fin 2, g i • ([![1, 1], ![1, 0]] : List (Vec 2 F)).get i = 0 := hg
  rw [Fin.sum_univ_two] at e
  have e0 := congrFun e 0
  have e1 := congrFun e 1
  simp at e0 e1
  have h1 : g 1 = 0 := by rw [e1, zero_add] at e0; exact e0
  intro i
  match i with
  | ⟨0, _⟩ => exact e1
  | ⟨1, _⟩ => exact h1

example : ∃ us norms, gramSchmidtN ([![1, 1], ![1, 0]] : List (Vec 2 ℝ)) = .ok (us, norms) ∧ PairwiseOrthogonal us := by
  obtain ⟨us, norms, h1, _, _, h2, _⟩ := C37_normalized _ (by simp) (example_independent ℝ)
  exact ⟨us, norms, h1, h2⟩

/-- C37. Without vectors an exception is thrown. -/
theorem C37_empty [Field F] : gramSchmidt ([] : List (Vec n F)) = .throw .outOfRange ∧
    gramSchmidtN ([] : List (Vec n ℝ)) = .throw .outOfRange := ⟨rfl, rfl⟩

end GTMesh.Props
