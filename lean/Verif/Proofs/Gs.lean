import Verif.Props.Vector
import Mathlib.Tactic.LinearCombination
import Mathlib.Tactic.FieldSimp
import Mathlib.Algebra.Order.Ring.Abs
import Mathlib.Data.Sign.Basic

/-! # Gram-Schmidt of two and three vectors in space -/

namespace GTMesh.Vec
open GTMesh.Props

theorem norm_nonneg' {n : Nat} (x : Vec n ℝ) : 0 ≤ Vec.norm x := Real.sqrt_nonneg _

theorem norm_zero {n : Nat} : Vec.norm (0 : Vec n ℝ) = 0 := by
  simp only [norm_real]; rw [dot_zero, Real.sqrt_zero]

theorem norm_eq_zero {n : Nat} {x : Vec n ℝ} : Vec.norm x = 0 ↔ x = 0 := by
  constructor
  · intro h
    by_contra hx
    exact (norm_pos hx).ne' h
  · rintro rfl; exact norm_zero

theorem norm_smul {n : Nat} (a : ℝ) (x : Vec n ℝ) : Vec.norm (a • x) = |a| * Vec.norm x := by
  simp only [norm_real]
  rw [dot_smul, dot_smul_right, ← mul_assoc, Real.sqrt_mul (mul_self_nonneg a), Real.sqrt_mul_self_eq_abs]

theorem norm_neg {n : Nat} (x : Vec n ℝ) : Vec.norm (-x) = Vec.norm x := by
  rw [show -x = (-1 : ℝ) • x by simp, norm_smul]; simp

theorem norm_sub_comm {n : Nat} (x y : Vec n ℝ) : Vec.norm (x - y) = Vec.norm (y - x) := by
  rw [← neg_sub, norm_neg]

section
variable {F : Type} [CommRing F]

theorem cross_smul_left (t : F) (a b : Vec 3 F) : cross (t • a) b = t • cross a b := by
  have h := cross_apply a b
  have h1 := cross_apply (t • a) b
  apply ext3 <;> simp only [h, h1, Pi.smul_apply, smul_eq_mul] <;> ring

theorem cross_smul_right (t : F) (a b : Vec 3 F) : cross a (t • b) = t • cross a b := by
  have h := cross_apply a b
  have h1 := cross_apply a (t • b)
  apply ext3 <;> simp only [h, h1, Pi.smul_apply, smul_eq_mul] <;> ring

theorem cross_sub_right (a b c : Vec 3 F) : cross a (b - c) = cross a b - cross a c := by
  have h := cross_apply a b
  have h1 := cross_apply a c
  have h2 := cross_apply a (b - c)
  apply ext3 <;> simp only [h, h1, h2, Pi.sub_apply] <;> ring

theorem cross_self (a : Vec 3 F) : cross a a = 0 := by
  have h := cross_apply a a
  apply ext3 <;> simp only [h, Pi.zero_apply] <;> ring

theorem dot_cross_left (a b : Vec 3 F) : dot (cross a b) a = 0 := (C36_vector_product a b 0 0).1
theorem dot_cross_right (a b : Vec 3 F) : dot (cross a b) b = 0 := (C36_vector_product a b 0 0).2.1
theorem dot_cross_self (a b : Vec 3 F) : dot (cross a b) (cross a b) = dot a a * dot b b - dot a b * dot a b :=
  (C36_vector_product a b 0 0).2.2.2.2.2.1

theorem triple (a b c : Vec 3 F) : cross (cross a b) c = dot a c • b - dot b c • a := by
  have h := cross_apply a b
  have h1 := cross_apply (cross a b) c
  apply ext3 <;> simp only [h, h1, dot3, Pi.sub_apply, Pi.smul_apply, smul_eq_mul] <;> ring

end

/-- Remove the components along two orthonormal vectors: what is left is the component along their vector product. -/
theorem remainder (u0 u1 v : Vec 3 ℝ) (h0 : dot u0 u0 = 1) (h1 : dot u1 u1 = 1) (h01 : dot u0 u1 = 0) :
    v - dot v u0 • u0 - dot v u1 • u1 = dot v (cross u0 u1) • cross u0 u1 := by
  set e := cross u0 u1 with he
  set w := v - dot v u0 • u0 - dot v u1 • u1 with hw
  have hee : dot e e = 1 := by rw [he, dot_cross_self, h0, h1, h01]; ring
  have w0 : dot u0 w = 0 := by
    rw [dot_comm, hw, dot_sub, dot_sub, dot_smul, dot_smul, h0, dot_comm u1 u0, h01]; ring
  have w1 : dot u1 w = 0 := by
    rw [dot_comm, hw, dot_sub, dot_sub, dot_smul, dot_smul, h1, h01]; ring
  have hew : cross e w = 0 := by rw [he, triple, w0, w1]; simp
  have := triple e w e
  have h2 : cross (cross e w) e = 0 := by
    rw [hew]
    have h := cross_apply (0 : Vec 3 ℝ) e
    apply ext3 <;> simp [h]
  rw [h2, hee, one_smul] at this
  have h3 : w = dot w e • e := (sub_eq_zero.mp this.symm)
  have h4 : dot w e = dot v e := by
    rw [hw, dot_sub, dot_sub, dot_smul, dot_smul, dot_comm u0, dot_comm u1, he, dot_cross_left, dot_cross_right]; ring
  rw [h3, h4]

/-- The two vectors that the algorithm makes from `v0` and `v1`. -/
theorem gs2 (v0 v1 : Vec 3 ℝ) (h0 : v0 ≠ 0) :
    ∃ us, gramSchmidtN [v0, v1] = .ok (us, [Vec.norm v0, Vec.norm (cross v0 v1) / Vec.norm v0]) := by
  have hp := norm_pos h0
  have e : gramSchmidtN [v0, v1] = .ok (normLoop [divAssign v0 (.value (Vec.norm v0))] [Vec.norm v0] [v1]) := rfl
  rw [e, normLoop, normLoop]
  refine ⟨[divAssign v0 (.value (Vec.norm v0)), divAssign (normStep [divAssign v0 (.value (Vec.norm v0))] v1)
    (.value (Vec.norm (normStep [divAssign v0 (.value (Vec.norm v0))] v1)))], ?_⟩
  have hs : normStep [divAssign v0 (.value (Vec.norm v0))] v1 =
      v1 - dot v1 ((Vec.norm v0)⁻¹ • v0) • ((Vec.norm v0)⁻¹ • v0) := by
    simp [normStep, subAssign_eq, Operand.get, divAssign_eq, Factor.get, smul_eq]
  simp only [List.singleton_append, Res.ok.injEq, Prod.mk.injEq, List.cons.injEq, and_true, true_and]
  rw [hs]
  set u0 := (Vec.norm v0)⁻¹ • v0 with hu
  have hu0 : dot u0 u0 = 1 := by have := normalize_unit h0; rwa [one_mul] at this
  have hv0 : v0 = Vec.norm v0 • u0 := by rw [hu, smul_smul, mul_inv_cancel₀ hp.ne', one_smul]
  rw [eq_div_iff hp.ne']
  have hc : cross v0 v1 = Vec.norm v0 • cross u0 (v1 - dot v1 u0 • u0) := by
    rw [cross_sub_right, cross_smul_right, cross_self, smul_zero, sub_zero, ← cross_smul_left, ← hv0]
  rw [hc, norm_smul, abs_of_pos hp, mul_comm]
  congr 1
  set w := v1 - dot v1 u0 • u0 with hw
  have hwu : dot u0 w = 0 := by rw [dot_comm, hw, dot_sub, dot_smul, hu0]; ring
  simp only [norm_real]
  congr 1
  rw [dot_cross_self, hu0, hwu]; ring

/-- The three vectors and norms that the algorithm makes from `v0`, `v1` and `v2`. -/
theorem gs3 (v0 v1 v2 : Vec 3 ℝ) (h : cross v0 v1 ≠ 0) :
    ∃ u0 u1, gramSchmidtN [v0, v1, v2] = .ok
      ([u0, u1, (SignType.sign (dot v2 (cross v0 v1)) : ℝ) • (Vec.norm (cross v0 v1))⁻¹ • cross v0 v1],
       [Vec.norm v0, Vec.norm (cross v0 v1) / Vec.norm v0, |dot v2 (cross v0 v1)| / Vec.norm (cross v0 v1)]) := by
  have h0 : v0 ≠ 0 := by
    rintro rfl
    apply h
    have h := cross_apply (0 : Vec 3 ℝ) v1
    apply ext3 <;> simp [h]
  have hp := norm_pos h0
  have hK := norm_pos h
  obtain ⟨us, h2⟩ := gs2 v0 v1 h0
  have e2 : gramSchmidtN [v0, v1] = .ok (normLoop [divAssign v0 (.value (Vec.norm v0))] [Vec.norm v0] [v1]) := rfl
  have e3 : gramSchmidtN [v0, v1, v2] = .ok (normLoop [divAssign v0 (.value (Vec.norm v0))] [Vec.norm v0] [v1, v2]) := rfl
  rw [e2, normLoop, normLoop] at h2
  rw [e3, normLoop, normLoop, normLoop]
  set a0 := divAssign v0 (.value (Vec.norm v0)) with ha0
  set w1 := normStep [a0] v1 with hw1
  simp only [List.singleton_append, Res.ok.injEq, Prod.mk.injEq, List.cons.injEq, and_true, true_and] at h2
  obtain ⟨_, hn1⟩ := h2
  have hw1' : w1 = v1 - dot v1 a0 • a0 := by
    rw [hw1]; simp [normStep, subAssign_eq, Operand.get, smul_eq]
  have ha : a0 = (Vec.norm v0)⁻¹ • v0 := by rw [ha0, divAssign_eq, Factor.get]
  have haa : dot a0 a0 = 1 := by have := normalize_unit h0; rw [ha]; rwa [one_mul] at this
  have hw1z : w1 ≠ 0 := by
    intro hz
    rw [hz, norm_zero] at hn1
    exact (div_pos hK hp).ne hn1
  have hw1p := norm_pos hw1z
  set a1 := divAssign w1 (.value (Vec.norm w1)) with ha1
  have ha1' : a1 = (Vec.norm w1)⁻¹ • w1 := by rw [ha1, divAssign_eq, Factor.get]
  have h11 : dot a1 a1 = 1 := by have := normalize_unit hw1z; rw [ha1']; rwa [one_mul] at this
  have h01 : dot a0 a1 = 0 := by
    rw [ha1', dot_smul_right, hw1', dot_sub_right, dot_smul_right, haa, dot_comm a0 v1]; ring
  have hv0 : v0 = Vec.norm v0 • a0 := by rw [ha, smul_smul, mul_inv_cancel₀ hp.ne', one_smul]
  have hv1 : w1 = Vec.norm w1 • a1 := by rw [ha1', smul_smul, mul_inv_cancel₀ hw1p.ne', one_smul]
  have hc : cross v0 v1 = Vec.norm (cross v0 v1) • cross a0 a1 := by
    have e1 : cross v0 v1 = Vec.norm v0 • cross a0 w1 := by
      rw [hw1', cross_sub_right, cross_smul_right, cross_self, smul_zero, sub_zero, ← cross_smul_left, ← hv0]
    have e2 : Vec.norm (cross v0 v1) = Vec.norm v0 * Vec.norm w1 := by
      rw [hn1]; field_simp
    rw [e2, mul_smul, ← cross_smul_right, ← hv1]; exact e1
  have he : cross a0 a1 = (Vec.norm (cross v0 v1))⁻¹ • cross v0 v1 := by
    have := congrArg (fun x => (Vec.norm (cross v0 v1))⁻¹ • x) hc
    beta_reduce at this
    rw [smul_smul, inv_mul_cancel₀ hK.ne', one_smul] at this
    exact this.symm
  have hs2 : normStep ([a0] ++ [a1]) v2 = dot v2 (cross a0 a1) • cross a0 a1 := by
    rw [← remainder a0 a1 v2 haa h11 h01]
    simp [normStep, subAssign_eq, Operand.get, smul_eq]
  have hen : Vec.norm (cross a0 a1) = 1 := by
    simp only [norm_real]
    rw [dot_cross_self, haa, h11, h01]; simp
  have hd : dot v2 (cross a0 a1) = dot v2 (cross v0 v1) / Vec.norm (cross v0 v1) := by
    rw [he, dot_smul_right]; field_simp
  refine ⟨a0, a1, ?_⟩
  rw [hs2, norm_smul, hen, mul_one, divAssign_eq, Factor.get]
  simp only [normLoop, List.singleton_append, List.cons_append, List.nil_append, Res.ok.injEq, Prod.mk.injEq, List.cons.injEq, and_true, true_and]
  refine ⟨?_, hn1, ?_⟩
  · rw [smul_smul, ← he]
    congr 1
    have hsg : SignType.sign (dot v2 (cross v0 v1)) = SignType.sign (dot v2 (cross a0 a1)) := by
      rw [hd]
      rcases lt_trichotomy (dot v2 (cross v0 v1)) 0 with hlt | heq | hgt
      · rw [sign_neg hlt, sign_neg (div_neg_of_neg_of_pos hlt hK)]
      · rw [heq]; simp
      · rw [sign_pos hgt, sign_pos (div_pos hgt hK)]
    rw [hsg]
    rcases lt_trichotomy (dot v2 (cross a0 a1)) 0 with hlt | heq | hgt
    · rw [sign_neg hlt, abs_of_neg hlt]; simp; field_simp; exact div_self hlt.ne
    · rw [heq]; simp
    · rw [sign_pos hgt, abs_of_pos hgt]; simp; field_simp
  · rw [hd, abs_div, abs_of_pos hK]

end GTMesh.Vec
