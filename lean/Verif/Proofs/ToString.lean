import Mathlib.Tactic.Linarith
import Mathlib.Tactic.Positivity
import Mathlib.Tactic.FieldSimp
import Verif.Model.ToString
import Verif.Proofs.EdgeTable

/-! # The texts of numbers -/

namespace GTMesh.Vtk

theorem roundEven_near {q : ℚ} (h : 0 ≤ q) : (roundEven q : ℚ) ≤ q + 1 / 2 ∧ q - 1 / 2 ≤ roundEven q := by
  have h0 : 0 ≤ ⌊q⌋ := Int.floor_nonneg.mpr h
  have h1 : ((⌊q⌋.toNat : ℕ) : ℚ) = (⌊q⌋ : ℚ) := by
    have : ((⌊q⌋.toNat : ℕ) : ℤ) = ⌊q⌋ := Int.toNat_of_nonneg h0
    exact_mod_cast congrArg (fun z : ℤ => (z : ℚ)) this
  have h2 := Int.floor_le q
  have h3 := Int.lt_floor_add_one q
  unfold roundEven
  simp only
  split
  · rename_i hc
    rw [Nat.cast_add, Nat.cast_one, h1]
    rw [h1] at hc
    rcases hc with hc | ⟨hc, _⟩ <;> constructor <;> linarith
  · rename_i hc
    rw [h1]
    rw [h1] at hc
    rw [not_or] at hc
    constructor <;> linarith [not_lt.mp hc.1]

theorem digitChar_inj {a b : Nat} (ha : a < 10) (hb : b < 10) (h : Nat.digitChar a = Nat.digitChar b) : a = b := by
  have key : ∀ a < 10, ∀ b < 10, Nat.digitChar a = Nat.digitChar b → a = b := by decide
  exact key a ha b hb h

theorem sixDigits_inj {a b : Nat} (ha : a < 10 ^ 6) (hb : b < 10 ^ 6) (h : sixDigits a = sixDigits b) : a = b := by
  simp only [sixDigits, List.map_cons, List.map_nil, List.cons.injEq, and_true] at h
  obtain ⟨h1, h2, h3, h4, h5, h6⟩ := h
  have h1 := digitChar_inj (by omega) (by omega) h1
  have h2 := digitChar_inj (by omega) (by omega) h2
  have h3 := digitChar_inj (by omega) (by omega) h3
  have h4 := digitChar_inj (by omega) (by omega) h4
  have h5 := digitChar_inj (by omega) (by omega) h5
  have h6 := digitChar_inj (by omega) (by omega) h6
  omega

theorem decimal_digit {n : Nat} {c : Char} (h : c ∈ decimal n) : c.isDigit = true :=
  Nat.isDigit_of_mem_toDigits (by omega) (by omega) h

/-- What stands in front of the rest of a text of a number. -/
def numberText (neg : Prop) [Decidable neg] (n : Nat) : List Char :=
  (if neg then ['-'] else []) ++ decimal (n / 10 ^ 6) ++ '.' :: sixDigits (n % 10 ^ 6)

theorem numberText_inj {p q : Prop} [Decidable p] [Decidable q] {a b : Nat} (h : numberText p a = numberText q b) : (p ↔ q) ∧ a = b := by
  unfold numberText at h
  have nodot : ∀ (r : Prop) [Decidable r] (n : Nat), '.' ∉ (if r then ['-'] else []) ++ decimal n := by
    intro r _ n hm
    rcases List.mem_append.mp hm with hm | hm
    · split at hm <;> simp at hm
    · have := decimal_digit hm; revert this; decide
  obtain ⟨h1, h2⟩ := split_unique (nodot p _) (nodot q _) h
  have h2 := sixDigits_inj (Nat.mod_lt _ (by norm_num)) (Nat.mod_lt _ (by norm_num)) h2
  have nominus : ∀ (n : Nat) (r : List Char), decimal n = '-' :: r → False := by
    intro n r hn
    have : '-' ∈ decimal n := by rw [hn]; simp
    have := decimal_digit this; revert this; decide
  have key : (p ↔ q) ∧ decimal (a / 10 ^ 6) = decimal (b / 10 ^ 6) := by
    by_cases hp : p <;> by_cases hq : q <;> simp only [hp, hq, if_true, if_false, List.nil_append, List.cons_append] at h1
    · exact ⟨by simp [hp, hq], by simpa using h1⟩
    · exact (nominus _ _ h1.symm).elim
    · exact (nominus _ _ h1).elim
    · exact ⟨by simp [hp, hq], h1⟩
  refine ⟨key.1, ?_⟩
  have h3 := decimal_inj key.2
  rw [← Nat.div_add_mod a (10 ^ 6), ← Nat.div_add_mod b (10 ^ 6), h3, h2]

/-- Numbers with the same text are at most 10^-6 apart. -/
theorem toString6_near {x y : ℚ} (h : toString6 x = toString6 y) : |x - y| ≤ 1 / 10 ^ 6 := by
  obtain ⟨h1, h2⟩ := numberText_inj (p := x < 0) (q := y < 0) h
  obtain ⟨a1, a2⟩ := roundEven_near (q := |x| * 10 ^ 6) (by positivity)
  obtain ⟨b1, b2⟩ := roundEven_near (q := |y| * 10 ^ 6) (by positivity)
  rw [h2] at a1 a2
  have e : |x - y| = |(|x| - |y|)| := by
    by_cases hx : x < 0
    · have hy := h1.mp hx
      rw [abs_of_neg hx, abs_of_neg hy, abs_sub_comm]
      congr 1; ring
    · have hy : ¬ y < 0 := fun hy => hx (h1.mpr hy)
      rw [abs_of_nonneg (not_lt.mp hx), abs_of_nonneg (not_lt.mp hy)]
  rw [e, abs_le]
  constructor <;> norm_num at a1 a2 b1 b2 ⊢ <;> linarith

/-- Small numbers that are not negative have the text of 0. -/
theorem toString6_small {x : ℚ} (h0 : 0 ≤ x) (h1 : x < 1 / (2 * 10 ^ 6)) : toString6 x = "0.000000".toList := by
  have hr : roundEven (|x| * 10 ^ 6) = 0 := by
    rw [abs_of_nonneg h0]
    have hx : x * 10 ^ 6 < 1 / 2 := by
      have := mul_lt_mul_of_pos_right h1 (show (0 : ℚ) < 10 ^ 6 by norm_num)
      norm_num at this ⊢
      linarith
    have hf : ⌊x * 10 ^ 6⌋ = 0 := by
      rw [Int.floor_eq_zero_iff]
      exact ⟨by positivity, by linarith⟩
    unfold roundEven
    simp only [hf, Int.toNat_zero, Nat.cast_zero, sub_zero]
    rw [if_neg]
    rintro (h | ⟨h, _⟩) <;> linarith
  unfold toString6
  rw [hr, if_neg (not_lt.mpr h0)]
  decide

theorem semicolon_not_mem_toString6 (x : ℚ) : ';' ∉ toString6 x := by
  have hd : ∀ k, ';' ∉ sixDigits k := by
    intro k hm
    simp only [sixDigits, List.mem_map] at hm
    obtain ⟨d, hd, he⟩ := hm
    have hlt : d < 10 := by simp only [List.mem_cons, List.not_mem_nil, or_false] at hd; omega
    have key : ∀ d < 10, Nat.digitChar d ≠ ';' := by decide
    exact key d hlt he
  unfold toString6
  intro hm
  simp only [List.mem_append, List.mem_cons] at hm
  rcases hm with (hm | hm) | hm | hm
  · split at hm <;> simp at hm
  · exact semicolon_not_mem_decimal _ hm
  · revert hm; decide
  · exact hd _ hm

theorem centerKey_inj {p q : Point3 ℚ} (h : centerKey p = centerKey q) :
    toString6 p.1 = toString6 q.1 ∧ toString6 p.2.1 = toString6 q.2.1 ∧ toString6 p.2.2 = toString6 q.2.2 := by
  unfold centerKey at h
  rw [List.append_assoc, List.append_assoc, List.cons_append, List.cons_append] at h
  obtain ⟨h1, h2⟩ := split_unique (semicolon_not_mem_toString6 _) (semicolon_not_mem_toString6 _) h
  obtain ⟨h2, h3⟩ := split_unique (semicolon_not_mem_toString6 _) (semicolon_not_mem_toString6 _) h2
  exact ⟨h1, h2, h3⟩

end GTMesh.Vtk
