import Mathlib.Tactic.Linarith
import Mathlib.Tactic.Positivity
import Mathlib.Tactic.FieldSimp
import Mathlib.Tactic.Ring
import Verif.Model.Print
import Verif.Spec.Numeral
import Verif.Proofs.ToString

/-! # The value of the printed text -/

namespace GTMesh
open Numeral

theorem natOf_append (a b : List Nat) : natOf (a ++ b) = natOf a * 10 ^ b.length + natOf b := by
  induction b using List.reverseRecOn with
  | nil => simp [natOf]
  | append_singleton b d ih =>
    have h : ∀ l : List Nat, natOf (l ++ [d]) = 10 * natOf l + d := fun l => by simp [natOf]
    rw [← List.append_assoc, h, ih, h, List.length_append, List.length_singleton, pow_succ]
    ring

theorem natOf_zeros (k : Nat) : natOf (List.replicate k 0) = 0 := by
  induction k with
  | zero => rfl
  | succ k ih => simpa [natOf, List.replicate_succ] using ih

theorem natOf_lastDigits (w n : Nat) : natOf (lastDigits w n) = n % 10 ^ w ∧ (lastDigits w n).length = w ∧ ∀ d ∈ lastDigits w n, d < 10 := by
  induction w generalizing n with
  | zero => simp [lastDigits, natOf, Nat.mod_one]
  | succ w ih =>
    obtain ⟨h1, h2, h3⟩ := ih (n / 10)
    refine ⟨?_, by simp [lastDigits, h2], ?_⟩
    · rw [lastDigits, natOf_append, h1]
      have : natOf [n % 10] = n % 10 := by simp [natOf]
      rw [this, List.length_singleton, pow_one, pow_succ, Nat.mul_comm (10 ^ w) 10, Nat.mod_mul]
      omega
    · intro d hd
      rcases List.mem_append.mp hd with hd | hd
      · exact h3 d hd
      · obtain rfl := List.mem_singleton.mp hd
        omega

theorem strip_spec (l : List Nat) : ∃ k, l = stripZeros l ++ List.replicate k 0 := by
  unfold stripZeros
  have h := List.takeWhile_append_dropWhile (p := (· == 0)) (l := l.reverse)
  refine ⟨(l.reverse.takeWhile (· == 0)).length, ?_⟩
  have h2 : l.reverse.takeWhile (· == 0) = List.replicate (l.reverse.takeWhile (· == 0)).length 0 := by
    rw [List.eq_replicate_iff]
    refine ⟨rfl, fun x hx => ?_⟩
    have h3 : ∀ (l : List Nat) x, x ∈ l.takeWhile (· == 0) → x = 0 := by
      intro l
      induction l with
      | nil => simp
      | cons a l ih =>
        intro x hx
        rw [List.takeWhile_cons] at hx
        split at hx
        · rename_i ha
          rcases List.mem_cons.mp hx with rfl | hx
          · simpa using ha
          · exact ih x hx
        · cases hx
    exact h3 _ x hx
  conv_lhs => rw [← List.reverse_reverse l, ← h, List.reverse_append]
  congr 1
  conv_lhs => rw [h2]
  simp

theorem takeDigits_map {l : List Nat} (hl : ∀ d ∈ l, d < 10) {rest : List Char} (hr : ∀ c, rest.head? = some c → c.isDigit = false) :
    takeDigits (l.map Nat.digitChar ++ rest) = (l, rest) := by
  induction l with
  | nil =>
    cases rest with
    | nil => rfl
    | cons c r => simp [takeDigits, hr c rfl]
  | cons d l ih =>
    have key : ∀ d < 10, (Nat.digitChar d).isDigit = true ∧ (Nat.digitChar d).toNat - '0'.toNat = d := by decide
    obtain ⟨h1, h2⟩ := key d (hl d (by simp))
    rw [List.map_cons, List.cons_append, takeDigits, if_pos h1, ih fun x hx => hl x (by simp [hx]), h2]

theorem decimal_spec (n : Nat) : ∃ ds : List Nat, decimal n = ds.map Nat.digitChar ∧ natOf ds = n ∧ ds ≠ [] ∧ ∀ d ∈ ds, d < 10 := by
  induction n using Nat.strong_induction_on with
  | _ n ih =>
    by_cases h : n < 10
    · refine ⟨[n], ?_, by simp [natOf], by simp, by simpa using h⟩
      simp [decimal, Nat.toDigits_of_lt_base h]
    · obtain ⟨ds, h1, h2, _, h4⟩ := ih (n / 10) (by omega)
      refine ⟨ds ++ [n % 10], ?_, ?_, by simp, ?_⟩
      · unfold decimal at h1 ⊢
        rw [Nat.toDigits_of_base_le (by omega) (by omega), h1]
        simp
      · have : natOf [n % 10] = n % 10 := by simp [natOf]
        rw [natOf_append, h2, this, List.length_singleton]
        omega
      · intro d hd
        rcases List.mem_append.mp hd with hd | hd
        · exact h4 d hd
        · obtain rfl := List.mem_singleton.mp hd
          omega

theorem unsigned_point (d w : Nat) {tail : List Char} {e : Int} (ht : exponentOf tail = some e)
    (hc : ∀ c, tail.head? = some c → c.isDigit = false ∧ c ≠ '.') :
    unsigned (pointText d w ++ tail) = some ((d : ℚ) * 10 ^ (e - (w : Int))) := by
  obtain ⟨ds, h1, h2, h3, h4⟩ := decimal_spec (d / 10 ^ w)
  obtain ⟨g1, g2, g3⟩ := natOf_lastDigits w (d % 10 ^ w)
  obtain ⟨k, hk⟩ := strip_spec (lastDigits w (d % 10 ^ w))
  have hlt : ∀ x ∈ stripZeros (lastDigits w (d % 10 ^ w)), x < 10 := fun x hx => g3 x (by rw [hk]; simp [hx])
  have hval : natOf ds * 10 ^ w + natOf (lastDigits w (d % 10 ^ w)) = d := by
    rw [h2, g1, Nat.mod_mod]
    exact Nat.div_add_mod' d (10 ^ w)
  have hnum : natOf (ds ++ lastDigits w (d % 10 ^ w)) = d := by rw [natOf_append, g2, hval]
  unfold pointText
  generalize hs : stripZeros (lastDigits w (d % 10 ^ w)) = s at hk hlt
  have hw : s.length + k = w := by
    rw [← g2]
    conv_rhs => rw [hk]
    simp
  have hsval : natOf (ds ++ s) * 10 ^ k = d := by
    rw [hk, ← List.append_assoc, natOf_append, natOf_zeros, List.length_replicate] at hnum
    simpa using hnum
  have hq : ((natOf (ds ++ s) : ℕ) : ℚ) * (10 : ℚ) ^ (e - (s.length : Int)) = (d : ℚ) * 10 ^ (e - (w : Int)) := by
    rw [← hsval, Nat.cast_mul, Nat.cast_pow, mul_assoc, Nat.cast_ofNat, ← zpow_natCast (10 : ℚ) k,
      ← zpow_add₀ (by norm_num : (10 : ℚ) ≠ 0)]
    congr 2
    omega
  have hdots : ∀ c, tail.head? = some c → c.isDigit = false := fun c h => (hc c h).1
  rw [h1]
  cases s with
  | nil =>
    have h5 : takeDigits (ds.map Nat.digitChar ++ [] ++ tail) = (ds, tail) := by
      rw [List.append_nil]; exact takeDigits_map h4 hdots
    have h6 : takeFraction tail = ([], tail) := by
      cases tail with
      | nil => rfl
      | cons c r =>
        have := (hc c rfl).2
        unfold takeFraction
        split
        · rename_i hh; cases hh; exact absurd rfl this
        · rfl
    simp only [unsigned, h5, h6, ht, if_neg h3, Option.map_some]
    rw [← hq]
  | cons x s =>
    have h5 : takeDigits (ds.map Nat.digitChar ++ ('.' :: (x :: s).map Nat.digitChar) ++ tail) = (ds, '.' :: (x :: s).map Nat.digitChar ++ tail) := by
      rw [List.append_assoc]
      refine takeDigits_map h4 fun c hcc => ?_
      cases hcc
      decide
    have h6 : takeFraction ('.' :: (x :: s).map Nat.digitChar ++ tail) = (x :: s, tail) := by
      show takeDigits ((x :: s).map Nat.digitChar ++ tail) = _
      exact takeDigits_map hlt hdots
    simp only [unsigned, h5, h6, ht, if_neg h3, Option.map_some]
    rw [← hq]

theorem exponent_text (e : Int) : exponentOf (exponentText e) = some e := by
  obtain ⟨ds, h1, h2, h3, h4⟩ := decimal_spec e.natAbs
  have key : wholeOf ((if e.natAbs < 10 then ['0'] else []) ++ decimal e.natAbs) = some e.natAbs := by
    have : ∃ zs : List Nat, (if e.natAbs < 10 then ['0'] else []) = zs.map Nat.digitChar ∧ natOf zs = 0 ∧ ∀ d ∈ zs, d < 10 := by
      split
      · exact ⟨[0], by decide, by decide, by decide⟩
      · exact ⟨[], rfl, rfl, by simp⟩
    obtain ⟨zs, z1, z2, z3⟩ := this
    rw [z1, h1, ← List.map_append, ← List.append_nil (List.map _ _)]
    unfold wholeOf
    rw [takeDigits_map (by
      intro d hd
      rcases List.mem_append.mp hd with hd | hd
      · exact z3 d hd
      · exact h4 d hd) (by simp)]
    have : natOf (zs ++ ds) = e.natAbs := by rw [natOf_append, z2, h2]; simp
    simp [h3, this]
  unfold exponentText
  split
  · rw [exponentOf, key]
    simp only [Option.map_some, Option.some.injEq]
    omega
  · rw [exponentOf, key]
    simp only [Option.map_some, Option.some.injEq]
    omega

/-- The number that is printed. -/
def rounded (x : ℚ) : ℚ :=
  if x = 0 then 0 else (if x < 0 then -1 else 1) * ((significant |x|).1 * (10 : ℚ) ^ ((significant |x|).2 - 5))

theorem unsigned_digits {s : List Char} {v : ℚ} (h : unsigned s = some v) : value s = some v := by
  unfold value
  split
  · unfold unsigned at h
    simp [takeDigits] at h
  · exact h

theorem value_print (x : ℚ) : value (printText x) = some (rounded x) := by
  unfold printText rounded
  by_cases h0 : x = 0
  · simp only [h0, if_true]
    decide +kernel
  · rw [if_neg h0, if_neg h0]
    have key : unsigned (if -4 ≤ (significant |x|).2 ∧ (significant |x|).2 < 6 then pointText (significant |x|).1 (5 - (significant |x|).2).toNat
        else pointText (significant |x|).1 5 ++ exponentText (significant |x|).2) = some ((significant |x|).1 * (10 : ℚ) ^ ((significant |x|).2 - 5)) := by
      split
      · rename_i h
        have := unsigned_point (significant |x|).1 (5 - (significant |x|).2).toNat (tail := []) (e := 0) rfl (by simp)
        rw [List.append_nil] at this
        rw [this]
        congr 3
        omega
      · refine unsigned_point _ 5 (exponent_text _) fun c hc => ?_
        cases hc
        decide
    split
    · rename_i hneg
      simp only [List.singleton_append]
      rw [value, key]
      simp
    · rw [List.nil_append, one_mul]
      exact unsigned_digits key

/-- The printed number is the closest one with six digits. -/
theorem significant_spec {a : ℚ} (ha : 0 < a) : 10 ^ 5 ≤ (significant a).1 ∧ (significant a).1 < 10 ^ 6 ∧
    ∃ k : Int, (10 : ℚ) ^ (k + 5) ≤ a ∧ a < 10 ^ (k + 6) ∧
      |((significant a).1 : ℚ) * 10 ^ ((significant a).2 - 5) - a| ≤ 10 ^ k / 2 ∧
      ((significant a).2 - 5 = k ∨ (significant a).1 * (10 : ℚ) ^ ((significant a).2 - 5) = 10 ^ (k + 6)) := by
  have h1 := Int.zpow_log_le_self (R := ℚ) (b := 10) (by norm_num) ha
  have h2 := Int.lt_zpow_succ_log_self (R := ℚ) (b := 10) (by norm_num) a
  rw [Nat.cast_ofNat] at h1 h2
  have hp : (0 : ℚ) < 10 ^ (Int.log 10 a - 5) := zpow_pos (by norm_num) _
  have ten : (10 : ℚ) ≠ 0 := by norm_num
  have e1 : (10 : ℚ) ^ Int.log 10 a = 10 ^ 5 * 10 ^ (Int.log 10 a - 5) := by
    rw [← zpow_natCast, ← zpow_add₀ ten]; congr 1; push_cast; omega
  have e2 : (10 : ℚ) ^ (Int.log 10 a + 1) = 10 ^ 6 * 10 ^ (Int.log 10 a - 5) := by
    rw [← zpow_natCast, ← zpow_add₀ ten]; congr 1; push_cast; omega
  have b1 : (10 : ℚ) ^ 5 ≤ a / 10 ^ (Int.log 10 a - 5) := by rw [le_div_iff₀ hp, ← e1]; exact h1
  have b2 : a / 10 ^ (Int.log 10 a - 5) < (10 : ℚ) ^ 6 := by rw [div_lt_iff₀ hp, ← e2]; exact h2
  obtain ⟨r1, r2⟩ := Vtk.roundEven_near (q := a / 10 ^ (Int.log 10 a - 5)) (le_of_lt (div_pos ha hp))
  have c1 : 10 ^ 5 ≤ Vtk.roundEven (a / 10 ^ (Int.log 10 a - 5)) := by
    have : ((10 ^ 5 : ℕ) : ℚ) < (Vtk.roundEven (a / 10 ^ (Int.log 10 a - 5)) : ℚ) + 1 := by push_cast; linarith
    have : 10 ^ 5 < Vtk.roundEven (a / 10 ^ (Int.log 10 a - 5)) + 1 := by exact_mod_cast this
    omega
  have c2 : Vtk.roundEven (a / 10 ^ (Int.log 10 a - 5)) ≤ 10 ^ 6 := by
    have : (Vtk.roundEven (a / 10 ^ (Int.log 10 a - 5)) : ℚ) < ((10 ^ 6 + 1 : ℕ) : ℚ) := by push_cast; linarith
    have : Vtk.roundEven (a / 10 ^ (Int.log 10 a - 5)) < 10 ^ 6 + 1 := by exact_mod_cast this
    omega
  have hval : |(Vtk.roundEven (a / 10 ^ (Int.log 10 a - 5)) : ℚ) * 10 ^ (Int.log 10 a - 5) - a| ≤ 10 ^ (Int.log 10 a - 5) / 2 := by
    have : (Vtk.roundEven (a / 10 ^ (Int.log 10 a - 5)) : ℚ) * 10 ^ (Int.log 10 a - 5) - a =
        ((Vtk.roundEven (a / 10 ^ (Int.log 10 a - 5)) : ℚ) - a / 10 ^ (Int.log 10 a - 5)) * 10 ^ (Int.log 10 a - 5) := by
      field_simp
    rw [this, abs_mul, abs_of_pos hp]
    have : |(Vtk.roundEven (a / 10 ^ (Int.log 10 a - 5)) : ℚ) - a / 10 ^ (Int.log 10 a - 5)| ≤ 1 / 2 := by
      rw [abs_le]; constructor <;> linarith
    nlinarith
  have k5 : Int.log 10 a - 5 + 5 = Int.log 10 a := by omega
  have k6 : Int.log 10 a - 5 + 6 = Int.log 10 a + 1 := by omega
  unfold significant
  simp only
  split
  · rename_i hd
    have hsame : ((10 ^ 5 : ℕ) : ℚ) * 10 ^ (Int.log 10 a + 1 - 5) = (Vtk.roundEven (a / 10 ^ (Int.log 10 a - 5)) : ℚ) * 10 ^ (Int.log 10 a - 5) := by
      rw [hd]
      push_cast
      rw [show Int.log 10 a + 1 - 5 = (Int.log 10 a - 5) + 1 by omega, zpow_add₀ ten]
      ring
    refine ⟨le_refl _, by norm_num, Int.log 10 a - 5, by rw [k5]; exact h1, by rw [k6]; exact h2, ?_, Or.inr ?_⟩
    · rw [hsame]; exact hval
    · rw [hsame, k6, e2, hd]; push_cast; ring
  · rename_i hd
    refine ⟨c1, by omega, Int.log 10 a - 5, by rw [k5]; exact h1, by rw [k6]; exact h2, hval, Or.inl rfl⟩

end GTMesh
