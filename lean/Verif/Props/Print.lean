import Verif.Proofs.Print
import Verif.Proofs.PrintLoad

/-!
# C59: coordinates in mesh files
-/

namespace GTMesh
open Numeral

theorem stored_eq (x : ℚ) : stored x = rounded x := by rw [stored, value_print]; rfl

theorem rounded_zero : rounded 0 = 0 := by simp [rounded]

theorem stored_zero : stored 0 = 0 := by rw [stored_eq, rounded_zero]

theorem ten_pos (k : Int) : (0 : ℚ) < 10 ^ k := zpow_pos (by norm_num) k

theorem ten_lt {j k : Int} (h : (10 : ℚ) ^ j < 10 ^ k) : j < k := (zpow_lt_zpow_iff_right₀ (by norm_num)).mp h

theorem rounded_form {x : ℚ} (h : x ≠ 0) : ∃ k n : Int, (10 : ℚ) ^ (k + 5) ≤ |x| ∧ |x| < 10 ^ (k + 6) ∧
    rounded x = n * (10 : ℚ) ^ k ∧ |rounded x - x| ≤ 10 ^ k / 2 ∧ SixDigits (rounded x) ∧ (x < 0 ↔ rounded x < 0) ∧ (0 < x ↔ 0 < rounded x) := by
  obtain ⟨h1, h2, k, h3, h4, h5, h6⟩ := significant_spec (abs_pos.mpr h)
  have hpos : 0 < ((significant |x|).1 : ℚ) * (10 : ℚ) ^ ((significant |x|).2 - 5) := by
    have : 0 < (significant |x|).1 := by omega
    have : (0 : ℚ) < ((significant |x|).1 : ℚ) := by exact_mod_cast this
    exact mul_pos this (ten_pos _)
  obtain ⟨M, hM⟩ : ∃ M : Int, ((significant |x|).1 : ℚ) * (10 : ℚ) ^ ((significant |x|).2 - 5) = M * (10 : ℚ) ^ k := by
    rcases h6 with h6 | h6
    · exact ⟨((significant |x|).1 : Int), by rw [h6]; push_cast; rfl⟩
    · refine ⟨10 ^ 6, ?_⟩
      rw [h6, zpow_add₀ (by norm_num)]
      push_cast
      rw [mul_comm]
  rcases lt_or_gt_of_ne h with hx | hx
  · have hr : rounded x = -(((significant |x|).1 : ℚ) * (10 : ℚ) ^ ((significant |x|).2 - 5)) := by simp [rounded, h, hx]
    refine ⟨k, -M, h3, h4, by rw [hr, hM]; push_cast; ring, ?_, ?_, ?_, ?_⟩
    · rw [hr]
      have : -(((significant |x|).1 : ℚ) * (10 : ℚ) ^ ((significant |x|).2 - 5)) - x = -(((significant |x|).1 : ℚ) * (10 : ℚ) ^ ((significant |x|).2 - 5) - |x|) := by
        rw [abs_of_neg hx]; ring
      rw [this, abs_neg]
      exact h5
    · refine ⟨-((significant |x|).1 : Int), (significant |x|).2 - 5, ?_, by rw [hr]; push_cast; ring⟩
      rw [abs_neg, Nat.abs_cast]
      exact_mod_cast h2
    · rw [hr]; constructor <;> intro <;> linarith
    · rw [hr]; constructor <;> intro <;> linarith
  · have hr : rounded x = ((significant |x|).1 : ℚ) * (10 : ℚ) ^ ((significant |x|).2 - 5) := by simp [rounded, h, not_lt.mpr hx.le]
    refine ⟨k, M, h3, h4, by rw [hr, hM], ?_, ?_, ?_, ?_⟩
    · rw [hr]
      rw [abs_of_pos hx] at h5 ⊢
      exact h5
    · refine ⟨((significant |x|).1 : Int), (significant |x|).2 - 5, ?_, by rw [hr]; push_cast; rfl⟩
      rw [Nat.abs_cast]
      exact_mod_cast h2
    · rw [hr]; constructor <;> intro <;> linarith
    · rw [hr]; constructor <;> intro <;> linarith

/-- Multiples of a power of ten that are less than the power apart are the same. -/
theorem multiple_eq {a b k : Int} (h : |(a : ℚ) * 10 ^ k - b * 10 ^ k| < 10 ^ k) : a = b := by
  rw [← sub_mul, abs_mul, abs_of_pos (ten_pos k)] at h
  have h := (mul_lt_iff_lt_one_left (ten_pos k)).mp h
  have : |a - b| < 1 := by exact_mod_cast h
  have := Int.abs_lt_one_iff.mp this
  omega

/-- C59, one number. Printing always gives a text of a number; its value has at most six significant digits, differs from the number by at most five
millionths of it, has its sign, and no number with six digits of the same size is closer. -/
theorem C59_number (x : ℚ) : ∃ y, value (printText x) = some y ∧ SixDigits y ∧ |y - x| ≤ 5 / 10 ^ 6 * |x| ∧ (0 < x ↔ 0 < y) ∧ (x < 0 ↔ y < 0) ∧
    ∀ k : Int, (10 : ℚ) ^ (k + 5) ≤ |x| → |x| < 10 ^ (k + 6) → ∀ n : Int, |y - x| ≤ |(n : ℚ) * 10 ^ k - x| := by
  refine ⟨rounded x, value_print x, ?_⟩
  by_cases h : x = 0
  · subst h
    rw [rounded_zero]
    refine ⟨⟨0, 0, by norm_num, by norm_num⟩, by simp, by simp, by simp, fun k _ _ n => by rw [sub_zero, abs_zero]; exact abs_nonneg _⟩
  · obtain ⟨k, M, h1, h2, h3, h4, h5, h6, h7⟩ := rounded_form h
    refine ⟨h5, ?_, h7, h6, fun k' g1 g2 n => ?_⟩
    · have : (10 : ℚ) ^ (k + 5) = 10 ^ k * 10 ^ 5 := by rw [zpow_add₀ (by norm_num)]; norm_cast
      rw [this] at h1
      norm_num at h1 h4 ⊢
      linarith
    · have e1 := ten_lt (lt_of_le_of_lt h1 g2)
      have e2 := ten_lt (lt_of_le_of_lt g1 h2)
      obtain rfl : k' = k := by omega
      by_cases hn : M = n
      · rw [h3, hn]
      · by_contra hc
        rw [not_le] at hc
        apply hn
        refine multiple_eq (k := k') ?_
        rw [← h3]
        have : rounded x - n * 10 ^ k' = (rounded x - x) - (n * 10 ^ k' - x) := by ring
        rw [this]
        refine lt_of_le_of_lt (abs_sub _ _) ?_
        linarith

/-- C59, when a number survives: exactly when it has at most six significant digits. -/
theorem C59_exact (x : ℚ) : value (printText x) = some x ↔ SixDigits x := by
  rw [value_print, Option.some.injEq]
  constructor
  · intro h
    by_cases h0 : x = 0
    · exact ⟨0, 0, by norm_num, by rw [h0]; norm_num⟩
    · obtain ⟨_, _, _, _, _, _, h5, _⟩ := rounded_form h0
      rw [h] at h5
      exact h5
  · rintro ⟨n, j, hn, rfl⟩
    by_cases h0 : (n : ℚ) * 10 ^ j = 0
    · rw [h0, rounded_zero]
    · obtain ⟨k, M, h1, h2, h3, h4, _⟩ := rounded_form h0
      have hkj : k ≤ j := by
        rw [abs_mul, abs_of_pos (ten_pos j)] at h1
        have : |(n : ℚ)| < 10 ^ (6 : Int) := by exact_mod_cast hn
        have : (10 : ℚ) ^ (k + 5) < 10 ^ (6 + j) := by
          rw [zpow_add₀ (by norm_num) 6 j]
          exact lt_of_le_of_lt h1 (mul_lt_mul_of_pos_right this (ten_pos j))
        have := ten_lt this
        omega
      have hval : (n : ℚ) * 10 ^ j = ((n * 10 ^ (j - k).toNat : Int) : ℚ) * 10 ^ k := by
        push_cast
        rw [mul_assoc, ← zpow_natCast (10 : ℚ), ← zpow_add₀ (by norm_num)]
        congr 2
        omega
      rw [h3, hval] at h4 ⊢
      have : M = n * 10 ^ (j - k).toNat := by
        refine multiple_eq (k := k) (lt_of_le_of_lt h4 ?_)
        have := ten_pos k
        linarith
      rw [this]

theorem stored_fixed (x : ℚ) : stored x = x ↔ SixDigits x := by
  rw [← C59_exact, value_print, Option.some.injEq, stored_eq]

/-- C59, twice: what was read once does not change any more. -/
theorem C59_again (x : ℚ) : stored (stored x) = stored x := by
  rw [stored_fixed]
  obtain ⟨y, h1, h2, _⟩ := C59_number x
  have : stored x = y := by rw [stored, h1]; rfl
  rw [this]
  exact h2

/-! ## Meshes -/

section
variable {R S : Type} (fmt : R → S)

/-- C59, FPMA: whatever happens to the numbers in the file (`fmt`), the outcome of reading is the same and the mesh that is read differs in the positions of its vertices
only, which are changed in the same way. -/
theorem C59_fpma (res : Nat) (ts : List (Tok R)) (m : Mesh (Point R)) :
    Fpma.load res (ts.map (Tok.printed fmt)) (m.withPoints (point3 fmt)) = (Fpma.load res ts m).mapOk (Mesh.withPoints (point3 fmt)) :=
  Fpma.load_nat fmt res ts m

/-- C59, VTK in 2D: the same; the cell types stay too. -/
theorem C59_vtk2 [Zero R] [Zero S] (h0 : fmt 0 = 0) (ts : List (Vtk.VTok R)) (types : List Nat) (m : Mesh (Vtk.Point2 R)) :
    Vtk.load2 (ts.map (Vtk.VTok.printed fmt)) types (m.withPoints (point2 fmt)) =
      (Vtk.load2 ts types m).mapOk fun r => (r.1.withPoints (point2 fmt), r.2) :=
  Vtk.load2_nat fmt h0 ts types m

/-- C59, VTK in 3D. -/
theorem C59_vtk3 [Zero R] [Zero S] (h0 : fmt 0 = 0) (res : Nat) (ts : List (Vtk.VTok R)) (types : List Nat) (m : Mesh (Vtk.Point3 R)) :
    Vtk.load3 res (ts.map (Vtk.VTok.printed fmt)) types (m.withPoints (point3 fmt)) =
      (Vtk.load3 res ts types m).mapOk fun r => (r.1.withPoints (point3 fmt), r.2) :=
  Vtk.load3_nat fmt h0 res ts types m

end

/-! ## Examples -/

example : value (printText (1 / 3)) = some (333333 / 1000000) := by decide +kernel
example : printText (-1 / 30000) = "-3.33333e-05".toList := by decide +kernel
example : printText 1234567 = "1.23457e+06".toList := by decide +kernel
example : printText (9999995 / 10) = "1e+06".toList := by decide +kernel
example : printText (1 / 2) = "0.5".toList := by decide +kernel
example : SixDigits (1 / 8) := ⟨125, -3, by norm_num, by norm_num⟩

end GTMesh
