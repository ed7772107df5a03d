import Verif.Spec.Rounding
import Verif.Proofs.Gs
import Mathlib.Algebra.Order.BigOperators.Ring.Finset

/-! # Propagation of rounding errors -/

namespace GTMesh
open Spec Vec

namespace Vec
variable {n : Nat}

theorem abs_dot_le (x y : Vec n ℝ) : ∑ i, |x i * y i| ≤ Vec.norm x * Vec.norm y := by
  rw [norm_real, norm_real, ← Real.sqrt_mul (by rw [dot_eq]; exact Finset.sum_nonneg fun i _ => mul_self_nonneg _)]
  apply Real.le_sqrt_of_sq_le
  have := Finset.sum_mul_sq_le_sq_mul_sq Finset.univ (fun i => |x i|) (fun i => |y i|)
  simp only [dot_eq]
  simp only [pow_two, abs_mul_abs_self] at this
  simp only [abs_mul, pow_two]
  exact this

theorem dot_le (x y : Vec n ℝ) : |dot x y| ≤ Vec.norm x * Vec.norm y := by
  rw [dot_eq]
  exact (Finset.abs_sum_le_sum_abs _ _).trans (abs_dot_le x y)

theorem norm_sq (x : Vec n ℝ) : Vec.norm x ^ 2 = dot x x := by
  rw [norm_real, Real.sq_sqrt]
  rw [dot_eq]; exact Finset.sum_nonneg fun i _ => mul_self_nonneg _

theorem norm_add_le (x y : Vec n ℝ) : Vec.norm (x + y) ≤ Vec.norm x + Vec.norm y := by
  apply le_of_sq_le_sq _ (add_nonneg (norm_nonneg' x) (norm_nonneg' y))
  have h := (abs_le.mp (dot_le x y)).2
  have e : dot (x + y) (x + y) = dot x x + 2 * dot x y + dot y y := by
    rw [dot_add, dot_comm x, dot_comm y, dot_add, dot_add, dot_comm y x]; ring
  rw [norm_sq, e, ← norm_sq x, ← norm_sq y]
  nlinarith

theorem norm_sub_le (x y : Vec n ℝ) : Vec.norm (x - y) ≤ Vec.norm x + Vec.norm y := by
  rw [sub_eq_add_neg, ← norm_neg y]; exact norm_add_le _ _

theorem norm_mono {x y : Vec n ℝ} (h : ∀ i, |x i| ≤ |y i|) : Vec.norm x ≤ Vec.norm y := by
  rw [norm_real, norm_real]
  apply Real.sqrt_le_sqrt
  rw [dot_eq, dot_eq]
  apply Finset.sum_le_sum
  intro i _
  rw [← abs_mul_abs_self (x i), ← abs_mul_abs_self (y i)]
  exact mul_self_le_mul_self (abs_nonneg _) (h i)

theorem abs_le_norm (x : Vec n ℝ) (i : Fin n) : |x i| ≤ Vec.norm x := by
  rw [norm_real]
  apply Real.le_sqrt_of_sq_le
  rw [dot_eq, sq_abs, pow_two]
  exact Finset.single_le_sum (f := fun i => x i * x i) (fun i _ => mul_self_nonneg _) (Finset.mem_univ i)

theorem abs_norm_sub_le (x y : Vec n ℝ) : |Vec.norm x - Vec.norm y| ≤ Vec.norm (x - y) := by
  rw [abs_le]
  have h1 := norm_add_le (x - y) y
  have h2 := norm_add_le (y - x) x
  rw [sub_add_cancel] at h1 h2
  rw [norm_sub_comm] at h2
  constructor <;> linarith

end Vec

/-- `1 + γₖ` -/
noncomputable def Rounding.amp (r : Rounding) (k : Nat) : ℝ := 1 / (1 - k * r.u)

namespace Rounding
variable {r : Rounding}

theorem amp_sub_one {k : Nat} (h : k * r.u < 1) : r.amp k - 1 = gamma r.u k := by
  unfold amp gamma
  have : 1 - k * r.u ≠ 0 := by linarith
  field_simp; ring

theorem small_of_le {j k : Nat} (hjk : j ≤ k) (h : k * r.u < 1) : j * r.u < 1 :=
  lt_of_le_of_lt (mul_le_mul_of_nonneg_right (by exact_mod_cast hjk) r.u_nonneg) h

theorem one_le_amp {k : Nat} (h : k * r.u < 1) : 1 ≤ r.amp k := by
  unfold amp
  rw [le_div_iff₀ (by linarith)]
  have : 0 ≤ k * r.u := mul_nonneg (Nat.cast_nonneg k) r.u_nonneg
  linarith

theorem amp_mono {j k : Nat} (hjk : j ≤ k) (h : k * r.u < 1) : r.amp j ≤ r.amp k := by
  unfold amp
  have : (j : ℝ) * r.u ≤ k * r.u := mul_le_mul_of_nonneg_right (by exact_mod_cast hjk) r.u_nonneg
  exact one_div_le_one_div_of_le (by linarith) (by linarith)

theorem amp_mul {j k : Nat} (h : (j + k : Nat) * r.u < 1) : r.amp j * r.amp k ≤ r.amp (j + k) := by
  have h1 := small_of_le (r := r) (Nat.le_add_right j k) h
  have h2 := small_of_le (r := r) (Nat.le_add_left k j) h
  unfold amp
  rw [div_mul_div_comm, one_mul]
  apply one_div_le_one_div_of_le
  · linarith
  · push_cast
    have : 0 ≤ (j * r.u) * (k * r.u) := mul_nonneg (mul_nonneg (Nat.cast_nonneg j) r.u_nonneg) (mul_nonneg (Nat.cast_nonneg k) r.u_nonneg)
    nlinarith

theorem amp_round {k : Nat} (h : (k + 1 : Nat) * r.u < 1) : r.amp k * (1 + r.u) ≤ r.amp (k + 1) := by
  have h1 := small_of_le (r := r) (Nat.le_add_right k 1) h
  have h2 := small_of_le (r := r) (Nat.le_add_left 1 k) h
  refine le_trans (mul_le_mul_of_nonneg_left ?_ (le_trans zero_le_one (one_le_amp h1))) (amp_mul h)
  unfold amp
  rw [le_div_iff₀ (by linarith)]
  push_cast
  nlinarith [r.u_nonneg]

/-- The multiple of a bound. -/
theorem amp_nsmul {k c : Nat} (hc : 1 ≤ c) (h : (c * k : Nat) * r.u < 1) : (r.amp k - 1) * c ≤ r.amp (c * k) - 1 := by
  have hk : k ≤ c * k := Nat.le_mul_of_pos_left k hc
  have h1 := small_of_le (r := r) hk h
  rw [amp_sub_one h1, amp_sub_one h]
  unfold gamma
  have h0 : 0 ≤ k * r.u := mul_nonneg (Nat.cast_nonneg k) r.u_nonneg
  rw [div_mul_eq_mul_div, show (k : ℝ) * r.u * c = ((c * k : Nat) : ℝ) * r.u by push_cast; ring]
  apply div_le_div_of_nonneg_left
  · exact mul_nonneg (Nat.cast_nonneg _) r.u_nonneg
  · linarith
  · have := mul_le_mul_of_nonneg_right (show (k : ℝ) ≤ ((c * k : Nat) : ℝ) by exact_mod_cast hk) r.u_nonneg
    linarith

/-- The inverse of a number with a relative error. -/
theorem amp_inv {k : Nat} (h : (2 * k : Nat) * r.u < 1) {x y : ℝ} (hx : 0 < x) (hy : |y - x| ≤ (r.amp k - 1) * x) :
    0 < y ∧ |1 / y - 1 / x| ≤ (r.amp (2 * k) - 1) * (1 / x) := by
  have h1 := small_of_le (r := r) (by omega : k ≤ 2 * k) h
  rw [amp_sub_one h1] at hy
  rw [amp_sub_one h]
  unfold gamma at *
  push_cast at *
  set t := (k : ℝ) * r.u with ht
  have h0 : 0 ≤ t := mul_nonneg (Nat.cast_nonneg k) r.u_nonneg
  rw [show 2 * (k : ℝ) * r.u = 2 * t by rw [ht]; ring] at *
  have hd : 0 < 1 - t := by linarith
  have hlow : x * (1 - 2 * t) ≤ y * (1 - t) := by
    have := (abs_le.mp hy).1
    rw [div_mul_eq_mul_div, neg_le, div_eq_mul_inv] at this
    have h2 : -(y - x) * (1 - t) ≤ t * x := by
      have := mul_le_mul_of_nonneg_right this hd.le
      rwa [mul_assoc, inv_mul_cancel₀ hd.ne', mul_one] at this
    nlinarith
  have hy0 : 0 < y := by
    by_contra hc
    push Not at hc
    have : y * (1 - t) ≤ 0 := mul_nonpos_of_nonpos_of_nonneg hc hd.le
    have : 0 < x * (1 - 2 * t) := mul_pos hx (by linarith)
    linarith
  refine ⟨hy0, ?_⟩
  rw [div_sub_div _ _ hy0.ne' hx.ne', one_mul, mul_one, abs_div, abs_of_pos (mul_pos hy0 hx), div_le_iff₀ (mul_pos hy0 hx), abs_sub_comm]
  refine le_trans hy ?_
  have e : 2 * t / (1 - 2 * t) * (1 / x) * (y * x) = 2 * t / (1 - 2 * t) * y := by field_simp
  rw [e, div_mul_eq_mul_div, div_mul_eq_mul_div, div_le_div_iff₀ hd (by linarith)]
  have h3 := mul_le_mul_of_nonneg_left hlow h0
  have h4 : 0 ≤ t * (y * (1 - t)) := mul_nonneg h0 (mul_nonneg hy0.le hd.le)
  nlinarith

end Rounding

/-- `a` approximates the number `x` of size at most `M` with the effect of `k` roundings. -/
def Close (r : Rounding) (k : Nat) (M : ℝ) (a : Fl r) (x : ℝ) : Prop := k * r.u < 1 → |a.val - x| ≤ (r.amp k - 1) * M ∧ |x| ≤ M

/-- The same for vectors and the Euclidean norm. -/
def CloseV (r : Rounding) (k : Nat) (M : ℝ) {n : Nat} (a : Vec n (Fl r)) (x : Vec n ℝ) : Prop :=
  k * r.u < 1 → Vec.norm (value a - x) ≤ (r.amp k - 1) * M ∧ Vec.norm x ≤ M

namespace Close
open Rounding
variable {r : Rounding} {j k : Nat} {M N : ℝ} {a b : Fl r} {x y : ℝ}

theorem exact (a : Fl r) : Close r 0 |a.val| a a.val := by
  intro _
  simp [amp]

theorem mono (h : Close r j M a x) (hk : j ≤ k) (hM : M ≤ N) : Close r k N a x := by
  intro hu
  obtain ⟨h1, h2⟩ := h (small_of_le hk hu)
  have h0 : 0 ≤ M := le_trans (abs_nonneg x) h2
  have a1 := one_le_amp (r := r) (small_of_le hk hu)
  have a2 := amp_mono hk hu
  refine ⟨h1.trans ?_, h2.trans hM⟩
  exact mul_le_mul (by linarith) hM h0 (by linarith)

/-- Rounding. -/
theorem rnd {z : ℝ} (h : k * r.u < 1 → |z - x| ≤ (r.amp k - 1) * M ∧ |x| ≤ M) : Close r (k + 1) M ⟨r.rnd z⟩ x := by
  intro hu
  have hu' := small_of_le (r := r) (Nat.le_add_right k 1) hu
  obtain ⟨h1, h2⟩ := h hu'
  refine ⟨?_, h2⟩
  have h0 : 0 ≤ M := le_trans (abs_nonneg x) h2
  have hz : |z| ≤ r.amp k * M := by
    have := abs_sub_abs_le_abs_sub z x
    linarith
  have hr := r.close z
  have := amp_round hu
  have t : |r.rnd z - x| ≤ |r.rnd z - z| + |z - x| := abs_sub_le _ _ _
  calc |r.rnd z - x| ≤ r.u * (r.amp k * M) + (r.amp k - 1) * M :=
        t.trans (add_le_add (hr.trans (mul_le_mul_of_nonneg_left hz r.u_nonneg)) h1)
    _ = (r.amp k * (1 + r.u) - 1) * M := by ring
    _ ≤ _ := mul_le_mul_of_nonneg_right (by linarith) h0

theorem add (h1 : Close r k M a x) (h2 : Close r k N b y) : Close r (k + 1) (M + N) (a + b) (x + y) := by
  apply rnd
  intro hu
  obtain ⟨a1, a2⟩ := h1 hu
  obtain ⟨b1, b2⟩ := h2 hu
  refine ⟨?_, (abs_add_le _ _).trans (add_le_add a2 b2)⟩
  rw [show a.val + b.val - (x + y) = (a.val - x) + (b.val - y) by ring, mul_add]
  exact (abs_add_le _ _).trans (add_le_add a1 b1)

theorem sub (h1 : Close r k M a x) (h2 : Close r k N b y) : Close r (k + 1) (M + N) (a - b) (x - y) := by
  apply rnd
  intro hu
  obtain ⟨a1, a2⟩ := h1 hu
  obtain ⟨b1, b2⟩ := h2 hu
  refine ⟨?_, (abs_sub _ _).trans (add_le_add a2 b2)⟩
  rw [show a.val - b.val - (x - y) = (a.val - x) - (b.val - y) by ring, mul_add]
  exact (abs_sub _ _).trans (add_le_add a1 b1)

theorem mul (h1 : Close r j M a x) (h2 : Close r k N b y) : Close r (j + k + 1) (M * N) (a * b) (x * y) := by
  apply rnd
  intro hu
  have hj := small_of_le (r := r) (Nat.le_add_right j k) hu
  have hk := small_of_le (r := r) (Nat.le_add_left k j) hu
  obtain ⟨a1, a2⟩ := h1 hj
  obtain ⟨b1, b2⟩ := h2 hk
  have hM : 0 ≤ M := le_trans (abs_nonneg x) a2
  have hN : 0 ≤ N := le_trans (abs_nonneg y) b2
  have hp := amp_mul hu
  have g1 := one_le_amp (r := r) hj
  have g2 := one_le_amp (r := r) hk
  refine ⟨?_, ?_⟩
  · have hb : |b.val| ≤ r.amp k * N := by
      have := abs_sub_abs_le_abs_sub b.val y
      linarith
    rw [show a.val * b.val - x * y = (a.val - x) * b.val + x * (b.val - y) by ring]
    calc _ ≤ |a.val - x| * |b.val| + |x| * |b.val - y| := by
            rw [← abs_mul, ← abs_mul]; exact abs_add_le _ _
      _ ≤ ((r.amp j - 1) * M) * (r.amp k * N) + M * ((r.amp k - 1) * N) := by
            apply add_le_add
            · exact mul_le_mul a1 hb (abs_nonneg _) (mul_nonneg (by linarith) hM)
            · exact mul_le_mul a2 b1 (abs_nonneg _) hM
      _ = (r.amp j * r.amp k - 1) * (M * N) := by ring
      _ ≤ _ := mul_le_mul_of_nonneg_right (by linarith) (mul_nonneg hM hN)
  · rw [abs_mul]; exact mul_le_mul a2 b2 (abs_nonneg _) hM

/-- The multiple of the size counts as more roundings. -/
theorem cond {c : Nat} (hc : 1 ≤ c) (h : Close r k M a x) (hM : M ≤ c * |x|) : Close r (c * k) |x| a x := by
  intro hu
  refine ⟨?_, le_refl _⟩
  have hk := small_of_le (r := r) (Nat.le_mul_of_pos_left k hc) hu
  obtain ⟨h1, -⟩ := h hk
  have g := one_le_amp (r := r) hk
  refine h1.trans ((mul_le_mul_of_nonneg_left hM (by linarith)).trans ?_)
  rw [← mul_assoc]
  exact mul_le_mul_of_nonneg_right (amp_nsmul hc hu) (abs_nonneg x)

/-- The inverse of a number that is known with a relative error. -/
theorem inv (h : Close r k |x| a x) (hx : 0 < x) : Close r (2 * k + 1) (1 / x) (1 / a) (1 / x) := by
  apply rnd
  intro hu
  obtain ⟨h1, -⟩ := h (small_of_le (r := r) (by omega) hu)
  rw [abs_of_pos hx] at h1
  exact ⟨(amp_inv hu hx h1).2, by rw [abs_of_pos (one_div_pos.mpr hx)]⟩

/-- The quotient by a number that is exact. -/
theorem div_exact (h : Close r k M a x) (hb : Close r 0 |y| b y) (hy : 0 < y) : Close r (k + 1) (M / y) (a / b) (x / y) := by
  apply rnd
  intro hu
  obtain ⟨h1, h2⟩ := h hu
  have e : b.val = y := by
    have := (hb (by simp)).1
    simp [amp] at this
    linarith [this]
  rw [e, ← sub_div, abs_div, abs_div, abs_of_pos hy, ← mul_div_assoc]
  exact ⟨div_le_div_of_nonneg_right h1 hy.le, div_le_div_of_nonneg_right h2 hy.le⟩

theorem abs (h : Close r k M a x) : Close r k M (HasAbs.abs a) |x| := by
  intro hu
  obtain ⟨h1, h2⟩ := h hu
  refine ⟨(abs_abs_sub_abs_le _ _).trans h1, by rwa [abs_abs]⟩

theorem nat {m : Nat} (hm : m ≤ r.exactTo) : Close r 0 |(m : ℝ)| (m : Fl r) m := by
  have : ((m : Fl r)).val = m := r.exact m hm
  intro _
  rw [this]
  simp [amp]

/-- What it says. -/
theorem bound (h : Close r k M a x) (hu : k * r.u < 1) : |a.val - x| ≤ gamma r.u k * M := by
  rw [← amp_sub_one hu]; exact (h hu).1

/-- A sum of terms of the same accuracy, accumulated in the order of the list. -/
theorem total {l : List (Fl r)} {l' : List ℝ} (h : List.Forall₂ (Close r k M) l l') :
    Close r (k + l.length) (l.length * M) (Geo.total l) (Geo.total l') := by
  have : ∀ (l : List (Fl r)) (l' : List ℝ) (j : Nat) (N : ℝ) (a : Fl r) (x : ℝ), k ≤ j → Close r j N a x →
      List.Forall₂ (Close r k M) l l' →
      Close r (j + l.length) (N + l.length * M) (l.foldl (· + ·) a) (l'.foldl (· + ·) x) := by
    intro l l' j N a x hj h hf
    induction hf generalizing j N a x with
    | nil => simpa using h
    | cons h1 _ ih =>
      rename_i b y l l' _
      have := ih (j + 1) (N + M) (a + b) (x + y) (by omega) (h.add (h1.mono hj (le_refl _)))
      rw [List.foldl_cons, List.foldl_cons, List.length_cons]
      refine this.mono (by omega) (le_of_eq ?_)
      push_cast
      ring
  have h0 : Close r k 0 (0 : Fl r) 0 := by
    intro hu
    constructor
    · show |(0 : ℝ) - 0| ≤ _
      simp
    · simp
  have := this l l' k 0 0 0 (le_refl k) h0 h
  rwa [zero_add] at this

end Close

namespace CloseV
open Rounding
variable {r : Rounding} {n j k : Nat} {M N : ℝ} {a b : Vec n (Fl r)} {x y : Vec n ℝ}

theorem exact (a : Vec n (Fl r)) : CloseV r 0 (Vec.norm (value a)) a (value a) := by
  intro _
  simp [amp, norm_zero]

theorem mono (h : CloseV r j M a x) (hk : j ≤ k) (hM : M ≤ N) : CloseV r k N a x := by
  intro hu
  obtain ⟨h1, h2⟩ := h (small_of_le hk hu)
  have h0 : 0 ≤ M := le_trans (norm_nonneg' x) h2
  have a1 := one_le_amp (r := r) (small_of_le hk hu)
  have a2 := amp_mono hk hu
  refine ⟨h1.trans ?_, h2.trans hM⟩
  exact mul_le_mul (by linarith) hM h0 (by linarith)

theorem rnd {z : Vec n ℝ} (h : k * r.u < 1 → Vec.norm (z - x) ≤ (r.amp k - 1) * M ∧ Vec.norm x ≤ M) :
    CloseV r (k + 1) M (fun i => (⟨r.rnd (z i)⟩ : Fl r)) x := by
  intro hu
  have hu' := small_of_le (r := r) (Nat.le_add_right k 1) hu
  obtain ⟨h1, h2⟩ := h hu'
  refine ⟨?_, h2⟩
  have h0 : 0 ≤ M := le_trans (norm_nonneg' x) h2
  have hz : Vec.norm z ≤ r.amp k * M := by
    have := norm_add_le (z - x) x
    rw [sub_add_cancel] at this
    linarith
  have hr : Vec.norm ((fun i => r.rnd (z i)) - z) ≤ r.u * Vec.norm z := by
    rw [← abs_of_nonneg r.u_nonneg, ← Vec.norm_smul]
    apply norm_mono
    intro i
    rw [Pi.sub_apply, Pi.smul_apply, smul_eq_mul, abs_mul, abs_of_nonneg r.u_nonneg]
    exact r.close (z i)
  have := amp_round hu
  have t : Vec.norm ((fun i => r.rnd (z i)) - x) ≤ Vec.norm ((fun i => r.rnd (z i)) - z) + Vec.norm (z - x) := by
    have := norm_add_le ((fun i => r.rnd (z i)) - z) (z - x)
    rwa [sub_add_sub_cancel] at this
  calc Vec.norm ((fun i => r.rnd (z i)) - x) ≤ r.u * (r.amp k * M) + (r.amp k - 1) * M :=
        t.trans (add_le_add (hr.trans (mul_le_mul_of_nonneg_left hz r.u_nonneg)) h1)
    _ = (r.amp k * (1 + r.u) - 1) * M := by ring
    _ ≤ _ := mul_le_mul_of_nonneg_right (by linarith) h0

theorem sub (h1 : CloseV r k M a x) (h2 : CloseV r k N b y) : CloseV r (k + 1) (M + N) (Vec.sub a b) (Vec.sub x y) := by
  rw [sub_eq, sub_eq]
  apply rnd (z := value a - value b)
  intro hu
  obtain ⟨a1, a2⟩ := h1 hu
  obtain ⟨b1, b2⟩ := h2 hu
  refine ⟨?_, (norm_sub_le _ _).trans (add_le_add a2 b2)⟩
  rw [show value a - value b - (x - y) = (value a - x) - (value b - y) by abel, mul_add]
  exact (norm_sub_le _ _).trans (add_le_add a1 b1)

/-- The difference of two points that are given. -/
theorem sub_exact (a b : Vec n (Fl r)) : CloseV r 1 (Vec.norm (value a - value b)) (Vec.sub a b) (Vec.sub (value a) (value b)) := by
  rw [sub_eq, sub_eq]
  apply rnd (k := 0) (z := value a - value b)
  intro _
  simp [amp, norm_zero]

theorem subAssign (h1 : CloseV r k M a x) (h2 : CloseV r k N b y) :
    CloseV r (k + 1) (M + N) (Vec.subAssign a (.other b)) (Vec.subAssign x (.other y)) := by
  have e : ∀ {F : Type} [Sub F] [Zero F] (a b : Vec n F), Vec.subAssign a (.other b) = Vec.sub a b := by
    intro F _ _ a b
    rw [sub_eq, Vec.subAssign, assign_all]
    · rfl
    · intro a b i h; simp [Operand.get, h]
  rw [e, e]
  exact h1.sub h2

theorem smul {c : Fl r} {t : ℝ} (h1 : CloseV r j M a x) (h2 : Close r k N c t) : CloseV r (j + k + 1) (M * N) (Vec.smul a c) (Vec.smul x t) := by
  have e : Vec.smul a c = fun i => (⟨r.rnd ((c.val • value a) i)⟩ : Fl r) := by
    funext i
    rw [at_smul]
    show (⟨r.rnd ((a i).val * c.val)⟩ : Fl r) = _
    simp [value, mul_comm]
  rw [e, smul_eq]
  apply rnd
  intro hu
  have hj := small_of_le (r := r) (Nat.le_add_right j k) hu
  have hk := small_of_le (r := r) (Nat.le_add_left k j) hu
  obtain ⟨a1, a2⟩ := h1 hj
  obtain ⟨b1, b2⟩ := h2 hk
  have hM : 0 ≤ M := le_trans (norm_nonneg' x) a2
  have hN : 0 ≤ N := le_trans (abs_nonneg t) b2
  have hp := amp_mul hu
  have g1 := one_le_amp (r := r) hj
  have g2 := one_le_amp (r := r) hk
  refine ⟨?_, ?_⟩
  · have hc : |c.val| ≤ r.amp k * N := by
      have := abs_sub_abs_le_abs_sub c.val t
      linarith
    rw [show c.val • value a - t • x = c.val • (value a - x) + (c.val - t) • x by rw [smul_sub, sub_smul]; abel]
    calc _ ≤ |c.val| * Vec.norm (value a - x) + |c.val - t| * Vec.norm x := by
            rw [← Vec.norm_smul, ← Vec.norm_smul]; exact norm_add_le _ _
      _ ≤ (r.amp k * N) * ((r.amp j - 1) * M) + ((r.amp k - 1) * N) * M := by
            apply add_le_add
            · exact mul_le_mul hc a1 (norm_nonneg' _) (mul_nonneg (by linarith) hN)
            · exact mul_le_mul b1 a2 (norm_nonneg' _) (mul_nonneg (by linarith) hN)
      _ = (r.amp j * r.amp k - 1) * (M * N) := by ring
      _ ≤ _ := mul_le_mul_of_nonneg_right (by linarith) (mul_nonneg hM hN)
  · rw [Vec.norm_smul, mul_comm]; exact mul_le_mul a2 b2 (abs_nonneg _) hM

theorem divAssign {c : Fl r} {t : ℝ} (h1 : CloseV r j M a x) (h2 : Close r k |t| c t) (ht : 0 < t) :
    CloseV r (j + (2 * k + 1) + 1) (M * (1 / t)) (Vec.divAssign a (.value c)) (Vec.divAssign x (.value t)) := by
  have e : ∀ {F : Type} [Mul F] [Zero F] [One F] [Div F] (a : Vec n F) (c : F), Vec.divAssign a (.value c) = Vec.smul a (1 / c) := by
    intro F _ _ _ _ a c
    funext i
    rw [at_smul, Vec.divAssign, Vec.smulAssign, assign_all]
    · rfl
    · intro a b i h; simp [Factor.get, h]
  rw [e, e]
  exact h1.smul (h2.inv ht)

theorem cond {c : Nat} (hc : 1 ≤ c) (h : CloseV r k M a x) (hM : M ≤ c * Vec.norm x) : CloseV r (c * k) (Vec.norm x) a x := by
  intro hu
  refine ⟨?_, le_refl _⟩
  have hk := small_of_le (r := r) (Nat.le_mul_of_pos_left k hc) hu
  obtain ⟨h1, -⟩ := h hk
  have g := one_le_amp (r := r) hk
  refine h1.trans ((mul_le_mul_of_nonneg_left hM (by linarith)).trans ?_)
  rw [← mul_assoc]
  exact mul_le_mul_of_nonneg_right (amp_nsmul hc hu) (norm_nonneg' x)

/-- The scalar product of vectors that are given. -/
theorem dotUpTo_exact (a b : Vec n (Fl r)) : ∀ m, m ≤ n →
    Close r m (∑ i : Fin n, if i.val < m then |(a i).val * (b i).val| else 0) (dotUpTo a b m) (dotUpTo (value a) (value b) m) := by
  intro m
  induction m with
  | zero =>
    intro _ _
    constructor
    · show |(0 : ℝ) - 0| ≤ _
      simp [amp]
    · simp [dotUpTo]
  | succ m ih =>
    intro hm
    have h1 : Close r 1 |(a ⟨m, hm⟩).val * (b ⟨m, hm⟩).val| (a ⟨m, hm⟩ * b ⟨m, hm⟩) ((a ⟨m, hm⟩).val * (b ⟨m, hm⟩).val) := by
      rw [abs_mul]
      exact (Close.exact (a ⟨m, hm⟩)).mul (Close.exact (b ⟨m, hm⟩))
    have e : (∑ i : Fin n, if i.val < m + 1 then |(a i).val * (b i).val| else 0) =
        (∑ i : Fin n, if i.val < m then |(a i).val * (b i).val| else 0) + |(a ⟨m, hm⟩).val * (b ⟨m, hm⟩).val| := by
      have : ∀ i : Fin n, (if i.val < m + 1 then |(a i).val * (b i).val| else 0) =
          (if i.val < m then |(a i).val * (b i).val| else 0) + (if i = ⟨m, hm⟩ then |(a i).val * (b i).val| else 0) := by
        intro i
        by_cases h1 : i.val < m
        · rw [if_pos (by omega), if_pos h1, if_neg (by intro h; rw [h] at h1; exact absurd h1 (lt_irrefl m)), add_zero]
        · by_cases h2 : i.val = m
          · rw [if_pos (by omega), if_neg h1, if_pos (Fin.ext h2), zero_add]
          · rw [if_neg (by omega), if_neg h1, if_neg (fun h => h2 (by rw [h])), add_zero]
      simp only [this, Finset.sum_add_distrib, Finset.sum_ite_eq', Finset.mem_univ, if_true]
    rw [e, dotUpTo, dotUpTo, dif_pos (by omega), dif_pos (by omega)]
    by_cases h0 : m = 0
    · subst h0
      rw [if_pos rfl, if_pos rfl]
      simpa [value] using h1
    · rw [if_neg h0, if_neg h0]
      exact (ih (by omega)).add (h1.mono (by omega) (le_refl _))

theorem dot_exact (a b : Vec n (Fl r)) : Close r n (∑ i : Fin n, |(a i).val * (b i).val|) (dot a b) (dot (value a) (value b)) := by
  have := dotUpTo_exact a b n (le_refl n)
  simp only [Fin.is_lt, if_true] at this
  exact this

/-- The scalar product of approximate vectors. -/
theorem dot (h1 : CloseV r j M a x) (h2 : CloseV r k N b y) : Close r (j + k + n) (M * N) (Vec.dot a b) (Vec.dot x y) := by
  intro hu
  have hjk := small_of_le (r := r) (Nat.le_add_right (j + k) n) hu
  have hn := small_of_le (r := r) (Nat.le_add_left n (j + k)) hu
  have hj := small_of_le (r := r) (Nat.le_add_right j k) hjk
  have hk := small_of_le (r := r) (Nat.le_add_left k j) hjk
  obtain ⟨a1, a2⟩ := h1 hj
  obtain ⟨b1, b2⟩ := h2 hk
  have d1 := (dot_exact a b hn).1
  have hM : 0 ≤ M := le_trans (norm_nonneg' x) a2
  have hN : 0 ≤ N := le_trans (norm_nonneg' y) b2
  have g0 := one_le_amp (r := r) hn
  have g1 := one_le_amp (r := r) hj
  have g2 := one_le_amp (r := r) hk
  have p1 := amp_mul hjk
  have p2 := amp_mul hu
  have na : Vec.norm (value a) ≤ r.amp j * M := by
    have := norm_add_le (value a - x) x
    rw [sub_add_cancel] at this
    linarith
  have nb : Vec.norm (value b) ≤ r.amp k * N := by
    have := norm_add_le (value b - y) y
    rw [sub_add_cancel] at this
    linarith
  refine ⟨?_, (dot_le x y).trans (mul_le_mul a2 b2 (norm_nonneg' y) hM)⟩
  have hMN := mul_nonneg hM hN
  have e1 : |(Vec.dot a b).val - Vec.dot (value a) (value b)| ≤ (r.amp n - 1) * ((r.amp j * r.amp k) * (M * N)) := by
    refine d1.trans (mul_le_mul_of_nonneg_left ?_ (by linarith))
    refine (abs_dot_le (value a) (value b)).trans ((mul_le_mul na nb (norm_nonneg' _) (mul_nonneg (by linarith) hM)).trans (le_of_eq ?_))
    ring
  have e2 : |Vec.dot (value a) (value b) - Vec.dot x y| ≤ (r.amp j * r.amp k - 1) * (M * N) := by
    rw [show Vec.dot (value a) (value b) - Vec.dot x y = Vec.dot (value a - x) (value b) + Vec.dot x (value b - y) by
      rw [dot_sub, dot_comm x (value b - y), dot_sub, dot_comm x (value b), dot_comm x y]
      ring]
    calc _ ≤ Vec.norm (value a - x) * Vec.norm (value b) + Vec.norm x * Vec.norm (value b - y) :=
          (abs_add_le _ _).trans (add_le_add (dot_le _ _) (dot_le _ _))
      _ ≤ ((r.amp j - 1) * M) * (r.amp k * N) + M * ((r.amp k - 1) * N) := by
            apply add_le_add
            · exact mul_le_mul a1 nb (norm_nonneg' _) (mul_nonneg (by linarith) hM)
            · exact mul_le_mul a2 b1 (norm_nonneg' _) hM
      _ = _ := by ring
  calc |(Vec.dot a b).val - Vec.dot x y| ≤ (r.amp n - 1) * ((r.amp j * r.amp k) * (M * N)) + (r.amp j * r.amp k - 1) * (M * N) :=
        (abs_sub_le _ _ _).trans (add_le_add e1 e2)
    _ = (r.amp j * r.amp k * r.amp n - 1) * (M * N) := by ring
    _ ≤ (r.amp (j + k + n) - 1) * (M * N) := by
        apply mul_le_mul_of_nonneg_right _ hMN
        have := mul_le_mul_of_nonneg_right p1 (le_trans zero_le_one g0)
        linarith

/-- The norm of a vector that is given. -/
theorem norm_exact (a : Vec n (Fl r)) : Close r (n + 1) (Vec.norm (value a)) (Vec.norm a) (Vec.norm (value a)) := by
  apply Close.rnd (z := Real.sqrt (Vec.dot a a).val)
  intro hu
  refine ⟨?_, by rw [abs_of_nonneg (norm_nonneg' _)]⟩
  have d := (dot_exact a a hu).1
  have g := one_le_amp (r := r) hu
  have e : (∑ i : Fin n, |(a i).val * (a i).val|) = Vec.norm (value a) ^ 2 := by
    rw [norm_sq, dot_eq]
    exact Finset.sum_congr rfl fun i _ => abs_of_nonneg (mul_self_nonneg _)
  rw [e, ← norm_sq] at d
  have h0 := norm_nonneg' (value a)
  generalize Vec.norm (value a) = N at *
  generalize (Vec.dot a a).val = s at *
  generalize r.amp n - 1 = ε at *
  rcases h0.eq_or_lt with rfl | hN
  · have : s = 0 := by
      rw [show (0 : ℝ) ^ 2 = 0 by norm_num, mul_zero, sub_zero] at d
      exact abs_eq_zero.mp (le_antisymm d (abs_nonneg s))
    rw [this]; simp
  · have hs : |Real.sqrt s - N| * N ≤ |s - N ^ 2| := by
      by_cases hs0 : 0 ≤ s
      · have : s - N ^ 2 = (Real.sqrt s - N) * (Real.sqrt s + N) := by
          have := Real.sq_sqrt hs0
          nlinarith
        rw [this, abs_mul, abs_of_pos (add_pos_of_nonneg_of_pos (Real.sqrt_nonneg s) hN)]
        exact mul_le_mul_of_nonneg_left (by linarith [Real.sqrt_nonneg s]) (abs_nonneg _)
      · push Not at hs0
        rw [Real.sqrt_eq_zero_of_nonpos hs0.le, zero_sub, abs_neg, abs_of_pos hN, abs_sub_comm]
        exact le_trans (by nlinarith) (le_abs_self _)
    have := hs.trans d
    rw [pow_two, ← mul_assoc] at this
    exact le_of_mul_le_mul_right this hN

/-- The norm of an approximate vector. -/
theorem norm (h : CloseV r k M a x) : Close r (k + n + 1) M (Vec.norm a) (Vec.norm x) := by
  intro hu
  have hk := small_of_le (r := r) (show k ≤ k + n + 1 by omega) hu
  have hn := small_of_le (r := r) (show n + 1 ≤ k + n + 1 by omega) hu
  obtain ⟨a1, a2⟩ := h hk
  have d1 := (norm_exact a hn).1
  have hM : 0 ≤ M := le_trans (norm_nonneg' x) a2
  have g0 := one_le_amp (r := r) hn
  have g1 := one_le_amp (r := r) hk
  have p := amp_mul (r := r) (j := k) (k := n + 1) hu
  have na : Vec.norm (value a) ≤ r.amp k * M := by
    have := norm_add_le (value a - x) x
    rw [sub_add_cancel] at this
    linarith
  refine ⟨?_, by rwa [abs_of_nonneg (norm_nonneg' x)]⟩
  calc |(Vec.norm a).val - Vec.norm x| ≤ (r.amp (n + 1) - 1) * (r.amp k * M) + (r.amp k - 1) * M :=
        (abs_sub_le _ _ _).trans (add_le_add (d1.trans (mul_le_mul_of_nonneg_left na (by linarith))) ((abs_norm_sub_le _ _).trans a1))
    _ = (r.amp k * r.amp (n + 1) - 1) * M := by ring
    _ ≤ _ := mul_le_mul_of_nonneg_right (by rw [show k + n + 1 = k + (n + 1) by omega]; linarith) hM

end CloseV
end GTMesh
