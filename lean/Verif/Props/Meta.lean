import Verif.Model.Meta
import Verif.Spec.Lists

/-! # C43, C45: compile-time selection and names -/

namespace GTMesh.Props
open GTMesh GTMesh.Spec

/-- C43. `ClassSelector` selects the first class that fits; the last class when none does. -/
theorem C43_class_selector {α : Type} (cond : α → Bool) (classes : List α) (hne : classes ≠ []) :
    classSelect cond classes = some ((classes.find? cond).getD (classes.getLast hne)) := by
  induction classes with
  | nil => exact absurd rfl hne
  | cons c r ih =>
    cases r with
    | nil => simp [classSelect, List.find?]; cases cond c <;> simp
    | cons d r =>
      rw [classSelect]
      by_cases hc : cond c = true
      · simp [hc, classSelect, List.find?]
      · rw [if_neg hc, ih (by simp)]
        simp [List.find?, hc]

example : classSelect (fun n : Nat => n % 2 == 0) [1, 3, 4, 6, 5] = some 4
    ∧ classSelect (fun n : Nat => n % 2 == 0) [1, 3, 5] = some 5 := by simp [classSelect]

/-- C43. `DimensionPos` is the first position of the dimension; it compiles iff the dimension occurs. -/
theorem C43_dimension_pos (dim : Nat) (dims : List Nat) (p : Nat) :
    dimensionPos dim 0 dims = some p ↔
      (dims[p]? = some dim ∧ ∀ q, q < p → dims[q]? ≠ some dim) := by
  have gen : ∀ (dims : List Nat) (s p : Nat), dimensionPos dim s dims = some p ↔
      (s ≤ p ∧ dims[p - s]? = some dim ∧ ∀ q, q < p - s → dims[q]? ≠ some dim) := by
    intro dims
    induction dims with
    | nil => intro s p; simp [dimensionPos]
    | cons d r ih =>
      have step : ∀ s p, (dimensionPos dim s (d :: r) = some p) ↔
          ((if dim = d then some s else dimensionPos dim (s + 1) r) = some p) := by
        intro s p
        cases r with
        | nil => simp [dimensionPos]
        | cons e r => rw [dimensionPos]
      intro s p
      rw [step]
      by_cases hd : dim = d
      · subst hd
        simp only [if_true, Option.some.injEq]
        constructor
        · rintro rfl; simp
        · rintro ⟨h1, h2, h3⟩
          rcases Nat.eq_zero_or_pos (p - s) with h | h
          · omega
          · exact absurd (by simp) (h3 0 h)
      · rw [if_neg hd, ih]
        constructor
        · rintro ⟨h1, h2, h3⟩
          have e : p - s = (p - (s + 1)) + 1 := by omega
          refine ⟨by omega, by rw [e]; simpa using h2, fun q hq => ?_⟩
          cases q with
          | zero => simp; exact fun h => hd h.symm
          | succ q => simpa using h3 q (by omega)
        · rintro ⟨h1, h2, h3⟩
          have hps : p ≠ s := by
            rintro rfl; simp at h2; exact hd h2.symm
          have e : p - s = (p - (s + 1)) + 1 := by omega
          rw [e] at h2
          refine ⟨by omega, by simpa using h2, fun q hq => ?_⟩
          simpa using h3 (q + 1) (by omega)
  have := gen dims 0 p
  simpa using this

example : dimensionPos 2 0 [3, 2, 1, 2] = some 1 := by decide

/-- C43. Binding traits: the first bound traits of the class are used, wherever they are in the list;
otherwise the default traits when there are any. -/
theorem C43_select_traits (hasDefault : Bool) (fits : List Bool) :
    (∀ p, selectTraits hasDefault 0 fits = .bound p ↔
      (fits[p]? = some true ∧ ∀ q, q < p → fits[q]? = some false)) ∧
    (selectTraits hasDefault 0 fits = .default ↔ (true ∉ fits ∧ hasDefault = true)) ∧
    (selectTraits hasDefault 0 fits = .none ↔ (true ∉ fits ∧ hasDefault = false)) := by
  have step : ∀ s b r, selectTraits hasDefault s (b :: r) =
      if b then .bound s else selectTraits hasDefault (s + 1) r := by
    intro s b r
    cases r with
    | nil => cases b <;> cases hasDefault <;> simp [selectTraits]
    | cons e r => rw [selectTraits]
  have g1 : ∀ fits s p, selectTraits hasDefault s fits = .bound p ↔
      (s ≤ p ∧ fits[p - s]? = some true ∧ ∀ q, q < p - s → fits[q]? = some false) := by
    intro fits
    induction fits with
    | nil => intro s p; cases hasDefault <;> simp [selectTraits]
    | cons b r ih =>
      intro s p
      rw [step]
      cases b with
      | true =>
        simp only [if_true, TraitsChoice.bound.injEq]
        constructor
        · rintro rfl; simp
        · rintro ⟨h1, h2, h3⟩
          rcases Nat.eq_zero_or_pos (p - s) with h | h
          · omega
          · have := h3 0 h; simp at this
      | false =>
        simp only [Bool.false_eq_true, if_false]
        rw [ih]
        constructor
        · rintro ⟨h1, h2, h3⟩
          have e : p - s = (p - (s + 1)) + 1 := by omega
          refine ⟨by omega, by rw [e]; simpa using h2, fun q hq => ?_⟩
          cases q with
          | zero => simp
          | succ q => simpa using h3 q (by omega)
        · rintro ⟨h1, h2, h3⟩
          have hps : p ≠ s := by rintro rfl; simp at h2
          have e : p - s = (p - (s + 1)) + 1 := by omega
          rw [e] at h2
          refine ⟨by omega, by simpa using h2, fun q hq => ?_⟩
          simpa using h3 (q + 1) (by omega)
  have g2 : ∀ fits s, (selectTraits hasDefault s fits = .default ↔ (true ∉ fits ∧ hasDefault = true)) ∧
      (selectTraits hasDefault s fits = .none ↔ (true ∉ fits ∧ hasDefault = false)) := by
    intro fits
    induction fits with
    | nil => intro s; cases hasDefault <;> simp [selectTraits]
    | cons b r ih =>
      intro s
      rw [step]
      cases b with
      | true => simp
      | false => simpa using ih (s + 1)
  refine ⟨fun p => ?_, (g2 fits 0).1, (g2 fits 0).2⟩
  have := g1 fits 0 p
  simpa using this

example : selectTraits true 0 [false, true, true] = .bound 1 := by decide

/-- C43. Counting up: `constexprFor<F, start, stop, step>` calls the functor with
`start, start + step, ...` - precisely the numbers of this form below `stop`, in increasing order. -/
theorem C43_constexpr_for_up (depth start stop step n : Nat) (hn : start + n * step ≥ stop)
    (hmin : ∀ k, k < n → start + k * step < stop) (hov : stop + step ≤ 2 ^ 64) (hlt : start < stop)
    (hd : n < depth) :
    constexprFor3 depth start stop step = some ((List.range n).map fun k => start + k * step) := by
  have gen : ∀ j k depth, k + j = n → j < depth →
      cforFrom start stop step depth (start + k * step) =
        some ((List.range' k j).map fun k => start + k * step) := by
    intro j
    induction j with
    | zero =>
      intro k depth hk hd
      obtain ⟨d, rfl⟩ : ∃ d, depth = d + 1 := ⟨depth - 1, by omega⟩
      rw [cforFrom, if_pos (by rw [if_pos hlt]; have : k = n := by omega
                               subst this; exact hn)]
      rfl
    | succ j ih =>
      intro k depth hk hd
      obtain ⟨d, rfl⟩ : ∃ d, depth = d + 1 := ⟨depth - 1, by omega⟩
      have hk' := hmin k (by omega)
      rw [cforFrom, if_neg (by rw [if_pos hlt]; omega)]
      have e : (start + k * step + step) % 2 ^ 64 = start + (k + 1) * step := by
        rw [Nat.mod_eq_of_lt (by omega)]
        rw [Nat.add_mul]; omega
      rw [e, ih (k + 1) d (by omega) (by omega), List.range'_succ]
      rfl
  have := gen n 0 depth (by omega) hd
  simpa [constexprFor3, List.range_eq_range'] using this

example : constexprFor3 10 1 8 3 = some [1, 4, 7] := by decide

/-- C43. `constexprFor<F, stop>` calls the functor for `0 .. stop-1` in order. -/
theorem C43_constexpr_for (depth stop : Nat) (hov : stop < 2 ^ 64) (hd : stop < depth) :
    constexprFor1 depth stop = some (List.range stop) := by
  rcases Nat.eq_zero_or_pos stop with h | h
  · subst h
    obtain ⟨d, rfl⟩ : ∃ d, depth = d + 1 := ⟨depth - 1, by omega⟩
    rfl
  · have := C43_constexpr_for_up depth 0 stop 1 stop (by omega) (by intro k hk; omega) (by omega) h hd
    simpa [constexprFor1, constexprFor3] using this

/-- C43. Counting down works with a step that wraps around (`size_t(-s)`): start, start - s, ... above stop. -/
theorem C43_constexpr_for_down (depth start stop s n : Nat) (hs : 0 < s) (hs' : s ≤ 2 ^ 64)
    (hn : start ≤ stop + n * s) (hge : n * s ≤ start)
    (hmin : ∀ k, k < n → stop + k * s < start) (hst : start < 2 ^ 64) (hle : stop ≤ start) (hd : n < depth) :
    constexprFor3 depth start stop (2 ^ 64 - s) = some ((List.range n).map fun k => start - k * s) := by
  have gen : ∀ j k depth, k + j = n → j < depth →
      cforFrom start stop (2 ^ 64 - s) depth (start - k * s) =
        some ((List.range' k j).map fun k => start - k * s) := by
    intro j
    induction j with
    | zero =>
      intro k depth hk hd
      obtain ⟨d, rfl⟩ : ∃ d, depth = d + 1 := ⟨depth - 1, by omega⟩
      have : k = n := by omega
      subst this
      rw [cforFrom, if_pos (by rw [if_neg (by omega)]; omega)]
      rfl
    | succ j ih =>
      intro k depth hk hd
      obtain ⟨d, rfl⟩ : ∃ d, depth = d + 1 := ⟨depth - 1, by omega⟩
      have hk' := hmin k (by omega)
      have hks : (k + 1) * s ≤ start := Nat.le_trans (Nat.mul_le_mul_right s (by omega)) hge
      rw [Nat.add_mul, Nat.one_mul] at hks
      rw [cforFrom, if_neg (by rw [if_neg (by omega)]; omega)]
      have e : (start - k * s + (2 ^ 64 - s)) % 2 ^ 64 = start - (k + 1) * s := by
        rw [Nat.add_mul, Nat.one_mul]
        have : start - k * s + (2 ^ 64 - s) = (start - (k * s + s)) + 2 ^ 64 := by omega
        rw [this, Nat.add_mod_right, Nat.mod_eq_of_lt (by omega)]
      rw [e, ih (k + 1) d (by omega) (by omega), List.range'_succ]
      rfl
  have := gen n 0 depth (by omega) hd
  simpa [constexprFor3, List.range_eq_range'] using this

example : constexprFor3 10 7 1 (2 ^ 64 - 2) = some [7, 5, 3] := by decide

/-- C43. A zero step over a non-empty range never terminates (the compiler runs out of depth). -/
theorem C43_constexpr_for_zero_step (depth start stop : Nat) (h : start < stop) (hs : stop ≤ 2 ^ 64) :
    constexprFor3 depth start stop 0 = none := by
  unfold constexprFor3
  induction depth with
  | zero => rfl
  | succ d ih =>
    rw [cforFrom, if_neg (by rw [if_pos h]; omega), Nat.add_zero, Nat.mod_eq_of_lt (by omega), ih]
    rfl

/-! ## C45 -/

/-- The expected name of the array of dimension `d`. -/
def expectedName (d : Nat) : List Char := ['d', 'i', 'm', ' '] ++ Nat.toDigits 10 d

/-- Some decimal digit of `d` is zero. -/
def HasZeroDigit (d : Nat) : Prop := '0' ∈ Nat.toDigits 10 d
instance : DecidablePred HasZeroDigit := fun d => by unfold HasZeroDigit; infer_instance

/-- C45 is false: two different dimensions get the same name. -/
theorem C45_names_collide : nameOf 1 = nameOf 10 ∧ nameOf 10 = .ok ['d', 'i', 'm', ' ', '1'] := by decide

/-- C45 is false: vertices (dimension 0) get a name without a number. -/
theorem C45_vertices_unnamed : nameOf 0 = .ok ['d', 'i', 'm', ' '] := by decide

/-- C45 is false: with three non-zero digits the terminating zero is written outside the buffer (this is
the whole range the `static_assert` lets pass). -/
theorem C45_overflow : ∀ d, d < 1000 → (nameOf d = .ub ↔ (100 ≤ d ∧ ¬ HasZeroDigit d)) := by
  decide +kernel

/-- C45, the part that holds (the whole range of compilable dimensions with one or two digits): the name is
right exactly when no digit is zero. -/
theorem C45_name_partial : ∀ d, d < 100 → (nameOf d = .ok (expectedName d) ↔ ¬ HasZeroDigit d) := by
  decide +kernel

/-- C45, the part that holds: different dimensions below 100 without zero digits have different names. -/
theorem C45_unique_partial (d e : Nat) (hd : d < 100) (he : e < 100) (h1 : ¬ HasZeroDigit d)
    (h2 : ¬ HasZeroDigit e) (h : nameOf d = nameOf e) : d = e := by
  have gen : ∀ d, d < 100 →
      ((expectedName d).drop 4).foldl (fun n c => 10 * n + (c.toNat - 48)) 0 = d := by decide +kernel
  rw [(C45_name_partial d hd).mpr h1, (C45_name_partial e he).mpr h2] at h
  rw [← gen d hd, Res.ok.inj h, gen e he]

end GTMesh.Props
