import Verif.Spec.AbsOverload

/-!
# C66: absolute values of numbers, arrays and classes
-/

namespace GTMesh.AbsOverload

theorem neg_or_abs (x : Rat) : (if x < 0 then -x else x) = x.abs := by
  unfold Rat.abs
  split <;> rename_i h
  · split <;> grind
  · split <;> grind

theorem trunc_int (n : Int) : trunc (n : Rat) = n := by
  unfold trunc
  split
  · exact Rat.ceil_intCast n
  · exact Rat.floor_intCast n

theorem wrap_id (t : Ty) (n : Int) (h1 : t.lo ≤ n) (h2 : n < t.hi) : t.wrap n = n := by
  cases t <;> simp only [Ty.wrap, Ty.lo, Ty.hi, Ty.signed, Ty.bits] at * <;> simp at * <;> omega

theorem abs_int (n : Int) : (n : Rat).abs = ((n.natAbs : Int) : Rat) := by
  rw [← neg_or_abs]
  split <;> rename_i h
  · have : n < 0 := by exact_mod_cast h
    rw [← Rat.intCast_neg]; congr 1; omega
  · have : ¬ n < 0 := fun h' => h (by exact_mod_cast h')
    congr 1; omega

/-- The library's function for a type of numbers is right for all but the smallest integer. -/
theorem lib_right (t : Ty) (x : Rat) (hs : t.signed = true ∨ t.floating = true) (hx : t.signed = true → x ≠ t.lo) : libAbs t x = .ok x.abs := by
  unfold libAbs
  rw [neg_or_abs]
  split
  · rfl
  · rename_i hf
    rw [if_neg (hx (hs.resolve_right hf))]

theorem self_right (t : Ty) (x : Rat) (hs : t.signed = true ∨ t.floating = true) (hx : t.signed = true → x ≠ t.lo) :
    ((convert t t x).bind fun y => (libAbs t y).bind fun z => convert t t z) = .ok x.abs := by
  simp [convert, Res.bind, lib_right t x hs hx]

theorem small_right (t : Ty) (x : Rat) (ht : t.small = true) (hf : Fits t x) (hx : t.signed = true → x ≠ t.lo) :
    ((convert t .int x).bind fun y => (libAbs .int y).bind fun z => convert .int t z) = .ok x.abs := by
  obtain hf | ⟨n, rfl, h1, h2⟩ := hf
  · cases t <;> simp_all [Ty.small, Ty.floating]
  have hx' : t.signed = true → n ≠ t.lo := fun h h' => hx h (by rw [h'])
  have hw : Ty.int.wrap n = n := by
    apply wrap_id <;> cases t <;> simp [Ty.lo, Ty.hi, Ty.signed, Ty.bits, Ty.small] at * <;> omega
  have hc : convert t .int n = .ok (n : Rat) := by
    cases t <;> simp [Ty.small] at ht <;> simp [convert, Ty.floating, trunc_int, hw]
  have hl : libAbs .int n = .ok (n : Rat).abs := by
    apply lib_right _ _ (.inl rfl)
    intro _ h
    have : n = Ty.int.lo := by exact_mod_cast h
    cases t <;> simp [Ty.lo, Ty.hi, Ty.signed, Ty.bits, Ty.small] at * <;> omega
  simp only [hc, Res.bind, hl]
  rw [abs_int]
  by_cases hb : t = .bool
  · subst hb
    have : n = 0 ∨ n = 1 := by simp [Ty.lo, Ty.hi, Ty.signed, Ty.bits] at *; omega
    rcases this with rfl | rfl <;> simp [convert, Ty.floating]
  · have hw2 : t.wrap n.natAbs = n.natAbs := by
      apply wrap_id <;> cases t <;> simp [Ty.lo, Ty.hi, Ty.signed, Ty.bits, Ty.small] at * <;> omega
    cases t <;> simp [Ty.small] at ht <;> simp [convert, Ty.floating, trunc_int, hw2] at hb ⊢

/-- The standard lists. -/
def Standard (vis : List Ty) : Prop := vis = withMathH ∨ vis = withCmath

theorem vis_kind {vis : List Ty} (hv : Standard vis) {t : Ty} (h : t ∈ vis) : t.signed = true ∨ t.floating = true := by
  rcases hv with rfl | rfl <;> revert h <;> cases t <;> decide

theorem early_small {vis : List Ty} (hv : Standard vis) {t : Ty} (ht : t.small = true) : resolve vis false t = .fn .int := by
  rcases hv with rfl | rfl <;> revert ht <;> cases t <;> decide

mutual
theorem suits_right {vis : List Ty} (hv : Standard vis) (fuel : Nat) : ∀ (o : Obj) (late : Bool), Suits vis late o →
    absObj vis (fuel + 1) late o = some (.ok (absolute o))
  | .num t x, late, h => by
    obtain ⟨hf, hx, h⟩ := h
    have key : (if late then absLate vis (fuel + 1) t x else absEarly vis t x) = some (.ok x.abs) := by
      by_cases ht : t ∈ vis
      · have hr : ∀ b, resolve vis b t = .fn t := fun b => by simp [resolve, ht]
        have := self_right t x (vis_kind hv ht) hx
        cases late <;> simp only [absLate, absEarly, hr] <;> simpa using this
      · obtain ⟨rfl, hs⟩ := h.resolve_left ht
        have := small_right t x hs hf hx
        simp only [absEarly, early_small hv hs]
        simpa using this
    simp [absObj, key, Res.bind, absolute]
  | .arr g es, late, h => by
    obtain ⟨hg, h⟩ := h
    have : (late || g) = true := by simpa using hg
    simp [absObj, this, suits_rights hv fuel es true h, Res.bind, absolute]
  | .cls g as, late, h => by
    obtain ⟨hg, h⟩ := h
    have : (late || g) = true := by simpa using hg
    simp [absObj, this, suits_rights hv fuel as false h, Res.bind, absolute]
theorem suits_rights {vis : List Ty} (hv : Standard vis) (fuel : Nat) : ∀ (os : Objs) (late : Bool), SuitsAll vis late os →
    absObjs vis (fuel + 1) late os = some (.ok (absolutes os))
  | .nil, _, _ => rfl
  | .cons o os, late, h => by
    simp [absObjs, consRes, suits_right hv fuel o late h.1, suits_rights hv fuel os late h.2, Res.bind, absolutes]
end

/-- C66: `abs` of a number, an array or an object gives the absolute values of all its numbers when their types are those of the visible
functions of the library (for attributes also the types smaller than `int`), arrays and classes in classes belong to the global
namespace, and no number is the smallest integer of its type. Missing: the other types, where it is false. -/
theorem C66_abs_partial (vis : List Ty) (hv : Standard vis) (fuel : Nat) (o : Obj) (h : Suits vis true o) :
    absUser vis (fuel + 1) o = some (.ok (absolute o)) := suits_right hv fuel o true h

/-- An object with a `double`, a `short` and a vector of vectors. -/
def sample : Obj :=
  .cls true (.cons (.num .double (-3/2)) (.cons (.num .short (-7)) (.cons (.arr true (.cons (.arr false (.cons (.num .float (-1/4))
    (.cons (.num .float 2) .nil))) .nil)) .nil)))

example : Suits withMathH true sample := by
  simp [sample, Suits, SuitsAll, withMathH, Fits, Ty.floating, Ty.signed, Ty.small]
  refine ⟨⟨-7, ?_⟩, ?_⟩ <;> decide +kernel

/-- With `<math.h>` or `<stdlib.h>` the numbers that are right are those of every real type (also `long double`), and of every integer type
with a sign that is not smaller than `int`, except the smallest integer of the type. -/
theorem C66_math_h (t : Ty) (ht : t.floating = true ∨ (t.signed = true ∧ t.small = false)) (x : Rat) (hf : Fits t x)
    (hx : t.signed = true → x ≠ t.lo) (fuel : Nat) :
    absUser withMathH (fuel + 1) (.num t x) = some (.ok (.num t x.abs)) ∧
    absUser withMathH (fuel + 1) (.cls true (.cons (.num t x) .nil)) = some (.ok (.cls true (.cons (.num t x.abs) .nil))) := by
  have hm : t ∈ withMathH := by revert ht; cases t <;> decide
  refine ⟨C66_abs_partial withMathH (.inl rfl) fuel (.num t x) ⟨hf, hx, .inl hm⟩, ?_⟩
  exact C66_abs_partial withMathH (.inl rfl) fuel (.cls true (.cons (.num t x) .nil)) ⟨.inl rfl, ⟨hf, hx, .inl hm⟩, trivial⟩

example : absUser withMathH 1 (.num .ldouble (-3/2)) = some (.ok (.num .ldouble (3/2))) := by
  have h := (C66_math_h .ldouble (.inl rfl) (-3/2) (by simp [Fits, Ty.floating]) (by simp [Ty.signed]) 0).1
  rw [h, show Rat.abs (-3/2) = 3/2 by decide +kernel]

/-- C66 is false for reals when neither `<math.h>` nor `<stdlib.h>` was included before: the attributes are cut to integers; the result is
right exactly for integers, and undefined outside the range of `int`. -/
theorem C66_real_violated (t : Ty) (ht : t.floating = true) (x : Rat) :
    absUser withCmath 1 (.cls true (.cons (.num t x) .nil)) = some (
      if -2 ^ 31 < trunc x ∧ trunc x < 2 ^ 31 then .ok (.cls true (.cons (.num t ((trunc x : Rat).abs)) .nil)) else .ub) ∧
    ((trunc x : Rat).abs = x.abs ↔ ∃ n : Int, x = n) := by
  constructor
  · have hr : resolve withCmath false t = .fn .int := by revert ht; cases t <;> decide
    have hc : convert t .int x = if -2 ^ 31 ≤ trunc x ∧ trunc x < 2 ^ 31 then .ok (trunc x : Rat) else .ub := by
      cases t <;> simp [Ty.floating] at ht <;> simp [convert, Ty.floating, Ty.lo, Ty.hi, Ty.signed, Ty.bits]
    have hb : ∀ y, convert .int t y = .ok y := by
      intro y
      cases t <;> simp [Ty.floating] at ht <;> simp [convert, Ty.floating]
    have key : absEarly withCmath t x = some (if -2 ^ 31 < trunc x ∧ trunc x < 2 ^ 31 then .ok (trunc x : Rat).abs else .ub) := by
      simp only [absEarly, hr, hc]
      congr 1
      by_cases h : -2 ^ 31 ≤ trunc x ∧ trunc x < 2 ^ 31
      · rw [if_pos h]
        by_cases h' : trunc x = -2 ^ 31
        · have hl : libAbs .int (trunc x) = .ub := by rw [h']; decide +kernel
          have hn : ¬ (-2 ^ 31 < trunc x ∧ trunc x < 2 ^ 31) := by omega
          rw [if_neg hn]
          simp [Res.bind, hl]
        · have hl : libAbs .int (trunc x) = .ok (trunc x : Rat).abs := by
            refine lib_right _ _ (.inl rfl) fun _ h'' => h' ?_
            have : trunc x = Ty.int.lo := by exact_mod_cast h''
            rw [this]; rfl
          have hp : -2 ^ 31 < trunc x ∧ trunc x < 2 ^ 31 := by omega
          rw [if_pos hp]
          simp [Res.bind, hl, hb]
      · have hn : ¬ (-2 ^ 31 < trunc x ∧ trunc x < 2 ^ 31) := by omega
        rw [if_neg h, if_neg hn]
        rfl
    by_cases h : -2 ^ 31 < trunc x ∧ trunc x < 2 ^ 31
    · rw [if_pos h] at key
      rw [if_pos h]
      simp [absUser, absObj, absObjs, consRes, key, Res.bind]
    · rw [if_neg h] at key
      rw [if_neg h]
      simp [absUser, absObj, absObjs, consRes, key, Res.bind]
  · constructor
    · intro h
      refine ⟨trunc x, ?_⟩
      rw [← neg_or_abs, ← neg_or_abs] at h
      unfold trunc at h ⊢
      by_cases hx : x < 0
      · simp only [if_pos hx] at h ⊢
        have h0 : ((x.ceil : Int) : Rat) ≤ 0 := by
          have h1 : x.ceil ≤ 0 := Rat.ceil_le_iff.mpr (by simpa using Rat.le_of_lt hx)
          exact_mod_cast h1
        grind
      · simp only [if_neg hx] at h ⊢
        have h0 : 0 ≤ ((x.floor : Int) : Rat) := by
          have h1 : 0 ≤ x.floor := Rat.le_floor_iff.mpr (by simpa using Rat.not_lt.mp hx)
          exact_mod_cast h1
        grind
    · rintro ⟨n, rfl⟩
      rw [trunc_int]

example : absUser withCmath 1 (.cls true (.cons (.num .double (-3/2)) .nil)) = some (.ok (.cls true (.cons (.num .double 1) .nil))) := by
  have h : trunc (-3/2) = -1 := by decide +kernel
  have h' : ((-1 : Int) : Rat).abs = 1 := by decide +kernel
  rw [(C66_real_violated .double rfl _).1, h, h']
  simp

theorem late_other (vis : List Ty) (t : Ty) (ht : t ∉ vis) (fuel : Nat) (x : Rat) : absLate vis fuel t x = some .diverge := by
  induction fuel with
  | zero => rfl
  | succ n ih => simpa [absLate, resolve, ht] using ih

/-- C66 is false for the other types: `abs` of a number whose type is not among the visible functions calls itself without end, however
deep the calls may get; so does `abs` of an array with such an entry in front. That are all the types smaller than `int` and all those
without a sign, whatever was included, and the reals when only `<cmath>` was included. -/
theorem C66_endless_violated (vis : List Ty) (t : Ty) (ht : t ∉ vis) (x : Rat) (g : Bool) (fuel : Nat) (es : Objs)
    (hes : ∃ r, absObjs vis fuel true es = some r) :
    absUser vis fuel (.num t x) = some .diverge ∧ absUser vis fuel (.arr g (.cons (.num t x) es)) = some .diverge ∧
    (∀ u ∈ [Ty.bool, .char, .short, .ushort, .uint, .ulong, .ullong], u ∉ withMathH ∧ u ∉ withCmath) ∧
    (∀ u, u.floating = true → u ∉ withCmath) := by
  obtain ⟨r, hr⟩ := hes
  refine ⟨?_, ?_, by decide, fun u => by cases u <;> decide⟩
  · simp [absUser, absObj, late_other vis t ht, Res.bind]
  · simp [absUser, absObj, absObjs, consRes, late_other vis t ht, hr, Res.bind]

example : Ty.short ∉ withMathH ∧ ∃ r, absObjs withMathH 5 true (.cons (.num .short 1) .nil) = some r := ⟨by decide, _, rfl⟩

/-- C66 is false for attributes without a sign: with `<math.h>` the call does not compile (no function fits best) whatever the value is,
without it the larger half of the values of `unsigned int` comes out as the distance to 2 to the 32. -/
theorem C66_unsigned_violated (t : Ty) (ht : t = .uint ∨ t = .ulong ∨ t = .ullong) (fuel : Nat) (x : Rat) (n : Int) (h1 : 2 ^ 31 < n)
    (h2 : n < 2 ^ 32) :
    absUser withMathH fuel (.cls true (.cons (.num t x) .nil)) = none ∧
    absUser withCmath fuel (.cls true (.cons (.num .uint n) .nil)) = some (.ok (.cls true (.cons (.num .uint ((2 ^ 32 - n : Int) : Rat)) .nil))) := by
  constructor
  · have hr : resolve withMathH false t = .none := by rcases ht with rfl | rfl | rfl <;> decide
    simp [absUser, absObj, absObjs, consRes, absEarly, hr]
  · have hr : resolve withCmath false .uint = .fn .int := by decide
    have hw : Ty.int.wrap n = n - 2 ^ 32 := by
      simp only [Ty.wrap, Ty.lo, Ty.signed, Ty.bits]
      simp
      omega
    have hc : convert .uint .int n = .ok ((n - 2 ^ 32 : Int) : Rat) := by
      simp [convert, Ty.floating, trunc_int, hw]
    have hl : libAbs .int ((n - 2 ^ 32 : Int) : Rat) = .ok ((n - 2 ^ 32 : Int) : Rat).abs := by
      refine lib_right _ _ (.inl rfl) fun _ h => ?_
      have : n - 2 ^ 32 = Ty.int.lo := by exact_mod_cast h
      simp [Ty.lo, Ty.signed, Ty.bits] at this
      omega
    have ha : ((n - 2 ^ 32).natAbs : Int) = 2 ^ 32 - n := by omega
    have hw2 : Ty.uint.wrap (2 ^ 32 - n) = 2 ^ 32 - n := by
      apply wrap_id <;> simp [Ty.lo, Ty.hi, Ty.signed, Ty.bits] <;> omega
    have hb : convert .int .uint ((2 ^ 32 - n : Int) : Rat) = .ok ((2 ^ 32 - n : Int) : Rat) := by
      unfold convert
      rw [trunc_int, hw2]
      simp [Ty.floating]
    have key : absEarly withCmath .uint n = some (.ok ((2 ^ 32 - n : Int) : Rat)) := by
      simp only [absEarly, hr, hc, Res.bind, hl]
      rw [abs_int, ha, hb]
    simp only [absUser, absObj, absObjs, consRes, key]
    simp [Res.bind]

/-- C66 is false for arrays and classes that do not belong to the global namespace, such as `std::vector`: as attributes of a class they
are not found, the call does not compile. -/
theorem C66_namespace_violated (vis : List Ty) (fuel : Nat) (es : Objs) (g : Bool) :
    absUser vis fuel (.cls g (.cons (.arr false es) .nil)) = none ∧ absUser vis fuel (.cls g (.cons (.cls false es) .nil)) = none := by
  simp [absUser, absObj, absObjs, consRes]

/-- C66 is false for the smallest integer: undefined for `int` and larger, and for `short` and `char` the result is negative. -/
theorem C66_smallest_violated (vis : List Ty) (hv : Standard vis) (fuel : Nat) :
    (∀ t ∈ vis, t.signed = true → absUser vis (fuel + 1) (.num t t.lo) = some .ub) ∧
    (∀ p ∈ [(Ty.short, -32768), (Ty.char, -128)],
      absUser vis fuel (.cls true (.cons (.num p.1 p.2) .nil)) = some (.ok (.cls true (.cons (.num p.1 p.2) .nil)))) := by
  constructor
  · intro t ht hs
    have hr : resolve vis true t = .fn t := by simp [resolve, ht]
    have hl : libAbs t t.lo = .ub := by
      have : t.floating = false := by revert hs; cases t <;> decide
      simp [libAbs, this]
    simp [absUser, absObj, absLate, hr, convert, hl, Res.bind]
  · rintro ⟨t, x⟩ ht
    have hs : t.small = true := by
      simp only [List.mem_cons, Prod.mk.injEq, List.not_mem_nil, or_false] at ht
      rcases ht with ⟨rfl, rfl⟩ | ⟨rfl, rfl⟩ <;> rfl
    have key : absEarly vis t x = some (.ok x) := by
      simp only [absEarly, early_small hv hs]
      congr 1
      simp only [List.mem_cons, Prod.mk.injEq, List.not_mem_nil, or_false] at ht
      rcases ht with ⟨rfl, rfl⟩ | ⟨rfl, rfl⟩ <;> decide +kernel
    simp [absUser, absObj, absObjs, consRes, key, Res.bind]

end GTMesh.AbsOverload
