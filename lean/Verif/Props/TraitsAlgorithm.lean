import Verif.Spec.TraitsAlgorithm
import Mathlib.Algebra.Field.Defs
import Mathlib.Algebra.Field.Basic
import Mathlib.Algebra.BigOperators.Group.List.Basic
import Mathlib.Order.Lattice
import Mathlib.Order.Defs.LinearOrder
import Mathlib.Data.Rat.Defs
import Mathlib.Algebra.Field.Rat
import Mathlib.Tactic.Ring

/-! # C44: arithmetic on traited classes is member-wise -/

namespace GTMesh.TA
variable {R : Type}

theorem sameShape_refl_aux : (∀ v : Val R, sameShape v v) := by
  intro v
  induction v using Val.rec (motive_2 := fun ms => sameShapes ms ms) with
  | num x => trivial
  | obj ms ih => simpa [sameShape] using ih
  | nil => trivial
  | cons m ms h1 h2 => exact ⟨h1, h2⟩

theorem bin_spec (op : R → R → R) (v : Val R) : ∀ w, sameShape v w →
    sameShape (bin op v w) v ∧ numbers (bin op v w) = List.zipWith op (numbers v) (numbers w) ∧
      (numbers v).length = (numbers w).length := by
  induction v using Val.rec (motive_2 := fun ms => ∀ ns, sameShapes ms ns →
    sameShapes (binList op ms ns) ms ∧ numbersList (binList op ms ns) = List.zipWith op (numbersList ms) (numbersList ns) ∧
      (numbersList ms).length = (numbersList ns).length) with
  | num x =>
    intro w h
    cases w with
    | num y => simp [bin, sameShape, numbers]
    | obj ns => simp [sameShape] at h
  | obj ms ih =>
    intro w h
    cases w with
    | num y => simp [sameShape] at h
    | obj ns => simpa [bin, sameShape, numbers] using ih ns (by simpa [sameShape] using h)
  | nil =>
    rename_i ns h
    cases ns with
    | nil => simp [binList, sameShapes, numbersList]
    | cons n ns => simp [sameShapes] at h
  | cons m ms h1 h2 =>
    rename_i ns h
    cases ns with
    | nil => simp [sameShapes] at h
    | cons n ns =>
      simp only [sameShapes] at h
      obtain ⟨a1, a2, a3⟩ := h1 n h.1
      obtain ⟨b1, b2, b3⟩ := h2 ns h.2
      refine ⟨by simp only [binList, sameShapes]; exact ⟨a1, b1⟩, ?_, ?_⟩
      · simp only [binList, numbersList, a2, b2]
        rw [List.zipWith_append a3]
      · simp [numbersList, a3, b3]

theorem binList_spec (op : R → R → R) (ms ns : List (Val R)) (h : sameShapes ms ns) : Memberwise2 op ms ns (binList op ms ns) := by
  have := bin_spec op (.obj ms) (.obj ns) (by simpa [sameShape] using h)
  simp only [bin, sameShape, numbers] at this
  exact ⟨this.1, this.2.1⟩

theorem un_spec (f : R → R) (v : Val R) : sameShape (un f v) v ∧ numbers (un f v) = (numbers v).map f := by
  induction v using Val.rec (motive_2 := fun ms => sameShapes (unList f ms) ms ∧ numbersList (unList f ms) = (numbersList ms).map f) with
  | num x => simp [un, sameShape, numbers]
  | obj ms ih => simpa [un, sameShape, numbers] using ih
  | nil => simp [unList, sameShapes, numbersList]
  | cons m ms h1 h2 => simp [unList, sameShapes, numbersList, h1, h2]

theorem unList_spec (f : R → R) (ms : List (Val R)) : Memberwise1 f ms (unList f ms) := by
  have := un_spec f (.obj ms)
  simpa [un, sameShape, numbers, Memberwise1] using this

theorem binList_eq (op : R → R → R) : ∀ (ms ns : List (Val R)), binList op ms ns = List.zipWith (bin op) ms ns := by
  intro ms
  induction ms with
  | nil => intro ns; simp [binList]
  | cons m ms ih => intro ns; cases ns <;> simp [binList, ih]

theorem unList_eq (f : R → R) (ms : List (Val R)) : unList f ms = ms.map (un f) := by
  induction ms with
  | nil => rfl
  | cons m ms ih => simp [unList, ih]

/-! ## The loop over the members -/

/-- A loop that assigns the members one after the other. -/
def loop (res : Nat) (g : Store R → Nat → Res (Val R)) : Nat → Nat → Store R → Res (Store R)
  | _, 0, s => .ok s
  | i, k + 1, s => (g s i).bind fun v => loop res g (i + 1) k (s.setMember res i v)

/-- When the value for member `i` depends only on what is not yet overwritten, the order does not matter. -/
theorem loop_spec (res n : Nat) (g : Store R → Nat → Res (Val R)) (s0 : Store R) (vs : List (Val R)) (hn : (s0 res).length = n)
    (hv : vs.length = n)
    (h : ∀ (i : Nat) v, vs[i]? = some v → ∀ s : Store R, (∀ c, c ≠ res → s c = s0 c) → (∀ j, i ≤ j → (s res)[j]? = (s0 res)[j]?) → g s i = .ok v) :
    loop res g 0 n s0 = .ok fun c => if c = res then vs else s0 c := by
  have key : ∀ (k i : Nat) (s : Store R), i + k = n → (∀ c, c ≠ res → s c = s0 c) → (∀ j, i ≤ j → (s res)[j]? = (s0 res)[j]?) →
      (s res).take i = vs.take i → (s res).length = n → loop res g i k s = .ok fun c => if c = res then vs else s0 c := by
    intro k
    induction k with
    | zero =>
      intro i s hi h1 h2 h3 h4
      simp only [loop, Res.ok.injEq]
      funext c
      by_cases hc : c = res
      · subst hc
        rw [if_pos rfl]
        rw [List.take_of_length_le (by omega), List.take_of_length_le (by omega)] at h3
        exact h3
      · rw [if_neg hc, h1 c hc]
    | succ k ih =>
      intro i s hi h1 h2 h3 h4
      have hi' : i < vs.length := by omega
      have hg := h i vs[i] (List.getElem?_eq_getElem hi') s h1 h2
      simp only [loop, hg, Res.bind]
      refine ih (i + 1) _ (by omega) (fun c hc => ?_) (fun j hj => ?_) ?_ ?_
      · simp [Store.setMember, hc, h1 c hc]
      · simp only [Store.setMember, if_true]
        rw [List.getElem?_set_ne (by omega), h2 j (by omega)]
      · simp only [Store.setMember, if_true]
        rw [List.take_add_one, List.take_set_of_le (by omega), h3, List.take_add_one]
        simp [h4, hi', show i < n by omega]
      · simp [Store.setMember, h4]
  exact key n 0 s0 (by omega) (fun _ _ => rfl) (fun _ _ => rfl) rfl hn

theorem evaluate2_loop (op : R → R → R) (res a b : Nat) : ∀ (k i : Nat) (s : Store R), evaluate2 op res a b i k s =
    loop res (fun s i => (Res.idx (s a) i).bind fun x => (Res.idx (s b) i).bind fun y => .ok (bin op x y)) i k s := by
  intro k
  induction k with
  | zero => intro i s; rfl
  | succ k ih =>
    intro i s
    simp only [evaluate2, loop]
    cases Res.idx (s a) i <;> simp only [Res.bind]
    cases Res.idx (s b) i <;> simp only [Res.bind]
    exact ih _ _

theorem evaluateReal_loop (op : R → R → R) (res a : Nat) (f : Factor R) : ∀ (k i : Nat) (s : Store R), evaluateReal op res a f i k s =
    loop res (fun s i => (Res.idx (s a) i).bind fun x => (f.get s).bind fun y => .ok (un (fun z => op z y) x)) i k s := by
  intro k
  induction k with
  | zero => intro i s; rfl
  | succ k ih =>
    intro i s
    simp only [evaluateReal, loop]
    cases Res.idx (s a) i <;> simp only [Res.bind]
    cases f.get s <;> simp only [Res.bind]
    exact ih _ _

theorem evaluate1_loop (f : R → R) (res a : Nat) : ∀ (k i : Nat) (s : Store R), evaluate1 f res a i k s =
    loop res (fun s i => (Res.idx (s a) i).bind fun x => .ok (un f x)) i k s := by
  intro k
  induction k with
  | zero => intro i s; rfl
  | succ k ih =>
    intro i s
    simp only [evaluate1, loop]
    cases Res.idx (s a) i <;> simp only [Res.bind]
    exact ih _ _

/-- The member that is read is not yet overwritten. -/
theorem read_fresh {s s0 : Store R} {res a i : Nat} {x : Val R} (h1 : ∀ c, c ≠ res → s c = s0 c)
    (h2 : ∀ j, i ≤ j → (s res)[j]? = (s0 res)[j]?) (hx : (s0 a)[i]? = some x) : Res.idx (s a) i = .ok x := by
  rw [Res.idx_eq_ok]
  by_cases ha : a = res
  · subst ha; rw [h2 i (Nat.le_refl _), hx]
  · rw [h1 a ha, hx]

theorem evaluate2_spec (op : R → R → R) (res a b n : Nat) (s : Store R) (hr : (s res).length = n) (ha : (s a).length = n)
    (hb : (s b).length = n) :
    evaluate2 op res a b 0 n s = .ok fun c => if c = res then binList op (s a) (s b) else s c := by
  rw [evaluate2_loop, binList_eq]
  refine loop_spec res n _ s _ hr (by simp [ha, hb]) fun i v hv s' h1 h2 => ?_
  obtain ⟨x, y, hx, hy, rfl⟩ : ∃ x y, (s a)[i]? = some x ∧ (s b)[i]? = some y ∧ v = bin op x y := by
    rw [List.getElem?_zipWith] at hv
    cases hx : (s a)[i]? <;> cases hy : (s b)[i]? <;> rw [hx, hy] at hv <;> simp at hv
    exact ⟨_, _, rfl, rfl, hv.symm⟩
  rw [read_fresh h1 h2 hx, read_fresh h1 h2 hy]
  rfl

/-- The real operand is not a member of the object that is overwritten. -/
def Factor.Separate (f : Factor R) (res : Nat) : Prop :=
  match f with
  | .value _ => True
  | .member a _ => a ≠ res

theorem evaluateReal_spec (op : R → R → R) (res a n : Nat) (f : Factor R) (s : Store R) (k : R) (hr : (s res).length = n)
    (ha : (s a).length = n) (hf : f.Separate res) (hk : f.get s = .ok k) :
    evaluateReal op res a f 0 n s = .ok fun c => if c = res then unList (fun z => op z k) (s a) else s c := by
  rw [evaluateReal_loop, unList_eq]
  refine loop_spec res n _ s _ hr (by simp [ha]) fun i v hv s' h1 h2 => ?_
  rw [List.getElem?_map, Option.map_eq_some_iff] at hv
  obtain ⟨x, hx, rfl⟩ := hv
  have hg : f.get s' = .ok k := by
    cases f with
    | value y => exact hk
    | member c j =>
      simp only [Factor.get] at hk ⊢
      rw [h1 c hf]
      exact hk
  rw [read_fresh h1 h2 hx, hg]
  rfl

theorem evaluate1_spec (f : R → R) (res a n : Nat) (s : Store R) (hr : (s res).length = n) (ha : (s a).length = n) :
    evaluate1 f res a 0 n s = .ok fun c => if c = res then unList f (s a) else s c := by
  rw [evaluate1_loop, unList_eq]
  refine loop_spec res n _ s _ hr (by simp [ha]) fun i v hv s' h1 h2 => ?_
  rw [List.getElem?_map, Option.map_eq_some_iff] at hv
  obtain ⟨x, hx, rfl⟩ := hv
  rw [read_fresh h1 h2 hx]
  rfl

theorem sameShapes_length : ∀ {ms ns : List (Val R)}, sameShapes ms ns → ms.length = ns.length := by
  intro ms
  induction ms with
  | nil => intro ns h; cases ns <;> simp [sameShapes] at h ⊢
  | cons m ms ih => intro ns h; cases ns <;> simp [sameShapes] at h ⊢; exact ih h.2

/-- The outcome of an operator: it returns an object `vs` with the property `P`, the object at `res` is `vs`, and no
other object changed. -/
def Yields (r : Res (Store R × List (Val R))) (s : Store R) (res : Nat) (P : List (Val R) → Prop) : Prop :=
  ∃ s' vs, r = .ok (s', vs) ∧ P vs ∧ s' res = vs ∧ ∀ c, c ≠ res → s' c = s c

theorem yields_of {s : Store R} {res : Nat} {vs : List (Val R)} {P : List (Val R) → Prop} (h : P vs)
    (e : Res (Store R)) (he : e = .ok fun c => if c = res then vs else s c) : Yields (e.bind (ret res)) s res P := by
  subst he
  exact ⟨_, _, rfl, by simpa using h, rfl, fun c hc => by simp [hc]⟩

/-- C44, `+=`, `-=`, `*=` of two objects of the class at any addresses (also `a += a`): the numbers are combined one by one. -/
theorem op_assign (op : R → R → R) (n a b : Nat) (s : Store R) (hn : (s a).length = n) (h : sameShapes (s a) (s b)) :
    Yields (assign op n a b s) s a (Memberwise2 op (s a) (s b)) :=
  yields_of (binList_spec op _ _ h) _ (evaluate2_spec op a a b n s hn hn ((sameShapes_length h).symm.trans hn))

/-- C44, `+`, `-`, `*` of two constant references, with a new object at `res`. -/
theorem op_new (op : R → R → R) (n res a b : Nat) (s : Store R) (hr : (s res).length = n) (hn : (s a).length = n)
    (h : sameShapes (s a) (s b)) : Yields (both op n res a b s) s res (Memberwise2 op (s a) (s b)) :=
  yields_of (binList_spec op _ _ h) _ (evaluate2_spec op res a b n s hr hn ((sameShapes_length h).symm.trans hn))

theorem memberwise2_swap {op : R → R → R} (hc : ∀ x y, op x y = op y x) {xs ys vs : List (Val R)} (h : sameShapes xs ys)
    (hm : Memberwise2 op ys xs vs) : Memberwise2 op xs ys vs := by
  obtain ⟨h1, h2⟩ := hm
  have tr : ∀ (u : Val R), (∀ v w, sameShape u v → sameShape w v → sameShape u w) := by
    intro u
    induction u using Val.rec (motive_2 := fun us => ∀ vs ws, sameShapes us vs → sameShapes ws vs → sameShapes us ws) with
    | num x => intro v w h1 h2; cases v <;> cases w <;> simp_all [sameShape]
    | obj ms ih =>
      intro v w h1 h2
      cases v <;> cases w <;> simp only [sameShape] at h1 h2 ⊢
      exact ih _ _ h1 h2
    | nil => rename_i vs ws h1 h2; cases vs <;> cases ws <;> simp_all [sameShapes]
    | cons m ms i1 i2 =>
      rename_i vs ws h1 h2
      cases vs <;> cases ws <;> simp only [sameShapes] at h1 h2 ⊢
      exact ⟨i1 _ _ h1.1 h2.1, i2 _ _ h1.2 h2.2⟩
  refine ⟨?_, ?_⟩
  · have := tr (.obj vs) (.obj ys) (.obj xs) (by simpa [sameShape] using h1) (by simpa [sameShape] using h)
    simpa [sameShape] using this
  · rw [h2, List.zipWith_comm]
    congr 1
    funext x y
    exact hc y x

theorem sameShapes_symm {xs ys : List (Val R)} (h : sameShapes xs ys) : sameShapes ys xs := by
  have := bin_spec (fun _ y => y) (.obj xs) (.obj ys) (by simpa [sameShape] using h)
  have sy : ∀ (u : Val R), ∀ v, sameShape u v → sameShape v u := by
    intro u
    induction u using Val.rec (motive_2 := fun us => ∀ vs, sameShapes us vs → sameShapes vs us) with
    | num x => intro v h; cases v <;> simp_all [sameShape]
    | obj ms ih => intro v h; cases v <;> simp only [sameShape] at h ⊢; exact ih _ h
    | nil => rename_i vs h; cases vs <;> simp_all [sameShapes]
    | cons m ms i1 i2 => rename_i vs h; cases vs <;> simp only [sameShapes] at h ⊢; exact ⟨i1 _ h.1, i2 _ h.2⟩
  have := sy (.obj xs) (.obj ys) (by simpa [sameShape] using h)
  simpa [sameShape] using this

/-- C44, addition in all forms: `a += b` (also `a += a`), `a + b`, and the forms in which the first or the second operand
is a temporary that is updated and returned. -/
theorem C44_plus [CommRing R] (n res a b : Nat) (s : Store R) (hr : (s res).length = n) (hn : (s a).length = n) (h : sameShapes (s a) (s b)) :
    Yields (plusAssign n a b s) s a (Memberwise2 (fun x y => x + y) (s a) (s b)) ∧
    Yields (plus n res a b s) s res (Memberwise2 (fun x y => x + y) (s a) (s b)) ∧
    Yields (plusTemporary n a b s) s b (Memberwise2 (fun x y => x + y) (s a) (s b)) := by
  obtain ⟨s', vs, h1, h2, h3, h4⟩ := op_assign (fun x y : R => x + y) n b a s ((sameShapes_length h).symm.trans hn) (sameShapes_symm h)
  exact ⟨op_assign _ n a b s hn h, op_new _ n res a b s hr hn h, s', vs, h1, memberwise2_swap (fun x y => add_comm x y) h h2, h3, h4⟩

/-- C44, the product of two objects in all forms. -/
theorem C44_times [CommRing R] (n res a b : Nat) (s : Store R) (hr : (s res).length = n) (hn : (s a).length = n) (h : sameShapes (s a) (s b)) :
    Yields (timesAssign n a b s) s a (Memberwise2 (fun x y => x * y) (s a) (s b)) ∧
    Yields (times n res a b s) s res (Memberwise2 (fun x y => x * y) (s a) (s b)) ∧
    Yields (timesTemporary n a b s) s b (Memberwise2 (fun x y => x * y) (s a) (s b)) := by
  obtain ⟨s', vs, h1, h2, h3, h4⟩ := op_assign (fun x y : R => x * y) n b a s ((sameShapes_length h).symm.trans hn) (sameShapes_symm h)
  exact ⟨op_assign _ n a b s hn h, op_new _ n res a b s hr hn h, s', vs, h1, memberwise2_swap (fun x y => mul_comm x y) h h2, h3, h4⟩

/-- C44, subtraction in all forms but that of an object and a temporary. Missing: that form, see
`C44_minus_temporary_violated`. -/
theorem C44_minus_partial [CommRing R] (n res a b : Nat) (s : Store R) (hr : (s res).length = n) (hn : (s a).length = n) (h : sameShapes (s a) (s b)) :
    Yields (minusAssign n a b s) s a (Memberwise2 (fun x y => x - y) (s a) (s b)) ∧
    Yields (minus n res a b s) s res (Memberwise2 (fun x y => x - y) (s a) (s b)) :=
  ⟨op_assign _ n a b s hn h, op_new _ n res a b s hr hn h⟩

/-- The property fails for the difference of an object and a temporary: the function ends without returning a value. -/
theorem C44_minus_temporary_violated [CommRing R] (n a b : Nat) (s : Store R) (hn : (s a).length = n) (h : sameShapes (s a) (s b)) :
    minusTemporary n a b s = .ub := by
  have hb := (sameShapes_length h).symm.trans hn
  rw [minusTemporary, evaluate2_spec _ b a b n s hb hn hb]
  rfl

/-- C44, multiplication by a number that is not a member of the object that is overwritten. Missing: such a member, see
`C44_self_factor_violated`. -/
theorem C44_scale_partial [CommRing R] (n res a : Nat) (f : Factor R) (k : R) (s : Store R) (hr : (s res).length = n) (hn : (s a).length = n)
    (hk : f.get s = .ok k) :
    (f.Separate res → Yields (scale n res a f s) s res (Memberwise1 (fun x => x * k) (s a))) ∧
    (f.Separate a → Yields (scaleAssign n a f s) s a (Memberwise1 (fun x => x * k) (s a))) :=
  ⟨fun hf => yields_of (unList_spec _ _) _ (evaluateReal_spec _ res a n f s k hr hn hf hk),
   fun hf => yields_of (unList_spec _ _) _ (evaluateReal_spec _ a a n f s k hn hn hf hk)⟩

/-- C44, division by a number, wherever it is stored. -/
theorem C44_divide [Field R] (n res a : Nat) (f : Factor R) (k : R) (s : Store R) (hr : (s res).length = n) (hn : (s a).length = n)
    (hk : f.get s = .ok k) : Yields (divide n res a f s) s res (Memberwise1 (fun x => x / k) (s a)) := by
  simp only [divide, hk, Res.bind]
  obtain ⟨s', vs, h1, h2, h3, h4⟩ := (C44_scale_partial n res a (.value (1 / k)) (1 / k) s hr hn rfl).1 trivial
  refine ⟨s', vs, h1, ⟨h2.1, ?_⟩, h3, h4⟩
  rw [h2.2]
  congr 1
  funext x
  rw [mul_one_div]

/-- C44, powers with a real exponent. -/
theorem C44_power_partial (pw : R → R → R) (n res a : Nat) (f : Factor R) (k : R) (s : Store R) (hr : (s res).length = n) (hn : (s a).length = n)
    (hk : f.get s = .ok k) :
    (f.Separate res → Yields (power pw n res a f s) s res (Memberwise1 (fun x => pw x k) (s a))) ∧
    (f.Separate a → Yields (powerTemporary pw n a f s) s a (Memberwise1 (fun x => pw x k) (s a))) :=
  ⟨fun hf => yields_of (unList_spec _ _) _ (evaluateReal_spec _ res a n f s k hr hn hf hk),
   fun hf => yields_of (unList_spec _ _) _ (evaluateReal_spec _ a a n f s k hn hn hf hk)⟩

/-- The property fails for powers of a number: base and exponent are exchanged. -/
theorem C44_power_of_real_violated (pw : R → R → R) (n res a : Nat) (k : R) (s : Store R) (hr : (s res).length = n) (hn : (s a).length = n) :
    Yields (powerOfReal pw n res a (.value k) s) s res (Memberwise1 (fun x => pw x k) (s a)) :=
  (C44_power_partial pw n res a (.value k) k s hr hn rfl).1 trivial

/-- For instance `pow(2, {3})` is `{9}`. -/
example : ∃ s' : Store Nat, powerOfReal (fun b e => b ^ e) 1 1 0 (.value 2) (fun a => if a = 0 then [.num 3] else [.num 0])
    = .ok (s', [.num 9]) := ⟨_, rfl⟩

/-- The property fails when the factor is a member of the object: `v *= v.x` with `v = {2, 3}` gives `{4, 12}`. -/
theorem C44_self_factor_violated : ∃ s' : Store Int, scaleAssign 2 0 (.member 0 0) (fun _ => [.num 2, .num 3]) = .ok (s', [.num 4, .num 12]) :=
  ⟨_, rfl⟩

/-- C44, functions of one number (`exp`, `log`, `sqrt`, unary minus, `abs`, …), of an object and of a temporary. -/
theorem C44_function (f : R → R) (n res a : Nat) (s : Store R) (hr : (s res).length = n) (hn : (s a).length = n) :
    Yields (function f n res a s) s res (Memberwise1 f (s a)) ∧ Yields (functionTemporary f n a s) s a (Memberwise1 f (s a)) :=
  ⟨yields_of (unList_spec _ _) _ (evaluate1_spec f res a n s hr hn), yields_of (unList_spec _ _) _ (evaluate1_spec f a a n s hn hn)⟩

/-- C44, unary minus. -/
theorem C44_negate [CommRing R] (n res a : Nat) (s : Store R) (hr : (s res).length = n) (hn : (s a).length = n) :
    Yields (negate n res a s) s res (Memberwise1 (fun x => -x) (s a)) ∧ Yields (negateTemporary n a s) s a (Memberwise1 (fun x => -x) (s a)) :=
  C44_function _ n res a s hr hn

/-- A class with a number and a vector of two numbers. -/
def exampleStore : Store Int := fun a => if a = 0 then [.num 1, .obj [.num 2, .num 3]] else if a = 1 then [.num 10, .obj [.num 20, .num 30]]
  else [.num 0, .obj [.num 0, .num 0]]

example : ∃ s', minus 2 2 1 0 exampleStore = .ok (s', [.num 9, .obj [.num 18, .num 27]]) ∧
    sameShapes (exampleStore 0) (exampleStore 1) ∧ (∃ s'', plusAssign 2 0 0 exampleStore = .ok (s'', [.num 2, .obj [.num 4, .num 6]])) :=
  ⟨_, rfl, by simp [exampleStore, sameShapes, sameShape], _, rfl⟩

/-! ## Aggregation -/

theorem aggregate_sum [CommRing R] (v : Val R) : sumOf v = (numbers v).sum := by
  have : (∀ v : Val R, aggregate (fun x y => x + y) 0 v = (numbers v).sum) := by
    intro v
    induction v using Val.rec (motive_2 := fun ms => (∀ r : R, aggregateList (fun x y => x + y) 0 r ms = r + (numbersList ms).sum) ∧
      aggregate (fun x y => x + y) 0 (.obj ms) = (numbersList ms).sum) with
    | num x => simp [aggregate, numbers]
    | obj ms ih => simpa [numbers] using ih.2
    | nil => simp [aggregateList, aggregate, numbersList]
    | cons m ms h1 h2 =>
      refine ⟨fun r => ?_, ?_⟩
      · simp only [aggregateList, h1, h2.1, numbersList, List.sum_append]; ring
      · simp only [aggregate, h1, h2.1, numbersList, List.sum_append]
  exact this v

/-- C44, `sum` is the sum of all numbers in the object. -/
theorem C44_sum [CommRing R] (v : Val R) : sumOf v = (numbers v).sum := aggregate_sum v

theorem aggregate_select [LinearOrder R] (op : R → R → R) (le : R → R → Prop) (tr : ∀ x y z, le x y → le y z → le x z) (rf : ∀ x, le x x)
    (hop : ∀ x y, (op x y = x ∨ op x y = y) ∧ le x (op x y) ∧ le y (op x y)) (zero : R) (v : Val R) : noEmptyArray v →
    aggregate op zero v ∈ numbers v ∧ ∀ x ∈ numbers v, le x (aggregate op zero v) := by
  induction v using Val.rec (motive_2 := fun ms => noEmptyArrays ms →
      (∀ r : R, (aggregateList op zero r ms = r ∨ aggregateList op zero r ms ∈ numbersList ms) ∧ le r (aggregateList op zero r ms) ∧
        ∀ x ∈ numbersList ms, le x (aggregateList op zero r ms)) ∧
      (ms ≠ [] → aggregate op zero (.obj ms) ∈ numbersList ms ∧ ∀ x ∈ numbersList ms, le x (aggregate op zero (.obj ms)))) with
  | num x => intro _; simp [aggregate, numbers, rf]
  | obj ms ih =>
    intro h
    simp only [noEmptyArray] at h
    simpa [numbers] using (ih h.2).2 h.1
  | nil => simp [aggregateList, numbersList, rf]
  | cons m ms h1 h2 =>
    rename_i h
    simp only [noEmptyArrays] at h
    obtain ⟨a1, a2⟩ := h1 h.1
    obtain ⟨b1, _⟩ := h2 h.2
    refine ⟨fun r => ?_, fun _ => ?_⟩
    · simp only [aggregateList, numbersList, List.mem_append]
      obtain ⟨c1, c2, c3⟩ := b1 (op r (aggregate op zero m))
      obtain ⟨d1, d2, d3⟩ := hop r (aggregate op zero m)
      refine ⟨?_, tr _ _ _ d2 c2, ?_⟩
      · rcases c1 with c1 | c1
        · rw [c1]
          rcases d1 with d1 | d1
          · exact .inl d1
          · rw [d1]; exact .inr (.inl a1)
        · exact .inr (.inr c1)
      · rintro x (hx | hx)
        · exact tr _ _ _ (a2 x hx) (tr _ _ _ d3 c2)
        · exact c3 x hx
    · simp only [aggregate, numbersList, List.mem_append]
      obtain ⟨c1, c2, c3⟩ := b1 (aggregate op zero m)
      refine ⟨?_, ?_⟩
      · rcases c1 with c1 | c1
        · rw [c1]; exact .inl a1
        · exact .inr c1
      · rintro x (hx | hx)
        · exact tr _ _ _ (a2 x hx) c2
        · exact c3 x hx

/-- C44, `max` and `min` are the largest and the smallest number in an object without empty arrays. Missing: empty
arrays, see `C44_empty_array_violated`. -/
theorem C44_max_min_partial [LinearOrder R] [Zero R] (v : Val R) (h : noEmptyArray v) :
    (maxOf v ∈ numbers v ∧ ∀ x ∈ numbers v, x ≤ maxOf v) ∧ (minOf v ∈ numbers v ∧ ∀ x ∈ numbers v, minOf v ≤ x) := by
  refine ⟨aggregate_select max (fun x y => x ≤ y) (fun _ _ _ h1 h2 => le_trans h1 h2) (fun x => le_refl x) (fun x y => ⟨max_choice x y, le_max_left x y, le_max_right x y⟩) 0 v h, ?_⟩
  exact aggregate_select min (fun x y => y ≤ x) (fun _ _ _ h1 h2 => le_trans h2 h1) (fun x => le_refl x) (fun x y => ⟨min_choice x y, min_le_left x y, min_le_right x y⟩) 0 v h

/-- The property fails with an empty array, which counts as the number 0. -/
theorem C44_empty_array_violated : ∃ v : Val Int, numbers v = [-1] ∧ maxOf v = 0 := ⟨.obj [.num (-1), .obj []], by decide, by decide⟩

example : maxOf (.obj [.num 3, .obj [.num 7, .num (-2)]] : Val Int) = 7 ∧ minOf (.obj [.num 3, .obj [.num 7, .num (-2)]] : Val Int) = -2 ∧
    noEmptyArray (.obj [.num 3, .obj [.num 7, .num (-2)]] : Val Int) := by
  refine ⟨by decide, by decide, by simp [noEmptyArray, noEmptyArrays]⟩

end GTMesh.TA
