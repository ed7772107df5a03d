import Verif.Spec.Traits

/-! Lemmas for C61. -/

namespace GTMesh.Macro
open Traits (Identifier)

theorem rseq_get (k : Nat) (h : k ≤ 40) : (rseq)[k]? = some (.num (40 - k)) := by
  unfold rseq
  rw [List.getElem?_map, List.getElem?_reverse (by simpa using by omega)]
  have : 41 - 1 - k < 41 := by omega
  simp [this]

theorem narg_le {args : List Arg} (h1 : 1 ≤ args.length) (h : args.length ≤ 40) : narg args = some (.num args.length) := by
  unfold narg argN
  rw [List.getElem?_append_right h, rseq_get _ (by omega)]
  congr 2; omega

theorem narg_gt {args : List Arg} (h : 40 < args.length) : narg args = some args[40] := by
  unfold narg argN
  rw [List.getElem?_append_left h, List.getElem?_eq_getElem h]

theorem callArgs_of_ne {args : List Arg} (h : args ≠ []) : callArgs args = args := by
  cases args <;> simp_all [callArgs]

theorem paste_num {n : Nat} (h : n ≤ 40) : paste (.num n) = some n := by simp [paste, h]

theorem paste_twoDigits {n : Nat} (h : n ≤ 40) : paste (.src (twoDigits n)) = some n := by
  have key : ∀ n ∈ List.range 41, paste (.src (twoDigits n)) = some n := by decide +kernel
  exact key n (by simp; omega)

theorem paste_identifier {s : String} (h : Identifier s) : paste (.src s) = none := by
  unfold paste
  rw [List.find?_eq_none]
  intro n hn hs
  have key : ∀ n ∈ List.range 41, ((twoDigits n).toList.head?.map Char.isDigit) = some true := by decide +kernel
  have hs := of_decide_eq_true hs
  obtain ⟨c, cs, hc, hd⟩ := h
  have := key n hn
  rw [hs, hc] at this
  simp [hd] at this

theorem forEachN_take {f : Arg → List Arg} : ∀ (n : Nat) (args : List Arg), n ≤ args.length →
    forEachN (fun x => some (f x)) n args = some ((args.take n).flatMap f) := by
  intro n
  induction n with
  | zero => intro args _; simp [forEachN]
  | succ n ih =>
    intro args h
    match args with
    | [] => simp at h
    | x :: rest =>
      match n with
      | 0 => simp [forEachN]
      | n + 1 => simp [forEachN, comma, ih rest (by simpa using h)]

/-- The arguments written in pairs. -/
def pairs (l : List (Arg × Arg)) : List Arg := l.flatMap fun e => [e.1, e.2]

@[simp] theorem pairs_nil : pairs [] = [] := rfl
@[simp] theorem pairs_cons (e : Arg × Arg) (l : List (Arg × Arg)) : pairs (e :: l) = e.1 :: e.2 :: pairs l := rfl

@[simp] theorem pairs_length (l : List (Arg × Arg)) : (pairs l).length = 2 * l.length := by
  induction l with
  | nil => rfl
  | cons e l ih => simp [ih]; omega

theorem pairs_get (l : List (Arg × Arg)) (i : Nat) : (pairs l)[2 * i]? = l[i]?.map (·.1) := by
  induction l generalizing i with
  | nil => simp
  | cons e l ih =>
    cases i with
    | zero => simp
    | succ i =>
      have e : 2 * (i + 1) = 2 * i + 1 + 1 := by omega
      rw [e]; simp [ih]

theorem pairs_get_odd (l : List (Arg × Arg)) (i : Nat) : (pairs l)[2 * i + 1]? = l[i]?.map (·.2) := by
  induction l generalizing i with
  | nil => simp
  | cons e l ih =>
    cases i with
    | zero => simp
    | succ i =>
      have e : 2 * (i + 1) + 1 = 2 * i + 1 + 1 + 1 := by omega
      rw [e]; simp [ih]

/-- Every list of an even length is made of pairs. -/
theorem exists_pairs : ∀ (n : Nat) (args : List Arg), args.length = 2 * n → ∃ l, args = pairs l ∧ l.length = n
  | 0, args, h => ⟨[], by simpa using h, rfl⟩
  | n + 1, [], h => by simp at h
  | n + 1, [_], h => by simp at h; omega
  | n + 1, x :: y :: rest, h => by
    obtain ⟨l, h1, h2⟩ := exists_pairs n rest (by simp at h; omega)
    exact ⟨(x, y) :: l, by simp [h1], by simp [h2]⟩

theorem forEach3N_eq (what : String → Arg → Arg → Option (List Arg)) (stat : String) :
    ∀ (n : Nat) (args : List Arg), forEach3N what stat n args = forEach2N (what stat) n args := by
  intro n args
  induction n, args using forEach2N.induct <;> simp_all [forEach3N, forEach2N]

theorem forEachEvenN_eq (what : Arg → Option (List Arg)) :
    ∀ (n : Nat) (args : List Arg), forEachEvenN what n args = forEach2N (fun _ x => what x) n args := by
  intro n args
  induction n, args using forEach2N.induct <;> simp_all [forEachEvenN, forEach2N]

theorem forEach2N_pairs {what : Arg → Arg → Option (List Arg)} {g : Arg × Arg → List Arg} :
    ∀ (l : List (Arg × Arg)), (∀ e ∈ l, what e.1 e.2 = some (g e)) → forEach2N what (2 * l.length) (pairs l) = some (l.flatMap g) := by
  intro l
  induction l with
  | nil => intro _; simp [forEach2N]
  | cons e l ih =>
    intro h
    match l with
    | [] => simp [forEach2N, h e (by simp)]
    | e' :: l =>
      have ih := ih (fun x hx => h x (by simp [hx]))
      have e2 : 2 * (e :: e' :: l).length = 2 * l.length + 4 := by simp; omega
      have e3 : 2 * (e' :: l).length = 2 * l.length + 2 := by simp; omega
      rw [e3] at ih
      rw [e2, pairs_cons, forEach2N, h e (by simp), ih]
      · simp [comma]

theorem forEach2N_odd (what : Arg → Arg → Option (List Arg)) : ∀ (k : Nat) (args : List Arg), forEach2N what (2 * k + 1) args = none := by
  intro k
  induction k with
  | zero => intro args; simp [forEach2N]
  | succ k ih =>
    intro args
    match k, args with
    | 0, args => simp [forEach2N]
    | k + 1, [] => simp [forEach2N]
    | k + 1, [_] => simp [forEach2N]
    | k + 1, x :: y :: rest =>
      have e2 : 2 * (k + 1 + 1) + 1 = (2 * k + 1) + 4 := by omega
      have e3 : 2 * (k + 1) + 1 = (2 * k + 1) + 2 := by omega
      rw [e3] at ih
      rw [e2, forEach2N, ih]
      cases what x y <;> simp [comma]

/-- `FOR_EACH_2ARGS` on pairs. -/
theorem forEach2_pairs {what : Arg → Arg → Option (List Arg)} {g : Arg × Arg → List Arg} {l : List (Arg × Arg)}
    (h1 : 1 ≤ l.length) (h2 : l.length ≤ 20) (h : ∀ e ∈ l, what e.1 e.2 = some (g e)) :
    forEach2 what (pairs l) = some (l.flatMap g) := by
  have hne : pairs l ≠ [] := by
    intro h0
    have := congrArg List.length h0
    simp only [pairs_length, List.length_nil] at this
    omega
  unfold forEach2
  rw [callArgs_of_ne hne, narg_le (by simp; omega) (by simp; omega), Option.bind_some, paste_num (by simp; omega), Option.bind_some,
    pairs_length]
  exact forEach2N_pairs l h

/-- The number of the arguments decides the macro. -/
theorem forEach2_nil (what : Arg → Arg → Option (List Arg)) : forEach2 what [] = none := by
  unfold forEach2
  rw [callArgs, narg_le (by simp) (by simp), Option.bind_some, paste_num (by simp), Option.bind_some]
  exact forEach2N_odd what 0 _

theorem forEach2_odd (what : Arg → Arg → Option (List Arg)) {args : List Arg} {k : Nat} (hk : args.length = 2 * k + 1) (h : args.length ≤ 40) :
    forEach2 what args = none := by
  have hne : args ≠ [] := by rintro rfl; simp at hk
  unfold forEach2
  rw [callArgs_of_ne hne, narg_le (by omega) h, Option.bind_some, paste_num h, Option.bind_some, hk]
  exact forEach2N_odd what k _

theorem forEach2_gt (what : Arg → Arg → Option (List Arg)) {l : List (Arg × Arg)} (h : 20 < l.length) (hp : ∀ e ∈ l, paste e.1 = none) :
    forEach2 what (pairs l) = none := by
  have hlen : 40 < (pairs l).length := by simp; omega
  have hne : pairs l ≠ [] := by intro h0; rw [h0] at hlen; simp at hlen
  unfold forEach2
  rw [callArgs_of_ne hne, narg_gt hlen, Option.bind_some]
  have := pairs_get l 20
  rw [List.getElem?_eq_getElem hlen, List.getElem?_eq_getElem h] at this
  simp only [Option.map_some, Option.some.injEq] at this
  rw [this, hp _ (List.getElem_mem h), Option.bind_none]

theorem forEach3_eq (what : String → Arg → Arg → Option (List Arg)) (stat : String) (args : List Arg) :
    forEach3 what stat args = forEach2 (what stat) args := by
  unfold forEach3 forEach2
  simp only [forEach3N_eq]

theorem forEachEven_eq (what : Arg → Option (List Arg)) (args : List Arg) :
    forEachEven what args = forEach2 (fun _ x => what x) args := by
  unfold forEachEven forEach2
  simp only [forEachEvenN_eq]

theorem forEachOdd_eq (what : Arg → Option (List Arg)) (args : List Arg) :
    forEachOdd what args = forEach2 (fun _ x => what x) (.src "" :: callArgs args) := by
  unfold forEachOdd forEach2
  simp only [forEachEvenN_eq, callArgs]

end GTMesh.Macro

namespace GTMesh.Traits
open Macro (Arg TraitDecl pairs)

variable {V : Type}

/-- The levels in order. -/
def MemRefs.toList {A : Type} : MemRefs A → List (String × A)
  | .last r n => [(n, r)]
  | .cons r n b => (n, r) :: b.toList

theorem MemRefs.level_eq {A : Type} (r : MemRefs A) (i : Nat) : r.level i = r.toList[i]?.map fun e => (e.2, e.1) := by
  induction r generalizing i with
  | last a n => cases i <;> simp [MemRefs.level, MemRefs.toList]
  | cons a n b ih => cases i <;> simp [MemRefs.level, MemRefs.toList, ih]

theorem describes_iff {t : Traits V} (hs : t.size = t.references.toList.length) {l : List (String × Access V)} :
    Describes t l ↔ t.references.toList = l := by
  constructor
  · rintro ⟨_, h⟩
    apply List.ext_getElem?
    intro i
    obtain ⟨h1, h2⟩ := h i
    simp only [Traits.getName, Traits.getReference, MemRefs.level_eq, Option.map_map] at h1 h2
    cases e1 : t.references.toList[i]? <;> cases e2 : l[i]? <;> simp [e1, e2] at h1 h2 ⊢
    exact Prod.ext h1 h2
  · rintro rfl
    refine ⟨hs, fun i => ?_⟩
    simp only [Traits.getName, Traits.getReference, MemRefs.level_eq, Option.map_map]
    exact ⟨rfl, rfl⟩

/-- The arguments of the constructor: names and references. -/
def ctorArgs (l : List (String × Arg)) : List Arg := pairs (l.map fun e => (.lit e.1, e.2))
/-- The types of the references. -/
def ctorTypes (l : List (String × Arg)) : List Arg := l.map fun e => .decltype e.2

theorem construct_some (x : Context V) : ∀ (l : List (String × Arg)) (acc : String × Arg → Access V), l ≠ [] →
    (∀ e ∈ l, accessOf x e.2 = some (acc e)) →
    ∃ r, construct x (ctorTypes l) (ctorArgs l) = some r ∧ r.toList = l.map fun e => (e.1, acc e)
  | [], _, h, _ => absurd rfl h
  | [e], acc, _, h => ⟨.last (acc e) e.1, by simp [construct, ctorTypes, ctorArgs, h], by simp [MemRefs.toList]⟩
  | e :: e' :: l, acc, _, h => by
    obtain ⟨r, h1, h2⟩ := construct_some x (e' :: l) acc (by simp) (fun y hy => h y (by simp [hy]))
    refine ⟨.cons (acc e) e.1 r, ?_, by simp [MemRefs.toList, h2]⟩
    simp only [ctorTypes, ctorArgs, List.map_cons, Macro.pairs_cons] at h1 ⊢
    rw [construct]
    · simp [h e, h1]
    · simp

theorem construct_none (x : Context V) : ∀ (l : List (String × Arg)), (∃ e ∈ l, accessOf x e.2 = none) →
    construct x (ctorTypes l) (ctorArgs l) = none
  | [], h => by simp at h
  | [e], h => by
    simp only [List.mem_singleton, exists_eq_left] at h
    simp [construct, ctorTypes, ctorArgs, h]
  | e :: e' :: l, h => by
    have ih := construct_none x (e' :: l)
    simp only [ctorTypes, ctorArgs, List.map_cons, Macro.pairs_cons] at ih ⊢
    rw [construct]
    · obtain ⟨y, hy, h⟩ := h
      rcases List.mem_cons.1 hy with rfl | hy
      · simp [h]
      · rw [ih ⟨y, hy, h⟩]; simp
    · simp

theorem selectEven_ctor : ∀ (l : List (String × Arg)), l ≠ [] → selectEvenTypes (ctorArgs l) = some (ctorTypes l)
  | [], h => absurd rfl h
  | [e], _ => by simp [selectEvenTypes, ctorTypes, ctorArgs]
  | e :: e' :: l, _ => by
    have ih := selectEven_ctor (e' :: l) (by simp)
    simp only [ctorTypes, ctorArgs, List.map_cons, Macro.pairs_cons] at ih ⊢
    rw [selectEvenTypes]
    · simp [ih]
    · simp

/-- Either every reference has an access or one has none. -/
theorem access_cases (x : Context V) (l : List (String × Arg)) :
    (∃ acc : String × Arg → Access V, ∀ e ∈ l, accessOf x e.2 = some (acc e)) ∨ ∃ e ∈ l, accessOf x e.2 = none := by
  by_cases h : ∃ e ∈ l, accessOf x e.2 = none
  · exact .inr h
  · left
    have h : ∀ e ∈ l, ∃ a, accessOf x e.2 = some a := by
      intro e he
      cases ha : accessOf x e.2 with
      | none => exact absurd ⟨e, he, ha⟩ h
      | some a => exact ⟨a, rfl⟩
    match l with
    | [] => exact ⟨fun _ => .member "", by simp⟩
    | e0 :: l =>
      obtain ⟨a0, _⟩ := h e0 (by simp)
      exact ⟨fun e => (accessOf x e.2).getD a0, fun e he => by obtain ⟨a, ha⟩ := h e he; simp [ha]⟩

/-- The macro with names and references. -/
theorem makeCustomTrait_ctor (cls : String) {l : List (String × Arg)} (h1 : 1 ≤ l.length) (h2 : l.length ≤ 20) :
    Macro.makeCustomTrait cls (ctorArgs l) = some ⟨cls, ctorTypes l, ctorArgs l⟩ := by
  unfold Macro.makeCustomTrait
  have hne : ctorArgs l ≠ [] := by
    intro h0
    have := congrArg List.length h0
    simp only [ctorArgs, Macro.pairs_length, List.length_map, List.length_nil] at this
    omega
  rw [Macro.callArgs_of_ne hne]
  unfold ctorArgs
  rw [Macro.forEach2_pairs (g := fun e => [.decltype e.2]) (by simpa using h1) (by simpa using h2) (by intro e _; rfl)]
  simp [ctorTypes, List.flatMap_map, ← List.map_eq_flatMap]

theorem makeCustomTrait_long (cls : String) {l : List (String × Arg)} (h : 20 < l.length) :
    Macro.makeCustomTrait cls (ctorArgs l) = none := by
  unfold Macro.makeCustomTrait ctorArgs
  rw [Macro.forEach2_gt _ (by simpa using h)]
  · rfl
  · intro e he
    obtain ⟨a, _, rfl⟩ := List.mem_map.1 he
    rfl

theorem makeCustomTrait_nil (cls : String) : Macro.makeCustomTrait cls [] = none := by
  unfold Macro.makeCustomTrait
  rw [Macro.forEach2_nil]; rfl

/-- `MAKE_NAMED_ATTRIBUTE_TRAIT` with names and members. -/
theorem makeNamed_ctor (cls : String) {l : List (String × String)} (h1 : 1 ≤ l.length) (h2 : l.length ≤ 20) :
    Macro.makeNamedAttributeTrait cls (ctorArgs (l.map fun e => (e.1, .src e.2))) =
      some ⟨cls, ctorTypes (l.map fun e => (e.1, .ref cls e.2)), ctorArgs (l.map fun e => (e.1, .ref cls e.2))⟩ := by
  unfold Macro.makeNamedAttributeTrait
  rw [Macro.forEach3_eq]
  have e : (l.map fun e => ((e.1, .src e.2) : String × Arg)).map (fun e => ((.lit e.1, e.2) : Arg × Arg)) = l.map fun e => (.lit e.1, .src e.2) := by
    simp
  unfold ctorArgs
  rw [e, Macro.forEach2_pairs (g := fun e => [e.1, match e.2 with | .src m => .ref cls m | a => a]) (by simpa using h1) (by simpa using h2)]
  · have e2 : ((l.map fun e => ((.lit e.1, .src e.2) : Arg × Arg)).flatMap
        fun e => [e.1, match e.2 with | .src m => .ref cls m | a => a]) = ctorArgs (l.map fun e => (e.1, .ref cls e.2)) := by
      simp [ctorArgs, pairs, List.flatMap_map]
    rw [e2, Option.bind_some, makeCustomTrait_ctor cls (by simpa using h1) (by simpa using h2)]
    rfl
  · intro e he
    obtain ⟨a, _, rfl⟩ := List.mem_map.1 he
    rfl

theorem makeNamed_long (cls : String) {l : List (String × Arg)} (h : 20 < l.length) :
    Macro.makeNamedAttributeTrait cls (ctorArgs l) = none := by
  unfold Macro.makeNamedAttributeTrait ctorArgs
  rw [Macro.forEach3_eq, Macro.forEach2_gt _ (by simpa using h)]
  · rfl
  · intro e he
    obtain ⟨a, _, rfl⟩ := List.mem_map.1 he
    rfl

theorem makeNamed_nil (cls : String) : Macro.makeNamedAttributeTrait cls [] = none := by
  unfold Macro.makeNamedAttributeTrait
  rw [Macro.forEach3_eq, Macro.forEach2_nil]; rfl

/-- The traits of a constructor. -/
theorem getTraits_ctor (x : Context V) (l : List (String × Arg)) (hl : l ≠ []) :
    (∀ acc : String × Arg → Access V, (∀ e ∈ l, accessOf x e.2 = some (acc e)) →
      ∃ t, getTraits x ⟨x.cls, ctorTypes l, ctorArgs l⟩ = some t ∧ Describes t (l.map fun e => (e.1, acc e))) ∧
    ((∃ e ∈ l, accessOf x e.2 = none) → getTraits x ⟨x.cls, ctorTypes l, ctorArgs l⟩ = none) := by
  constructor
  · intro acc h
    obtain ⟨r, h1, h2⟩ := construct_some x l acc hl h
    refine ⟨⟨(ctorTypes l).length, r⟩, by simp [getTraits, h1], ?_⟩
    rw [describes_iff (by simp [h2, ctorTypes])]
    exact h2
  · intro h
    simp [getTraits, construct_none x l h]

theorem describes_unique {t : Traits V} {l l' : List (String × Access V)} (h : Describes t l) (h' : Describes t l') : l = l' := by
  apply List.ext_getElem?
  intro i
  obtain ⟨h1, h2⟩ := h.2 i
  obtain ⟨h3, h4⟩ := h'.2 i
  rw [h3] at h1
  rw [h4] at h2
  cases e1 : l'[i]? <;> cases e2 : l[i]? <;> simp [e1, e2] at h1 h2 ⊢
  exact (Prod.ext h1 h2).symm

end GTMesh.Traits
