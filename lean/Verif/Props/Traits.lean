import Verif.Proofs.Traits

/-!
# C61: traits describe the members they are made of
-/

namespace GTMesh.Traits
open Macro

variable {V : Type}

/-! ## The macros -/

/-- C61: `FOR_EACH` uses the macro on every argument, in order, for 1 to 40 arguments. -/
theorem C61_for_each (f : Arg → List Arg) (args : List Arg) (h1 : args ≠ []) (h2 : args.length ≤ 40) :
    forEach (fun x => some (f x)) args = some (args.flatMap f) := by
  have hl : 1 ≤ args.length := by cases args <;> simp_all
  unfold forEach
  rw [callArgs_of_ne h1, narg_le hl h2, Option.bind_some, paste_num h2, Option.bind_some, forEachN_take _ _ (Nat.le_refl _),
    List.take_length]

example : forEach nameAtt [.src "a", .src "b"] = some [.lit "a", .src "a", .lit "b", .src "b"] := by decide +kernel

/-- C61: with more than 40 arguments the program does not compile, unless the 41st is not a name: if it is written with two
digits, a number up to 40, the arguments are silently cut to that number. -/
theorem C61_for_each_many (f : Arg → List Arg) (args : List Arg) (s : String) (h : args[40]? = some (.src s)) :
    (Identifier s → forEach (fun x => some (f x)) args = none) ∧
    (∀ n, n ≤ 40 → s = twoDigits n → forEach (fun x => some (f x)) args = some ((args.take n).flatMap f)) := by
  obtain ⟨hl, he⟩ := List.getElem?_eq_some_iff.1 h
  have hne : args ≠ [] := by rintro rfl; simp at hl
  unfold forEach
  rw [callArgs_of_ne hne, narg_gt hl, Option.bind_some, he]
  constructor
  · intro hs
    rw [paste_identifier hs]; rfl
  · rintro n hn rfl
    rw [paste_twoDigits hn, Option.bind_some, forEachN_take _ _ (by omega)]

/-- The second case: of 41 variables, the last written as 05, five are left. -/
example : forEach nameAtt (List.replicate 40 (.src "x") ++ [.src "05"]) = some ((List.replicate 5 [.lit "x", .src "x"]).flatten) := by
  decide +kernel

/-- C61: `FOR_EACH_EVEN` uses the macro on the second, fourth, … argument, `FOR_EACH_ODD` on the first, third, …, if the
last argument is one of them and, after the empty argument is added in front for `FOR_EACH_ODD`, there are at most 40. -/
theorem C61_for_each_parity (f : Arg → List Arg) (k : Nat) (args : List Arg) (hk : k < 20) :
    (args.length = 2 * (k + 1) →
      forEachEven (fun x => some (f x)) args = some ((List.range (k + 1)).flatMap fun i => (args[2 * i + 1]?.map f).getD [])) ∧
    (args.length = 2 * k + 1 →
      forEachOdd (fun x => some (f x)) args = some ((List.range (k + 1)).flatMap fun i => (args[2 * i]?.map f).getD [])) := by
  have key : ∀ l : List (Arg × Arg), l.flatMap (fun e => f e.2) = (List.range l.length).flatMap fun i => ((pairs l)[2 * i + 1]?.map f).getD [] := by
    intro l
    have e : ∀ i ∈ List.range l.length, ((pairs l)[2 * i + 1]?.map f).getD [] = ((l.map fun e => f e.2)[i]?).getD [] := by
      intro i _
      rw [pairs_get_odd, List.getElem?_map]; cases l[i]? <;> rfl
    have : ∀ m : List (List Arg), m.flatten = (List.range m.length).flatMap fun i => m[i]?.getD [] := by
      intro m
      rw [List.flatMap_def]
      congr 1
      apply List.ext_getElem (by simp)
      intro i h1 h2
      simp [h1]
    rw [List.flatMap_def, this, List.flatMap_def, List.flatMap_def, List.length_map]
    congr 1
    exact List.map_congr_left fun i hi => (e i hi).symm
  constructor
  · intro h
    obtain ⟨l, rfl, hl⟩ := exists_pairs _ _ h
    rw [forEachEven_eq, forEach2_pairs (g := fun e => f e.2) (by omega) (by omega) (by intro e _; rfl), key, hl]
  · intro h
    have hne : args ≠ [] := by rintro rfl; simp at h
    obtain ⟨l, h3, hl⟩ := exists_pairs (k + 1) (.src "" :: args) (by simp; omega)
    rw [forEachOdd_eq, callArgs_of_ne hne, h3, forEach2_pairs (g := fun e => f e.2) (by omega) (by omega) (by intro e _; rfl), key, hl]
    rw [← h3]
    simp

example : forEachEven nameAtt [.src "a", .src "b", .src "c", .src "d"] = some [.lit "b", .src "b", .lit "d", .src "d"] ∧
    forEachOdd nameAtt [.src "a", .src "b", .src "c"] = some [.lit "a", .src "a", .lit "c", .src "c"] ∧
    forEachOdd nameAtt [.src "a", .src "b"] = none := by decide +kernel

/-! ## Definitions of traits -/

/-- C61: `MAKE_ATTRIBUTE_TRAIT(Class, attributes...)` compiles exactly if there are 1 to 20 attributes and they are data
members of the class; then the traits describe these members, in this order, named by the text of the attribute. -/
theorem C61_attribute_trait (x : Context V) (attributes : List String)
    (hm : ∀ m ∈ x.members, Identifier m) (ha : ∀ a ∈ attributes, Identifier a) :
    ((∃ t, (makeAttributeTrait x.cls attributes).bind (getTraits x) = some t) ↔
      1 ≤ attributes.length ∧ attributes.length ≤ 20 ∧ ∀ a ∈ attributes, a ∈ x.members) ∧
    ∀ t, (makeAttributeTrait x.cls attributes).bind (getTraits x) = some t → Describes t (attributes.map fun a => (a, .member a)) := by
  have hn : ∀ l : List String, (l.map Arg.src).flatMap (fun | .src s => [.lit s, .src s] | _ => []) =
      ctorArgs ((l.map fun a => (a, a)).map fun e => (e.1, .src e.2)) := by
    intro l
    simp [ctorArgs, pairs, List.flatMap_map]
  have hforN : ∀ (n : Nat) (l : List String), forEachN nameAtt n (l.map .src) =
      forEachN (fun y => some ((fun | Arg.src s => [Arg.lit s, .src s] | _ => []) y)) n (l.map .src) := by
    intro n
    induction n with
    | zero => intro l; rfl
    | succ n ih =>
      intro l
      match n, l with
      | n, [] => cases n <;> rfl
      | 0, a :: l => rfl
      | n + 1, a :: l => simp only [List.map_cons, forEachN, ih, nameAtt]
  by_cases h0 : attributes = []
  · subst h0
    have e : makeAttributeTrait x.cls [] = some (⟨x.cls, [.decltype (.ref x.cls "")], [.lit "", .ref x.cls ""]⟩ : TraitDecl) := by
      have e1 : forEach nameAtt [] = some [.lit "", .src ""] := by decide +kernel
      unfold makeAttributeTrait
      simp only [List.map_nil, e1, Option.bind_some]
      exact makeNamed_ctor x.cls (l := [("", "")]) (by simp) (by simp)
    have hno : "" ∉ x.members := by
      intro h
      obtain ⟨c, cs, h, _⟩ := hm _ h
      simp at h
    have e2 : (makeAttributeTrait x.cls []).bind (getTraits x) = none := by
      rw [e]
      simp [getTraits, construct, accessOf, hno]
    rw [e2]
    simp
  have hlen : 1 ≤ attributes.length := by cases attributes <;> simp_all
  have hforn : attributes.length ≤ 40 → forEach nameAtt (attributes.map .src) = some (ctorArgs ((attributes.map fun a => (a, a)).map fun e => (e.1, .src e.2))) := by
    intro h
    unfold forEach
    rw [callArgs_of_ne (by simpa using h0), narg_le (by simpa using hlen) (by simpa using h), Option.bind_some, paste_num (by simpa using h),
      Option.bind_some, hforN, forEachN_take _ _ (Nat.le_refl _), List.take_length, hn]
  by_cases h20 : attributes.length ≤ 20
  · have e : makeAttributeTrait x.cls attributes = some ⟨x.cls, ctorTypes (attributes.map fun a => (a, .ref x.cls a)), ctorArgs (attributes.map fun a => (a, .ref x.cls a))⟩ := by
      unfold makeAttributeTrait
      rw [hforn (by omega), Option.bind_some, makeNamed_ctor x.cls (by simpa using hlen) (by simpa using h20)]
      simp only [List.map_map, Function.comp_def]
    rw [e, Option.bind_some]
    obtain ⟨g1, g2⟩ := getTraits_ctor x (attributes.map fun a => ((a, .ref x.cls a) : String × Arg)) (by simpa using h0)
    by_cases hall : ∀ a ∈ attributes, a ∈ x.members
    · obtain ⟨t, ht, hd⟩ := g1 (fun e => .member e.1) (by
        intro e he
        obtain ⟨a, ha, rfl⟩ := List.mem_map.1 he
        simp [accessOf, hall a ha])
      rw [ht]
      refine ⟨⟨fun _ => ⟨hlen, h20, hall⟩, fun _ => ⟨t, rfl⟩⟩, ?_⟩
      rintro t' h
      cases h
      simpa only [List.map_map, Function.comp_def] using hd
    · obtain ⟨a, ha, hna⟩ : ∃ a, a ∈ attributes ∧ a ∉ x.members := by
        simpa using hall
      rw [g2 ⟨(a, .ref x.cls a), List.mem_map.2 ⟨a, ha, rfl⟩, by simp [accessOf, hna]⟩]
      simp only [reduceCtorEq, exists_false, false_iff, false_implies, implies_true, and_true]
      exact fun h => hna (h.2.2 a ha)
  · have e : makeAttributeTrait x.cls attributes = none := by
      unfold makeAttributeTrait
      by_cases h40 : attributes.length ≤ 40
      · rw [hforn h40, Option.bind_some, makeNamed_long x.cls (by simpa using h20)]
      · have hl : 40 < (attributes.map Arg.src).length := by simpa using h40
        have : forEach nameAtt (attributes.map Arg.src) = none := by
          unfold forEach
          rw [callArgs_of_ne (by simpa using h0), narg_gt hl, Option.bind_some, List.getElem_map, paste_identifier (ha _ (List.getElem_mem _))]
          rfl
        rw [this]; rfl
    rw [e]
    simp
    omega

/-- A class with two attributes that have traits, and one that has not. -/
def exampleContext : Context Nat where
  cls := "Cell"
  members := ["volume", "index", "flag"]
  access e := if e = "make_pair(get, set)" then some (.getSet true (fun o => o "index" + 1) (fun o v => assign o "index" (v - 1))) else none

example : ∃ t, (makeAttributeTrait "Cell" ["index", "volume"]).bind (getTraits exampleContext) = some t ∧ t.size = 2 ∧
    t.getName 1 = some "volume" ∧ t.getValue 0 (fun m => m.length) = some 5 := ⟨_, rfl, rfl, rfl, rfl⟩

/-- C61: `MAKE_NAMED_ATTRIBUTE_TRAIT(Class, "name", member, ...)` compiles exactly if there are 1 to 20 pairs and the
attributes are data members of the class; then the traits describe these members, in this order, with the given names. -/
theorem C61_named_trait (x : Context V) (l : List (String × String)) :
    ((∃ t, (makeNamedAttributeTrait x.cls (l.flatMap fun e => [.lit e.1, .src e.2])).bind (getTraits x) = some t) ↔
      1 ≤ l.length ∧ l.length ≤ 20 ∧ ∀ e ∈ l, e.2 ∈ x.members) ∧
    ∀ t, (makeNamedAttributeTrait x.cls (l.flatMap fun e => [.lit e.1, .src e.2])).bind (getTraits x) = some t →
      Describes t (l.map fun e => (e.1, .member e.2)) := by
  have e0 : (l.flatMap fun e => [Arg.lit e.1, .src e.2]) = ctorArgs (l.map fun e => (e.1, .src e.2)) := by
    simp [ctorArgs, pairs, List.flatMap_map]
  rw [e0]
  by_cases h0 : l = []
  · subst h0
    have : makeNamedAttributeTrait x.cls (ctorArgs []) = none := makeNamed_nil x.cls
    simp [this]
  have hlen : 1 ≤ l.length := by cases l <;> simp_all
  by_cases h20 : l.length ≤ 20
  · rw [makeNamed_ctor x.cls hlen h20, Option.bind_some]
    obtain ⟨g1, g2⟩ := getTraits_ctor x (l.map fun a => ((a.1, .ref x.cls a.2) : String × Arg)) (by simpa using h0)
    by_cases hall : ∀ e ∈ l, e.2 ∈ x.members
    · obtain ⟨t, ht, hd⟩ := g1 (fun e => match e.2 with | .ref _ m => .member m | _ => .member "") (by
        intro e he
        obtain ⟨a, ha, rfl⟩ := List.mem_map.1 he
        simp [accessOf, hall a ha])
      rw [ht]
      refine ⟨⟨fun _ => ⟨hlen, h20, hall⟩, fun _ => ⟨t, rfl⟩⟩, ?_⟩
      rintro t' h
      cases h
      simpa only [List.map_map, Function.comp_def] using hd
    · obtain ⟨a, ha, hna⟩ : ∃ a, a ∈ l ∧ a.2 ∉ x.members := by
        simpa using hall
      rw [g2 ⟨(a.1, .ref x.cls a.2), List.mem_map.2 ⟨a, ha, rfl⟩, by simp [accessOf, hna]⟩]
      simp only [reduceCtorEq, exists_false, false_iff, false_implies, implies_true, and_true]
      exact fun h => hna (h.2.2 a ha)
  · rw [makeNamed_long x.cls (by simpa using h20)]
    simp
    omega

example : ∃ t, (makeNamedAttributeTrait "Cell" [.lit "i", .src "index", .lit "v", .src "volume"]).bind (getTraits exampleContext) = some t ∧
    t.getName 1 = some "v" ∧ t.getAttr 1 (fun m => m.length) = some "volume" := ⟨_, rfl, rfl, rfl⟩

/-- C61: `MAKE_CUSTOM_TRAIT(Class, "name", access, ...)` compiles exactly if there are 1 to 20 pairs and the expressions are
accesses; then the traits describe these accesses, in this order, with the given names. -/
theorem C61_custom_trait (x : Context V) (l : List (String × String)) :
    ((∃ t, (makeCustomTrait x.cls (l.flatMap fun e => [.lit e.1, .src e.2])).bind (getTraits x) = some t) ↔
      1 ≤ l.length ∧ l.length ≤ 20 ∧ ∀ e ∈ l, x.access e.2 ≠ none) ∧
    ∀ t (acc : String × String → Access V), (∀ e ∈ l, x.access e.2 = some (acc e)) →
      (makeCustomTrait x.cls (l.flatMap fun e => [.lit e.1, .src e.2])).bind (getTraits x) = some t →
      Describes t (l.map fun e => (e.1, acc e)) := by
  have e0 : (l.flatMap fun e => [Arg.lit e.1, .src e.2]) = ctorArgs (l.map fun e => (e.1, .src e.2)) := by
    simp [ctorArgs, pairs, List.flatMap_map]
  rw [e0]
  by_cases h0 : l = []
  · subst h0
    have : makeCustomTrait x.cls (ctorArgs []) = none := makeCustomTrait_nil x.cls
    simp [this]
  have hlen : 1 ≤ l.length := by cases l <;> simp_all
  by_cases h20 : l.length ≤ 20
  · rw [makeCustomTrait_ctor x.cls (by simpa using hlen) (by simpa using h20), Option.bind_some]
    obtain ⟨g1, g2⟩ := getTraits_ctor x (l.map fun a => ((a.1, .src a.2) : String × Arg)) (by simpa using h0)
    constructor
    · by_cases hall : ∀ e ∈ l, x.access e.2 ≠ none
      · refine ⟨fun _ => ⟨hlen, h20, hall⟩, fun _ => ?_⟩
        rcases access_cases x (l.map fun a => ((a.1, .src a.2) : String × Arg)) with ⟨acc, h⟩ | ⟨e, he, h⟩
        · obtain ⟨t, ht, _⟩ := g1 acc h
          exact ⟨t, ht⟩
        · obtain ⟨a, ha, rfl⟩ := List.mem_map.1 he
          exact absurd h (hall a ha)
      · obtain ⟨a, ha, hna⟩ : ∃ a, a ∈ l ∧ x.access a.2 = none := by
          apply Classical.byContradiction
          intro h
          exact hall fun e he h' => h ⟨e, he, h'⟩
        rw [g2 ⟨(a.1, .src a.2), List.mem_map.2 ⟨a, ha, rfl⟩, hna⟩]
        simp only [reduceCtorEq, exists_false, false_iff]
        exact fun h => h.2.2 a ha hna
    · intro t acc hacc ht
      obtain ⟨t', ht', hd⟩ := g1 (fun e => match e.2 with | .src m => acc (e.1, m) | _ => .member "") (by
        intro e he
        obtain ⟨a, ha, rfl⟩ := List.mem_map.1 he
        exact hacc a ha)
      rw [ht] at ht'
      cases ht'
      simpa only [List.map_map, Function.comp_def] using hd
  · rw [makeCustomTrait_long x.cls (by simpa using h20)]
    simp
    omega

example : ∃ t, (makeCustomTrait "Cell" [.lit "i", .src "make_pair(get, set)"]).bind (getTraits exampleContext) = some t ∧
    t.getName 0 = some "i" ∧ t.getValue 0 (fun m => m.length) = some 6 ∧ (t.setValue 0 (fun m => m.length) 9).map (· "index") = some 8 ∧
    t.getAttr 0 (fun m => m.length) = none := ⟨_, rfl, rfl, rfl, rfl, rfl⟩

/-- C61: an odd number of arguments does not compile. -/
theorem C61_odd (cls : String) (k : Nat) (args : List Arg) (h : args.length = 2 * k + 1) (h40 : args.length ≤ 40) :
    makeNamedAttributeTrait cls args = none ∧ makeCustomTrait cls args = none := by
  unfold makeNamedAttributeTrait makeCustomTrait
  rw [forEach3_eq, forEach2_odd _ h h40, forEach2_odd _ h h40]
  exact ⟨rfl, rfl⟩

example : makeCustomTrait "Cell" [.lit "i", .src "make_pair(get, set)", .lit "v"] = none := by decide +kernel

/-- C61: `makeTraits<Class>("name", access, ...)` has no limit: it compiles exactly if there is a pair and all the
references are accesses; then the traits describe these accesses, in this order, with the given names. -/
theorem C61_make_traits (x : Context V) (l : List (String × Arg)) :
    ((∃ t, makeTraits x (l.flatMap fun e => [.lit e.1, e.2]) = some t) ↔ 1 ≤ l.length ∧ ∀ e ∈ l, accessOf x e.2 ≠ none) ∧
    ∀ t (acc : String × Arg → Access V), (∀ e ∈ l, accessOf x e.2 = some (acc e)) → makeTraits x (l.flatMap fun e => [.lit e.1, e.2]) = some t →
      Describes t (l.map fun e => (e.1, acc e)) := by
  have e0 : (l.flatMap fun e => [Arg.lit e.1, e.2]) = ctorArgs l := by
    simp [ctorArgs, pairs, List.flatMap_map]
  rw [e0]
  by_cases h0 : l = []
  · subst h0
    have : makeTraits x (ctorArgs []) = none := rfl
    simp [this]
  have hlen : 1 ≤ l.length := by cases l <;> simp_all
  unfold makeTraits
  rw [selectEven_ctor l h0, Option.bind_some]
  constructor
  · constructor
    · intro h
      refine ⟨hlen, fun e he hn => ?_⟩
      rw [construct_none x l ⟨e, he, hn⟩] at h
      simp at h
    · rintro ⟨_, h⟩
      rcases access_cases x l with ⟨acc, h⟩ | ⟨e, he, hn⟩
      · obtain ⟨r, h1, _⟩ := construct_some x l acc h0 h
        rw [h1]
        exact ⟨_, rfl⟩
      · exact absurd hn (h e he)
  · intro t acc hacc ht
    obtain ⟨r, h1, h2⟩ := construct_some x l acc h0 hacc
    rw [h1] at ht
    cases ht
    rw [describes_iff (by simp [h2, ctorTypes])]
    exact h2

example : ∃ t, makeTraits exampleContext ((List.replicate 30 [Arg.lit "i", .ref "Cell" "index"]).flatten) = some t ∧ t.size = 30 ∧
    t.getName 29 = some "i" := ⟨_, rfl, rfl, rfl⟩

/-! ## Access -/

/-- C61: pointers to data members are accepted exactly if they are pointers to members of that class. -/
theorem C61_other_class (x : Context V) (l : List (String × String × String)) :
    (∃ t, makeTraits x (l.flatMap fun e => [.lit e.1, .ref e.2.1 e.2.2]) = some t) ↔
      1 ≤ l.length ∧ ∀ e ∈ l, e.2.1 = x.cls ∧ e.2.2 ∈ x.members := by
  have h := (C61_make_traits x (l.map fun e => (e.1, .ref e.2.1 e.2.2))).1
  rw [List.flatMap_map, List.length_map] at h
  rw [h]
  refine and_congr_right fun _ => ⟨fun h e he => ?_, fun h e he => ?_⟩
  · have := h _ (List.mem_map_of_mem he)
    refine Decidable.byContradiction fun hc => ?_
    exact this (by simp only [accessOf]; rw [if_neg hc])
  · obtain ⟨e', he', rfl⟩ := List.mem_map.mp he
    simp only [accessOf]
    rw [if_pos (h e' he')]
    simp

/-- A pointer to a member of another class. -/
example : ¬ ∃ t, makeTraits (V := Nat) ⟨"Cell", ["i", "v"], fun _ => none⟩ [.lit "a", .ref "Cell" "i", .lit "b", .ref "Face" "v"] = some t :=
  fun h => absurd (((C61_other_class ⟨"Cell", ["i", "v"], fun _ => none⟩ [("a", "Cell", "i"), ("b", "Face", "v")]).mp h).2 ("b", "Face", "v") (by simp)).1 (by decide)

/-- C61: for a data member, what is set by an index is got by it, and nothing but that member changes; the reference is to
that member. -/
theorem C61_member (t : Traits V) (l : List (String × Access V)) (h : Describes t l) (i : Nat) (n m : String)
    (hi : l[i]? = some (n, .member m)) (o : Object V) (v : V) :
    t.getName i = some n ∧ t.getAttr i o = some m ∧ t.getValue i o = some (o m) ∧ t.getValueConst i o = some (o m) ∧
    ∃ o', t.setValue i o v = some o' ∧ t.getValue i o' = some v ∧ (∀ y, y ≠ m → o' y = o y) ∧
      ∀ (j : Nat) (n' m' : String), l[j]? = some (n', .member m') → t.getValue j o' = some (if m' = m then v else o m') := by
  obtain ⟨_, h⟩ := h
  obtain ⟨h1, h2⟩ := h i
  rw [hi] at h1 h2
  refine ⟨h1, ?_, ?_, ?_, assign o m v, ?_, ?_, ?_, ?_⟩
  · simp [Traits.getAttr, h2, Access.getAttr]
  · simp [Traits.getValue, h2, Access.getValue]
  · simp [Traits.getValueConst, h2, Access.getValue, Access.hasConstGet]
  · simp [Traits.setValue, h2, Access.setValue]
  · simp [Traits.getValue, h2, Access.getValue, assign]
  · intro y hy; simp [assign, hy]
  · intro j n' m' hj
    have := (h j).2
    rw [hj] at this
    simp [Traits.getValue, this, Access.getValue, assign]

/-- C61: with a getter and a setter, the getter and the setter are used, and there is no reference; the getter is used on a
constant object only if it takes one. -/
theorem C61_get_set (t : Traits V) (l : List (String × Access V)) (h : Describes t l) (i : Nat) (n : String) (c : Bool)
    (get : Object V → V) (set : Object V → V → Object V) (hi : l[i]? = some (n, .getSet c get set)) (o : Object V) (v : V) :
    t.getValue i o = some (get o) ∧ t.setValue i o v = some (set o v) ∧ t.getAttr i o = none ∧
    t.getValueConst i o = if c then some (get o) else none := by
  have h2 := (h.2 i).2
  rw [hi] at h2
  cases c <;> simp [Traits.getValue, Traits.setValue, Traits.getAttr, Traits.getValueConst, h2, Access.getValue, Access.setValue, Access.getAttr,
    Access.hasConstGet]

/-- C61: with a function that returns a reference, setting assigns to that member only. -/
theorem C61_get_ref (t : Traits V) (l : List (String × Access V)) (h : Describes t l) (i : Nat) (n : String) (c : Bool)
    (get : Object V → V) (ref : Object V → String) (hi : l[i]? = some (n, .getRef c get ref)) (o : Object V) (v : V) :
    t.getValue i o = some (get o) ∧ t.getAttr i o = some (ref o) ∧
    ∃ o', t.setValue i o v = some o' ∧ o' (ref o) = v ∧ ∀ y, y ≠ ref o → o' y = o y := by
  have h2 := (h.2 i).2
  rw [hi] at h2
  refine ⟨?_, ?_, assign o (ref o) v, ?_, ?_, ?_⟩
  · simp [Traits.getValue, h2, Access.getValue]
  · simp [Traits.getAttr, h2, Access.getAttr]
  · simp [Traits.setValue, h2, Access.setValue]
  · simp [assign]
  · intro y hy; simp [assign, hy]

/-- C61: an index that is too large does not compile. -/
theorem C61_out_of_range (t : Traits V) (l : List (String × Access V)) (h : Describes t l) (i : Nat) (hi : l.length ≤ i) (o : Object V) (v : V) :
    t.getName i = none ∧ t.getValue i o = none ∧ t.setValue i o v = none ∧ t.getAttr i o = none := by
  obtain ⟨h1, h2⟩ := h.2 i
  rw [List.getElem?_eq_none hi] at h1 h2
  simp only [Option.map_none] at h1 h2
  simp [Traits.getValue, Traits.setValue, Traits.getAttr, h1, h2]

/-- Traits of the three kinds of access. -/
def exampleTraits : Traits Nat :=
  ⟨3, .cons (.member "a") "first" (.cons (.getSet false (fun o => o "b" + 1) (fun o v => assign o "b" (v - 1))) "second"
    (.last (.getRef true (fun o => o "c") (fun o => if o "a" = 0 then "c" else "d")) "third"))⟩

theorem exampleTraits_describes : Describes exampleTraits [("first", .member "a"),
    ("second", .getSet false (fun o => o "b" + 1) (fun o v => assign o "b" (v - 1))),
    ("third", .getRef true (fun o => o "c") (fun o => if o "a" = 0 then "c" else "d"))] := by
  rw [describes_iff rfl]; rfl

example : ∃ o', exampleTraits.setValue 0 (fun _ => 4) 7 = some o' ∧ exampleTraits.getValue 0 o' = some 7 ∧ o' "b" = 4 ∧
    exampleTraits.getValueConst 1 o' = none ∧ exampleTraits.getAttr 2 o' = some "d" := ⟨_, rfl, rfl, rfl, rfl, rfl⟩

/-! ## Visiting -/

/-- C61: `apply` calls the functor once for each entry, in order, with its index, access and name; the state of the functor is
carried from call to call. `apply<Functor>` does the same with a new functor for every entry. -/
theorem C61_apply {S W : Type} (t : Traits V) (l : List (String × Access V)) (h : Describes t l) (hl : l ≠ []) (s : S) (w : W) :
    (∀ f : Functor V S W, t.apply f s w = some (visit f 0 l (s, w)).2) ∧
    (∀ f : Nat → Access V → String → W → W, t.applyNew f w = some (visit (fun i a n (_ : Unit) w => ((), f i a n w)) 0 l ((), w)).2) := by
  obtain ⟨hs, h⟩ := h
  have hpos : 1 ≤ l.length := by cases l <;> simp_all
  have hlast : ∀ i : Nat, i + 1 = l.length → ∃ e, l.drop i = [e] ∧ l[i]? = some e := by
    intro i hi
    have : i < l.length := by omega
    refine ⟨l[i], ?_, by simp [this]⟩
    rw [List.drop_eq_getElem_cons this, List.drop_eq_nil_of_le (by omega)]
  have hmid : ∀ i : Nat, i < l.length → ∃ e, l.drop i = e :: l.drop (i + 1) ∧ l[i]? = some e := by
    intro i hi
    exact ⟨l[i], List.drop_eq_getElem_cons hi, by simp [hi]⟩
  constructor
  · intro f
    have key : ∀ (k i : Nat) (s : S) (w : W), i + k + 1 = l.length → applyFrom t f k i s w = some (visit f i (l.drop i) (s, w)).2 := by
      intro k
      induction k with
      | zero =>
        intro i s w hi
        obtain ⟨e, h1, h2⟩ := hlast i (by omega)
        have hz : t.size - 1 = i := by omega
        obtain ⟨g1, g2⟩ := h i
        rw [h2] at g1 g2
        simp [applyFrom, hz, g1, g2, h1, visit]
      | succ k ih =>
        intro i s w hi
        obtain ⟨e, h1, h2⟩ := hmid i (by omega)
        obtain ⟨g1, g2⟩ := h i
        rw [h2] at g1 g2
        simp [applyFrom, g1, g2, h1, visit, ih (i + 1) _ _ (by omega)]
    have := key (t.size - 1) 0 s w (by omega)
    simpa [Traits.apply] using this
  · intro f
    have key : ∀ (k i : Nat) (w : W), i + k + 1 = l.length →
        applyNewFrom t f k i w = some (visit (fun i a n (_ : Unit) w => ((), f i a n w)) i (l.drop i) ((), w)).2 := by
      intro k
      induction k with
      | zero =>
        intro i w hi
        obtain ⟨e, h1, h2⟩ := hlast i (by omega)
        have hz : t.size - 1 = i := by omega
        obtain ⟨g1, g2⟩ := h i
        rw [h2] at g1 g2
        simp [applyNewFrom, hz, g1, g2, h1, visit]
      | succ k ih =>
        intro i w hi
        obtain ⟨e, h1, h2⟩ := hmid i (by omega)
        obtain ⟨g1, g2⟩ := h i
        rw [h2] at g1 g2
        simp [applyNewFrom, g1, g2, h1, visit, ih (i + 1) _ (by omega)]
    have := key (t.size - 1) 0 w (by omega)
    simpa [Traits.applyNew] using this

/-- The names with the indices, and a count kept in the functor. -/
example : exampleTraits.apply (fun i _ n (s : Nat) (w : List (Nat × String × Nat)) => (s + 10, w ++ [(i, n, s)])) 5 [] =
    some [(0, "first", 5), (1, "second", 15), (2, "third", 25)] := rfl

/-! ## Members of members -/

/-- C61: for classes whose arithmetic traits are made of attributes, `get<i, j, ...>(object)` refers to attribute `j` of
attribute `i` and so on; it compiles exactly if there are such attributes. -/
theorem C61_get {W : Type} (classes : String → Option (ClassInfo W)) (as : Attributes) (h : HasAttributes classes as)
    (hno : ∀ c, as c = none → classes c = none) :
    ∀ (is : List Nat) (c : String) (o : Obj W), is ≠ [] → o.OfClass as c → get classes c is o = memberPath as c is := by
  intro is
  induction is with
  | nil => intro c o hne; exact absurd rfl hne
  | cons i is ih =>
    intro c o _ ho
    match o, ho with
    | .node f, ho =>
      cases hc : as c with
      | none =>
        rw [memberPath, hc]
        cases is <;> simp [get, hno c hc]
      | some l =>
        obtain ⟨k, hk, hd, hcl⟩ := h c l hc
        have hr := (hd.2 i).2
        have hattr : k.traits.getAttr i f = l[i]?.map (·.1) := by
          rw [Traits.getAttr, hr, List.getElem?_map]
          cases l[i]? <;> rfl
        match is, ih with
        | [], _ =>
          rw [get, memberPath, hc, hk, Option.bind_some, Option.bind_some, hattr]
          cases l[i]? <;> simp
        | j :: js, ih =>
          rw [get, memberPath, hc, hk, Option.bind_some, Option.bind_some, hattr, hcl]
          · cases hi : l[i]? with
            | none => simp
            | some a =>
              simp only [Option.map_some, Option.bind_some, reduceCtorEq, if_false]
              cases ha : a.2 with
              | none => simp
              | some c' =>
                have := ih c' (f a.1) (by simp) (ho l hc a (List.mem_of_getElem? hi) c' ha)
                simp [this]
          · simp

/-- C61: different indices refer to different members: if the attributes of every class are different members, the member of
one index list lies within that of another only if the one list continues the other. -/
theorem C61_get_distinct (as : Attributes) (hd : ∀ c l, as c = some l → (l.map (·.1)).Nodup) :
    ∀ (is js : List Nat) (c : String) (p q : List String), memberPath as c is = some p → memberPath as c js = some q → p <+: q → is <+: js := by
  intro is
  induction is with
  | nil => intro js c p q _ _ _; exact List.nil_prefix
  | cons i is ih =>
    intro js c p q hp hq hpq
    rw [memberPath] at hp
    obtain ⟨l, hl, hp⟩ := Option.bind_eq_some_iff.1 hp
    obtain ⟨a, ha, hp⟩ := Option.bind_eq_some_iff.1 hp
    obtain ⟨p', rfl⟩ : ∃ p', p = a.1 :: p' := by
      split at hp
      · cases hp; exact ⟨[], rfl⟩
      · obtain ⟨c', _, hp⟩ := Option.bind_eq_some_iff.1 hp
        obtain ⟨p', _, rfl⟩ := Option.map_eq_some_iff.1 hp
        exact ⟨p', rfl⟩
    match js with
    | [] =>
      rw [memberPath] at hq
      cases hq
      simp at hpq
    | j :: js =>
      rw [memberPath, hl, Option.bind_some] at hq
      obtain ⟨b, hb, hq⟩ := Option.bind_eq_some_iff.1 hq
      have hab : i = j := by
        have hq1 : ∃ q', q = b.1 :: q' := by
          split at hq
          · cases hq; exact ⟨[], rfl⟩
          · obtain ⟨c', _, hq⟩ := Option.bind_eq_some_iff.1 hq
            obtain ⟨q', _, rfl⟩ := Option.map_eq_some_iff.1 hq
            exact ⟨q', rfl⟩
        obtain ⟨q', rfl⟩ := hq1
        have e : a.1 = b.1 := (List.cons_prefix_cons.1 hpq).1
        obtain ⟨hi', ha'⟩ := List.getElem?_eq_some_iff.1 ha
        obtain ⟨hj', hb'⟩ := List.getElem?_eq_some_iff.1 hb
        exact (List.getElem_inj (h₀ := by simpa using hi') (h₁ := by simpa using hj') (hd c l hl)).1 (by simp [ha', hb', e])
      subst hab
      rw [ha] at hb
      cases hb
      rw [List.cons_prefix_cons]
      refine ⟨rfl, ?_⟩
      by_cases h1 : is = []
      · subst h1; exact List.nil_prefix
      · rw [if_neg h1] at hp
        obtain ⟨c', hc', hp⟩ := Option.bind_eq_some_iff.1 hp
        obtain ⟨p2, hp2, hpe⟩ := Option.map_eq_some_iff.1 hp
        cases hpe
        by_cases h2 : js = []
        · subst h2
          rw [if_pos rfl] at hq
          cases hq
          have : p' = [] := by simpa using hpq
          subst this
          cases is with
          | nil => exact absurd rfl h1
          | cons k ks =>
            rw [memberPath] at hp2
            obtain ⟨l2, _, hp2⟩ := Option.bind_eq_some_iff.1 hp2
            obtain ⟨a2, _, hp2⟩ := Option.bind_eq_some_iff.1 hp2
            split at hp2
            · cases hp2
            · obtain ⟨c2, _, hp2⟩ := Option.bind_eq_some_iff.1 hp2
              simp at hp2
        · rw [if_neg h2, hc', Option.bind_some] at hq
          obtain ⟨q2, hq2, rfl⟩ := Option.map_eq_some_iff.1 hq
          exact ih js c' p' q2 hp2 hq2 (List.cons_prefix_cons.1 hpq).2

/-- C61: assignment through the reference changes the member it refers to, and no member that is not within it or around it. -/
theorem C61_get_assign {W : Type} : ∀ (p q : List String) (o v : Obj W), (o.read p).isSome →
    (o.write p v).read p = some v ∧ (¬ p <+: q → ¬ q <+: p → (o.write p v).read q = o.read q) := by
  intro p
  induction p with
  | nil => intro q o v _; exact ⟨by cases o <;> simp [Obj.write, Obj.read], fun h => absurd List.nil_prefix h⟩
  | cons m p ih =>
    intro q o v ho
    match o with
    | .leaf _ => simp [Obj.read] at ho
    | .node f =>
      rw [Obj.read] at ho
      refine ⟨?_, ?_⟩
      · simp [Obj.write, Obj.read, (ih [] (f m) v ho).1]
      · intro h1 h2
        match q with
        | [] => exact absurd List.nil_prefix h2
        | y :: q =>
          by_cases hy : y = m
          · subst hy
            simp only [Obj.write, Obj.read, if_true]
            exact (ih q (f y) v ho).2 (fun h => h1 (by simpa [List.cons_prefix_cons] using h)) (fun h => h2 (by simpa [List.cons_prefix_cons] using h))
          · simp [Obj.write, Obj.read, hy]

/-- A class with a vector of two members in it. -/
def exampleAttributes : Attributes := fun c =>
  if c = "Data" then some [("pressure", none), ("velocity", some "Vec")] else if c = "Vec" then some [("x", none), ("y", none)] else none

def exampleClasses : String → Option (ClassInfo Nat) := fun c =>
  if c = "Data" then some ⟨⟨2, .cons (.member "pressure") "pressure" (.last (.member "velocity") "velocity")⟩, fun i => if i = 1 then some "Vec" else none⟩
  else if c = "Vec" then some ⟨⟨2, .cons (.member "x") "x" (.last (.member "y") "y")⟩, fun _ => none⟩ else none

def exampleObject : Obj Nat := .node fun m => if m = "velocity" then .node fun y => .leaf y.length else .leaf 3

theorem example_hasAttributes : HasAttributes exampleClasses exampleAttributes := by
  intro c l h
  unfold exampleAttributes at h
  split at h
  · next hc =>
    subst hc
    cases h
    refine ⟨_, by simp [exampleClasses]; rfl, by rw [describes_iff rfl]; rfl, ?_⟩
    intro i
    match i with
    | 0 => rfl
    | 1 => rfl
    | i + 2 => simp
  · split at h
    · next hc =>
      subst hc
      cases h
      refine ⟨_, by simp [exampleClasses]; rfl, by rw [describes_iff rfl]; rfl, ?_⟩
      intro i
      match i with
      | 0 => rfl
      | 1 => rfl
      | i + 2 => simp
    · cases h

example : exampleObject.OfClass exampleAttributes "Data" ∧ get exampleClasses "Data" [1, 0] exampleObject = some ["velocity", "x"] ∧
    get exampleClasses "Data" [0, 0] exampleObject = none ∧
    ∃ v, (exampleObject.write ["velocity", "x"] (.leaf 9)).read ["velocity", "x"] = some (.leaf v) ∧ v = 9 := by
  refine ⟨?_, by decide +kernel, by decide +kernel, 9, by simp [exampleObject, Obj.write, Obj.read], rfl⟩
  intro l hl a ha c' hc'
  cases hl
  simp only [List.mem_cons, List.not_mem_nil, or_false] at ha
  rcases ha with rfl | rfl
  · simp at hc'
  · cases hc'
    intro l hl a ha c' hc'
    cases hl
    simp only [List.mem_cons, List.not_mem_nil, or_false] at ha
    rcases ha with rfl | rfl <;> simp at hc'

end GTMesh.Traits
