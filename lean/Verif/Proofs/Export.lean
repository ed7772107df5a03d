import Verif.Spec.Export
import Verif.Proofs.JsonLog2
import Mathlib.Data.List.Forall2

/-! # How a variable is printed: proofs -/

namespace GTMesh.Export

open Json JsonLog

theorem resolves_list (Γ : Classes) (vs : Vals) : listOf (resolves Γ vs) = vs.toList.map (resolve Γ) := by
  match vs with
  | .nil => simp [resolves, listOf, Vals.toList]
  | .cons v vs => simp [resolves, listOf, Vals.toList, resolves_list Γ vs]

theorem commaSep_nil : commaSep [] = [] := rfl

theorem sepLit : ", ".toList = [',', ' '] := by decide +kernel

theorem namedLit : "\" : ".toList = ['"', ' ', ':', ' '] := by decide +kernel

theorem commaSep_cons (t : List Char) (ts : List (List Char)) :
    commaSep (t :: ts) = t ++ (ts.map fun u => ", ".toList ++ u).flatten := by
  induction ts generalizing t with
  | nil => simp [commaSep, List.intercalate]
  | cons u us ih =>
    have := ih u
    unfold commaSep at this ⊢
    simp only [List.intercalate, List.intersperse, List.flatten_cons, List.map_cons] at this ⊢
    cases us <;> simp_all [List.intersperse]

theorem separated_eq : ∀ (l : LVals), JsonLog.separated l = ((listOf l).map fun v => ", ".toList ++ print v).flatten
  | .nil => by simp [JsonLog.separated, listOf]
  | .cons v vs => by simp [JsonLog.separated, listOf, separated_eq vs, sepLit]

theorem printElems_eq (l : LVals) : printElems l = commaSep ((listOf l).map print) := by
  cases l with
  | nil => simp [printElems, listOf, commaSep]
  | cons v vs =>
    simp only [printElems, listOf, List.map_cons, commaSep_cons, separated_eq, List.map_map]
    rfl

theorem separatedMembers_eq (attrs : List LVal) : ∀ (es : List (List Char × Nat)), separatedMembers (membersOf attrs es) =
    (es.map fun e => ", ".toList ++ named e.1 (print (attrs[e.2]?.getD (.plain [])))).flatten
  | [] => by simp [membersOf, separatedMembers]
  | e :: es => by
    simp only [membersOf, separatedMembers, separatedMembers_eq attrs es, List.map_cons, List.flatten_cons, named, sepLit, namedLit]
    simp

theorem printMembers_eq (attrs : List LVal) (es : List (List Char × Nat)) : printMembers (membersOf attrs es) =
    commaSep (es.map fun e => named e.1 (print (attrs[e.2]?.getD (.plain [])))) := by
  cases es with
  | nil => simp [membersOf, printMembers, commaSep]
  | cons e es =>
    simp only [membersOf, printMembers, separatedMembers_eq, List.map_cons, commaSep_cons, named, namedLit, List.map_map]
    simp [Function.comp_def]

/-! ## The choice -/

theorem classSelect_hit {α : Type} (p : α → Bool) (a : α) (l : List α) (h : p a = true) : classSelect p (a :: l) = some a := by
  cases l <;> simp [classSelect, h]

theorem classSelect_miss {α : Type} (p : α → Bool) (a b : α) (l : List α) (h : p a = false) :
    classSelect p (a :: b :: l) = classSelect p (b :: l) := by
  simp [classSelect, h]

theorem select_eq (Γ : Classes) (t : Nat → Bool) (c : Nat) : selectPrinter Γ t (.cls c) =
    if (Γ c).printToStream then .custom else if (Γ c).iterable then .iterable else if (Γ c).indexable then .indexable
    else if t c then .traited else if (Γ c).exportable then .exportable else .any := by
  unfold selectPrinter
  cases h1 : (Γ c).printToStream <;> cases h2 : (Γ c).iterable <;> cases h3 : (Γ c).indexable <;> cases h4 : t c <;>
    cases h5 : (Γ c).exportable <;> simp [classSelect, printable, h1, h2, h3, h4, h5]

theorem select_bool (Γ : Classes) (t : Nat → Bool) : selectPrinter Γ t .bool = .exportable := by
  simp [selectPrinter, classSelect, printable]
theorem select_number (Γ : Classes) (t : Nat → Bool) : selectPrinter Γ t .number = .exportable := by
  simp [selectPrinter, classSelect, printable]
theorem select_string (Γ : Classes) (t : Nat → Bool) : selectPrinter Γ t .string = .text := by
  simp [selectPrinter, classSelect, printable]
theorem select_cstr (Γ : Classes) (t : Nat → Bool) : selectPrinter Γ t .cstr = .text := by
  simp [selectPrinter, classSelect, printable]
theorem select_char (Γ : Classes) (t : Nat → Bool) : selectPrinter Γ t .char = .text := by
  simp [selectPrinter, classSelect, printable]
theorem select_charArray (Γ : Classes) (t : Nat → Bool) : selectPrinter Γ t .charArray = .exportable := by
  simp [selectPrinter, classSelect, printable]
theorem select_pair (Γ : Classes) (t : Nat → Bool) : selectPrinter Γ t .pair = .tuple := by
  simp [selectPrinter, classSelect, printable]
theorem select_tuple (Γ : Classes) (t : Nat → Bool) : selectPrinter Γ t .tuple = .tuple := by
  simp [selectPrinter, classSelect, printable]
theorem select_binder (Γ : Classes) (t : Nat → Bool) : selectPrinter Γ t .binder = .traited := by
  simp [selectPrinter, classSelect, printable]

theorem describes_get {es : List (List Char × Nat)} {vs : List Val} {ms : List (List Char × Val)} (h : Describes es vs ms)
    (f : Val → LVal) (g : List Char → LVal → List Char) :
    es.map (fun e => g e.1 ((vs.map f)[e.2]?.getD (.plain []))) = ms.map fun m => g m.1 (f m.2) := by
  unfold Describes at h
  induction es generalizing ms with
  | nil =>
    cases ms with
    | nil => rfl
    | cons m ms => simp at h
  | cons e es ih =>
    cases ms with
    | nil => simp at h
    | cons m ms =>
      simp only [List.map_cons, List.cons.injEq, Prod.mk.injEq] at h
      obtain ⟨⟨h1, h2⟩, h3⟩ := h
      rw [List.map_cons, ih h3]
      simp only [List.map_cons, List.getElem?_map, h1, h2, Option.map_some, Option.getD_some]

/-! ## Bound traits -/

theorem selectTraits_eq (d : Bool) : ∀ (i : Nat) (l : List Bool), selectTraits d i l =
    match l.findIdx? (· = true) with | some k => .bound (i + k) | none => if d then .default else .none
  | i, [] => by simp [selectTraits]
  | i, [b] => by cases b <;> simp [selectTraits, List.findIdx?_cons]
  | i, b :: c :: r => by
    rw [selectTraits, selectTraits_eq d (i + 1) (c :: r), List.findIdx?_cons (xs := c :: r)]
    cases b with
    | true => simp
    | false =>
      simp only [Bool.false_eq_true, if_false, decide_false]
      cases h : (c :: r).findIdx? (· = true) with
      | none => simp
      | some k =>
        simp only [Option.map_some]
        congr 1; omega

theorem find_idx (ts : List TraitsOf) (c : Nat) :
    (∃ (k : Nat) (t : TraitsOf), (ts.map fun t => decide (t.cls = c)).findIdx? (· = true) = some k ∧ ts[k]? = some t ∧ ts.find? (fun t => t.cls = c) = some t) ∨
    ((ts.map fun t => decide (t.cls = c)).findIdx? (· = true) = none ∧ ts.find? (fun t => t.cls = c) = none) := by
  induction ts with
  | nil => right; simp
  | cons t ts ih =>
    by_cases h : t.cls = c
    · left; exact ⟨0, t, by simp [List.findIdx?_cons, h], by simp, by simp [h]⟩
    · rcases ih with ⟨k, u, h1, h2, h3⟩ | ⟨h1, h2⟩
      · left
        exact ⟨k + 1, u, by simp [List.findIdx?_cons, h]; simpa using h1, by simpa using h2, by simp [h, h3]⟩
      · right
        constructor
        · simp [List.findIdx?_cons, h]; simpa using h1
        · simp [h, h2]

theorem valid_with (Γ : Classes) (ts : List TraitsOf) (c : Nat) : valid Γ ts c = hasDefault (Γ.withTraits ts) c := by
  unfold valid choice hasDefault Classes.withTraits
  rw [selectTraits_eq]
  rcases find_idx ts c with ⟨k, t, h1, h2, h3⟩ | ⟨h1, h2⟩
  · rw [h1, h3]; simp
  · rw [h1, h2]
    cases (Γ c).ioTraits.isSome <;> simp

theorem traits_with (Γ : Classes) (ts : List TraitsOf) (c : Nat) : traitsFor Γ ts c = ((Γ.withTraits ts) c).ioTraits.getD [] := by
  unfold traitsFor choice Classes.withTraits
  rw [selectTraits_eq]
  rcases find_idx ts c with ⟨k, t, h1, h2, h3⟩ | ⟨h1, h2⟩
  · rw [h1, h3]; simp [h2]
  · rw [h1, h2]
    unfold hasDefault
    cases h : (Γ c).ioTraits <;> simp

theorem with_same (Γ : Classes) (ts : List TraitsOf) (c : Nat) :
    ((Γ.withTraits ts) c).printToStream = (Γ c).printToStream ∧ ((Γ.withTraits ts) c).iterable = (Γ c).iterable ∧
    ((Γ.withTraits ts) c).indexable = (Γ c).indexable ∧ ((Γ.withTraits ts) c).exportable = (Γ c).exportable ∧
    ((Γ.withTraits ts) c).typeName = (Γ c).typeName ∧ ((Γ.withTraits ts) c).printToStdio = (Γ c).printToStdio := by
  unfold Classes.withTraits
  split <;> simp

theorem select_with (Γ : Classes) (ts : List TraitsOf) (c : Nat) :
    selectPrinter Γ (valid Γ ts) (.cls c) = selectPrinter (Γ.withTraits ts) (hasDefault (Γ.withTraits ts)) (.cls c) := by
  obtain ⟨h1, h2, h3, h4, _, _⟩ := with_same Γ ts c
  rw [select_eq, select_eq, h1, h2, h3, h4, valid_with]

theorem objectBy_with (Γ : Classes) (ts : List TraitsOf) (c : Nat) : objectBy (Γ c) = objectBy ((Γ.withTraits ts) c) := by
  obtain ⟨_, _, _, _, h5, _⟩ := with_same Γ ts c
  funext es it ix at_ cu pu by_ p
  cases p <;> simp [objectBy, h5]

theorem objectStdio_with (Γ : Classes) (ts : List TraitsOf) (c : Nat) : objectStdio (Γ c) = objectStdio ((Γ.withTraits ts) c) := by
  obtain ⟨_, _, _, _, h5, h6⟩ := with_same Γ ts c
  funext es it ix at_ cu by_ p
  cases p <;> simp [objectStdio, h6]

mutual
theorem resolve_bound (Γ : Classes) (ts : List TraitsOf) : ∀ v : Val, v.unbound = true → resolveBound Γ ts v = resolve (Γ.withTraits ts) v
  | .bool b, _ => by simp [resolveBound, resolve, select_bool]
  | .int k n, _ => by simp [resolveBound, resolve, select_number]
  | .float k t, _ => by simp [resolveBound, resolve, select_number]
  | .string s, _ => by simp [resolveBound, resolve, select_string]
  | .cstr s, _ => by simp [resolveBound, resolve, select_cstr]
  | .char c, _ => by simp [resolveBound, resolve, select_char]
  | .charArray s, _ => by simp [resolveBound, resolve, select_charArray]
  | .pair a b, h => by
    simp only [Val.unbound, Bool.and_eq_true] at h
    simp only [resolveBound, resolve, resolve_bound Γ ts a h.1, resolve_bound Γ ts b h.2]
  | .tuple vs, h => by
    simp only [Val.unbound] at h
    simp only [resolveBound, resolve, resolve_bounds Γ ts vs h]
  | .obj c it ix at_ cu cc pu by_, h => by
    simp only [Val.unbound, Bool.and_eq_true] at h
    simp only [resolveBound, resolve, resolve_bounds Γ ts it h.1.1, resolve_bounds Γ ts ix h.1.2, resolve_bounds Γ ts at_ h.2]
    rw [select_with, objectBy_with Γ ts c, traits_with]
  | .bound v t, h => by simp [Val.unbound] at h
theorem resolve_bounds (Γ : Classes) (ts : List TraitsOf) : ∀ vs : Vals, vs.unbound = true → resolveBounds Γ ts vs = resolves (Γ.withTraits ts) vs
  | .nil, _ => by simp [resolveBounds, resolves]
  | .cons v vs, h => by
    simp only [Vals.unbound, Bool.and_eq_true] at h
    simp only [resolveBounds, resolves, resolve_bound Γ ts v h.1, resolve_bounds Γ ts vs h.2]
end

mutual
theorem stdio_bound (Γ : Classes) (ts : List TraitsOf) : ∀ v : Val, v.unbound = true → stdioBound Γ ts v = stdio (Γ.withTraits ts) v
  | .bool b, _ => by simp [stdioBound, stdio]
  | .int k n, _ => by simp [stdioBound, stdio]
  | .float k t, _ => by simp [stdioBound, stdio]
  | .string s, _ => by simp [stdioBound, stdio, select_string]
  | .cstr s, _ => by simp [stdioBound, stdio, select_cstr]
  | .char c, _ => by simp [stdioBound, stdio, select_char]
  | .charArray s, _ => by simp [stdioBound, stdio, select_charArray]
  | .pair a b, h => by
    simp only [Val.unbound, Bool.and_eq_true] at h
    simp only [stdioBound, stdio, stdio_bound Γ ts a h.1, stdio_bound Γ ts b h.2]
  | .tuple vs, h => by
    simp only [Val.unbound] at h
    simp only [stdioBound, stdio, stdio_bounds Γ ts vs h]
  | .obj c it ix at_ cu cc pu by_, h => by
    simp only [Val.unbound, Bool.and_eq_true] at h
    simp only [stdioBound, stdio, stdio_bounds Γ ts it h.1.1, stdio_bounds Γ ts ix h.1.2, stdio_bounds Γ ts at_ h.2]
    rw [select_with, objectStdio_with Γ ts c, traits_with]
  | .bound v t, h => by simp [Val.unbound] at h
theorem stdio_bounds (Γ : Classes) (ts : List TraitsOf) : ∀ vs : Vals, vs.unbound = true → stdioBounds Γ ts vs = stdios (Γ.withTraits ts) vs
  | .nil, _ => by simp [stdioBounds, stdios]
  | .cons v vs, h => by
    simp only [Vals.unbound, Bool.and_eq_true] at h
    simp only [stdioBounds, stdios, stdio_bound Γ ts v h.1, stdio_bounds Γ ts vs h.2]
end

/-! ## JSON -/

theorem digits_noMinus {n : Nat} {r : List Char} (h : Nat.toDigits 10 n = '-' :: r) : False := by
  have := decimal_digits n
  rw [h] at this
  simp [digits] at this

theorem decimalOf_number (n : Int) : isNumber (decimalOf n) = true := by
  unfold decimalOf
  have h := decimal_number n.natAbs
  split
  · have h2 : isNumber (Nat.toDigits 10 n.natAbs) = isUnsigned (Nat.toDigits 10 n.natAbs) := by
      unfold isNumber
      split
      · rename_i r e
        exact (digits_noMinus e).elim
      · rfl
    rw [h2] at h
    simpa [isNumber] using h
  · exact h

theorem signed_eq (n : Int) : ConsoleLog.signed n = decimalOf n := rfl

theorem putInt_eq {k : Num} (h : k.isInteger = true) (n : Int) : putInt k n = decimalOf n := by
  cases k <;> first | rfl | (simp [Num.isInteger] at h)

theorem json_number {t : List Char} (h : isNumber t = true) : json (.plain t) = .num t := by
  simp only [json]
  split
  · rename_i e; subst e; exact absurd h (by decide)
  · split
    · rename_i e; subst e; exact absurd h (by decide)
    · rfl

theorem describes_cons {e : List Char × Nat} {es : List (List Char × Nat)} {vs : List Val} {mvs : List (List Char × Val)}
    (h : Describes (e :: es) vs mvs) : ∃ v r, mvs = (e.1, v) :: r ∧ vs[e.2]? = some v ∧ Describes es vs r := by
  unfold Describes at h
  cases mvs with
  | nil => simp at h
  | cons m r =>
    simp only [List.map_cons, List.cons.injEq, Prod.mk.injEq] at h
    exact ⟨m.2, r, by rw [h.1.1], h.1.2, h.2⟩

theorem says_members (Γ : Classes) (vs : List Val) : ∀ (es : List (List Char × Nat)) (mvs : List (List Char × Val)) (ms : List (List Char × J)),
    Describes es vs mvs → (List.Forall₂ (fun (m : List Char × Val) (p : List Char × J) => m.1 = p.1 ∧ Unescaped m.1 ∧ Loggable (resolve Γ m.2) ∧ json (resolve Γ m.2) = p.2) mvs ms) →
    MembersLoggable (membersOf (vs.map (resolve Γ)) es) ∧ jsonMembers (membersOf (vs.map (resolve Γ)) es) = ms
  | [], mvs, ms, h, hm => by
    have : mvs = [] := by cases mvs with | nil => rfl | cons m r => simp [Describes] at h
    subst this
    cases hm
    simp [membersOf, MembersLoggable, jsonMembers]
  | e :: es, mvs, ms, h, hm => by
    obtain ⟨v, r, rfl, hv, hr⟩ := describes_cons h
    cases hm with
    | cons h1 h2 =>
      rename_i p ps
      obtain ⟨q1, q2, q3, q4⟩ := h1
      obtain ⟨i1, i2⟩ := says_members Γ vs es r ps hr h2
      simp only [membersOf, List.getElem?_map, hv, Option.map_some, Option.getD_some, MembersLoggable, jsonMembers, i2]
      refine ⟨⟨q2, q3, i1⟩, ?_⟩
      rw [q4]
      cases p
      simp_all

mutual
theorem says_resolve (Γ : Classes) {v : Val} {j : J} (h : Says Γ v j) : Loggable (resolve Γ v) ∧ json (resolve Γ v) = j := by
  match h with
  | .bool b => cases b <;> simp [resolve, select_bool, plainBy, Loggable, json]
  | .int hk n =>
    simp only [resolve, select_number, plainBy, putInt_eq hk]
    exact ⟨by simp only [Loggable]; exact .inl (decimalOf_number n), json_number (decimalOf_number n)⟩
  | .float k ht =>
    simp only [resolve, select_number, plainBy]
    exact ⟨by simp only [Loggable]; exact .inl ht, json_number ht⟩
  | .string hs => simp only [resolve, select_string, textBy, Loggable, json]; exact ⟨hs, trivial⟩
  | .cstr hs => simp only [resolve, select_cstr, textBy, Loggable, json]; exact ⟨hs, trivial⟩
  | .char hs => simp only [resolve, select_char, textBy, Loggable, json]; exact ⟨hs, trivial⟩
  | .pairString hs hb =>
    obtain ⟨h1, h2⟩ := says_resolve Γ hb
    simp only [resolve, select_string, textBy, Loggable, json, h2]; exact ⟨⟨hs, h1⟩, trivial⟩
  | .pairCstr hs hb =>
    obtain ⟨h1, h2⟩ := says_resolve Γ hb
    simp only [resolve, select_cstr, textBy, Loggable, json, h2]; exact ⟨⟨hs, h1⟩, trivial⟩
  | .pairChar hs hb =>
    obtain ⟨h1, h2⟩ := says_resolve Γ hb
    simp only [resolve, select_char, textBy, Loggable, json, h2]; exact ⟨⟨hs, h1⟩, trivial⟩
  | .tuple hs =>
    obtain ⟨h1, h2⟩ := says_resolves Γ hs
    simp only [resolve, Loggable, json, h2]; exact ⟨h1, trivial⟩
  | .iter k1 k2 hs .. =>
    obtain ⟨h1, h2⟩ := says_resolves Γ hs
    simp only [resolve, select_eq, k1, k2, objectBy, Bool.false_eq_true, if_false, if_true, Loggable, json, h2]; exact ⟨h1, trivial⟩
  | .index k1 k2 k3 hs .. =>
    obtain ⟨h1, h2⟩ := says_resolves Γ hs
    simp only [resolve, select_eq, k1, k2, k3, objectBy, Bool.false_eq_true, if_false, if_true, Loggable, json, h2]; exact ⟨h1, trivial⟩
  | .members k1 k2 k3 k4 k5 hs .. =>
    obtain ⟨h1, h2⟩ := says_members Γ _ _ _ _ k5 (says_named Γ hs)
    simp only [resolve, select_eq, k1, k2, k3, hasDefault, k4, Option.isSome_some, objectBy, Bool.false_eq_true, if_false, if_true, Loggable,
      json, Option.getD_some, resolves_list, h2]
    exact ⟨h1, trivial⟩
theorem says_resolves (Γ : Classes) {vs : Vals} {js : List J} (h : SaysAll Γ vs js) : AllLoggable (resolves Γ vs) ∧ jsons (resolves Γ vs) = js := by
  match h with
  | .nil => simp [resolves, AllLoggable, jsons]
  | .cons h1 hs =>
    obtain ⟨a1, a2⟩ := says_resolve Γ h1
    obtain ⟨b1, b2⟩ := says_resolves Γ hs
    simp only [resolves, AllLoggable, jsons, a2, b2]
    exact ⟨⟨a1, b1⟩, trivial⟩
theorem says_named (Γ : Classes) {mvs : List (List Char × Val)} {ms : List (List Char × J)} (h : SaysNamed Γ mvs ms) :
    List.Forall₂ (fun (m : List Char × Val) (p : List Char × J) => m.1 = p.1 ∧ Unescaped m.1 ∧ Loggable (resolve Γ m.2) ∧ json (resolve Γ m.2) = p.2) mvs ms := by
  match h with
  | .nil => exact .nil
  | .cons hn h1 hs => exact .cons ⟨rfl, hn, says_resolve Γ h1⟩ (says_named Γ hs)
end

/-! ## printf -/

theorem commas_eq (ts : List (List Char)) : commas ts = commaSep ts := by
  match ts with
  | [] => rfl
  | [t] => simp [commas, commaSep, List.intercalate]
  | t :: u :: r =>
    rw [commas, commas_eq (u :: r), commaSep_cons t, commaSep_cons u]
    simp

theorem allSome_map {α β : Type} (f : α → β) : ∀ l : List α, allSome (l.map fun a => some (f a)) = some (l.map f)
  | [] => rfl
  | a :: l => by simp [allSome, allSome_map f l]

theorem same_number {k : Num} (h : k.sameStdio = true) (n : Int) : numberStdio k n = some (putInt k n) := by
  cases k <;> first | rfl | (simp [Num.sameStdio] at h)

mutual
theorem same_stdio (Γ : Classes) : ∀ v : Val, v.sameStdio Γ → stdio Γ v = some (print (resolve Γ v))
  | .bool b, _ => by simp [stdio, resolve, select_bool, plainBy, print]
  | .int k n, h => by
    simp only [Val.sameStdio] at h
    simp only [stdio, resolve, select_number, plainBy, print, same_number h]
  | .float k t, _ => by simp [stdio, resolve, select_number, plainBy, print]
  | .string s, _ => by simp [stdio, resolve, select_string, textBy, textStdio, print, printText]
  | .cstr s, _ => by simp [stdio, resolve, select_cstr, textBy, textStdio, print, printText]
  | .char c, _ => by simp [stdio, resolve, select_char, textBy, textStdio, print, printText]
  | .charArray s, h => by simp [Val.sameStdio] at h
  | .pair a b, h => by
    simp only [Val.sameStdio] at h
    simp [stdio, resolve, same_stdio Γ a h.1, same_stdio Γ b h.2, print]
  | .tuple vs, h => by
    simp only [Val.sameStdio] at h
    simp only [stdio, resolve, same_stdios Γ vs h, allSome_map, Option.map_some, print, printElems_eq, resolves_list, commas_eq, List.map_map]
    rfl
  | .obj c it ix at_ cu cc pu by_, h => by
    simp only [Val.sameStdio] at h
    obtain ⟨h1, h2, h3, h4, h5, h6⟩ := h
    simp only [stdio, resolve, same_stdios Γ it h3, same_stdios Γ ix h4, same_stdios Γ at_ h5, select_eq]
    by_cases a1 : (Γ c).printToStream = true
    · simp [a1, objectStdio, objectBy, h1 a1, print]
    · by_cases a2 : (Γ c).iterable = true
      · rw [if_neg a1, if_pos a2]
        simp only [objectStdio, objectBy, allSome_map, print, printElems_eq, resolves_list, commas_eq, List.map_map]
        rfl
      · by_cases a3 : (Γ c).indexable = true
        · rw [if_neg a1, if_neg a2, if_pos a3]
          simp only [objectStdio, objectBy, allSome_map, print, printElems_eq, resolves_list, commas_eq, List.map_map]
          rfl
        · have a4 : (Γ c).ioTraits.isSome = true := by simpa [a1, a2, a3] using h2
          have key : (((Γ c).ioTraits.getD []).map (memberStdio (at_.toList.map fun a => some (print (resolve Γ a))))) =
              ((Γ c).ioTraits.getD []).map fun e => some (named e.1 (print ((at_.toList.map (resolve Γ))[e.2]?.getD (.plain [])))) := by
            refine List.map_congr_left ?_
            intro e he
            have hlt := h6 e he
            simp only [memberStdio, List.getElem?_map, List.getElem?_eq_getElem hlt, Option.map_some, Option.getD_some, named, namedLit]
            simp
          rw [if_neg a1, if_neg a2, if_neg a3, hasDefault, if_pos a4]
          simp only [objectStdio, objectBy, key, allSome_map, print, printMembers_eq, resolves_list, commas_eq]
          rfl
  | .bound v t, h => by simp [Val.sameStdio] at h
theorem same_stdios (Γ : Classes) : ∀ vs : Vals, vs.sameStdio Γ → stdios Γ vs = vs.toList.map fun v => some (print (resolve Γ v))
  | .nil, _ => by simp [stdios, Vals.toList]
  | .cons v vs, h => by
    simp only [Vals.sameStdio] at h
    simp only [stdios, Vals.toList, List.map_cons, same_stdio Γ v h.1, same_stdios Γ vs h.2]
end

end GTMesh.Export
