import Verif.Proofs.BoundSerializer

/-! # C64: traits choose what is serialized -/

namespace GTMesh.BSer

open Ser (Bytes)

/-- A program for the examples: class 0 has a number, a container of bytes and an object of class 1, which has two bytes. -/
def demo : Classes
  | 0 => some [2, 0]
  | 1 => some [1]
  | _ => none

/-- The first byte decides. -/
def demoLess : BVal → BVal → Bool
  | .simple (a :: _), .simple (b :: _) => decide (a < b)
  | .obj _ (.cons (.simple (a :: _)) _), .obj _ (.cons (.simple (b :: _)) _) => decide (a < b)
  | _, _ => false

/-- Its types. -/
def demoTypes : Types where
  attrs := fun
    | 0 => .cons (.simple 2) (.cons (.vec (.simple 1)) (.cons (.cls 1) .nil))
    | 1 => .cons (.simple 1) (.cons (.simple 1) .nil)
    | _ => .nil
  dflt := fun
    | .simple 1 => .simple [0]
    | .cls 1 => .obj 1 (.cons (.simple [0]) (.cons (.simple [0]) .nil))
    | _ => .simple []
  less := demoLess

/-- An object of class 1. -/
def demoIn (a b : UInt8) : BVal := .obj 1 (.cons (.simple [a]) (.cons (.simple [b]) .nil))

/-- An object of class 0. -/
def demoObj (a b c d e : UInt8) : BVal :=
  .obj 0 (.cons (.simple [a, b]) (.cons (.vec (.simple [0]) (.cons (.simple [c]) .nil)) (.cons (demoIn d e) .nil)))

theorem demo_has (a b c d e : UInt8) : (demoObj a b c d e).has demoTypes (.cls 0) := by
  simp [demoObj, demoIn, BVal.has, BVals.has, BVals.all, demoTypes, BVals.toList]

/-- A value is read back: into a variable of the same type everything that the traits describe is read, all else stays, and the bytes
behind the value are not touched. -/
theorem C64_roundtrip (Γ : Classes) (A : Types) (t : Ty) (v old : BVal) (hv : v.has A t) (ho : old.has A t) (b : Bytes)
    (hb : ser Γ v = some b) : ∃ r, deser Γ A.less old = some r ∧ ∀ rest, r (b ++ rest) = .ok (restored Γ A.less v old, rest) := by
  rcases fits Γ A v t old hv ho with ⟨h, _⟩ | ⟨b', r, h1, h2, h3⟩
  · rw [hb] at h; cases h
  · rw [hb] at h1; cases h1
    exact ⟨r, h2, h3⟩

example : ser demo (demoObj 1 2 3 4 5) = some [5, 1, 2] := by decide +kernel
example : (restored demo demoLess (demoObj 1 2 3 4 5) (demoObj 11 12 13 14 15)) = demoObj 1 2 13 14 5 := by rfl

/-- What can be written can be read, and the other way round. -/
theorem C64_compiles (Γ : Classes) (A : Types) (t : Ty) (v old : BVal) (hv : v.has A t) (ho : old.has A t) :
    (ser Γ v).isSome = (deser Γ A.less old).isSome := by
  rcases fits Γ A v t old hv ho with ⟨h1, h2⟩ | ⟨b', r, h1, h2, h3⟩ <;> simp [h1, h2]

example : (ser (fun _ => none) (demoObj 1 2 3 4 5)).isSome = false := by decide +kernel

/-- If all classes of the value have traits which describe all their attributes and the sets and maps of the variable are empty, it gets the
value. -/
theorem C64_full (Γ : Classes) (A : Types) (t : Ty) (v old : BVal) (hv : v.has A t) (ho : old.has A t) (hf : v.full Γ)
    (hn : old.noSets) (b : Bytes)
    (hb : ser Γ v = some b) : ∃ r, deser Γ A.less old = some r ∧ ∀ rest, r (b ++ rest) = .ok (v, rest) := by
  have := C64_roundtrip Γ A t v old hv ho b hb
  rwa [restored_full Γ A v t old hv ho hf hn] at this

example : (demoObj 1 2 3 4 5).full (fun | 0 => some [2, 0, 1] | _ => some [0, 1]) ∧
    ser (fun | 0 => some [2, 0, 1] | _ => some [0, 1]) (demoObj 1 2 3 4 5) = some [4, 5, 1, 2, 1, 0, 0, 0, 0, 0, 0, 0, 3] := by
  refine ⟨?_, by decide +kernel⟩
  simp only [demoObj, demoIn, BVal.full, BVals.full, BVals.toList]
  refine ⟨⟨trivial, ⟨trivial, trivial, trivial⟩, ⟨⟨trivial, trivial, trivial⟩, ?_⟩, trivial⟩, ?_⟩
  · intro i hi; simp at hi; simp; omega
  · intro i hi; simp at hi; simp; omega

/-- The bytes of an object with bound traits: the described attributes, in the order of the first bound traits for its class. -/
theorem C64_bound_bytes (Γ : Classes) (c : Nat) (as : BVals) (ts : List TraitsOf) (es : List Nat) (hu : used Γ ts c = some es)
    (bs : List Bytes) (h : List.Forall₂ (fun (e : Nat) b => ∃ x, as.toList[e]? = some x ∧ ser Γ x = some b) es bs) :
    ser Γ (.bound (.obj c as) ts) = some bs.flatten := by
  have key : allSome (es.map fun e => ((sers Γ as)[e]?).join) = some bs := by
    have : (es.map fun e => ((sers Γ as)[e]?).join) = bs.map some := by
      rw [sers_map]
      clear hu
      induction h with
      | nil => rfl
      | cons h1 _ ih =>
        obtain ⟨x, hx, hb⟩ := h1
        rw [List.map_cons, ih, List.map_cons, List.getElem?_map, hx]
        simp [hb]
    rw [this, allSome_map_some]
  simp only [ser, select_binder, Option.bind_some, serBound, select_bcls, traitsFor_used, hu, Option.isSome_some, if_true, attrBytes, key]
  rfl

example : used demo [⟨1, [0]⟩, ⟨0, [1, 2]⟩, ⟨0, []⟩] 0 = some [1, 2] ∧
    ser demo (.bound (demoObj 1 2 3 4 5) [⟨1, [0]⟩, ⟨0, [1, 2]⟩, ⟨0, []⟩]) = some [1, 0, 0, 0, 0, 0, 0, 0, 3, 5] := by decide +kernel

/-- An object is written and read with bound traits: the attributes that the traits describe get the written values (if the default traits
of their classes describe everything and their sets and maps are empty before), the others are left as they are. -/
theorem C64_bound (Γ : Classes) (A : Types) (c : Nat) (as os : BVals) (hv : as.has A (A.attrs c)) (ho : os.has A (A.attrs c))
    (ts : List TraitsOf) (es : List Nat) (hu : used Γ ts c = some es) (hf : ∀ e ∈ es, ∀ x, as.toList[e]? = some x → x.full Γ)
    (hn : ∀ e ∈ es, ∀ x, os.toList[e]? = some x → x.noSets) (b : Bytes)
    (hb : ser Γ (.bound (.obj c as) ts) = some b) :
    ∃ r new, deser Γ A.less (.bound (.obj c os) ts) = some r ∧ (∀ rest, r (b ++ rest) = .ok (.bound (.obj c new) ts, rest)) ∧
      new.toList.length = os.toList.length ∧ (∀ e ∈ es, new.toList[e]? = as.toList[e]?) ∧ (∀ i, i ∉ es → new.toList[i]? = os.toList[i]?) := by
  obtain ⟨r, h1, h2⟩ := C64_roundtrip Γ A (.bound (.cls c) ts) (.bound (.obj c as) ts) (.bound (.obj c os) ts)
    (by simpa [BVal.has] using hv) (by simpa [BVal.has] using ho) b hb
  have hp := has_pairs hv ho
  simp only [restored, restoredBound, hu, Option.getD_some, restoreds_zip] at h2
  refine ⟨r, _, h1, h2, ?_, ?_, ?_⟩
  · simp [ofList_toList, overwrite]
  · intro e he
    rw [ofList_toList, overwrite_get]
    by_cases hi : e < as.toList.length
    · have hi' : e < os.toList.length := by have := hp.length_eq; omega
      obtain ⟨t, ha, hb'⟩ := (List.forall₂_iff_get.mp hp).2 e hi hi'
      simp only [List.get_eq_getElem] at ha hb'
      have := restored_full Γ A _ t _ ha hb' (hf e he _ (List.getElem?_eq_getElem hi)) (hn e he _ (List.getElem?_eq_getElem hi'))
      simp [List.getElem?_eq_getElem hi', he, List.getElem?_eq_getElem hi, List.getElem?_zipWith, this]
    · have hi' : ¬ e < os.toList.length := by have := hp.length_eq; omega
      simp [List.getElem?_eq_none (l := os.toList) (i := e) (by omega), List.getElem?_eq_none (l := as.toList) (i := e) (by omega)]
  · intro i hi
    rw [ofList_toList, overwrite_get]
    cases os.toList[i]? <;> simp [hi]

example : restored demo demoLess (.bound (demoObj 1 2 3 4 5) [⟨0, [1]⟩]) (.bound (demoObj 11 12 13 14 15) [⟨0, [1]⟩]) =
    .bound (demoObj 11 12 3 14 15) [⟨0, [1]⟩] := by rfl

/-- Traits bound to a vector or an array count for each of its elements. -/
theorem C64_bound_elements (Γ : Classes) (d : BVal) (vs : BVals) (ts : List TraitsOf) (b0 : Bytes) (hd : ser Γ (.bound d ts) = some b0)
    (bs : List Bytes) (h : List.Forall₂ (fun v b => ser Γ (.bound v ts) = some b) vs.toList bs) :
    ser Γ (.bound (.vec d vs) ts) = some (Ser.sizeBytes vs.toList.length ++ bs.flatten) ∧
    ser Γ (.bound (.arr d vs) ts) = some (Ser.sizeBytes vs.toList.length ++ bs.flatten) := by
  have hsel : select (handlesBound Γ ts (BVal.shape (.vec d vs))) = some .indexable := by
    rcases shape_vec d vs with h | h <;> rw [h]
    · exact select_bcompactVec Γ ts
    · exact select_bvec Γ ts
  have hall : allSome (serBounds Γ ts vs) = some bs := by
    rw [serBounds_map]
    have : vs.toList.map (serBound Γ ts) = bs.map some := by
      generalize vs.toList = l at h
      induction h with
      | nil => rfl
      | cons h1 _ ih =>
        simp only [ser, select_binder, Option.bind_some] at h1
        rw [List.map_cons, List.map_cons, ih, h1]
    rw [this, allSome_map_some]
  simp only [ser, select_binder, Option.bind_some] at hd
  simp only [ser, select_binder, Option.bind_some, serBound, hsel, select_barr, vecBytes, hd, hall, Option.map_some]
  rw [h.length_eq]
  exact ⟨rfl, rfl⟩

example : ser demo (.bound (.vec (demoIn 0 0) (.cons (demoIn 1 2) (.cons (demoIn 3 4) .nil))) [⟨1, [0]⟩]) =
    some [2, 0, 0, 0, 0, 0, 0, 0, 1, 3] := by decide +kernel

/-- A program with an array of objects, a set of objects and a map from bytes to vectors of bytes. -/
def demo2 : BVal := .tuple (.cons (.arr (demoIn 0 0) (.cons (demoIn 9 8) (.cons (demoIn 7 6) .nil)))
  (.cons (.assoc false (demoIn 0 0) (.cons (demoIn 1 2) (.cons (demoIn 3 4) .nil)))
    (.cons (.assoc true (.pair (.simple [0]) (.vec (.simple [0]) .nil)) (.cons (.pair (.simple [5]) (.vec (.simple [0]) (.cons (.simple [6]) .nil))) .nil))
      .nil)))

/-- Its types. -/
def demo2Types : Types where
  attrs := fun _ => .cons (.simple 1) (.cons (.simple 1) .nil)
  dflt := fun
    | .simple 1 => .simple [0]
    | .cls 1 => demoIn 0 0
    | .vec _ => .vec (.simple [0]) .nil
    | _ => .simple []
  less := demoLess

/-- Its type. -/
def demo2Ty : Ty := .tuple (.cons (.arr 2 (.cls 1)) (.cons (.set (.cls 1)) (.cons (.map (.simple 1) (.vec (.simple 1))) .nil)))

/-- The variable before reading: the array has other objects, the set and the map are empty. -/
def demo2Old : BVal := .tuple (.cons (.arr (demoIn 0 0) (.cons (demoIn 19 18) (.cons (demoIn 17 16) .nil)))
  (.cons (.assoc false (demoIn 0 0) .nil) (.cons (.assoc true (.pair (.simple [0]) (.vec (.simple [0]) .nil)) .nil) .nil)))

example : demo2.has demo2Types demo2Ty ∧ demo2Old.has demo2Types demo2Ty ∧ demo2Old.noSets ∧
    ser (fun _ => some [0, 1]) demo2 = some ([2, 0, 0, 0, 0, 0, 0, 0, 9, 8, 7, 6] ++ [2, 0, 0, 0, 0, 0, 0, 0, 1, 2, 3, 4] ++
      [1, 0, 0, 0, 0, 0, 0, 0, 5, 1, 0, 0, 0, 0, 0, 0, 0, 6]) := by
  refine ⟨?_, ?_, ?_, by decide +kernel⟩
  · simp [demo2, demo2Ty, demo2Types, demoIn, BVal.has, BVals.has, BVals.all, BVals.toList, Sorted, before, demoLess]
  · simp [demo2Old, demo2Ty, demo2Types, demoIn, BVal.has, BVals.has, BVals.all, BVals.toList, Sorted]
  · simp [demo2Old, demoIn, BVal.noSets, BVals.noSets, BVals.toList]

/-- Violated: the elements that a set or map has before it is read are there afterwards too. -/
theorem C64_set_keeps_violated (Γ : Classes) (A : Types) (t : Ty) (m : Bool) (d d' : BVal) (vs os : BVals) (hv : (BVal.assoc m d vs).has A t)
    (ho : (BVal.assoc m d' os).has A t) (b : Bytes) (hb : ser Γ (.assoc m d vs) = some b) :
    ∃ r new, deser Γ A.less (.assoc m d' os) = some r ∧ (∀ rest, r (b ++ rest) = .ok (.assoc m d' new, rest)) ∧
      ∀ x ∈ os.toList, x ∈ new.toList := by
  obtain ⟨r, h1, h2⟩ := C64_roundtrip Γ A t _ _ hv ho b hb
  refine ⟨r, _, h1, h2, ?_⟩
  rw [ofList_toList]
  have ins : ∀ (y x : BVal) (l : List BVal), x ∈ l → x ∈ Ser.insertBy (before A.less m) y l := by
    intro y x l
    induction l with
    | nil => simp
    | cons z l ih =>
      intro hx
      simp only [Ser.insertBy]
      split
      · exact List.mem_cons_of_mem _ hx
      · split
        · rcases List.mem_cons.mp hx with rfl | hx
          · exact List.mem_cons_self
          · exact List.mem_cons_of_mem _ (ih hx)
        · exact hx
  intro x
  generalize restoreds Γ A.less vs (List.replicate vs.toList.length d') = l
  generalize os.toList = o
  induction l generalizing o with
  | nil => exact id
  | cons y l ih => intro hx; exact ih _ (ins y x o hx)

example : restored (fun _ => some [0, 1]) demoLess (.assoc false (demoIn 0 0) (.cons (demoIn 1 2) (.cons (demoIn 3 4) .nil)))
    (.assoc false (demoIn 0 0) (.cons (demoIn 2 7) (.cons (demoIn 3 8) .nil))) =
    .assoc false (demoIn 0 0) (.cons (demoIn 1 2) (.cons (demoIn 2 7) (.cons (demoIn 3 8) .nil))) := by rfl

/-- An array with fewer elements than the written ones: memory behind it is written. -/
theorem C64_array_size_violated (Γ : Classes) (A : Types) (d d' : BVal) (vs os : BVals) (hs : os.toList.length < vs.toList.length)
    (hl : vs.toList.length < 2 ^ 64) (b : Bytes) (hb : ser Γ (.arr d vs) = some b) (r : Reader) (hr : deser Γ A.less (.arr d' os) = some r)
    (rest : Bytes) : r (b ++ rest) = .ub := by
  obtain ⟨x, hx⟩ := select_arr Γ d vs
  obtain ⟨y, hy⟩ := select_rarr Γ d' os
  simp only [ser, hx, Option.bind_some, vecBytes, Option.bind_eq_some_iff, Option.map_eq_some_iff] at hb
  obtain ⟨_, _, bs, hbs, rfl⟩ := hb
  simp only [deser, hy, Option.bind_some, Option.bind_eq_some_iff, Option.map_eq_some_iff] at hr
  obtain ⟨_, _, rs, hrs, rfl⟩ := hr
  have h1 : bs.length = vs.toList.length := by
    have := congrArg List.length (allSome_get hbs)
    simpa [sers_map] using this.symm
  have h2 : rs.length = os.toList.length := by
    have := congrArg List.length (allSome_get hrs)
    simpa [desers_map] using this.symm
  unfold readArr
  rw [List.append_assoc, Ser.readSize_sizeBytes _ (by omega)]
  have : ¬ bs.length ≤ rs.length := by omega
  simp [this]

example : ser demo (.arr (.simple [0]) (.cons (.simple [5]) (.cons (.simple [6]) .nil))) = some [2, 0, 0, 0, 0, 0, 0, 0, 5, 6] ∧
    (deser demo demoLess (.arr (.simple [0]) (.cons (.simple [1]) .nil))).isSome = true := by decide +kernel

/-- Violated: a set or map with bound traits cannot be serialized. -/
theorem C64_bound_set_violated (Γ : Classes) (A : Types) (m : Bool) (d : BVal) (vs : BVals) (ts : List TraitsOf) :
    ser Γ (.bound (.assoc m d vs) ts) = none ∧ deser Γ A.less (.bound (.assoc m d vs) ts) = none := by
  simp [ser, deser, serBound, deserBound, select_binder, select_rbinder, select_bassoc, selectRead_bound]

/-- Violated: traits that are bound for the classes of attributes are not used (when printing they are); only the first traits for the
class of the object count. -/
theorem C64_secondary_violated (Γ : Classes) (c : Nat) (as : BVals) (t : TraitsOf) (ht : t.cls = c) (us : List TraitsOf) :
    ser Γ (.bound (.obj c as) (t :: us)) = ser Γ (.bound (.obj c as) [t]) := by
  simp [ser, serBound, select_bcls, traitsFor_used, used, ht]

example : ser demo (.bound (demoObj 1 2 3 4 5) [⟨0, [2]⟩, ⟨1, [0]⟩]) = some [5] ∧
    ser (fun | 0 => some [2] | _ => none) (.bound (demoObj 1 2 3 4 5) [⟨0, [2]⟩, ⟨1, [0]⟩]) = none := by decide +kernel

/-- Violated: traits bound to a pair or a tuple are not used at all. -/
theorem C64_pair_violated (Γ : Classes) (a b : BVal) (vs : BVals) (ts : List TraitsOf) :
    ser Γ (.bound (.pair a b) ts) = ser Γ (.pair a b) ∧ ser Γ (.bound (.tuple vs) ts) = ser Γ (.tuple vs) := by
  simp [ser, serBound, select_binder, select_pair, select_tuple, select_bpair, select_btuple]

/-- Violated: a container of simple values, or of traits binders, with bound traits cannot be serialized. -/
theorem C64_simple_container_violated (Γ : Classes) (b : Bytes) (v : BVal) (us : List TraitsOf) (vs : BVals) (ts : List TraitsOf) :
    ser Γ (.bound (.vec (.simple b) vs) ts) = none ∧ ser Γ (.bound (.bound v us) ts) = none := by
  simp [ser, serBound, select_binder, vecBytes, select_bsimple]

end GTMesh.BSer
