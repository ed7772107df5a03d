import Verif.Spec.BoundSerializer
import Verif.Proofs.Serializer
import Mathlib.Data.List.Forall2

/-! # Serialization of classes with traits: proofs -/

namespace GTMesh.BSer

open Ser (Bytes sizeBytes readBytes readSize)

theorem before_eq (lt : BVal → BVal → Bool) (m : Bool) : before lt m = keyLess lt m := by
  funext x y
  cases m <;> cases x <;> cases y <;> rfl

theorem sorted_iff {lt : BVal → BVal → Bool} {m : Bool} {l : List BVal} : Sorted lt m l ↔ l.Pairwise fun a b => keyLess lt m a b = true ∧ keyLess lt m b a = false := by
  rw [Sorted, before_eq]

/-- Both do not compile, or what is written is read. -/
def Fits (s : Option Bytes) (r : Option Reader) (v : BVal) : Prop :=
  (s = none ∧ r = none) ∨ ∃ b f, s = some b ∧ r = some f ∧ ∀ rest, f (b ++ rest) = .ok (v, rest)

theorem ofList_toList : ∀ l : List BVal, (BVals.ofList l).toList = l
  | [] => rfl
  | v :: l => by simp [BVals.ofList, BVals.toList, ofList_toList l]

theorem toList_ofList : ∀ l : BVals, BVals.ofList l.toList = l
  | .nil => rfl
  | .cons v l => by simp [BVals.ofList, BVals.toList, toList_ofList l]

theorem sers_map (Γ : Classes) : ∀ vs : BVals, sers Γ vs = vs.toList.map (ser Γ)
  | .nil => by simp [sers, BVals.toList]
  | .cons v vs => by simp [sers, BVals.toList, sers_map Γ vs]

theorem serBounds_map (Γ : Classes) (ts : List TraitsOf) : ∀ vs : BVals, serBounds Γ ts vs = vs.toList.map (serBound Γ ts)
  | .nil => by simp [serBounds, BVals.toList]
  | .cons v vs => by simp [serBounds, BVals.toList, serBounds_map Γ ts vs]

theorem desers_map (Γ : Classes) (lt : BVal → BVal → Bool) : ∀ vs : BVals, desers Γ lt vs = vs.toList.map (deser Γ lt)
  | .nil => by simp [desers, BVals.toList]
  | .cons v vs => by simp [desers, BVals.toList, desers_map Γ lt vs]

theorem deserBounds_map (Γ : Classes) (lt : BVal → BVal → Bool) (ts : List TraitsOf) : ∀ vs : BVals, deserBounds Γ lt ts vs = vs.toList.map (deserBound Γ lt ts)
  | .nil => by simp [deserBounds, BVals.toList]
  | .cons v vs => by simp [deserBounds, BVals.toList, deserBounds_map Γ lt ts vs]

theorem restoreds_zip (Γ : Classes) (lt : BVal → BVal → Bool) : ∀ (vs : BVals) (os : List BVal), restoreds Γ lt vs os = List.zipWith (restored Γ lt) vs.toList os
  | .nil, os => by simp [restoreds, BVals.toList]
  | .cons v vs, [] => by simp [restoreds]
  | .cons v vs, o :: os => by simp [restoreds, BVals.toList, restoreds_zip Γ lt vs os]

theorem restoredBounds_zip (Γ : Classes) (lt : BVal → BVal → Bool) (ts : List TraitsOf) :
    ∀ (vs : BVals) (os : List BVal), restoredBounds Γ lt ts vs os = List.zipWith (restoredBound Γ lt ts) vs.toList os
  | .nil, os => by simp [restoredBounds, BVals.toList]
  | .cons v vs, [] => by simp [restoredBounds]
  | .cons v vs, o :: os => by simp [restoredBounds, BVals.toList, restoredBounds_zip Γ lt ts vs os]

theorem has_all {A : Types} {t : Ty} : ∀ {vs : BVals}, vs.all A t → ∀ v ∈ vs.toList, v.has A t
  | .nil, _, v, hv => by simp [BVals.toList] at hv
  | .cons w vs, h, v, hv => by
    simp only [BVals.all] at h
    simp only [BVals.toList, List.mem_cons] at hv
    rcases hv with rfl | hv
    · exact h.1
    · exact has_all h.2 v hv

theorem has_pairs {A : Types} : ∀ {vs os : BVals} {ts : Tys}, vs.has A ts → os.has A ts →
    List.Forall₂ (fun v o => ∃ t, BVal.has A v t ∧ BVal.has A o t) vs.toList os.toList
  | .nil, .nil, ts, _, _ => by simp [BVals.toList]
  | .nil, .cons o os, .nil, _, h => by simp [BVals.has] at h
  | .nil, .cons o os, .cons t ts, h, _ => by simp [BVals.has] at h
  | .cons v vs, .nil, .nil, h, _ => by simp [BVals.has] at h
  | .cons v vs, .nil, .cons t ts, _, h => by simp [BVals.has] at h
  | .cons v vs, .cons o os, .nil, h, _ => by simp [BVals.has] at h
  | .cons v vs, .cons o os, .cons t ts, h, h' => by
    simp only [BVals.has] at h h'
    simp only [BVals.toList]
    exact .cons ⟨t, h.1, h'.1⟩ (has_pairs h.2 h'.2)

/-- Values that are written and read one after the other. -/
theorem fits_list {s : BVal → Option Bytes} {r : BVal → Option Reader} {m : BVal → BVal → BVal} {xs ys : List BVal}
    (h : List.Forall₂ (fun x y => Fits (s x) (r y) (m x y)) xs ys) :
    (allSome (xs.map s) = none ∧ allSome (ys.map r) = none) ∨
    ∃ bs fs, allSome (xs.map s) = some bs ∧ allSome (ys.map r) = some fs ∧ bs.length = xs.length ∧
      ∀ rest, readList fs (bs.flatten ++ rest) = .ok (List.zipWith m xs ys, rest) := by
  induction h with
  | nil => right; exact ⟨[], [], rfl, rfl, rfl, fun rest => rfl⟩
  | cons h1 _ ih =>
    rcases h1 with ⟨a, b⟩ | ⟨b, f, hb, hf, hr⟩
    · left; simp [allSome, a, b]
    · rcases ih with ⟨c, d⟩ | ⟨bs, fs, hbs, hfs, hl, hrs⟩
      · left; simp [allSome, hb, hf, c, d]
      · right
        refine ⟨b :: bs, f :: fs, by simp [allSome, hb, hbs], by simp [allSome, hf, hfs], by simp [hl], fun rest => ?_⟩
        simp only [List.flatten_cons, List.append_assoc, readList, hr, Res.bind, hrs, List.zipWith_cons_cons]

theorem allSome_some {α : Type} {l : List (Option α)} (h : ∀ x ∈ l, x ≠ none) : ∃ r, allSome l = some r := by
  induction l with
  | nil => exact ⟨[], rfl⟩
  | cons a l ih =>
    obtain ⟨r, hr⟩ := ih fun x hx => h x (List.mem_cons_of_mem _ hx)
    cases ha : a with
    | none => exact absurd ha (h a List.mem_cons_self)
    | some b => exact ⟨b :: r, by simp [allSome, hr]⟩

theorem allSome_get {α : Type} : ∀ {l : List (Option α)} {r : List α}, allSome l = some r → l = r.map some
  | [], r, h => by simp [allSome] at h; simp [h]
  | none :: l, r, h => by simp [allSome] at h
  | some a :: l, r, h => by
    simp only [allSome, Option.map_eq_some_iff] at h
    obtain ⟨r', h1, h2⟩ := h
    rw [allSome_get h1, ← h2]; rfl

theorem allSome_map_some {α : Type} : ∀ (r : List α), allSome (r.map some) = some r
  | [] => rfl
  | a :: r => by simp [allSome, allSome_map_some r]

theorem allSome_none {α : Type} {l : List (Option α)} (h : none ∈ l) : allSome l = none := by
  cases h' : allSome l with
  | none => rfl
  | some r => rw [allSome_get h'] at h; simp at h

theorem zipWith_take (m : BVal → BVal → BVal) : ∀ (xs ys : List BVal), List.zipWith m xs (ys.take xs.length) = List.zipWith m xs ys
  | [], ys => by simp
  | x :: xs, [] => by simp
  | x :: xs, y :: ys => by simp [zipWith_take m xs ys]

/-- Containers. -/
theorem fits_vec {s : BVal → Option Bytes} {r : BVal → Option Reader} {m : BVal → BVal → BVal} {d d' : BVal} {xs ys : List BVal}
    (hl : xs.length < 2 ^ 64)
    (hd : Fits (s d) (r d') (m d d')) (hy : ∀ y ∈ ys, Fits (s d) (r y) (m d y)) (hx : ∀ x ∈ xs, Fits (s x) (r d') (m x d'))
    (hxy : ∀ x ∈ xs, ∀ y ∈ ys, Fits (s x) (r y) (m x y)) :
    Fits (vecBytes (s d) (xs.map s)) ((r d').bind fun rd => (allSome (ys.map r)).map fun rs => readVec d' rd rs)
      (.vec d' (.ofList (List.zipWith m xs (ys ++ List.replicate (xs.length - ys.length) d')))) := by
  rcases hd with ⟨a, b⟩ | ⟨b, f, hb, hf, _⟩
  · left; simp [vecBytes, a, b]
  · right
    have hall : ∀ (n : Nat), List.Forall₂ (fun x y => Fits (s x) (r y) (m x y)) xs (ys.take xs.length ++ List.replicate (xs.length - ys.length) d') := by
      intro _
      rw [List.forall₂_iff_get]
      refine ⟨by simp; omega, ?_⟩
      intro i h1 h2
      simp only [List.get_eq_getElem]
      by_cases hi : i < (ys.take xs.length).length
      · rw [List.getElem_append_left hi]
        refine hxy _ (List.getElem_mem _) _ ?_
        exact List.mem_of_mem_take (List.getElem_mem hi)
      · rw [List.getElem_append_right (by omega)]
        simp only [List.getElem_replicate]
        exact hx _ (List.getElem_mem _)
    obtain ⟨rs, hrs⟩ : ∃ rs, allSome (ys.map r) = some rs := by
      refine allSome_some ?_
      intro o ho
      simp only [List.mem_map] at ho
      obtain ⟨y, hy1, rfl⟩ := ho
      rcases hy y hy1 with ⟨a, _⟩ | ⟨_, g, _, hg, _⟩
      · rw [hb] at a; cases a
      · rw [hg]; simp
    have hlen : rs.length = ys.length := by
      have := congrArg List.length (allSome_get hrs)
      simpa using this.symm
    have hread : allSome ((ys.take xs.length ++ List.replicate (xs.length - ys.length) d').map r) =
        some (rs.take xs.length ++ List.replicate (xs.length - ys.length) f) := by
      have h1 : (ys.take xs.length ++ List.replicate (xs.length - ys.length) d').map r =
          (rs.take xs.length ++ List.replicate (xs.length - ys.length) f).map some := by
        rw [List.map_append, List.map_append, List.map_take, allSome_get hrs, List.map_take, List.map_replicate, List.map_replicate, hf]
      rw [h1, allSome_map_some]
    rcases fits_list (hall 0) with ⟨a, b'⟩ | ⟨bs, fs, hbs, hfs, hbl, hrd⟩
    · rw [hread] at b'; cases b'
    · rw [hread] at hfs
      cases hfs
      refine ⟨sizeBytes xs.length ++ bs.flatten, readVec d' f rs, ?_, ?_, fun rest => ?_⟩
      · simp [vecBytes, hb, hbs, hbl]
      · simp [hf, hrs]
      · unfold readVec
        rw [List.append_assoc, Ser.readSize_sizeBytes _ hl]
        simp only [Res.bind]
        rw [hlen, hrd]
        simp only
        congr 4
        rw [← zipWith_take m xs (ys ++ List.replicate (xs.length - ys.length) d'), List.take_append]
        congr 2
        rw [List.take_replicate]
        congr 1
        omega

/-- Arrays. -/
theorem fits_arr {s : BVal → Option Bytes} {r : BVal → Option Reader} {m : BVal → BVal → BVal} {d d' : BVal} {xs ys : List BVal}
    (hl : xs.length < 2 ^ 64) (hn : xs.length = ys.length) (hd : Fits (s d) (r d') (m d d'))
    (h : List.Forall₂ (fun x y => Fits (s x) (r y) (m x y)) xs ys) :
    Fits (vecBytes (s d) (xs.map s)) ((r d').bind fun _ => (allSome (ys.map r)).map fun rs => readArr d' ys rs)
      (.arr d' (.ofList (List.zipWith m xs ys))) := by
  rcases hd with ⟨a, b⟩ | ⟨b, f, hb, hf, _⟩
  · left; simp [vecBytes, a, b]
  · rcases fits_list h with ⟨a, b'⟩ | ⟨bs, fs, hbs, hfs, hbl, hrd⟩
    · left; simp [vecBytes, hb, hf, a, b']
    · right
      have hlen : fs.length = ys.length := by
        have := congrArg List.length (allSome_get hfs)
        simpa using this.symm
      refine ⟨sizeBytes xs.length ++ bs.flatten, readArr d' ys fs, ?_, ?_, fun rest => ?_⟩
      · simp [vecBytes, hb, hbs, hbl]
      · simp [hf, hfs]
      · unfold readArr
        rw [List.append_assoc, Ser.readSize_sizeBytes _ hl]
        have hle : xs.length ≤ fs.length := by omega
        simp only [Res.bind, hle, if_true, List.take_of_length_le (show fs.length ≤ xs.length by omega), hrd,
          List.drop_of_length_le (show ys.length ≤ xs.length by omega), List.append_nil]

/-- Sets and maps. -/
theorem fits_assoc {s : BVal → Option Bytes} {r : BVal → Option Reader} {m : BVal → BVal → BVal} {d d' : BVal} {xs : List BVal}
    (lt : BVal → BVal → Bool) (k : Bool) (ys : List BVal) (hl : xs.length < 2 ^ 64)
    (hd : Fits (s d) (r d') (m d d')) (hx : ∀ x ∈ xs, Fits (s x) (r d') (m x d')) :
    Fits (vecBytes (s d) (xs.map s)) ((r d').map fun rd => readAssoc lt k d' ys rd)
      (.assoc k d' (.ofList ((List.zipWith m xs (List.replicate xs.length d')).foldl (fun l x => Ser.insertBy (keyLess lt k) x l) ys))) := by
  rcases hd with ⟨a, b⟩ | ⟨b, f, hb, hf, _⟩
  · left; simp [vecBytes, a, b]
  · right
    have key : ∀ (xs : List BVal), (∀ x ∈ xs, Fits (s x) (r d') (m x d')) → ∃ bs : List Bytes, allSome (xs.map s) = some bs ∧
        bs.length = xs.length ∧ ∀ (acc : List BVal) rest, Ser.readInsert (keyLess lt k) f xs.length acc (bs.flatten ++ rest) =
          .ok ((List.zipWith m xs (List.replicate xs.length d')).foldl (fun l x => Ser.insertBy (keyLess lt k) x l) acc, rest) := by
      intro xs
      induction xs with
      | nil => intro _; exact ⟨[], rfl, rfl, fun acc rest => rfl⟩
      | cons x xs ih =>
        intro hx
        obtain ⟨bs, h1, h2, h3⟩ := ih fun y hy => hx y (List.mem_cons_of_mem _ hy)
        rcases hx x List.mem_cons_self with ⟨_, e⟩ | ⟨b1, f1, hb1, hf1, hr1⟩
        · rw [hf] at e; cases e
        · rw [hf] at hf1; cases hf1
          refine ⟨b1 :: bs, by simp [allSome, hb1, h1], by simp [h2], fun acc rest => ?_⟩
          simp only [List.length_cons, List.flatten_cons, List.append_assoc, Ser.readInsert, hr1, Res.bind, h3, List.replicate_succ,
            List.zipWith_cons_cons, List.foldl_cons]
    obtain ⟨bs, h1, h2, h3⟩ := key xs hx
    refine ⟨sizeBytes xs.length ++ bs.flatten, readAssoc lt k d' ys f, ?_, ?_, fun rest => ?_⟩
    · simp [vecBytes, hb, h1, h2]
    · simp [hf]
    · unfold readAssoc
      rw [List.append_assoc, Ser.readSize_sizeBytes _ hl]
      simp only [Res.bind, h3]

/-- Reading attributes. -/
theorem readAttrs_get {R : List BVal} : ∀ {prs : List (Nat × Reader)} {bs : List Bytes},
    List.Forall₂ (fun (p : Nat × Reader) (b : Bytes) => ∃ v, R[p.1]? = some v ∧ ∀ rest, p.2 (b ++ rest) = .ok (v, rest)) prs bs →
    ∀ cur : List BVal, cur.length = R.length →
    ∃ out : List BVal, (∀ rest, readAttrs prs cur (bs.flatten ++ rest) = .ok (out, rest)) ∧ out.length = R.length ∧
      ∀ i : Nat, out[i]? = if i ∈ prs.map (·.1) then R[i]? else cur[i]? := by
  intro prs bs h
  induction h with
  | nil => intro cur hc; exact ⟨cur, fun rest => rfl, hc, by simp⟩
  | cons h1 _ ih =>
    rename_i p b prs bs _
    intro cur hc
    obtain ⟨v, hv, hr⟩ := h1
    obtain ⟨out, h1, h2, h3⟩ := ih (cur.set p.1 v) (by simpa using hc)
    refine ⟨out, ?_, h2, ?_⟩
    · intro rest
      obtain ⟨i, r⟩ := p
      have hr' := hr (bs.flatten ++ rest)
      simp only at hr' h1
      simp only [List.flatten_cons, List.append_assoc, readAttrs, hr', Res.bind]
      exact h1 rest
    · intro i
      rw [h3 i]
      simp only [List.map_cons, List.mem_cons]
      by_cases hi : i ∈ prs.map (·.1)
      · simp [hi]
      · simp only [hi, if_false, or_false]
        by_cases hip : i = p.1
        · subst hip
          have : p.1 < cur.length := by
            have := (List.getElem?_eq_some_iff.mp hv).1
            omega
          simp [hv, this]
        · simp [hip, List.getElem?_set_ne (Ne.symm hip)]

theorem overwrite_get (es : List Nat) (R old : List BVal) (i : Nat) : (overwrite es R old)[i]? =
    old[i]?.map fun o => if i ∈ es then R[i]?.getD o else o := by
  unfold overwrite
  simp only [List.getElem?_map, List.getElem?_zipIdx, Nat.zero_add]
  cases old[i]? <;> simp

/-- Classes. -/
theorem fits_obj {s : BVal → Option Bytes} {r : BVal → Option Reader} {m : BVal → BVal → BVal} {xs ys : List BVal}
    (h : List.Forall₂ (fun x y => Fits (s x) (r y) (m x y)) xs ys) (c : Nat) (es : List Nat) :
    Fits (attrBytes es (xs.map s)) ((attrReaders es (ys.map r)).map fun rs => readObj c ys rs)
      (.obj c (.ofList (overwrite es (List.zipWith m xs ys) ys))) := by
  have hlen := h.length_eq
  have hzip : (List.zipWith m xs ys).length = ys.length := by simp [hlen]
  have key : ∀ es : List Nat, (allSome (es.map fun e => ((xs.map s)[e]?).join) = none ∧ attrReaders es (ys.map r) = none) ∨
      ∃ bs prs, allSome (es.map fun e => ((xs.map s)[e]?).join) = some bs ∧ attrReaders es (ys.map r) = some prs ∧ prs.map (·.1) = es ∧
        List.Forall₂ (fun (p : Nat × Reader) (b : Bytes) => ∃ v, (List.zipWith m xs ys)[p.1]? = some v ∧ ∀ rest, p.2 (b ++ rest) = .ok (v, rest)) prs bs := by
    intro es
    induction es with
    | nil => right; exact ⟨[], [], rfl, rfl, rfl, .nil⟩
    | cons e es ih =>
      by_cases he : e < xs.length
      · have he' : e < ys.length := by omega
        have hf := (List.forall₂_iff_get.mp h).2 e he he'
        simp only [List.get_eq_getElem] at hf
        rcases hf with ⟨a, b⟩ | ⟨b, f, hb, hf, hr⟩
        · left
          constructor
          · simp [allSome, he, a]
          · simp [attrReaders, allSome, he', b]
        · rcases ih with ⟨a1, a2⟩ | ⟨bs, prs, h1, h2, h3, h4⟩
          · left
            unfold attrReaders at a2 ⊢
            constructor
            · simp only [List.map_cons, List.getElem?_map, List.getElem?_eq_getElem he, Option.map_some, hb, Option.join_some, allSome]
              simp only [List.getElem?_map] at a1
              rw [a1]; rfl
            · simp only [List.map_cons, List.getElem?_map, List.getElem?_eq_getElem he', Option.map_some, hf, Option.join_some, allSome]
              simp only [List.getElem?_map] at a2
              rw [a2]; rfl
          · right
            unfold attrReaders at h2 ⊢
            refine ⟨b :: bs, (e, f) :: prs, ?_, ?_, by simp [h3], .cons ⟨m xs[e] ys[e], ?_, hr⟩ h4⟩
            · simp only [List.map_cons, List.getElem?_map, List.getElem?_eq_getElem he, Option.map_some, hb, Option.join_some, allSome]
              simp only [List.getElem?_map] at h1
              rw [h1]; rfl
            · simp only [List.map_cons, List.getElem?_map, List.getElem?_eq_getElem he', Option.map_some, hf, Option.join_some, allSome]
              simp only [List.getElem?_map] at h2
              rw [h2]; rfl
            · simp [List.getElem?_zipWith, List.getElem?_eq_getElem he, List.getElem?_eq_getElem he']
      · left
        have he' : ¬ e < ys.length := by omega
        constructor
        · simp [allSome, he]
        · simp [attrReaders, allSome, he']
  rcases key es with ⟨a, b⟩ | ⟨bs, prs, h1, h2, h3, h4⟩
  · left; exact ⟨by rw [attrBytes, a]; rfl, by rw [b]; rfl⟩
  · right
    obtain ⟨out, o1, o2, o3⟩ := readAttrs_get h4 ys hzip.symm
    refine ⟨bs.flatten, readObj c ys prs, by rw [attrBytes, h1]; rfl, by rw [h2]; rfl, fun rest => ?_⟩
    unfold readObj
    rw [o1 rest]
    simp only [Res.bind]
    congr 4
    refine List.ext_getElem? fun i => ?_
    rw [o3 i, overwrite_get, h3]
    by_cases hi : i < ys.length
    · have hz : i < (List.zipWith m xs ys).length := by omega
      rw [List.getElem?_eq_getElem hi, List.getElem?_eq_getElem hz]
      by_cases hm : i ∈ es <;> simp [hm]
    · have hz : ¬ i < (List.zipWith m xs ys).length := by omega
      rw [List.getElem?_eq_none (by omega), List.getElem?_eq_none (by omega)]
      simp

/-! ## The choice -/

theorem select_simple (Γ : Classes) : select (writes Γ .simple) = some .simple := by simp [select, classSelect, writes]
theorem select_compactVec (Γ : Classes) : select (writes Γ .compactVec) = some .compact := by simp [select, classSelect, writes]
theorem select_vec (Γ : Classes) : select (writes Γ .vec) = some .iterable := by simp [select, classSelect, writes]
theorem select_pair (Γ : Classes) : select (writes Γ .pair) = some .tuple := by simp [select, classSelect, writes]
theorem select_tuple (Γ : Classes) : select (writes Γ .tuple) = some .tuple := by simp [select, classSelect, writes]
theorem select_binder (Γ : Classes) : select (writes Γ .binder) = some .traited := by simp [select, classSelect, writes]
theorem select_cls (Γ : Classes) (c : Nat) : select (writes Γ (.cls c)) = if (Γ c).isSome then some .traited else none := by
  cases h : (Γ c).isSome <;> simp [select, classSelect, writes, h]

theorem select_rsimple (Γ : Classes) : selectRead (reads Γ .simple) = some .simple := by simp [selectRead, classSelect, reads, writes]
theorem select_rcompactVec (Γ : Classes) : selectRead (reads Γ .compactVec) = some .compact := by simp [selectRead, classSelect, reads, writes]
theorem select_rvec (Γ : Classes) : selectRead (reads Γ .vec) = some .indexable := by simp [selectRead, classSelect, reads, writes]
theorem select_rpair (Γ : Classes) : selectRead (reads Γ .pair) = some .tuple := by simp [selectRead, classSelect, reads, writes]
theorem select_rtuple (Γ : Classes) : selectRead (reads Γ .tuple) = some .tuple := by simp [selectRead, classSelect, reads, writes]
theorem select_rbinder (Γ : Classes) : selectRead (reads Γ .binder) = some .traited := by simp [selectRead, classSelect, reads, writes]
theorem select_rcls (Γ : Classes) (c : Nat) : selectRead (reads Γ (.cls c)) = if (Γ c).isSome then some .traited else none := by
  cases h : (Γ c).isSome <;> simp [selectRead, classSelect, reads, writes, h]

theorem select_bsimple (Γ : Classes) (ts : List TraitsOf) : select (handlesBound Γ ts .simple) = none := by
  simp [select, classSelect, handlesBound]
theorem select_bcompactVec (Γ : Classes) (ts : List TraitsOf) : select (handlesBound Γ ts .compactVec) = some .indexable := by
  simp [select, classSelect, handlesBound]
theorem select_bvec (Γ : Classes) (ts : List TraitsOf) : select (handlesBound Γ ts .vec) = some .indexable := by
  simp [select, classSelect, handlesBound]
theorem select_bpair (Γ : Classes) (ts : List TraitsOf) : select (handlesBound Γ ts .pair) = some .tuple := by
  simp [select, classSelect, handlesBound]
theorem select_btuple (Γ : Classes) (ts : List TraitsOf) : select (handlesBound Γ ts .tuple) = some .tuple := by
  simp [select, classSelect, handlesBound]
theorem select_bcls (Γ : Classes) (ts : List TraitsOf) (c : Nat) :
    select (handlesBound Γ ts (.cls c)) = if (traitsFor Γ ts c).isSome then some .traited else none := by
  cases h : (traitsFor Γ ts c).isSome <;> simp [select, classSelect, handlesBound, h]

theorem selectRead_bound (Γ : Classes) (ts : List TraitsOf) (s : Shape) : selectRead (handlesBound Γ ts s) = select (handlesBound Γ ts s) := by
  cases s <;> simp [select, selectRead, classSelect, handlesBound]
theorem select_arr (Γ : Classes) (d : BVal) (vs : BVals) : ∃ x, select (writes Γ (BVal.shape (.arr d vs))) = some x := by
  cases d <;> exact ⟨_, by simp [BVal.shape, select, classSelect, writes]; rfl⟩
theorem select_rarr (Γ : Classes) (d : BVal) (vs : BVals) : ∃ x, selectRead (reads Γ (BVal.shape (.arr d vs))) = some x := by
  cases d <;> exact ⟨_, by simp [BVal.shape, selectRead, classSelect, reads, writes]; rfl⟩
theorem select_barr (Γ : Classes) (ts : List TraitsOf) (d : BVal) (vs : BVals) :
    select (handlesBound Γ ts (BVal.shape (.arr d vs))) = some .indexable := by
  cases d <;> simp [BVal.shape, select, classSelect, handlesBound]
theorem select_assoc (Γ : Classes) (m : Bool) (d : BVal) (vs : BVals) : select (writes Γ (BVal.shape (.assoc m d vs))) = some .iterable := by
  cases m <;> simp [BVal.shape, select, classSelect, writes]
theorem select_rassoc (Γ : Classes) (m : Bool) (d : BVal) (vs : BVals) :
    selectRead (reads Γ (BVal.shape (.assoc m d vs))) = some (if m then .assocMap else .assocSet) := by
  cases m <;> simp [BVal.shape, selectRead, classSelect, reads, writes]
theorem select_bassoc (Γ : Classes) (ts : List TraitsOf) (m : Bool) (d : BVal) (vs : BVals) :
    select (handlesBound Γ ts (BVal.shape (.assoc m d vs))) = none := by
  cases m <;> simp [BVal.shape, select, classSelect, handlesBound]

theorem shape_vec (d : BVal) (vs : BVals) : BVal.shape (.vec d vs) = .compactVec ∨ BVal.shape (.vec d vs) = .vec := by
  cases d <;> simp [BVal.shape]

theorem selectTraits_eq (d : Bool) : ∀ (i : Nat) (l : List Bool), selectTraits d i l =
    match l.findIdx? (· = true) with | some k => .bound (i + k) | none => if d then .default else .none
  | i, [] => by simp [selectTraits]
  | i, [b] => by cases b <;> simp [selectTraits, List.findIdx?_cons]
  | i, b :: c :: r => by
    rw [selectTraits, selectTraits_eq d (i + 1) (c :: r), List.findIdx?_cons (xs := c :: r)]
    cases b with
    | true => simp
    | false =>
      simp only [Bool.false_eq_true, if_false, decide_false]
      cases h : (c :: r).findIdx? (· = true) with
      | none => simp
      | some k =>
        simp only [Option.map_some]
        congr 1; omega

theorem find_idx (ts : List TraitsOf) (c : Nat) :
    (∃ (k : Nat) (t : TraitsOf), (ts.map fun t => decide (t.cls = c)).findIdx? (· = true) = some k ∧ ts[k]? = some t ∧ ts.find? (fun t => t.cls = c) = some t) ∨
    ((ts.map fun t => decide (t.cls = c)).findIdx? (· = true) = none ∧ ts.find? (fun t => t.cls = c) = none) := by
  induction ts with
  | nil => right; simp
  | cons t ts ih =>
    by_cases h : t.cls = c
    · left; exact ⟨0, t, by simp [List.findIdx?_cons, h], by simp, by simp [h]⟩
    · rcases ih with ⟨k, u, h1, h2, h3⟩ | ⟨h1, h2⟩
      · left
        exact ⟨k + 1, u, by simp [List.findIdx?_cons, h]; simpa using h1, by simpa using h2, by simp [h, h3]⟩
      · right
        constructor
        · simp [List.findIdx?_cons, h]; simpa using h1
        · simp [h, h2]

theorem traitsFor_used (Γ : Classes) (ts : List TraitsOf) (c : Nat) : traitsFor Γ ts c = used Γ ts c := by
  unfold traitsFor choice used
  rw [selectTraits_eq]
  rcases find_idx ts c with ⟨k, t, h1, h2, h3⟩ | ⟨h1, h2⟩
  · rw [h1, h3]; simp [h2]
  · rw [h1, h2]
    cases h : Γ c <;> simp

/-! ## The round trip -/

theorem fits_simple {b o : Bytes} (h : b.length = o.length) :
    Fits (some b) (some fun bs => (readBytes o.length bs).bind fun p => .ok (.simple p.1, p.2)) (.simple b) := by
  right
  refine ⟨b, _, rfl, rfl, fun rest => ?_⟩
  simp [readBytes, ← h, Res.bind]

theorem fits_pair {s1 s2 : Option Bytes} {r1 r2 : Option Reader} {v1 v2 : BVal} (h1 : Fits s1 r1 v1) (h2 : Fits s2 r2 v2) :
    Fits (s1.bind fun x => s2.map fun y => x ++ y) (r1.bind fun ra => r2.map fun rb =>
      fun bs => (ra bs).bind fun p => (rb p.2).bind fun q => .ok (.pair p.1 q.1, q.2)) (.pair v1 v2) := by
  rcases h1 with ⟨a, b⟩ | ⟨b1, f1, hb1, hf1, hr1⟩
  · left; simp [a, b]
  · rcases h2 with ⟨a, b⟩ | ⟨b2, f2, hb2, hf2, hr2⟩
    · left; simp [hb1, hf1, a, b]
    · right
      refine ⟨b1 ++ b2, _, by simp [hb1, hb2], by simp only [hf1, hf2, Option.bind_some, Option.map_some]; rfl, fun rest => ?_⟩
      simp only [List.append_assoc, hr1, Res.bind, hr2]

theorem fits_tuple {s : BVal → Option Bytes} {r : BVal → Option Reader} {m : BVal → BVal → BVal} {xs ys : List BVal}
    (h : List.Forall₂ (fun x y => Fits (s x) (r y) (m x y)) xs ys) :
    Fits ((allSome (xs.map s)).map List.flatten) ((allSome (ys.map r)).map fun rs =>
      fun bs => (readList rs bs).bind fun q => .ok (.tuple (.ofList q.1), q.2)) (.tuple (.ofList (List.zipWith m xs ys))) := by
  rcases fits_list h with ⟨a, b⟩ | ⟨bs, fs, hbs, hfs, _, hr⟩
  · left; simp [a, b]
  · right
    refine ⟨bs.flatten, _, by simp [hbs], by simp only [hfs, Option.map_some]; rfl, fun rest => ?_⟩
    simp only [hr, Res.bind]

theorem all_pairs {Q : BVal → BVal → Prop} {xs ys : List BVal} (hn : xs.length = ys.length)
    (h : ∀ x ∈ xs, ∀ y ∈ ys, Q x y) : List.Forall₂ Q xs ys := by
  rw [List.forall₂_iff_get]
  exact ⟨hn, fun i h1 h2 => h _ (List.getElem_mem _) _ (List.getElem_mem _)⟩

theorem forall₂_mem {α β : Type} {P : α → β → Prop} {Q : α → β → Prop} {xs : List α} {ys : List β} (h : List.Forall₂ P xs ys)
    (hq : ∀ x ∈ xs, ∀ y, P x y → Q x y) : List.Forall₂ Q xs ys := by
  induction h with
  | nil => exact .nil
  | cons h1 _ ih =>
    exact .cons (hq _ List.mem_cons_self _ h1) (ih fun x hx y hy => hq x (List.mem_cons_of_mem _ hx) y hy)

mutual
theorem fits (Γ : Classes) (A : Types) : ∀ (v : BVal) (t : Ty) (old : BVal), v.has A t → old.has A t →
    Fits (ser Γ v) (deser Γ A.less old) (restored Γ A.less v old)
  | .simple b, t, old, hv, ho => by
    cases t <;> cases old <;> simp only [BVal.has] at hv ho
    simp only [ser, deser, restored, select_simple, select_rsimple, Option.map_some]
    exact fits_simple (by omega)
  | .vec d vs, t, old, hv, ho => by
    cases t <;> cases old <;> simp only [BVal.has] at hv ho
    rename_i t d' os
    have hsel : ∃ x, select (writes Γ (BVal.shape (.vec d vs))) = some x := by
      rcases shape_vec d vs with h | h <;> rw [h]
      · exact ⟨_, select_compactVec Γ⟩
      · exact ⟨_, select_vec Γ⟩
    have hsel' : ∃ x, selectRead (reads Γ (BVal.shape (.vec d' os))) = some x := by
      rcases shape_vec d' os with h | h <;> rw [h]
      · exact ⟨_, select_rcompactVec Γ⟩
      · exact ⟨_, select_rvec Γ⟩
    obtain ⟨x, hx⟩ := hsel
    obtain ⟨y, hy⟩ := hsel'
    simp only [ser, deser, restored, hx, hy, Option.bind_some, sers_map, desers_map, restoreds_zip]
    have ih := fits_mem Γ A vs
    obtain ⟨_, hd, hv, hl⟩ := hv
    obtain ⟨_, hd', ho, _⟩ := ho
    exact fits_vec hl (fits Γ A d t d' hd hd') (fun y hy => fits Γ A d t y hd (has_all ho y hy))
      (fun x hx => ih x hx t d' (has_all hv x hx) hd') (fun x hx y hy => ih x hx t y (has_all hv x hx) (has_all ho y hy))
  | .arr d vs, t, old, hv, ho => by
    cases t <;> cases old <;> simp only [BVal.has] at hv ho
    rename_i n t d' os
    obtain ⟨x, hx⟩ := select_arr Γ d vs
    obtain ⟨y, hy⟩ := select_rarr Γ d' os
    simp only [ser, deser, restored, hx, hy, Option.bind_some, sers_map, desers_map, restoreds_zip]
    have ih := fits_mem Γ A vs
    obtain ⟨_, hd, hv, hl, hn⟩ := hv
    obtain ⟨_, hd', ho, hl', _⟩ := ho
    exact fits_arr (by omega) (by omega) (fits Γ A d t d' hd hd')
      (all_pairs (by omega) fun x hx y hy => ih x hx t y (has_all hv x hx) (has_all ho y hy))
  | .assoc m d vs, t, old, hv, ho => by
    have ih := fits_mem Γ A vs
    cases m with
    | false =>
      cases t <;> cases old <;> simp only [BVal.has] at hv ho
      rename_i t m' d' os
      cases m' <;> simp only [BVal.has] at ho
      simp only [ser, deser, restored, before_eq, select_assoc, select_rassoc, Option.bind_some, sers_map, restoreds_zip]
      exact fits_assoc A.less false os.toList hv.2.2.2.1 (fits Γ A d t d' hv.2.1 ho.2.1)
        fun x hx => ih x hx t d' (has_all hv.2.2.1 x hx) ho.2.1
    | true =>
      cases t <;> cases old <;> simp only [BVal.has] at hv ho
      rename_i t u m' d' os
      cases m' <;> simp only [BVal.has] at ho
      simp only [ser, deser, restored, before_eq, select_assoc, select_rassoc, Option.bind_some, sers_map, restoreds_zip]
      exact fits_assoc A.less true os.toList hv.2.2.2.1 (fits Γ A d (.pair t u) d' hv.2.1 ho.2.1)
        fun x hx => ih x hx (.pair t u) d' (has_all hv.2.2.1 x hx) ho.2.1
  | .pair a b, t, old, hv, ho => by
    cases t <;> cases old <;> simp only [BVal.has] at hv ho
    simp only [ser, deser, restored, select_pair, select_rpair, Option.bind_some]
    exact fits_pair (fits Γ A a _ _ hv.1 ho.1) (fits Γ A b _ _ hv.2 ho.2)
  | .tuple vs, t, old, hv, ho => by
    cases t <;> cases old <;> simp only [BVal.has] at hv ho
    simp only [ser, deser, restored, select_tuple, select_rtuple, Option.bind_some, sers_map, desers_map, restoreds_zip]
    have ih := fits_mem Γ A vs
    refine fits_tuple (forall₂_mem (has_pairs hv ho) ?_)
    rintro x hx y ⟨t, h1, h2⟩
    exact ih x hx t y h1 h2
  | .obj c as, t, old, hv, ho => by
    cases t <;> cases old <;> simp only [BVal.has] at hv ho
    rename_i c' c2 os
    obtain ⟨rfl, hv⟩ := hv
    obtain ⟨rfl, ho⟩ := ho
    have ih := fits_mem Γ A as
    have hall : List.Forall₂ (fun x y => Fits (ser Γ x) (deser Γ A.less y) (restored Γ A.less x y)) as.toList os.toList := by
      refine forall₂_mem (has_pairs hv ho) ?_
      rintro x hx y ⟨t, h1, h2⟩
      exact ih x hx t y h1 h2
    simp only [ser, deser, restored, select_cls, select_rcls, sers_map, desers_map, restoreds_zip]
    cases hc : Γ c2 with
    | none => left; simp
    | some es =>
      simp only [Option.isSome_some, if_true, Option.bind_some, Option.getD_some]
      exact fits_obj hall c2 es
  | .bound v ts, t, old, hv, ho => by
    cases t <;> cases old <;> simp only [BVal.has] at hv ho
    rename_i t us o us'
    obtain ⟨rfl, hv⟩ := hv
    obtain ⟨rfl, ho⟩ := ho
    simp only [ser, deser, restored, select_binder, select_rbinder, Option.bind_some]
    rcases fitsBound Γ A us' v t o hv ho with ⟨a, b⟩ | ⟨b, f, hb, hf, hr⟩
    · left; simp [a, b]
    · right
      refine ⟨b, _, hb, by simp only [hf, Option.map_some]; rfl, fun rest => ?_⟩
      simp only [hr, Res.bind]
theorem fits_mem (Γ : Classes) (A : Types) : ∀ (vs : BVals), ∀ v ∈ vs.toList, ∀ (t : Ty) (old : BVal), v.has A t → old.has A t →
    Fits (ser Γ v) (deser Γ A.less old) (restored Γ A.less v old)
  | .nil, v, hv => by simp [BVals.toList] at hv
  | .cons w ws, v, hv => by
    intro t old
    simp only [BVals.toList, List.mem_cons] at hv
    by_cases h : v = w
    · rw [h]; exact fits Γ A w t old
    · exact fits_mem Γ A ws v (hv.resolve_left h) t old
theorem fitsBound (Γ : Classes) (A : Types) (ts : List TraitsOf) : ∀ (v : BVal) (t : Ty) (old : BVal), v.has A t → old.has A t →
    Fits (serBound Γ ts v) (deserBound Γ A.less ts old) (restoredBound Γ A.less ts v old)
  | .simple b, t, old, hv, ho => by
    cases t <;> cases old <;> simp only [BVal.has] at hv ho
    simp only [serBound, deserBound, restoredBound, selectRead_bound, select_bsimple, Option.map_none]
    left; simp
  | .vec d vs, t, old, hv, ho => by
    cases t <;> cases old <;> simp only [BVal.has] at hv ho
    rename_i t d' os
    have hsel : ∀ d vs, select (handlesBound Γ ts (BVal.shape (.vec d vs))) = some .indexable := by
      intro d vs
      rcases shape_vec d vs with h | h <;> rw [h]
      · exact select_bcompactVec Γ ts
      · exact select_bvec Γ ts
    simp only [serBound, deserBound, restoredBound, selectRead_bound, hsel, Option.bind_some, serBounds_map, deserBounds_map, restoredBounds_zip]
    have ih := fitsBound_mem Γ A ts vs
    obtain ⟨_, hd, hv, hl⟩ := hv
    obtain ⟨_, hd', ho, _⟩ := ho
    exact fits_vec hl (fitsBound Γ A ts d t d' hd hd') (fun y hy => fitsBound Γ A ts d t y hd (has_all ho y hy))
      (fun x hx => ih x hx t d' (has_all hv x hx) hd') (fun x hx y hy => ih x hx t y (has_all hv x hx) (has_all ho y hy))
  | .arr d vs, t, old, hv, ho => by
    cases t <;> cases old <;> simp only [BVal.has] at hv ho
    rename_i n t d' os
    simp only [serBound, deserBound, restoredBound, selectRead_bound, select_barr, Option.bind_some, serBounds_map, deserBounds_map,
      restoredBounds_zip]
    have ih := fitsBound_mem Γ A ts vs
    obtain ⟨_, hd, hv, hl, hn⟩ := hv
    obtain ⟨_, hd', ho, hl', _⟩ := ho
    exact fits_arr (by omega) (by omega) (fitsBound Γ A ts d t d' hd hd')
      (all_pairs (by omega) fun x hx y hy => ih x hx t y (has_all hv x hx) (has_all ho y hy))
  | .assoc m d vs, t, old, hv, ho => by
    left
    cases m <;> cases t <;> cases old <;> simp only [BVal.has] at hv ho <;>
      simp [serBound, deserBound, selectRead_bound, select_bassoc]
  | .pair a b, t, old, hv, ho => by
    cases t <;> cases old <;> simp only [BVal.has] at hv ho
    simp only [serBound, deserBound, restoredBound, selectRead_bound, select_bpair, Option.bind_some]
    exact fits_pair (fits Γ A a _ _ hv.1 ho.1) (fits Γ A b _ _ hv.2 ho.2)
  | .tuple vs, t, old, hv, ho => by
    cases t <;> cases old <;> simp only [BVal.has] at hv ho
    simp only [serBound, deserBound, restoredBound, selectRead_bound, select_btuple, Option.bind_some, sers_map, desers_map, restoreds_zip]
    have ih := fits_mem Γ A vs
    refine fits_tuple (forall₂_mem (has_pairs hv ho) ?_)
    rintro x hx y ⟨t, h1, h2⟩
    exact ih x hx t y h1 h2
  | .obj c as, t, old, hv, ho => by
    cases t <;> cases old <;> simp only [BVal.has] at hv ho
    rename_i c' c2 os
    obtain ⟨rfl, hv⟩ := hv
    obtain ⟨rfl, ho⟩ := ho
    have ih := fits_mem Γ A as
    have hall : List.Forall₂ (fun x y => Fits (ser Γ x) (deser Γ A.less y) (restored Γ A.less x y)) as.toList os.toList := by
      refine forall₂_mem (has_pairs hv ho) ?_
      rintro x hx y ⟨t, h1, h2⟩
      exact ih x hx t y h1 h2
    simp only [serBound, deserBound, restoredBound, selectRead_bound, select_bcls, traitsFor_used, sers_map, desers_map, restoreds_zip]
    cases hc : used Γ ts c2 with
    | none => left; simp
    | some es =>
      simp only [Option.isSome_some, if_true, Option.bind_some, Option.getD_some]
      exact fits_obj hall c2 es
  | .bound v us, t, old, hv, ho => by
    cases t <;> cases old <;> simp only [BVal.has] at hv ho
    left; simp [serBound, deserBound]
theorem fitsBound_mem (Γ : Classes) (A : Types) (ts : List TraitsOf) : ∀ (vs : BVals), ∀ v ∈ vs.toList, ∀ (t : Ty) (old : BVal),
    v.has A t → old.has A t → Fits (serBound Γ ts v) (deserBound Γ A.less ts old) (restoredBound Γ A.less ts v old)
  | .nil, v, hv => by simp [BVals.toList] at hv
  | .cons w ws, v, hv => by
    intro t old
    simp only [BVals.toList, List.mem_cons] at hv
    by_cases h : v = w
    · rw [h]; exact fitsBound Γ A ts w t old
    · exact fitsBound_mem Γ A ts ws v (hv.resolve_left h) t old
end

/-! ## All attributes described -/

theorem overwrite_all {es : List Nat} {R old : List BVal} (hl : R.length = old.length) (h : ∀ i, i < R.length → i ∈ es) :
    overwrite es R old = R := by
  refine List.ext_getElem? fun i => ?_
  rw [overwrite_get]
  by_cases hi : i < old.length
  · have hi' : i < R.length := by omega
    simp [hi, hi', h i hi']
  · rw [List.getElem?_eq_none (by omega), List.getElem?_eq_none (by omega)]; rfl

theorem zipWith_fst {α : Type} {m : α → α → α} : ∀ {xs ys : List α}, xs.length ≤ ys.length →
    (∀ x ∈ xs, ∀ y ∈ ys, m x y = x) → List.zipWith m xs ys = xs
  | [], ys, _, _ => by simp
  | x :: xs, [], h, _ => by simp at h
  | x :: xs, y :: ys, h, hm => by
    simp only [List.zipWith_cons_cons, hm x List.mem_cons_self y List.mem_cons_self]
    rw [zipWith_fst (by simpa using h) fun a ha b hb => hm a (List.mem_cons_of_mem _ ha) b (List.mem_cons_of_mem _ hb)]

theorem zipWith_fst₂ {α : Type} {m : α → α → α} {P : α → α → Prop} {xs ys : List α} (h : List.Forall₂ P xs ys)
    (hm : ∀ x ∈ xs, ∀ y, P x y → m x y = x) : List.zipWith m xs ys = xs := by
  induction h with
  | nil => rfl
  | cons h1 _ ih =>
    simp only [List.zipWith_cons_cons, hm _ List.mem_cons_self _ h1]
    rw [ih fun x hx y hy => hm x (List.mem_cons_of_mem _ hx) y hy]

theorem noSets_mem : ∀ {vs : BVals}, vs.noSets → ∀ v ∈ vs.toList, v.noSets
  | .nil, _, v, hv => by simp [BVals.toList] at hv
  | .cons w vs, h, v, hv => by
    simp only [BVals.noSets] at h
    simp only [BVals.toList, List.mem_cons] at hv
    rcases hv with rfl | hv
    · exact h.1
    · exact noSets_mem h.2 v hv

theorem forall₂_memr {α β : Type} {P : α → β → Prop} {xs : List α} {ys : List β} (h : List.Forall₂ P xs ys) :
    List.Forall₂ (fun x y => P x y ∧ y ∈ ys) xs ys := by
  induction h with
  | nil => exact .nil
  | cons h1 _ ih => exact .cons ⟨h1, List.mem_cons_self⟩ (ih.imp fun x y h => ⟨h.1, List.mem_cons_of_mem _ h.2⟩)

mutual
theorem restored_full (Γ : Classes) (A : Types) : ∀ (v : BVal) (t : Ty) (old : BVal), v.has A t → old.has A t → v.full Γ → old.noSets →
    restored Γ A.less v old = v
  | .simple b, t, old, hv, ho, _, _ => by simp [restored]
  | .vec d vs, t, old, hv, ho, hf, hn => by
    cases t <;> cases old <;> simp only [BVal.has] at hv ho
    rename_i t d' os
    simp only [BVal.full] at hf
    simp only [BVal.noSets] at hn
    obtain ⟨e1, hd, hv, hl⟩ := hv
    obtain ⟨e2, hd', ho, _⟩ := ho
    simp only [restored, restoreds_zip]
    rw [zipWith_fst, toList_ofList, e1, e2]
    · simp; omega
    · intro x hx y hy
      have hty : y.has A t ∧ y.noSets := by
        simp only [List.mem_append, List.mem_replicate] at hy
        rcases hy with hy | ⟨_, rfl⟩
        · exact ⟨has_all ho y hy, noSets_mem hn.2 y hy⟩
        · exact ⟨hd', hn.1⟩
      exact restored_full_mem Γ A vs hf.2 x hx t y (has_all hv x hx) hty.1 hty.2
  | .arr d vs, t, old, hv, ho, hf, hn => by
    cases t <;> cases old <;> simp only [BVal.has] at hv ho
    rename_i n t d' os
    simp only [BVal.full] at hf
    simp only [BVal.noSets] at hn
    obtain ⟨e1, hd, hv, hl, _⟩ := hv
    obtain ⟨e2, hd', ho, hl', _⟩ := ho
    simp only [restored, restoreds_zip]
    rw [zipWith_fst, toList_ofList, e1, e2]
    · omega
    · intro x hx y hy
      exact restored_full_mem Γ A vs hf.2 x hx t y (has_all hv x hx) (has_all ho y hy) (noSets_mem hn y hy)
  | .assoc m d vs, t, old, hv, ho, hf, hn => by
    have ih := restored_full_mem Γ A vs hf.2
    cases m with
    | false =>
      cases t <;> cases old <;> simp only [BVal.has] at hv ho
      rename_i t m' d' os
      cases m' <;> simp only [BVal.has] at ho
      simp only [BVal.noSets] at hn
      simp only [restored, before_eq, restoreds_zip, hn.1]
      rw [zipWith_fst, Ser.foldl_insertBy_sorted (keyLess A.less false) vs.toList [] (by rw [List.nil_append, ← sorted_iff]; exact hv.2.2.2.2), List.nil_append, toList_ofList, hv.1, ho.1]
      · simp
      · intro x hx y hy
        rw [(List.mem_replicate.mp hy).2]
        exact ih x hx t d' (has_all hv.2.2.1 x hx) ho.2.1 hn.2
    | true =>
      cases t <;> cases old <;> simp only [BVal.has] at hv ho
      rename_i t u m' d' os
      cases m' <;> simp only [BVal.has] at ho
      simp only [BVal.noSets] at hn
      simp only [restored, before_eq, restoreds_zip, hn.1]
      rw [zipWith_fst, Ser.foldl_insertBy_sorted (keyLess A.less true) vs.toList [] (by rw [List.nil_append, ← sorted_iff]; exact hv.2.2.2.2), List.nil_append, toList_ofList, hv.1, ho.1]
      · simp
      · intro x hx y hy
        rw [(List.mem_replicate.mp hy).2]
        exact ih x hx (.pair t u) d' (has_all hv.2.2.1 x hx) ho.2.1 hn.2
  | .pair a b, t, old, hv, ho, hf, hn => by
    cases t <;> cases old <;> simp only [BVal.has] at hv ho
    simp only [BVal.full] at hf
    simp only [BVal.noSets] at hn
    simp only [restored, restored_full Γ A a _ _ hv.1 ho.1 hf.1 hn.1, restored_full Γ A b _ _ hv.2 ho.2 hf.2 hn.2]
  | .tuple vs, t, old, hv, ho, hf, hn => by
    cases t <;> cases old <;> simp only [BVal.has] at hv ho
    simp only [BVal.full] at hf
    simp only [BVal.noSets] at hn
    simp only [restored, restoreds_zip]
    rw [zipWith_fst₂ (forall₂_memr (has_pairs hv ho)), toList_ofList]
    rintro x hx y ⟨⟨t, h1, h2⟩, hy⟩
    exact restored_full_mem Γ A vs hf x hx t y h1 h2 (noSets_mem hn y hy)
  | .obj c as, t, old, hv, ho, hf, hn => by
    cases t <;> cases old <;> simp only [BVal.has] at hv ho
    rename_i c' c2 os
    obtain ⟨rfl, hv⟩ := hv
    obtain ⟨rfl, ho⟩ := ho
    simp only [BVal.full] at hf
    simp only [BVal.noSets] at hn
    have hp := has_pairs hv ho
    simp only [restored, restoreds_zip]
    rw [zipWith_fst₂ (forall₂_memr hp), overwrite_all hp.length_eq hf.2, toList_ofList]
    rintro x hx y ⟨⟨t, h1, h2⟩, hy⟩
    exact restored_full_mem Γ A as hf.1 x hx t y h1 h2 (noSets_mem hn y hy)
  | .bound v ts, t, old, hv, ho, hf, _ => by simp [BVal.full] at hf
theorem restored_full_mem (Γ : Classes) (A : Types) : ∀ (vs : BVals), vs.full Γ → ∀ v ∈ vs.toList, ∀ (t : Ty) (old : BVal), v.has A t →
    old.has A t → old.noSets → restored Γ A.less v old = v
  | .nil, _, v, hv => by simp [BVals.toList] at hv
  | .cons w ws, hf, v, hv => by
    intro t old h1 h2 h3
    simp only [BVals.toList, List.mem_cons] at hv
    simp only [BVals.full] at hf
    by_cases h : v = w
    · rw [h] at h1 ⊢; exact restored_full Γ A w t old h1 h2 hf.1 h3
    · exact restored_full_mem Γ A ws hf.2 v (hv.resolve_left h) t old h1 h2 h3
end

end GTMesh.BSer
