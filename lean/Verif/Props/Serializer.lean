import Verif.Proofs.Serializer

/-!
# C30 – C34, C49, C50: the binary serializer
-/

namespace GTMesh.Ser

/-! ## C30 -/

/-- **C30** For every type, previous value with empty sets/maps and following bytes: reading gives the
value back and stops exactly behind its bytes. -/
theorem C30_round_trip (lt : Order) (t : Ty) (old v : t.den) (rest : Bytes)
    (hold : NoStale t old) (hv : Ok lt t v) :
    deserialize lt t old (serialize t v ++ rest) = .ok (v, rest) :=
  roundtrip lt t old v rest hold hv

/-- The encoding is unambiguous: no value's bytes followed by anything are another value's bytes. -/
theorem C30_prefix_free (lt : Order) (t : Ty) (v w : t.den) (r s : Bytes) (hv : Ok lt t v) (hw : Ok lt t w)
    (h : serialize t v ++ r = serialize t w ++ s) : v = w ∧ r = s := by
  have h1 := roundtrip lt t t.dflt v r (noStale_dflt t) hv
  rw [h, roundtrip lt t t.dflt w s (noStale_dflt t) hw] at h1
  cases h1
  exact ⟨rfl, rfl⟩

/-- An order for the examples: simple values by their number. -/
def exOrder : Order
  | .simple _, a, b => decide (leNat a.val < leNat b.val)
  | _, _, _ => false

/-- `std::map<uint16_t, std::vector<std::pair<char, bool>>>` -/
abbrev exTy : Ty := .map (.simple 2) (.vec (.pair (.simple 1) .bool))

/-- `{{1, {('a', true), ('b', false)}}, {513, {}}}` -/
def exVal : exTy.den :=
  ([(⟨[1, 0], rfl⟩, [(⟨[97], rfl⟩, true), (⟨[98], rfl⟩, false)]), (⟨[1, 2], rfl⟩, [])] :
    List ({ l : Bytes // l.length = 2 } × List ({ l : Bytes // l.length = 1 } × Bool)))

theorem exVal_ok : Ok exOrder exTy exVal := by
  refine ⟨by decide, ?_, ?_⟩
  · intro x hx
    refine ⟨trivial, ?_⟩
    cases hx with
    | head => exact ⟨by decide, fun _ _ => ⟨trivial, trivial⟩⟩
    | tail _ h =>
      cases h with
      | head => exact ⟨by decide, fun _ h => nomatch h⟩
      | tail _ h => exact nomatch h
  · refine List.Pairwise.cons (fun b hb => ?_) (List.Pairwise.cons (fun _ h => nomatch h) .nil)
    cases hb with
    | head => exact ⟨by decide, by decide⟩
    | tail _ h => exact nomatch h

example : serialize exTy exVal =
    [2, 0, 0, 0, 0, 0, 0, 0,  1, 0,  2, 0, 0, 0, 0, 0, 0, 0,  97, 1, 98, 0,
     1, 2,  0, 0, 0, 0, 0, 0, 0, 0] := by decide

example : deserialize exOrder exTy exTy.dflt (serialize exTy exVal ++ [7, 7]) = .ok (exVal, [7, 7]) :=
  C30_round_trip _ _ _ _ _ (noStale_dflt _) exVal_ok

/-! ## C31 -/

open Serializer

/-- **C31** Writing `vs` to a new serializer and reading the same types gives `vs`; the cursor then stands at
the end (when no value has an empty encoding and there is a value). -/
theorem C31_in_order (lt : Order) (grow : Nat → Nat → Nat) (vs : List ((t : Ty) × t.den))
    (hvs : ∀ v ∈ vs, Ok lt v.1 v.2) :
    ∃ s', (writeAll grow {} vs).readAll lt (vs.map (·.1)) = .ok (vs, s') ∧
      s'.data = (writeAll grow {} vs).data ∧
      (vs ≠ [] → (∀ v ∈ vs, serialize v.1 v.2 ≠ []) → s'.cur = .at s'.data.length) := by
  cases vs with
  | nil => exact ⟨_, rfl, rfl, fun h => absurd rfl h⟩
  | cons v vs =>
    have hc := writeAll_null grow (v :: vs) {} rfl
    have hd := writeAll_data grow (v :: vs) {}
    simp only [List.nil_append] at hd
    rw [List.map_cons, readAll_restart _ _ _ _ (Or.inl hc), ← List.map_cons]
    obtain ⟨q, hq, hq'⟩ := readAll_at lt (v :: vs) (writeAll grow {} (v :: vs)).resetIterator [] [] rfl
      (by simp [resetIterator, hd]) hvs
    refine ⟨_, hq, rfl, ?_⟩
    intro _ hne
    simp only [Cursor.at.injEq]
    rw [hq' hne]
    simp [resetIterator, hd]

/-- **C31** Whatever is written afterwards does not change what reading from the beginning returns. -/
theorem C31_append_stable (lt : Order) (grow : Nat → Nat → Nat) (vs ws : List ((t : Ty) × t.den))
    (hvs : ∀ v ∈ vs, Ok lt v.1 v.2) (s : Serializer) (hs : s.data = (writeAll grow {} vs).data) :
    ∃ s', (s.writeAll grow ws).resetIterator.readAll lt (vs.map (·.1)) = .ok (vs, s') := by
  have hd := writeAll_data grow vs {}
  obtain ⟨q, hq, _⟩ := readAll_at lt vs (s.writeAll grow ws).resetIterator [] (encode ws) rfl
    (by simp [resetIterator, writeAll_data, hs]) hvs
  exact ⟨_, hq⟩

example : ∃ s', (writeAll (fun _ n => 2 * n) {} [⟨exTy, exVal⟩, ⟨.bool, true⟩, ⟨exTy, exVal⟩]).readAll
    exOrder [exTy, .bool, exTy] = .ok ([⟨exTy, exVal⟩, ⟨.bool, true⟩, ⟨exTy, exVal⟩], s') := by
  obtain ⟨s', h, _⟩ := C31_in_order exOrder (fun _ n => 2 * n)
    [⟨exTy, exVal⟩, ⟨.bool, true⟩, ⟨exTy, exVal⟩] (by
      intro v hv
      simp only [List.mem_cons, List.not_mem_nil, or_false] at hv
      rcases hv with rfl | rfl | rfl
      · exact exVal_ok
      · trivial
      · exact exVal_ok)
  exact ⟨s', h⟩

/-! ## C32 -/

/-- **C32** With the cursor at the end (or never set), reading equals reading after `resetIterator`. -/
theorem C32_restart (lt : Order) (s : Serializer) (t : Ty) (old : t.den)
    (h : s.cur = .null ∨ s.cur = .at s.data.length) :
    s.read lt t old = s.resetIterator.read lt t old := by
  apply read_restart
  rcases h with h | h
  · exact Or.inl h
  · exact Or.inr ⟨_, h, Nat.le_refl _⟩

/-- **C32** … and the value read is the first one written. -/
theorem C32_first (lt : Order) (s : Serializer) (t : Ty) (old v : t.den) (rest : Bytes)
    (h : s.cur = .null ∨ s.cur = .at s.data.length) (hd : s.data = serialize t v ++ rest)
    (ho : NoStale t old) (hv : Ok lt t v) :
    s.read lt t old = .ok (v, { s with cur := .at (serialize t v).length }) := by
  rw [C32_restart lt s t old h,
    read_at lt s.resetIterator t old v [] rest rfl (by simp [resetIterator, hd]) (Or.inr rfl) ho hv]
  rfl

/-- **C32** Reading everything twice gives the same values twice. -/
theorem C32_second_pass (lt : Order) (grow : Nat → Nat → Nat) (vs : List ((t : Ty) × t.den))
    (hvs : ∀ v ∈ vs, Ok lt v.1 v.2) (hne : ∀ v ∈ vs, serialize v.1 v.2 ≠ []) :
    ∃ s' s'', (writeAll grow {} vs).readAll lt (vs.map (·.1)) = .ok (vs, s') ∧
      s'.readAll lt (vs.map (·.1)) = .ok (vs, s'') := by
  obtain ⟨s', h1, h2, h3⟩ := C31_in_order lt grow vs hvs
  cases vs with
  | nil => exact ⟨_, _, h1, rfl⟩
  | cons v vs =>
    have hd := writeAll_data grow (v :: vs) {}
    obtain ⟨q, hq, _⟩ := readAll_at lt (v :: vs) s'.resetIterator [] [] rfl
      (by simp [resetIterator, h2, hd]) hvs
    have h4 : s'.readAll lt ((v :: vs).map (·.1)) = s'.resetIterator.readAll lt ((v :: vs).map (·.1)) :=
      readAll_restart _ _ _ _ (Or.inr ⟨_, h3 (by simp) hne, Nat.le_refl _⟩)
    exact ⟨s', _, h1, h4.trans hq⟩

/-- **C32** After `clear()` and new writes, whatever happened before, reading gives the new values. -/
theorem C32_clear (lt : Order) (grow : Nat → Nat → Nat) (s : Serializer) (vs : List ((t : Ty) × t.den))
    (hvs : ∀ v ∈ vs, Ok lt v.1 v.2) :
    ∃ s', (s.clear.writeAll grow vs).readAll lt (vs.map (·.1)) = .ok (vs, s') := by
  cases vs with
  | nil => exact ⟨_, rfl⟩
  | cons v vs =>
    have hc := writeAll_null grow (v :: vs) s.clear rfl
    have hd := writeAll_data grow (v :: vs) s.clear
    obtain ⟨q, hq, _⟩ := readAll_at lt (v :: vs) (s.clear.writeAll grow (v :: vs)).resetIterator [] [] rfl
      (by simp only [resetIterator, hd]; simp [clear]) hvs
    rw [List.map_cons, readAll_restart _ _ _ _ (Or.inl hc), ← List.map_cons]
    exact ⟨_, hq⟩

example : ∃ s', (((({ cur := .dangling, data := [1, 2, 3] } : Serializer).clear).writeAll (fun _ n => n)
    [⟨exTy, exVal⟩]).readAll exOrder [exTy]) = .ok ([⟨exTy, exVal⟩], s') :=
  C32_clear exOrder (fun _ n => n) _ [⟨exTy, exVal⟩] (by simpa using exVal_ok)

/-! ## C33 -/

theorem exOrder_strictTotal : StrictTotal (exOrder (.simple 1)) where
  irrefl a := by simp [exOrder]
  trans a b c := by simp only [exOrder, decide_eq_true_eq]; omega
  tri a b := by
    obtain ⟨a, ha⟩ := a
    obtain ⟨b, hb⟩ := b
    match a, ha, b, hb with
    | [x], h1, [y], h2 =>
      rcases Nat.lt_trichotomy x.toNat y.toNat with h | h | h
      · exact Or.inl (decide_eq_true (by simpa [leNat] using h))
      · have : x = y := UInt8.toNat_inj.mp h
        subst this
        exact Or.inr (Or.inl rfl)
      · exact Or.inr (Or.inr (decide_eq_true (by simpa [leNat] using h)))

/-- **C33** (what happens for sets) The result contains exactly the previous and the stored elements. -/
theorem C33_set_union (lt : Order) (t : Ty) (ht : StrictTotal (lt t)) (old v : List t.den) (rest : Bytes)
    (ho : Ok lt (.set t) old) (hv : Ok lt (.set t) v) :
    ∃ r : List t.den, deserialize lt (.set t) old (serialize (.set t) v ++ rest) = .ok (r, rest) ∧
      (r.length < 2 ^ 64 → Ok lt (.set t) r) ∧
      ∀ x, x ∈ r ↔ x ∈ old ∨ x ∈ v := by
  have hsort : ∀ l : List t.den, (l.Pairwise fun a b => lt t a b = true ∧ lt t b a = false) →
      l.Pairwise fun a b => lt t a b = true := fun l h => h.imp fun h => h.1
  obtain ⟨h1, h2⟩ := mem_foldl_insertBy (fun x : t.den => x) (lt t) ht v old (hsort _ ho.2.2) (hsort _ hv.2.2)
  refine ⟨List.foldl (fun a x => insertBy (lt t) x a) old v,
    ?_, ?_, ?_⟩
  · simp only [serialize, deserialize, List.append_assoc]
    rw [readSize_sizeBytes _ hv.1]
    simp only [Res.bind]
    exact readInsert_flatMap (lt t) _ (serialize t) (Ok lt t)
      (fun w r hw => roundtrip lt t t.dflt w r (noStale_dflt t) hw) v old rest hv.2.1
  · intro hlen
    refine ⟨hlen, ?_, ?_⟩
    · intro x hx
      rcases (h2 x).mp hx with hx | hx
      · exact ho.2.1 x hx
      · exact hv.2.1 x hx.1
    · exact h1.imp fun {a b} h => ⟨h, by
        cases hb : lt t b a with
        | false => rfl
        | true =>
          have := ht.trans _ _ _ h hb
          rw [ht.irrefl] at this
          exact absurd this (by simp)⟩
  · intro x
    rw [show (x ∈ List.foldl (fun a x => insertBy (lt t) x a) old v) ↔ _
      from h2 x]
    simp only [List.map_id']
    by_cases hx : x ∈ old
    · exact ⟨fun _ => Or.inl hx, fun _ => Or.inl hx⟩
    · constructor
      · rintro (h | h)
        · exact Or.inl h
        · exact Or.inr h.1
      · rintro (h | h)
        · exact Or.inl h
        · exact Or.inr ⟨h, hx⟩

/-- **C33** is false: a set is merged with what the variable held. -/
theorem C33_merges : ∃ (old v : (Ty.set (.simple 1)).den), Ok exOrder _ v ∧ Ok exOrder _ old ∧
    ∀ rest, ∃ r, deserialize exOrder (.set (.simple 1)) old (serialize _ v ++ rest) = .ok (r, rest) ∧ r ≠ v := by
  let a : (Ty.simple 1).den := (⟨[5], rfl⟩ : { l : Bytes // l.length = 1 })
  let b : (Ty.simple 1).den := (⟨[9], rfl⟩ : { l : Bytes // l.length = 1 })
  have hb : Ok exOrder (.set (.simple 1)) [b] := ⟨by decide, fun _ _ => trivial, by simp⟩
  have ha : Ok exOrder (.set (.simple 1)) [a] := ⟨by decide, fun _ _ => trivial, by simp⟩
  refine ⟨[a], [b], hb, ha, fun rest => ?_⟩
  obtain ⟨r, h1, _, h2⟩ := C33_set_union exOrder (.simple 1) exOrder_strictTotal [a] [b] rest ha hb
  refine ⟨r, h1, ?_⟩
  intro h
  have h3 := (h2 a).mpr (Or.inl (by simp))
  rw [h] at h3
  have : a = b := by
    have h4 : a ∈ [b] := h3
    simpa using h4
  exact absurd (congrArg Subtype.val this) (by decide)

/-- **C33** (what happens for maps) The result keeps every previous entry, even when a different value is
stored for its key, and adds the stored entries of the other keys. -/
theorem C33_map_keeps_old (lt : Order) (k w : Ty) (ht : StrictTotal (lt k)) (old v : List (k.den × w.den))
    (rest : Bytes) (ho : Ok lt (.map k w) old) (hv : Ok lt (.map k w) v) :
    ∃ r : List (k.den × w.den),
      deserialize lt (.map k w) old (serialize (.map k w) v ++ rest) = .ok (r, rest) ∧
      ∀ x, x ∈ r ↔ x ∈ old ∨
        (x ∈ v ∧
          x.1 ∉ old.map (·.1)) := by
  have hsort : ∀ l : List (k.den × w.den), (l.Pairwise fun a b => lt k a.1 b.1 = true ∧ lt k b.1 a.1 = false) →
      l.Pairwise fun a b => lt k a.1 b.1 = true := fun l h => h.imp fun h => h.1
  obtain ⟨h1, h2⟩ := mem_foldl_insertBy (fun x : k.den × w.den => x.1) (lt k) ht v old
    (hsort _ ho.2.2) (hsort _ hv.2.2)
  refine ⟨_, ?_, h2⟩
  simp only [serialize, deserialize, List.append_assoc]
  rw [readSize_sizeBytes _ hv.1]
  simp only [Res.bind]
  refine readInsert_flatMap (fun x y : k.den × w.den => lt k x.1 y.1) _
    (fun p => serialize k p.1 ++ serialize w p.2) (fun p => Ok lt k p.1 ∧ Ok lt w p.2) ?_ v old rest hv.2.1
  intro p r hp
  simp only [List.append_assoc]
  rw [roundtrip lt k k.dflt p.1 _ (noStale_dflt k) hp.1]
  simp only [Res.bind]
  rw [roundtrip lt w w.dflt p.2 _ (noStale_dflt w) hp.2]

/-- **C33** (partial) For types without sets and maps the previous content never matters. Missing: sets and
maps, for which the property is false. -/
theorem C33_replaces_partial (lt : Order) (t : Ty) (hn : NoAssoc t) (old v : t.den) (rest : Bytes)
    (hv : Ok lt t v) : deserialize lt t old (serialize t v ++ rest) = .ok (v, rest) :=
  roundtrip lt t old v rest (noStale_of_noAssoc t hn old) hv

example : NoAssoc (.vec (.pair (.simple 8) (.vec (.arr (.simple 4) 3)))) := ⟨trivial, trivial⟩

/-! ## C34 -/

/-- **C34** is false: a read of truncated data is never reported – for every type, every value and every proper
prefix of its bytes the read goes beyond the buffer. -/
theorem C34_truncated_is_ub (lt : Order) (t : Ty) (v old : t.den) (hv : Ok lt t v) (ho : NoStale t old)
    (bs ext : Bytes) (h : serialize t v = bs ++ ext) (hext : ext ≠ []) :
    deserialize lt t old bs = .ub := by
  rcases deserialize_okOrUb lt t old bs with ⟨⟨v', r⟩, h1⟩ | h1
  · exfalso
    have h2 := deserialize_append lt ext t old bs v' r h1
    have h3 := roundtrip lt t old v [] ho hv
    rw [List.append_nil, h, h2] at h3
    cases h3' : r ++ ext with
    | nil => simp at h3'; exact hext h3'.2
    | cons a b => rw [h3'] at h3; cases h3
  · exact h1

/-- **C34** No read ever throws, whatever the buffer holds: errors are not reported. -/
theorem C34_never_throws (lt : Order) (t : Ty) (old : t.den) (bs : Bytes) (e : Exc) :
    deserialize lt t old bs ≠ .throw e := by
  rcases deserialize_okOrUb lt t old bs with ⟨a, h⟩ | h <;> simp [h]

/-- **C34** In particular reading a simple value from an empty serializer is undefined behaviour. -/
theorem C34_empty_read_ub (lt : Order) (n : Nat) (hn : 0 < n) (old : (Ty.simple n).den) :
    ({} : Serializer).read lt (.simple n) old = .ub := by
  have h : deserialize lt (.simple n) old [] = .ub := by
    unfold deserialize
    rw [dif_neg (by simp; omega)]
  show ((deserialize lt (.simple n) old []).bind _) = _
  rw [h]
  rfl

/-- **C34** A stored array longer than the one it is read into makes the read write behind the array. -/
theorem C34_long_array_ub (lt : Order) (t : Ty) (m n : Nat) (h : n < m) (hm : m < 2 ^ 64)
    (v : (Ty.arr t m).den) (old : (Ty.arr t n).den) (rest : Bytes) :
    deserialize lt (.arr t n) old (serialize (.arr t m) v ++ rest) = .ub := by
  have hl := v.property
  simp only [serialize, deserialize, List.append_assoc]
  rw [readSize_sizeBytes _ (by omega)]
  simp only [Res.bind]
  rw [if_neg (by omega)]

/-- **C34** (partial) Reading what was written never leaves the buffer. Missing: any other content of the
buffer, for which the property is false. -/
theorem C34_written_partial (lt : Order) (t : Ty) (v old : t.den) (hv : Ok lt t v) (ho : NoStale t old)
    (rest : Bytes) : deserialize lt t old (serialize t v ++ rest) ≠ .ub := by
  rw [roundtrip lt t old v rest ho hv]; simp

example : ∃ bs ext, serialize exTy exVal = bs ++ ext ∧ ext ≠ [] ∧
    deserialize exOrder exTy exTy.dflt bs = .ub :=
  ⟨(serialize exTy exVal).take 20, (serialize exTy exVal).drop 20, (List.take_append_drop _ _).symm, by decide,
    C34_truncated_is_ub exOrder exTy exVal _ exVal_ok (noStale_dflt _) _ ((serialize exTy exVal).drop 20)
      (List.take_append_drop _ _).symm (by decide)⟩

/-! ## C49: files -/

/-- **C49** Saving to a writable file and loading it into a new serializer gives back the values. -/
theorem C49_file_round_trip (lt : Order) (grow : Nat → Nat → Nat) (s : Serializer)
    (vs : List ((t : Ty) × t.den)) (hvs : ∀ v ∈ vs, Ok lt v.1 v.2) (hs : s.data = (writeAll grow {} vs).data) :
    ∃ f, s.saveToFile true = .ok f ∧
      ∃ s', (loadFromFile grow {} f).readAll lt (vs.map (·.1)) = .ok (vs, s') := by
  refine ⟨some s.data, rfl, ?_⟩
  have hd : (loadFromFile grow {} (some s.data)).data = s.data := by
    unfold loadFromFile; simp only; split <;> rfl
  have hc : (loadFromFile grow {} (some s.data)).cur = .null := by
    unfold loadFromFile; simp only; split <;> rfl
  have hw := writeAll_data grow vs {}
  cases vs with
  | nil => exact ⟨_, rfl⟩
  | cons v vs =>
    obtain ⟨q, hq, _⟩ := readAll_at lt (v :: vs) (loadFromFile grow {} (some s.data)).resetIterator [] [] rfl
      (by simp only [resetIterator, hd]; simp [hs, hw]) hvs
    rw [List.map_cons, readAll_restart _ _ _ _ (Or.inl hc), ← List.map_cons]
    exact ⟨_, hq⟩

/-- **C49** A file that cannot be written is reported. -/
theorem C49_save_reports (s : Serializer) : s.saveToFile false = .throw .runtimeError := rfl

/-- **C49** is false for loading: a missing file is silently ignored and the old content stays. -/
theorem C49_load_missing_silent (grow : Nat → Nat → Nat) (s : Serializer) :
    s.loadFromFile grow none = s := rfl

/-- **C49** is false for a serializer that has been read from: loading does not move the cursor to the
beginning; the first value of the file is skipped. -/
theorem C49_load_keeps_cursor : ∃ (s : Serializer) (v w : (Ty.simple 1).den) (f : Bytes),
    f = encode [⟨.simple 1, v⟩, ⟨.simple 1, w⟩] ∧ v ≠ w ∧
    ∀ grow lt, ∃ s', (s.loadFromFile grow (some f)).read lt (.simple 1) v = .ok (w, s') := by
  refine ⟨{ data := [1, 2], cap := 2, cur := .at 1 }, ⟨[7], rfl⟩, ⟨[8], rfl⟩, [7, 8], rfl, ?_, ?_⟩
  · intro h; exact absurd (congrArg Subtype.val h) (by decide)
  · intro grow lt
    exact ⟨_, rfl⟩

example : ∃ f, (writeAll (fun _ n => n) {} [⟨exTy, exVal⟩]).saveToFile true = .ok f ∧
    ∃ s', (loadFromFile (fun _ n => n) {} f).readAll exOrder [exTy] = .ok ([⟨exTy, exVal⟩], s') :=
  C49_file_round_trip exOrder (fun _ n => n) _ [⟨exTy, exVal⟩] (by simpa using exVal_ok) rfl

/-! ## C50: interleaving -/

/-- **C50** is false: a write that makes the buffer grow after a read leaves the cursor dangling, and the next
read is undefined behaviour. -/
theorem C50_interleaved_ub (lt : Order) (grow : Nat → Nat → Nat) (s : Serializer) (p : Nat) (hc : s.cur = .at p)
    (t : Ty) (v : t.den) (hgrow : s.cap < (s.data ++ serialize t v).length) (u : Ty) (old : u.den) :
    (s.write grow t v).read lt u old = .ub := by
  have : ¬ (s.data ++ serialize t v).length ≤ s.cap := by omega
  simp only [write]
  rw [if_neg this]
  simp [hc, Serializer.read, resetIfNotValid, isIteratorValid]

/-- **C50** (partial) While the buffer does not grow beyond its capacity, reading continues where it stopped:
the values not yet read and the newly written ones follow in order. Missing: growth, where the property is
false; and the case that everything was read before the write, see the next theorem. -/
theorem C50_interleaved_partial (lt : Order) (grow : Nat → Nat → Nat) (s : Serializer) (pre : Bytes)
    (vs : List ((t : Ty) × t.den)) (hc : s.cur = .at pre.length) (hd : s.data = pre ++ encode vs)
    (t : Ty) (v : t.den) (hcap : (s.data ++ serialize t v).length ≤ s.cap)
    (hok : ∀ w ∈ vs ++ [⟨t, v⟩], Ok lt w.1 w.2) :
    ∃ s', (s.write grow t v).readAll lt (vs.map (·.1) ++ [t]) = .ok (vs ++ [⟨t, v⟩], s') := by
  have hw : s.write grow t v = { s with data := s.data ++ serialize t v } := by
    simp only [write]; rw [if_pos hcap]
  rw [hw]
  obtain ⟨q, hq, _⟩ := readAll_at lt (vs ++ [⟨t, v⟩]) { s with data := s.data ++ serialize t v } pre [] hc
    (by simp [hd, encode]) hok
  rw [List.map_append] at hq
  exact ⟨_, hq⟩

example : (({ data := [1], cap := 1, cur := .at 1 } : Serializer).write (fun _ n => n) .bool true).read exOrder
    .bool false = .ub :=
  C50_interleaved_ub _ _ _ 1 rfl _ _ (by decide) _ _

example : ∃ s', (({ data := [1, 0], cap := 8, cur := .at 1 } : Serializer).write (fun _ n => n) .bool true).readAll
    exOrder [.bool, .bool] = .ok ([⟨.bool, false⟩, ⟨.bool, true⟩], s') :=
  C50_interleaved_partial exOrder _ { data := [1, 0], cap := 8, cur := .at 1 } [1] [⟨.bool, false⟩] rfl rfl .bool true (by decide) (by
    intro w hw
    simp only [List.cons_append, List.nil_append, List.mem_cons, List.not_mem_nil, or_false] at hw
    rcases hw with rfl | rfl <;> trivial)

end GTMesh.Ser
