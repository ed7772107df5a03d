import Verif.Model.CutFile
import Verif.Props.Serializer

/-! # C89: a file of a serializer that was cut off -/

namespace GTMesh.Ser
open Serializer

theorem loaded_data (grow : Nat → Nat → Nat) (d : Bytes) : (loadFromFile grow {} (some d)).data = d ∧ (loadFromFile grow {} (some d)).cur = .null := by
  constructor <;> · unfold loadFromFile; simp only; split <;> rfl

theorem encode_two (vs ws : List ((t : Ty) × t.den)) : encode (vs ++ ws) = encode vs ++ encode ws := List.flatMap_append

theorem readAll_append (lt : Order) : ∀ (ts us : List Ty) (s : Serializer),
    s.readAll lt (ts ++ us) = (s.readAll lt ts).bind fun p => (p.2.readAll lt us).bind fun q => .ok (p.1 ++ q.1, q.2)
  | [], us, s => by
    simp only [List.nil_append, readAll, Res.bind]
    cases s.readAll lt us <;> rfl
  | t :: ts, us, s => by
    simp only [List.cons_append, readAll]
    cases h : s.read lt t t.dflt with
    | ok p =>
      simp only [Res.bind]
      rw [readAll_append lt ts us p.2]
      cases h1 : p.2.readAll lt ts with
      | ok q =>
        simp only [Res.bind]
        cases h2 : q.2.readAll lt us <;> simp [Res.bind]
      | throw e => simp [Res.bind]
      | ub => simp [Res.bind]
      | diverge => simp [Res.bind]
    | throw e => simp [Res.bind]
    | ub => simp [Res.bind]
    | diverge => simp [Res.bind]

theorem readAll_restart (lt : Order) (s : Serializer) (ts : List Ty) (hts : ts ≠ []) (h : s.cur = .null ∨ ∃ p, s.cur = .at p ∧ s.data.length ≤ p) :
    s.readAll lt ts = s.resetIterator.readAll lt ts := by
  cases ts with
  | nil => exact absurd rfl hts
  | cons t ts => simp only [readAll, read_restart lt s t _ h]

/-- One pass over a part of the values, from the beginning. -/
theorem one_pass (lt : Order) (s : Serializer) (vs : List ((t : Ty) × t.den)) (rest : Bytes) (hd : s.data = encode vs ++ rest) (hv : ∀ v ∈ vs, Ok lt v.1 v.2)
    (hn : ∀ v ∈ vs, serialize v.1 v.2 ≠ []) (hne : vs ≠ []) (h : s.cur = .null ∨ ∃ p, s.cur = .at p ∧ s.data.length ≤ p) :
    s.readAll lt (vs.map (·.1)) = .ok (vs, { s with cur := .at (encode vs).length }) := by
  rw [readAll_restart lt s _ (by simpa using hne) h]
  obtain ⟨q, hq, hq2⟩ := readAll_at lt vs s.resetIterator [] rest rfl (by simpa [resetIterator] using hd) hv
  rw [hq, hq2 hn]
  rfl

/-- Three numbers of one byte. -/
def threeBytes : List ((t : Ty) × t.den) := [⟨.simple 1, ⟨[7], rfl⟩⟩, ⟨.simple 1, ⟨[8], rfl⟩⟩, ⟨.simple 1, ⟨[9], rfl⟩⟩]

/-- Two pairs (index, value). -/
def twoPairs : List ((t : Ty) × t.den) :=
  [⟨.simple 1, ⟨[7], rfl⟩⟩, ⟨.simple 2, ⟨[8, 0], rfl⟩⟩, ⟨.simple 1, ⟨[9], rfl⟩⟩, ⟨.simple 2, ⟨[10, 0], rfl⟩⟩]

/-- C89, the part that holds: whatever is missing at the end of the file, a new serializer reads the values that are completely in it. -/
theorem C89_complete_values_partial (lt : Order) (grow : Nat → Nat → Nat) (s : Serializer) (old : File) (vs : List ((t : Ty) × t.den)) (hv : ∀ v ∈ vs, Ok lt v.1 v.2)
    (hs : s.data = (writeAll grow {} vs).data) (k j : Nat) (hj : ((vs.take j).map fun v => (serialize v.1 v.2).length).sum ≤ k) (p : Progress)
    (hp : p = .stopped k ∨ p = .full k) :
    ∃ s', (loadFromFile grow {} (s.fileAfter old p)).readAll lt ((vs.take j).map (·.1)) = .ok (vs.take j, s') := by
  have hd : s.data = encode (vs.take j) ++ encode (vs.drop j) := by
    rw [hs, writeAll_data, ← encode_two, List.take_append_drop]; rfl
  have hl : (encode (vs.take j)).length = ((vs.take j).map fun v => (serialize v.1 v.2).length).sum := by simp [encode, List.length_flatMap]
  have hf : s.fileAfter old p = some (encode (vs.take j) ++ (encode (vs.drop j)).take (k - (encode (vs.take j)).length)) := by
    rcases hp with rfl | rfl <;>
    · show some (s.data.take k) = _
      rw [hd, List.take_append, List.take_of_length_le (by omega)]
  rw [hf]
  obtain ⟨h1, h2⟩ := loaded_data grow (encode (vs.take j) ++ (encode (vs.drop j)).take (k - (encode (vs.take j)).length))
  by_cases hne : vs.take j = []
  · rw [hne]; exact ⟨_, rfl⟩
  · rw [readAll_restart lt _ _ (by simpa using hne) (Or.inl h2)]
    obtain ⟨q, hq, _⟩ := readAll_at lt (vs.take j) (loadFromFile grow {} (some (encode (vs.take j) ++ (encode (vs.drop j)).take (k - (encode (vs.take j)).length)))).resetIterator
      [] _ rfl (by simpa [resetIterator] using h1) (fun v hm => hv v (List.mem_of_mem_take hm))
    exact ⟨_, hq⟩

/-- The passes over values that are read again and again. -/
theorem passes (lt : Order) (vs : List ((t : Ty) × t.den)) (hv : ∀ v ∈ vs, Ok lt v.1 v.2) (hn : ∀ v ∈ vs, serialize v.1 v.2 ≠ []) (hne : vs ≠ []) :
    ∀ (r : Nat) (s : Serializer), s.data = encode vs → (s.cur = .null ∨ ∃ p, s.cur = .at p ∧ s.data.length ≤ p) →
      ∃ s', s.readAll lt ((List.replicate r (vs.map (·.1))).flatten) = .ok ((List.replicate r vs).flatten, s')
  | 0, s, _, _ => ⟨s, rfl⟩
  | r + 1, s, hd, hc => by
    obtain ⟨s', h'⟩ := passes lt vs hv hn hne r { s with cur := .at (encode vs).length } hd (Or.inr ⟨_, rfl, by rw [hd]; exact Nat.le_refl _⟩)
    refine ⟨s', ?_⟩
    rw [List.replicate_succ, List.flatten_cons, readAll_append, one_pass lt s vs [] (by simpa using hd) hv hn hne hc]
    simp only [Res.bind]
    rw [h']
    simp [List.replicate_succ]

/-- C89, false of the code: when the types of the values repeat, as in records that are written one behind the other, and the file ends behind the first of them, no
error is reported; all the other values read are copies of the first ones. -/
theorem C89_other_values_violated (lt : Order) (grow : Nat → Nat → Nat) (s : Serializer) (old : File) (vs : List ((t : Ty) × t.den)) (hv : ∀ v ∈ vs, Ok lt v.1 v.2)
    (hn : ∀ v ∈ vs, serialize v.1 v.2 ≠ []) (hs : s.data = (writeAll grow {} vs).data) (j r : Nat) (hj : 0 < j) (hr : 0 < r)
    (htypes : vs.map (·.1) = (List.replicate r ((vs.take j).map (·.1))).flatten) (k : Nat)
    (hk : k = ((vs.take j).map fun v => (serialize v.1 v.2).length).sum) (p : Progress) (hp : p = .stopped k ∨ p = .full k) (hne : vs ≠ []) :
    ∃ s', (loadFromFile grow {} (s.fileAfter old p)).readAll lt (vs.map (·.1)) = .ok ((List.replicate r (vs.take j)).flatten, s') := by
  have hd : s.data = encode (vs.take j) ++ encode (vs.drop j) := by
    rw [hs, writeAll_data, ← encode_two, List.take_append_drop]; rfl
  have hl : (encode (vs.take j)).length = k := by rw [hk]; simp [encode, List.length_flatMap]
  have hf : s.fileAfter old p = some (encode (vs.take j)) := by
    rcases hp with rfl | rfl <;>
    · show some (s.data.take k) = _
      rw [hd, ← hl, List.take_left]
  rw [hf, htypes]
  obtain ⟨h1, h2⟩ := loaded_data grow (encode (vs.take j))
  apply passes lt (vs.take j) (fun v hm => hv v (List.mem_of_mem_take hm)) (fun v hm => hn v (List.mem_of_mem_take hm)) _ r _ h1 (Or.inl h2)
  cases vs with
  | nil => exact absurd rfl hne
  | cons v vs => cases j with
    | zero => omega
    | succ j => simp

/-- C89, false of the code: when the file ends within a value, reading that value is undefined behaviour. -/
theorem C89_within_violated (lt : Order) (grow : Nat → Nat → Nat) (s : Serializer) (old : File) (vs ws : List ((t : Ty) × t.den)) (v : (t : Ty) × t.den)
    (hv : ∀ w ∈ vs ++ v :: ws, Ok lt w.1 w.2) (hn : ∀ w ∈ vs, serialize w.1 w.2 ≠ [])
    (hs : s.data = (writeAll grow {} (vs ++ v :: ws)).data) (k : Nat) (h1 : (vs.map fun v => (serialize v.1 v.2).length).sum < k)
    (h2 : k < (vs.map fun v => (serialize v.1 v.2).length).sum + (serialize v.1 v.2).length) (p : Progress) (hp : p = .stopped k ∨ p = .full k) :
    (loadFromFile grow {} (s.fileAfter old p)).readAll lt ((vs ++ v :: ws).map (·.1)) = .ub := by
  have hd : s.data = encode vs ++ (serialize v.1 v.2 ++ encode ws) := by
    rw [hs, writeAll_data, encode_two]; simp [encode]
  have hl : (encode vs).length = (vs.map fun v => (serialize v.1 v.2).length).sum := by simp [encode, List.length_flatMap]
  rw [← hl] at h1 h2
  generalize hb : (serialize v.1 v.2).take (k - (encode vs).length) = b
  have hb1 : b ≠ [] := by
    intro e
    have := congrArg List.length (hb.trans e)
    rw [List.length_take, List.length_nil] at this
    omega
  have hb2 : serialize v.1 v.2 = b ++ (serialize v.1 v.2).drop (k - (encode vs).length) := by rw [← hb, List.take_append_drop]
  have hb3 : (serialize v.1 v.2).drop (k - (encode vs).length) ≠ [] := by
    intro e
    have := congrArg List.length e
    rw [List.length_drop, List.length_nil] at this
    omega
  have hf : s.fileAfter old p = some (encode vs ++ b) := by
    rcases hp with rfl | rfl <;>
    · show some (s.data.take k) = _
      rw [hd, List.take_append, List.take_of_length_le (by omega), List.take_append_of_le_length (by omega), hb]
  rw [hf]
  obtain ⟨g1, g2⟩ := loaded_data grow (encode vs ++ b)
  have hlast : ∀ s0 : Serializer, s0.data = encode vs ++ b → s0.cur = .at (encode vs).length → s0.readAll lt ((v :: ws).map (·.1)) = .ub := by
    intro s0 e1 e2
    have hlt : (encode vs).length < s0.data.length := by
      rw [e1, List.length_append]
      have := List.length_pos_iff.mpr hb1
      omega
    have hr : s0.read lt v.1 v.1.dflt = .ub := by
      unfold Serializer.read resetIfNotValid isIteratorValid
      rw [e2]
      simp only [Res.bind, hlt, decide_true, if_true, e2]
      rw [e1, List.drop_left, C34_truncated_is_ub lt v.1 v.2 _ (hv v (by simp)) (noStale_dflt v.1) b _ hb2 hb3]
    simp only [List.map_cons, readAll, hr, Res.bind]
  rw [List.map_append, readAll_append]
  cases vs with
  | nil =>
    simp only [List.map_nil, readAll, Res.bind]
    rw [readAll_restart lt _ _ (by simp) (Or.inl g2), hlast _ (by simpa [resetIterator] using g1) rfl]
  | cons w vs =>
    rw [one_pass lt _ (w :: vs) b g1 (fun x hx => hv x (List.mem_append_left _ hx)) hn (by simp) (Or.inl g2)]
    simp only [Res.bind]
    have := hlast { loadFromFile grow {} (some (encode (w :: vs) ++ b)) with cur := .at (encode (w :: vs)).length } g1 rfl
    rw [this]

/-- C89, false of the code: when no byte is in the file, reading the first value is undefined behaviour. -/
theorem C89_empty_violated (lt : Order) (grow : Nat → Nat → Nat) (s : Serializer) (old : File) (vs : List ((t : Ty) × t.den)) (v : (t : Ty) × t.den)
    (hv : Ok lt v.1 v.2) (hn : serialize v.1 v.2 ≠ []) (p : Progress) (hp : p = .stopped 0 ∨ p = .full 0) :
    (loadFromFile grow {} (s.fileAfter old p)).readAll lt ((v :: vs).map (·.1)) = .ub := by
  have hf : s.fileAfter old p = some [] := by rcases hp with rfl | rfl <;> simp [fileAfter]
  rw [hf]
  obtain ⟨g1, g2⟩ := loaded_data grow []
  have hr : (loadFromFile grow {} (some [])).read lt v.1 v.1.dflt = .ub := by
    unfold Serializer.read resetIfNotValid isIteratorValid
    rw [g2]
    simp only [Res.bind, resetIterator, Bool.false_eq_true, if_false]
    rw [g1, List.drop_nil, C34_truncated_is_ub lt v.1 v.2 _ hv (noStale_dflt v.1) [] _ rfl hn]
  simp only [List.map_cons, readAll, hr, Res.bind]

example : (loadFromFile (fun _ n => n) {} ((writeAll (fun _ n => n) {} threeBytes).fileAfter none (.full 0))).readAll exOrder (threeBytes.map (·.1)) = .ub :=
  C89_empty_violated exOrder _ _ _ _ ⟨.simple 1, ⟨[7], rfl⟩⟩ trivial (by simp [serialize]) _ (Or.inr rfl)

/-- C89, false of the code: on a full device `saveToFile` returns as if the file had been written. Neither the content of the serializer nor the one the file had before
is there. -/
theorem C89_not_reported_violated (s : Serializer) (h : s.data ≠ []) (old : Bytes) (ho : old ≠ []) : ∃ p, saveResult p = some (.ok ()) ∧
    s.fileAfter (some old) p ≠ some s.data ∧ s.fileAfter (some old) p ≠ some old :=
  ⟨.full 0, rfl, fun e => h (by simpa [fileAfter] using e.symm), fun e => ho (by simpa [fileAfter] using e.symm)⟩

/-- C89, the part that holds: a program that stops in front of `saveToFile` has not changed the file; a call that puts all bytes into the file has saved the content. -/
theorem C89_all_or_nothing_partial (s : Serializer) (old : File) (k : Nat) (h : s.data.length ≤ k) :
    s.fileAfter old .before = old ∧ s.fileAfter old (.stopped k) = some s.data ∧ s.fileAfter old (.full k) = some s.data := by
  simp [fileAfter, List.take_of_length_le h]

theorem threeBytes_ok : (∀ v ∈ threeBytes, Ok exOrder v.1 v.2) ∧ ∀ v ∈ threeBytes, serialize v.1 v.2 ≠ [] := by
  constructor <;>
  · intro v hv
    simp only [threeBytes, List.mem_cons, List.not_mem_nil, or_false] at hv
    rcases hv with rfl | rfl | rfl <;> simp [Ok, serialize]

theorem twoPairs_ok : (∀ v ∈ twoPairs, Ok exOrder v.1 v.2) ∧ ∀ v ∈ twoPairs, serialize v.1 v.2 ≠ [] := by
  constructor <;>
  · intro v hv
    simp only [twoPairs, List.mem_cons, List.not_mem_nil, or_false] at hv
    rcases hv with rfl | rfl | rfl | rfl <;> simp [Ok, serialize]

/-- 7, 8, 9 is read as 7, 7, 7. -/
example : ∃ s', (loadFromFile (fun _ n => n) {} ((writeAll (fun _ n => n) {} threeBytes).fileAfter none (.stopped 1))).readAll exOrder (threeBytes.map (·.1)) =
    .ok ((List.replicate 3 (threeBytes.take 1)).flatten, s') :=
  C89_other_values_violated exOrder _ _ _ threeBytes threeBytes_ok.1 threeBytes_ok.2 rfl 1 3 (by decide) (by decide) rfl 1 rfl _ (Or.inl rfl) (by simp [threeBytes])

/-- (7, 8), (9, 10) is read as (7, 8), (7, 8). -/
example : ∃ s', (loadFromFile (fun _ n => n) {} ((writeAll (fun _ n => n) {} twoPairs).fileAfter none (.full 3))).readAll exOrder (twoPairs.map (·.1)) =
    .ok ((List.replicate 2 (twoPairs.take 2)).flatten, s') :=
  C89_other_values_violated exOrder _ _ _ twoPairs twoPairs_ok.1 twoPairs_ok.2 rfl 2 2 (by decide) (by decide) rfl 3 rfl _ (Or.inr rfl) (by simp [twoPairs])

example : ∃ s', (loadFromFile (fun _ n => n) {} ((writeAll (fun _ n => n) {} twoPairs).fileAfter none (.stopped 4))).readAll exOrder ((twoPairs.take 3).map (·.1)) =
    .ok (twoPairs.take 3, s') :=
  C89_complete_values_partial exOrder _ _ _ twoPairs twoPairs_ok.1 rfl 4 3 (by decide) _ (Or.inl rfl)

example : (loadFromFile (fun _ n => n) {} ((writeAll (fun _ n => n) {} twoPairs).fileAfter none (.stopped 5))).readAll exOrder (twoPairs.map (·.1)) = .ub :=
  C89_within_violated exOrder (fun _ n => n) (writeAll (fun _ n => n) {} twoPairs) none (twoPairs.take 3) [] ⟨.simple 2, ⟨[10, 0], rfl⟩⟩ twoPairs_ok.1
    (fun v hv => twoPairs_ok.2 v (List.mem_of_mem_take hv)) rfl 5 (by decide) (by decide) _ (Or.inl rfl)

example : ∃ p, saveResult p = some (.ok ()) ∧ (writeAll (fun _ n => n) {} twoPairs).fileAfter (some [1]) p ≠ some (writeAll (fun _ n => n) {} twoPairs).data ∧
    (writeAll (fun _ n => n) {} twoPairs).fileAfter (some [1]) p ≠ some [1] := C89_not_reported_violated _ (by decide) [1] (by decide)

end GTMesh.Ser
