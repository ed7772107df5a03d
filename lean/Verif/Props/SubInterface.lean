import Verif.Model.SubInterface
import Verif.Proofs.Mesh

/-! # C87: a static reserve is not observable -/

namespace GTMesh.Props
open GTMesh GTMesh.Spec

/-- The calls that mean the same for a list `l` in `R` places: there is place for a new entry; single entries are those of the list, or `at` gets an index behind
the reserve as well; the functions that see all places are called on a full list. -/
def SubWithin (R : Nat) (l : List Idx) : SubOp → Prop
  | .add _ => l.length < R
  | .get i | .set i _ => i < l.length ∨ R ≤ i
  | .idx i => i < l.length
  | .front => l ≠ []
  | .back | .reverse => l.length = R
  | .empty => l ≠ [] ∨ R = 0
  | .size | .iterate => True

/-- All calls of a history are of this kind; the list is that of the vector. -/
def SubHistory (R : Nat) : List Idx → List SubOp → Prop
  | _, [] => True
  | l, op :: ops => SubWithin R l op ∧ SubHistory R (vectorCall l op).1 ops

/-- The array of a container and the list it stands for. -/
structure SubRel {R : Nat} (g : List Idx) (s : SubCont R) (l : List Idx) : Prop where
  n : s.n = l.length
  le : l.length ≤ R
  store : s.store = l ++ g.drop l.length

theorem subRel_length {R : Nat} {g : List Idx} {s : SubCont R} {l : List Idx} (hg : g.length = R) (h : SubRel g s l) : s.store.length = R := by
  have := h.le
  rw [h.store]
  simp
  omega

theorem subCall {R : Nat} {g : List Idx} (hg : g.length = R) {s : SubCont R} {l : List Idx} (h : SubRel g s l) (op : SubOp) (hw : SubWithin R l op)
    (hd : (vectorCall l op).2 ≠ .ub) : (arrayCall s op).2 = (vectorCall l op).2 ∧ SubRel g (arrayCall s op).1 (vectorCall l op).1 := by
  have hs := subRel_length hg h
  obtain ⟨h1, h2, h3⟩ := h
  have hget : ∀ i, i < l.length → s.store[i]? = l[i]? := fun i hi => by rw [h3, List.getElem?_append_left hi]
  cases op with
  | add x =>
    have hw : l.length < R := hw
    have e : s.addSubelement x = ({ store := s.store.set s.n x, n := s.n + 1 }, none) := by
      unfold SubCont.addSubelement
      rw [if_pos (by omega), if_pos (by omega)]
    refine ⟨by simp [arrayCall, e, vectorCall], ?_⟩
    simp only [arrayCall, e, vectorCall]
    refine ⟨by simp [h1], by simp; omega, ?_⟩
    simp only [h3, h1]
    have hc : g.drop l.length = g[l.length]'(by omega) :: g.drop (l.length + 1) := List.drop_eq_getElem_cons _
    rw [List.set_append_right _ _ (Nat.le_refl _), Nat.sub_self, List.length_append, List.length_singleton, hc]
    simp only [List.set_cons_zero, List.append_assoc, List.singleton_append]
  | size => exact ⟨by simp [arrayCall, vectorCall, SubCont.size, h1], ⟨h1, h2, h3⟩⟩
  | get i =>
    refine ⟨?_, ⟨h1, h2, h3⟩⟩
    simp only [arrayCall, vectorCall, SubCont.at', Res.at']
    rcases hw with hi | hi
    · rw [hget i hi]
    · rw [List.getElem?_eq_none (by omega), List.getElem?_eq_none (by omega)]
  | set i x =>
    constructor
    · simp only [arrayCall, vectorCall, SubCont.at', Res.at']
      rcases hw with hi | hi
      · rw [hget i hi]
      · rw [List.getElem?_eq_none (by omega), List.getElem?_eq_none (by omega)]
    · refine ⟨by simpa [arrayCall, vectorCall] using h1, by simpa [vectorCall] using h2, ?_⟩
      simp only [arrayCall, vectorCall, List.length_set]
      rcases hw with hi | hi
      · rw [h3, List.set_append_left _ _ hi]
      · rw [List.set_eq_of_length_le (by omega), List.set_eq_of_length_le (by omega), h3]
  | idx i =>
    have hw : i < l.length := hw
    exact ⟨by simp only [arrayCall, vectorCall, Res.idx, hget i hw], ⟨h1, h2, h3⟩⟩
  | front =>
    have hw : l ≠ [] := hw
    exact ⟨by simp only [arrayCall, vectorCall, Res.idx, hget 0 (List.length_pos_iff.mpr hw)], ⟨h1, h2, h3⟩⟩
  | back =>
    have hw : l.length = R := hw
    refine ⟨?_, ⟨h1, h2, h3⟩⟩
    simp only [arrayCall, vectorCall] at hd ⊢
    by_cases hl : l = []
    · rw [if_pos hl] at hd; exact absurd rfl hd
    · have := List.length_pos_iff.mpr hl
      rw [if_neg hl, if_neg (by omega), show R - 1 = l.length - 1 by omega]
      simp only [Res.idx, hget (l.length - 1) (by omega)]
  | iterate => exact ⟨by simp [arrayCall, vectorCall, SubCont.iterate, h1, h3], ⟨h1, h2, h3⟩⟩
  | reverse =>
    have hw : l.length = R := hw
    refine ⟨?_, ⟨h1, h2, h3⟩⟩
    simp only [arrayCall, vectorCall, h3]
    rw [List.drop_eq_nil_of_le (by omega), List.append_nil]
  | empty =>
    refine ⟨?_, ⟨h1, h2, h3⟩⟩
    simp only [arrayCall, vectorCall]
    cases l with
    | nil =>
      rcases hw with hw | hw
      · exact absurd rfl hw
      · simp [hw]
    | cons a l =>
      have : R ≠ 0 := by simp at h2; omega
      simp [this]

theorem subCalls {R : Nat} {g : List Idx} (hg : g.length = R) : ∀ (ops : List SubOp) (s : SubCont R) (l : List Idx), SubRel g s l → SubHistory R l ops →
    (∀ r ∈ (vectorCalls l ops).2, r ≠ .ub) → (arrayCalls s ops).2 = (vectorCalls l ops).2 ∧ SubRel g (arrayCalls s ops).1 (vectorCalls l ops).1
  | [], _, _, h, _, _ => ⟨rfl, h⟩
  | op :: ops, s, l, h, ⟨hw, ho⟩, hd => by
    obtain ⟨a, b⟩ := subCall hg h op hw (hd _ (by simp [vectorCalls]))
    obtain ⟨c, d⟩ := subCalls hg ops _ _ b ho fun r hr => hd r (by simp [vectorCalls, hr])
    exact ⟨by simp only [arrayCalls, vectorCalls, a, c], d⟩

/-- C87, where it holds: a history of calls without undefined behaviour gives the same results with a reserve as without it, as long as there is place in the reserve,
single entries are those of the list, and `back`, `empty` and the loop backwards are called on a full list. -/
theorem C87_same_partial (R : Nat) (garbage : List Idx) (hg : garbage.length = R) (ops : List SubOp) (h : SubHistory R [] ops)
    (hd : ∀ r ∈ (vectorCalls [] ops).2, r ≠ .ub) : (arrayCalls (SubCont.fresh (R := R) garbage) ops).2 = (vectorCalls [] ops).2 :=
  (subCalls hg ops _ _ ⟨rfl, Nat.zero_le _, rfl⟩ h hd).1

/-- C87, false of the code otherwise: after such a history any other call shows the reserve, for some content of the memory of a new container. -/
theorem C87_observable_violated (R : Nat) (ops : List SubOp) (h : SubHistory R [] ops) (hd : ∀ r ∈ (vectorCalls [] ops).2, r ≠ .ub) (op : SubOp)
    (hw : ¬ SubWithin R (vectorCalls [] ops).1 op) (ho : (vectorCall (vectorCalls [] ops).1 op).2 ≠ .ub) :
    ∃ garbage : List Idx, garbage.length = R ∧
      (arrayCall (arrayCalls (SubCont.fresh (R := R) garbage) ops).1 op).2 ≠ (vectorCall (vectorCalls [] ops).1 op).2 := by
  generalize hl : (vectorCalls [] ops).1 = l at hw ho
  have key : ∀ g : List Idx, g.length = R → SubRel g (arrayCalls (SubCont.fresh (R := R) g) ops).1 l := fun g hg => by
    rw [← hl]
    exact (subCalls hg ops _ _ ⟨rfl, Nat.zero_le _, rfl⟩ h hd).2
  have g0 : (List.replicate R 0 : List Idx).length = R := by simp
  have k0 := key _ g0
  have hs0 := subRel_length g0 k0
  cases op with
  | add x =>
    refine ⟨_, g0, ?_⟩
    have hw : ¬ l.length < R := hw
    simp only [arrayCall, vectorCall, SubCont.addSubelement]
    rw [if_neg (by rw [k0.n]; exact hw)]
    simp
  | size => exact absurd trivial hw
  | get i =>
    refine ⟨_, g0, ?_⟩
    simp only [SubWithin, not_or, Nat.not_lt, Nat.not_le] at hw
    simp only [arrayCall, vectorCall, SubCont.at', Res.at']
    rw [List.getElem?_eq_getElem (by omega), List.getElem?_eq_none hw.1]
    simp [SubOut.ofNum, Res.bind]
  | set i x =>
    refine ⟨_, g0, ?_⟩
    simp only [SubWithin, not_or, Nat.not_lt, Nat.not_le] at hw
    simp only [arrayCall, vectorCall, SubCont.at', Res.at']
    rw [List.getElem?_eq_getElem (by omega), List.getElem?_eq_none hw.1]
    simp [Res.bind]
  | idx i =>
    refine absurd ?_ ho
    simp only [SubWithin, Nat.not_lt] at hw
    simp only [vectorCall, Res.idx]
    rw [List.getElem?_eq_none hw]
    rfl
  | front =>
    refine absurd ?_ ho
    simp only [SubWithin, ne_eq, Classical.not_not] at hw
    subst hw
    rfl
  | back =>
    have hw : l.length ≠ R := hw
    have hle := k0.le
    have hne : l ≠ [] := by rintro rfl; exact ho rfl
    have hpos := List.length_pos_iff.mpr hne
    have gl : (List.replicate R (l[l.length - 1] + 1) : List Idx).length = R := by simp
    refine ⟨_, gl, ?_⟩
    have k := key _ gl
    have hs := subRel_length gl k
    simp only [arrayCall, vectorCall]
    rw [if_neg (by omega), if_neg hne]
    simp only [Res.idx, k.store]
    rw [List.getElem?_append_right (by omega), List.getElem?_drop, List.getElem?_replicate, if_pos (by omega), List.getElem?_eq_getElem (by omega)]
    simp [SubOut.ofNum, Res.bind]
  | iterate => exact absurd trivial hw
  | reverse =>
    have hw : l.length ≠ R := hw
    refine ⟨_, g0, ?_⟩
    simp only [arrayCall, vectorCall, ne_eq, Res.ok.injEq, SubOut.list.injEq, List.reverse_inj]
    intro e
    rw [e] at hs0
    exact hw hs0
  | empty =>
    refine ⟨_, g0, ?_⟩
    simp only [SubWithin, not_or, ne_eq, Classical.not_not] at hw
    obtain ⟨rfl, hR⟩ := hw
    simp [arrayCall, vectorCall, hR]

/-- C87, in particular: a container with a reserve is never `empty()`, whatever the calls before. -/
theorem C87_never_empty_violated (R : Nat) (hR : 0 < R) (s : SubCont R) : (arrayCall s .empty).2 = .ok (.bool false) := by
  simp [arrayCall]; omega

example : SubHistory 4 [] [.iterate, .add 7, .add 8, .set 0 5, .get 0, .front, .empty, .get 4, .add 9, .add 9, .back, .reverse] ∧
    (vectorCalls [] [.iterate, .add 7, .add 8, .set 0 5, .get 0, .front, .empty, .get 4, .add 9, .add 9, .back, .reverse]).2.getLast? =
      some (.ok (.list [9, 9, 8, 5])) := by
  constructor
  · simp [SubHistory, SubWithin, vectorCall]
  · rfl

example : ∃ garbage : List Idx, garbage.length = 4 ∧
    (arrayCall (arrayCalls (SubCont.fresh (R := 4) garbage) [.add 7, .add 8]).1 .back).2 ≠ .ok (.num 8) := by
  have := C87_observable_violated 4 [.add 7, .add 8] (by simp [SubHistory, SubWithin, vectorCall]) (by simp [vectorCalls, vectorCall]) .back
    (by simp [SubWithin, vectorCalls, vectorCall]) (by decide)
  exact this

end GTMesh.Props
