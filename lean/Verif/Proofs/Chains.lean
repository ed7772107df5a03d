import Verif.Proofs.EdgeTable
import Verif.Proofs.Apply
import Verif.Proofs.CellConn
import Verif.Proofs.Lists

/-! Closed chains of faces built from lists of faces per cell. -/

namespace GTMesh
open Spec

/-- The pairs of neighbors in a list, the last one being paired with `first`. -/
def pairsFrom (first : Idx) : List Idx → List (Idx × Idx)
  | [] => []
  | [x] => [(x, first)]
  | x :: y :: r => (x, y) :: pairsFrom first (y :: r)

theorem pairsFrom_length (first : Idx) : ∀ l, (pairsFrom first l).length = l.length
  | [] => rfl
  | [_] => rfl
  | _ :: y :: r => by simp [pairsFrom, pairsFrom_length first (y :: r)]

theorem pairsFrom_get (first : Idx) : ∀ (l : List Idx) (j : Nat) (h : j < l.length),
    (pairsFrom first l)[j]? = some (l[j], if h' : j + 1 < l.length then l[j + 1] else first)
  | [], j, h => by simp at h
  | [x], j, h => by
    have : j = 0 := by simpa using h
    subst this; simp [pairsFrom]
  | x :: y :: r, 0, h => by simp [pairsFrom]
  | x :: y :: r, j + 1, h => by
    simp only [pairsFrom, List.getElem?_cons_succ]
    rw [pairsFrom_get first (y :: r) j (by simpa using h)]
    by_cases h' : j + 1 < (y :: r).length
    · have h2 : j + 1 + 1 < (x :: y :: r).length := by simpa using h'
      rw [dif_pos h', dif_pos h2]; simp
    · have h2 : ¬ j + 1 + 1 < (x :: y :: r).length := by simpa using h'
      rw [dif_neg h', dif_neg h2]; simp

theorem consecutive_eq_pairsFrom (f : Idx) (rest : List Idx) :
    consecutive (f :: rest) = pairsFrom f (f :: rest) := by
  apply List.ext_getElem?
  intro j
  by_cases h : j < (f :: rest).length
  · rw [pairsFrom_get f _ j h]
    obtain ⟨u, v, h1, h2, h3⟩ := consecutive_get (f :: rest) j h
    rw [h1]
    rw [cyc, Nat.mod_eq_of_lt h, List.getElem?_eq_getElem h] at h2
    have h2' := Option.some.inj h2
    by_cases h' : j + 1 < (f :: rest).length
    · rw [cyc, Nat.mod_eq_of_lt h', List.getElem?_eq_getElem h'] at h3
      rw [dif_pos h', h2', Option.some.inj h3]
    · have : j + 1 = (f :: rest).length := by omega
      rw [cyc, this, Nat.mod_self] at h3
      simp only [List.getElem?_cons_zero, Option.some.injEq] at h3
      rw [dif_neg h', h2', h3]
  · rw [List.getElem?_eq_none (by simpa [consecutive_length] using h),
      List.getElem?_eq_none (by rw [pairsFrom_length]; omega)]

theorem consecutive_map_fst (l : List Idx) : (consecutive l).map (·.1) = l := by
  apply List.ext_getElem?
  intro j
  by_cases h : j < l.length
  · obtain ⟨u, v, h1, h2, h3⟩ := consecutive_get l j h
    rw [List.getElem?_map, h1]
    rw [cyc, Nat.mod_eq_of_lt h] at h2
    simp [h2]
  · rw [List.getElem?_eq_none (by simpa [consecutive_length] using h), List.getElem?_eq_none (by omega)]

theorem filter_fst_singleton {β : Type} {ps : List (Idx × β)} (h : NoRepetition (ps.map (·.1))) {f : Idx} {g : β}
    (hm : (f, g) ∈ ps) : ps.filter (fun p => decide (p.1 = f)) = [(f, g)] := by
  induction ps with
  | nil => simp at hm
  | cons p ps ih =>
    have h' := List.pairwise_cons.mp h
    by_cases hp : p = (f, g)
    · subst hp
      simp only [List.filter_cons, decide_true, if_true]
      congr 1
      rw [List.filter_eq_nil_iff]
      intro a ha
      have := h'.1 a.1 (List.mem_map_of_mem ha)
      simpa using fun hh => this hh.symm
    · have hm' : (f, g) ∈ ps := by
        rcases List.mem_cons.mp hm with h | h
        · exact absurd h.symm hp
        · exact h
      have hne : p.1 ≠ f := h'.1 f (List.mem_map.mpr ⟨(f, g), hm', rfl⟩)
      simp only [List.filter_cons, hne, decide_false]
      exact ih h'.2 hm'

/-- The successor of `f` in the closed chain `l`. -/
theorem consecutive_filter {l : List Idx} (hn : NoRepetition l) {j : Nat} {f g : Idx} (hj : j < l.length)
    (hf : cyc l j = some f) (hg : cyc l (j + 1) = some g) :
    (consecutive l).filter (fun p => decide (p.1 = f)) = [(f, g)] := by
  apply filter_fst_singleton
  · rw [consecutive_map_fst]; exact hn
  · obtain ⟨u, v, h1, h2, h3⟩ := consecutive_get l j hj
    rw [hf] at h2; rw [hg] at h3
    have e1 := Option.some.inj h2
    have e2 := Option.some.inj h3
    subst e1 e2
    exact List.mem_of_getElem? h1

theorem consecutive_filter_nil {l : List Idx} {f : Idx} (h : f ∉ l) :
    (consecutive l).filter (fun p => decide (p.1 = f)) = [] := by
  rw [List.filter_eq_nil_iff]
  intro p hp hh
  have : p.1 ∈ (consecutive l).map (·.1) := List.mem_map_of_mem hp
  rw [consecutive_map_fst] at this
  simp only [decide_eq_true_eq] at hh
  exact h (hh ▸ this)

/-- The calls `face f: setNextBElem(g, cell)` for the lists of faces of cells number `k, k+1, ...`. -/
def chainCalls : Nat → List (List Idx) → List (Idx × Idx × Idx)
  | _, [] => []
  | k, l :: ls => ((consecutive l).map fun p => (p.1, p.2, k)) ++ chainCalls (k + 1) ls

/-- The calls concerning face `f`. -/
def histOf (f : Idx) (calls : List (Idx × Idx × Idx)) : List (Idx × Idx) :=
  (calls.filter fun p => decide (p.1 = f)).map (·.2)

theorem histOf_append (f : Idx) (a b : List (Idx × Idx × Idx)) : histOf f (a ++ b) = histOf f a ++ histOf f b := by
  simp [histOf]

theorem histOf_cell (f : Idx) (l : List Idx) (k : Nat) :
    histOf f ((consecutive l).map fun p => (p.1, p.2, k)) =
      ((consecutive l).filter fun p => decide (p.1 = f)).map fun p => (p.2, k) := by
  simp only [histOf, List.filter_map, List.map_map]
  rfl

/-- Cells mentioned in the calls of face `f`: those that list it, once each. -/
theorem histOf_cells (f : Idx) : ∀ (ls : List (List Idx)) (k : Nat), (∀ l ∈ ls, NoRepetition l) →
    ((histOf f (chainCalls k ls)).map (·.2)).length = (ls.filter fun l => decide (f ∈ l)).length ∧
    (∀ c ∈ (histOf f (chainCalls k ls)).map (·.2), k ≤ c ∧ c < k + ls.length) ∧
    (∀ (c : Nat) l, ls[c]? = some l → f ∈ l → k + c ∈ (histOf f (chainCalls k ls)).map (·.2)) := by
  intro ls
  induction ls with
  | nil => intro k _; simp [chainCalls, histOf]
  | cons l ls ih =>
    intro k hn
    obtain ⟨h1, h2, h3⟩ := ih (k + 1) fun l hl => hn l (by simp [hl])
    simp only [chainCalls, histOf_append, histOf_cell, List.map_append, List.length_append, List.mem_append]
    by_cases hf : f ∈ l
    · obtain ⟨j, hj, hjf⟩ := List.mem_iff_getElem.mp hf
      obtain ⟨u, v, hu1, hu2, hu3⟩ := consecutive_get l j hj
      have hu : u = f := by
        rw [cyc, Nat.mod_eq_of_lt hj, List.getElem?_eq_getElem hj] at hu2
        rw [← hjf]; exact (Option.some.inj hu2).symm
      subst hu
      rw [consecutive_filter (hn l (by simp)) hj hu2 hu3]
      refine ⟨?_, ?_, ?_⟩
      · simp [hf, h1]; omega
      · rintro c (hc | hc)
        · simp at hc; subst hc; simp
        · have := h2 c hc; simp; omega
      · intro c l' hl' hfl'
        cases c with
        | zero => left; simp
        | succ c =>
          right
          have := h3 c l' (by simpa using hl') hfl'
          rwa [show k + (c + 1) = k + 1 + c by omega]
    · rw [consecutive_filter_nil hf]
      refine ⟨?_, ?_, ?_⟩
      · simp [hf, h1]
      · rintro c (hc | hc)
        · simp at hc
        · have := h2 c hc; simp; omega
      · intro c l' hl' hfl'
        cases c with
        | zero => simp at hl'; subst hl'; exact absurd hfl' hf
        | succ c =>
          right
          have := h3 c l' (by simpa using hl') hfl'
          rwa [show k + (c + 1) = k + 1 + c by omega]

/-- The calls of face `f` for cell `k + c`. -/
theorem histOf_filter (f : Idx) : ∀ (ls : List (List Idx)) (k c : Nat) (l : List Idx), ls[c]? = some l →
    (histOf f (chainCalls k ls)).filter (fun p => decide (p.2 = k + c)) =
      ((consecutive l).filter fun p => decide (p.1 = f)).map fun p => (p.2, k + c) := by
  have key : ∀ (ls : List (List Idx)) (k c : Nat), c < k →
      (histOf f (chainCalls k ls)).filter (fun p => decide (p.2 = c)) = [] := by
    intro ls
    induction ls with
    | nil => intro k c h; simp [chainCalls, histOf]
    | cons l ls ih =>
      intro k c h
      simp only [chainCalls, histOf_append, histOf_cell, List.filter_append, ih (k + 1) c (by omega), List.append_nil]
      rw [List.filter_eq_nil_iff]
      intro p hp
      simp only [List.mem_map] at hp
      obtain ⟨q, _, rfl⟩ := hp
      simp; omega
  intro ls
  induction ls with
  | nil => intro k c l h; simp at h
  | cons l ls ih =>
    intro k c l' h
    simp only [chainCalls, histOf_append, histOf_cell, List.filter_append]
    cases c with
    | zero =>
      simp only [List.getElem?_cons_zero, Option.some.injEq] at h
      subst h
      rw [key ls (k + 1) (k + 0) (by omega), List.append_nil]
      simp only [Nat.add_zero]
      rw [List.filter_eq_self]
      · intro p hp
        simp only [List.mem_map] at hp
        obtain ⟨q, _, rfl⟩ := hp
        simp
    | succ c =>
      have : (((consecutive l).filter fun p => decide (p.1 = f)).map fun p => (p.2, k)).filter
          (fun p => decide (p.2 = k + (c + 1))) = [] := by
        rw [List.filter_eq_nil_iff]
        intro p hp
        simp only [List.mem_map] at hp
        obtain ⟨q, _, rfl⟩ := hp
        simp
      rw [this, List.nil_append]
      have := ih (k + 1) c l' (by simpa using h)
      rw [show k + 1 + c = k + (c + 1) by omega] at this
      exact this

theorem firstOcc_length_le {α : Type u} [DecidableEq α] (l : List α) : (firstOcc l).length ≤ l.length := by
  induction l with
  | nil => simp
  | cons x xs ih =>
    simp only [firstOcc, List.length_cons]
    have := List.length_filter_le (fun y => decide (y ≠ x)) (firstOcc xs)
    omega

/-- After all calls, the face leads from `f` to its successor in the list of cell `c`, when at most two cells
list it. -/
theorem chainCalls_next {ls : List (List Idx)} (hn : ∀ l ∈ ls, NoRepetition l) (hlen : ls.length ≤ INVALID)
    {f : Idx} (htwo : (ls.filter fun l => decide (f ∈ l)).length ≤ 2) {c j : Nat} {l : List Idx} {g : Idx}
    (hl : ls[c]? = some l) (hj : j < l.length) (hf : cyc l j = some f) (hg : cyc l (j + 1) = some g) :
    (({} : Conn).runNext (histOf f (chainCalls 0 ls))).getNextBElem c = .ok g := by
  obtain ⟨h1, h2, h3⟩ := histOf_cells f ls 0 hn
  have hfl : f ∈ l := by
    rw [cyc, Nat.mod_eq_of_lt hj] at hf
    exact List.mem_of_getElem? hf
  have hc := h3 c l hl hfl
  rw [Nat.zero_add] at hc
  have hclt : c < ls.length := (List.getElem?_eq_some_iff.mp hl).1
  have hreg : c ∈ registered (histOf f (chainCalls 0 ls)) := by
    unfold registered
    rw [List.take_of_length_le]
    · rw [mem_firstOcc]
      unfold validOnly
      rw [List.mem_filter]
      refine ⟨hc, ?_⟩
      have : c ≠ INVALID := by omega
      simpa using this
    · refine Nat.le_trans (firstOcc_length_le _) ?_
      refine Nat.le_trans (List.length_filter_le _ _) ?_
      omega
  rw [getNext_runNext, if_pos hreg]
  have hlast : lastFor (histOf f (chainCalls 0 ls)) c = some g := by
    unfold lastFor
    have := histOf_filter f ls 0 c l hl
    rw [Nat.zero_add] at this
    rw [this, consecutive_filter (hn l (List.mem_of_getElem? hl)) hj hf hg]
    simp
  rw [hlast]

end GTMesh
