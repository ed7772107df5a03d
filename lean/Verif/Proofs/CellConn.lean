import Verif.Model.CellConn
import Verif.Spec.CellConn
import Verif.Proofs.Lists

namespace GTMesh

open Spec

theorem runCells_spec (h : List Idx) :
    (({} : Conn).runCells h) = { left := (validOnly h)[0]?.getD INVALID,
                                 right := (validOnly h)[1]?.getD INVALID } := by
  have key : ∀ (l : List Idx), (({} : Conn).runCells l.reverse) =
      { left := (validOnly l.reverse)[0]?.getD INVALID,
        right := (validOnly l.reverse)[1]?.getD INVALID } := by
    intro l
    induction l with
    | nil => rfl
    | cons x xs ih =>
      simp only [List.reverse_cons, Conn.runCells, List.foldl_append, List.foldl_cons, List.foldl_nil]
      unfold Conn.runCells at ih
      rw [ih]
      have hv : ∀ y ∈ validOnly xs.reverse, y ≠ INVALID := by
        intro y hy; simpa [validOnly] using (List.mem_filter.mp hy).2
      have happ : validOnly (xs.reverse ++ [x]) =
          validOnly xs.reverse ++ (if x = INVALID then [] else [x]) := by
        unfold validOnly
        rw [List.filter_append]
        congr 1
        by_cases hx : x = INVALID <;> simp [hx]
      rw [happ]
      generalize validOnly xs.reverse = v at hv
      by_cases hx : x = INVALID
      · simp [hx, Conn.setCellIndex]
      · match v with
        | [] => simp [hx, Conn.setCellIndex, Conn.setCellLeftIndex]
        | [a] =>
          have := hv a (by simp)
          simp [hx, Conn.setCellIndex, this, Conn.setCellRightIndex]
        | a :: b :: t =>
          have h1 := hv a (by simp)
          have h2 := hv b (by simp)
          simp [hx, Conn.setCellIndex, h1, h2]
  simpa using key h.reverse

theorem lastFor_append (h : List (Idx × Idx)) (p : Idx × Idx) (c : Idx) :
    lastFor (h ++ [p]) c = if p.2 = c then some p.1 else lastFor h c := by
  unfold lastFor
  rw [List.filter_append]
  by_cases hp : p.2 = c
  · simp [hp]
  · simp [hp]

theorem mem_registered_ne {h : List (Idx × Idx)} {c : Idx} (hc : c ∈ registered h) : c ≠ INVALID := by
  have := mem_firstOcc.mp (List.mem_of_mem_take hc)
  simpa using (List.mem_filter.mp this).2

theorem registered_noRep (h : List (Idx × Idx)) : NoRepetition (registered h) :=
  List.Pairwise.sublist (List.take_sublist _ _) (firstOcc_noRep _)

theorem registered_append (h : List (Idx × Idx)) (p : Idx × Idx) :
    registered (h ++ [p]) =
      if p.2 = INVALID ∨ p.2 ∈ registered h ∨ (registered h).length = 2 then registered h
      else registered h ++ [p.2] := by
  unfold registered
  simp only [List.map_append, List.map_cons, List.map_nil]
  have happ : validOnly (h.map (·.2) ++ [p.2]) =
      validOnly (h.map (·.2)) ++ (if p.2 = INVALID then [] else [p.2]) := by
    unfold validOnly
    rw [List.filter_append]
    congr 1
    by_cases hx : p.2 = INVALID <;> simp [hx]
  rw [happ]
  generalize validOnly (h.map (·.2)) = v
  by_cases hx : p.2 = INVALID
  · simp [hx]
  · simp only [hx, if_false, false_or, firstOcc_append_singleton]
    have hm : p.2 ∈ v ↔ p.2 ∈ firstOcc v := mem_firstOcc.symm
    by_cases hv : p.2 ∈ v
    · simp only [hv, if_true]
      split
      · rfl
      · next hn =>
        exfalso
        apply hn
        rw [hm] at hv
        match hf : firstOcc v, hv with
        | [a], hv => left; simpa using hv
        | [a, b], hv => right; simp
        | a :: b :: c :: t, hv => right; simp
    · simp only [hv, if_false]
      rw [hm] at hv
      match hf : firstOcc v with
      | [] => simp
      | [a] => rw [hf] at hv; simp at hv; simp [hv]
      | a :: b :: t => simp

theorem runNext_spec (h : List (Idx × Idx)) :
    (({} : Conn).runNext h) =
      { left := (registered h)[0]?.getD INVALID,
        right := (registered h)[1]?.getD INVALID,
        nextL := ((registered h)[0]?.bind (lastFor h)).getD INVALID,
        nextR := ((registered h)[1]?.bind (lastFor h)).getD INVALID } := by
  have key : ∀ (l : List (Idx × Idx)), (({} : Conn).runNext l.reverse) =
      { left := (registered l.reverse)[0]?.getD INVALID,
        right := (registered l.reverse)[1]?.getD INVALID,
        nextL := ((registered l.reverse)[0]?.bind (lastFor l.reverse)).getD INVALID,
        nextR := ((registered l.reverse)[1]?.bind (lastFor l.reverse)).getD INVALID } := by
    intro l
    induction l with
    | nil => rfl
    | cons p ps ih =>
      simp only [List.reverse_cons, Conn.runNext, List.foldl_append, List.foldl_cons, List.foldl_nil]
      unfold Conn.runNext at ih
      rw [ih]
      have hne : ∀ c ∈ registered ps.reverse, c ≠ INVALID := fun c hc => mem_registered_ne hc
      have hnr := registered_noRep ps.reverse
      have hlen : (registered ps.reverse).length ≤ 2 := by
        unfold registered; simp [List.length_take]; omega
      have hra := registered_append ps.reverse p
      have hla := lastFor_append ps.reverse p
      have hla' : lastFor (ps.reverse ++ [p]) = fun c => if p.2 = c then some p.1 else lastFor ps.reverse c := by
        funext c; exact hla c
      rw [hra, hla']
      obtain ⟨n, c⟩ := p
      simp only at *
      generalize lastFor ps.reverse = lf
      generalize registered ps.reverse = r at hne hnr hlen
      match r with
      | [] =>
        by_cases hc : c = INVALID
        · subst hc; simp [Conn.setNextBElem]
        · have : ¬ INVALID = c := fun h => hc h.symm
          simp [hc, this, Conn.setNextBElem, Conn.setCellLeftIndex, Conn.setNextBElemWRTCL]
      | [a] =>
        have ha := hne a (by simp)
        have ha' : ¬ INVALID = a := fun h => ha h.symm
        by_cases hc : c = INVALID
        · subst hc; simp [Conn.setNextBElem, ha']
        · have hc' : ¬ INVALID = c := fun h => hc h.symm
          by_cases hac : a = c
          · subst hac; simp [Conn.setNextBElem, ha, Conn.setNextBElemWRTCL]
          · have hca : ¬ c = a := fun h => hac h.symm
            simp [Conn.setNextBElem, hc, hc', hac, hca, ha, Conn.setCellRightIndex, Conn.setNextBElemWRTCR]
      | [a, b] =>
        have ha := hne a (by simp)
        have hb := hne b (by simp)
        have hab : a ≠ b := by have := List.pairwise_cons.mp hnr; exact this.1 b (by simp)
        have ha' : ¬ INVALID = a := fun h => ha h.symm
        have hb' : ¬ INVALID = b := fun h => hb h.symm
        by_cases hc : c = INVALID
        · subst hc; simp [Conn.setNextBElem, ha', hb']
        · by_cases hac : a = c
          · subst hac; simp [Conn.setNextBElem, ha, Conn.setNextBElemWRTCL, hab]
          · have hca : ¬ c = a := fun h => hac h.symm
            by_cases hbc : b = c
            · subst hbc; simp [Conn.setNextBElem, hb, hac, Conn.setNextBElemWRTCR, hca]
            · have hcb : ¬ c = b := fun h => hbc h.symm
              simp [Conn.setNextBElem, hc, hac, hca, hbc, hcb, ha, hb]
      | a :: b :: d :: t => simp at hlen
  simpa using key h.reverse

theorem lastFor_isSome_of_registered {h : List (Idx × Idx)} {c : Idx} (hc : c ∈ registered h) :
    ∃ n, lastFor h c = some n := by
  have h1 := mem_firstOcc.mp (List.mem_of_mem_take hc)
  have h2 := (List.mem_filter.mp h1).1
  obtain ⟨p, hp, rfl⟩ := List.mem_map.mp h2
  unfold lastFor
  have : p ∈ h.filter (fun q => decide (q.2 = p.2)) := List.mem_filter.mpr ⟨hp, by simp⟩
  cases hl : (h.filter (fun q => decide (q.2 = p.2))).getLast? with
  | none => rw [List.getLast?_eq_none_iff] at hl; rw [hl] at this; simp at this
  | some q => exact ⟨q.1, rfl⟩

theorem getNext_runNext (h : List (Idx × Idx)) (c : Idx) :
    (({} : Conn).runNext h).getNextBElem c =
      if c ∈ registered h then
        match lastFor h c with
        | some n => .ok n
        | none => .throw .runtimeError
      else .throw .runtimeError := by
  rw [runNext_spec]
  have hne : ∀ c ∈ registered h, c ≠ INVALID := fun c hc => mem_registered_ne hc
  have hnr := registered_noRep h
  have hls : ∀ c ∈ registered h, ∃ n, lastFor h c = some n := fun c hc => lastFor_isSome_of_registered hc
  have hlen : (registered h).length ≤ 2 := by unfold registered; simp [List.length_take]; omega
  generalize registered h = r at *
  generalize lastFor h = lf at *
  by_cases hc : c = INVALID
  · have : c ∉ r := fun hm => hne c hm hc
    simp [Conn.getNextBElem, hc] ; intro h; exact absurd (hc ▸ h) this
  · match r with
    | [] => simp [Conn.getNextBElem, hc]
    | [a] =>
      obtain ⟨n, hn⟩ := hls a (by simp)
      by_cases hca : c = a
      · subst hca; simp [Conn.getNextBElem, hc, hn]
      · simp [Conn.getNextBElem, hc, hca]
    | [a, b] =>
      obtain ⟨n, hn⟩ := hls a (by simp)
      obtain ⟨m, hm⟩ := hls b (by simp)
      have hab : a ≠ b := by have := List.pairwise_cons.mp hnr; exact this.1 b (by simp)
      by_cases hcb : c = b
      · subst hcb; simp [Conn.getNextBElem, hc, hm]
      · by_cases hca : c = a
        · subst hca; simp [Conn.getNextBElem, hc, hcb, hn]
        · simp [Conn.getNextBElem, hc, hca, hcb]
    | a :: b :: d :: t => simp at hlen

end GTMesh
