import Verif.Spec.Lists

namespace GTMesh.Spec

variable {α : Type u} [DecidableEq α]

@[simp] theorem firstOcc_nil : firstOcc ([] : List α) = [] := rfl

theorem mem_firstOcc {l : List α} {x : α} : x ∈ firstOcc l ↔ x ∈ l := by
  induction l with
  | nil => simp
  | cons y ys ih =>
    simp only [firstOcc, List.mem_cons, List.mem_filter, ih, decide_eq_true_eq]
    by_cases h : x = y <;> simp [h]

theorem firstOcc_noRep (l : List α) : NoRepetition (firstOcc l) := by
  induction l with
  | nil => exact List.Pairwise.nil
  | cons y ys ih =>
    refine List.Pairwise.cons ?_ (List.Pairwise.filter _ ih)
    intro a ha
    simp only [List.mem_filter, decide_eq_true_eq] at ha
    exact fun h => ha.2 h.symm

theorem firstOcc_append_mem {l : List α} {x : α} (h : x ∈ l) : firstOcc (l ++ [x]) = firstOcc l := by
  induction l with
  | nil => simp at h
  | cons y ys ih =>
    simp only [List.cons_append, firstOcc]
    by_cases hx : x ∈ ys
    · rw [ih hx]
    · have hxy : x = y := by simpa [hx] using h
      subst hxy
      congr 1
      clear ih h
      have : ∀ zs : List α, x ∉ zs →
          (firstOcc (zs ++ [x])).filter (fun y => decide (y ≠ x))
          = (firstOcc zs).filter (fun y => decide (y ≠ x)) := by
        intro zs
        induction zs with
        | nil => simp [firstOcc]
        | cons z zs ih2 =>
          intro hz
          simp only [List.mem_cons, not_or] at hz
          simp only [List.cons_append, firstOcc]
          have hzx : z ≠ x := fun h => hz.1 h.symm
          simp only [List.filter_cons, hzx, ne_eq, not_false_eq_true, decide_true, if_true]
          congr 1
          rw [List.filter_filter, List.filter_filter]
          have := ih2 hz.2
          have h2 := congrArg (List.filter (fun y => decide (y ≠ z))) this
          rw [List.filter_filter, List.filter_filter] at h2
          simpa [Bool.and_comm] using h2
      exact this ys hx

theorem firstOcc_append_not_mem {l : List α} {x : α} (h : x ∉ l) :
    firstOcc (l ++ [x]) = firstOcc l ++ [x] := by
  induction l with
  | nil => simp [firstOcc]
  | cons y ys ih =>
    simp only [List.mem_cons, not_or] at h
    simp only [List.cons_append, firstOcc, ih h.2, List.filter_append]
    simp [h.1]

theorem firstOcc_append_singleton (l : List α) (x : α) :
    firstOcc (l ++ [x]) = if x ∈ l then firstOcc l else firstOcc l ++ [x] := by
  split
  · exact firstOcc_append_mem ‹_›
  · exact firstOcc_append_not_mem ‹_›

theorem firstOcc_eq_nil {l : List α} : firstOcc l = [] ↔ l = [] := by
  cases l <;> simp [firstOcc]

theorem firstOcc_of_noRep {l : List α} (h : NoRepetition l) : firstOcc l = l := by
  induction l with
  | nil => rfl
  | cons x xs ih =>
    have h' := List.pairwise_cons.mp h
    simp only [firstOcc, ih h'.2]
    congr 1
    apply List.filter_eq_self.mpr
    intro a ha
    simpa using (h'.1 a ha).symm

end GTMesh.Spec
