import Verif.Proofs.ColorLoop
import Verif.Props.Coloring
import Verif.Props.Apply

/-! # C78: elements of one color may be processed at the same time -/

namespace GTMesh.Props
open GTMesh GTMesh.Spec Std' GTMesh.ColorLoop

variable {V L D : Type}

/-- `colors` is a result of one of the two colorings. -/
def IsColoring (m : Mesh V) (S C : Nat) (colors : List Nat) : Prop :=
  m.colorGreedy S C = .ok colors ∨ ∃ draw : Nat → Nat → Nat, (∀ i n, draw i n ≤ n) ∧ m.colorRandom S C draw = .ok colors

/-- What the row `i` of the connections says. -/
def entries (conn : List (List Idx)) (i : Nat) : List Idx := conn[i]?.getD []

/-- The processing of every element reads and writes only entries of the elements connected with it. -/
def Local (P : Body L D) (conn : List (List Idx)) : Prop :=
  ∀ i l, (∀ c f, P i l = some (.read c f) → c ∈ entries conn i) ∧ ∀ c v l', P i l = some (.write c v l') → c ∈ entries conn i

private theorem coloring_proper {m : Mesh V} {bd : Idx → List Idx} (hv : ValidMesh m bd) {S C : Nat} (hS : S ≤ m.dim) (hC : C ≤ m.dim)
    {colors : List Nat} (h : IsColoring m S C colors) : colors.length = m.numElems S ∧ ProperColoring m bd S C colors := by
  rcases h with h | ⟨draw, hd, h⟩
  · obtain ⟨c, h1, h2, h3⟩ := C14_greedy_proper m bd hv S C hS hC
    rw [h] at h1; cases h1; exact ⟨h2, h3⟩
  · rcases Nat.eq_zero_or_pos (m.numElems S) with h0 | h0
    · rw [C16_empty_is_ub m bd hv S C hS hC draw h0] at h; cases h
    · obtain ⟨_, c, _, h1, h2, h3, _⟩ := C16_random_proper m bd hv S C hS hC draw hd h0
      rw [h] at h1; cases h1; exact ⟨h2, h3⟩

private theorem mem_entries {m : Mesh V} {bd : Idx → List Idx} (hv : ValidMesh m bd) {S C : Nat} (hS : S ≤ m.dim) (hC : C ≤ m.dim)
    {conn : List (List Idx)} (hc : m.connectionsAsc S C = .ok conn) (i : Nat) (hi : i < m.numElems S) :
    (entries conn i).Nodup ∧ ∀ c, c ∈ entries conn i ↔ (c < m.numElems C ∧ Incident m bd S C i c) := by
  obtain ⟨r, r1, r2, r3⟩ := C11_ascending m bd hv S C hS hC
  rw [hc] at r1; cases r1
  have h : conn[i]? = some (entries conn i) := by simp [entries, show i < conn.length by omega]
  refine ⟨?_, (r3 i _ h).2⟩
  exact ((r3 i _ h).1).imp fun h => Nat.ne_of_lt h

/-- C78. No two elements of one color are connected with the same element. -/
theorem C78_no_race (m : Mesh V) (bd : Idx → List Idx) (hv : ValidMesh m bd) (S C : Nat) (hS : S ≤ m.dim) (hC : C ≤ m.dim)
    (colors : List Nat) (hcol : IsColoring m S C colors) (conn : List (List Idx)) (hc : m.connectionsAsc S C = .ok conn)
    (i j k : Nat) (hi : colors[i]? = some k) (hj : colors[j]? = some k) (hij : i ≠ j) (c : Idx) (h : c ∈ entries conn i) :
    c ∉ entries conn j := by
  obtain ⟨h1, h2⟩ := coloring_proper hv hS hC hcol
  have hi' : i < m.numElems S := by have := (List.getElem?_eq_some_iff.mp hi).1; omega
  have hj' : j < m.numElems S := by have := (List.getElem?_eq_some_iff.mp hj).1; omega
  intro h'
  have a := ((mem_entries hv hS hC hc i hi').2 c).mp h
  have b := ((mem_entries hv hS hC hc j hj').2 c).mp h'
  exact h2 i j k hi' hj' hij ⟨c, a.1, a.2, (incident_comm ..).mp b.2⟩ hi hj

private theorem apart (m : Mesh V) (bd : Idx → List Idx) (hv : ValidMesh m bd) (S C : Nat) (hS : S ≤ m.dim) (hC : C ≤ m.dim)
    (colors : List Nat) (hcol : IsColoring m S C colors) (conn : List (List Idx)) (hc : m.connectionsAsc S C = .ok conn)
    (P : Body L D) (hP : Local P conn) (k : Nat) : Apart P (fun i => colors[i]? = some k) (entries conn) :=
  ⟨fun i _ => ⟨fun l c f h => (hP i l).1 c f h, fun l c v l' h => (hP i l).2 c v l' h⟩,
    fun i j hi hj hij c h => C78_no_race m bd hv S C hS hC colors hcol conn hc i j k hi hj hij c h⟩

/-- C78. Whatever the order of the steps of the elements of one color, the entries (and the local variables) at the end are the same. -/
theorem C78_schedules (m : Mesh V) (bd : Idx → List Idx) (hv : ValidMesh m bd) (S C : Nat) (hS : S ≤ m.dim) (hC : C ≤ m.dim)
    (colors : List Nat) (hcol : IsColoring m S C colors) (conn : List (List Idx)) (hc : m.connectionsAsc S C = .ok conn)
    (P : Body L D) (hP : Local P conn) (k : Nat) (s : State L D) (a b : List Nat)
    (ha : ∀ i ∈ a, colors[i]? = some k) (hb : ∀ i ∈ b, colors[i]? = some k)
    (da : ∀ i, colors[i]? = some k → Done P i (run P a s)) (db : ∀ i, colors[i]? = some k → Done P i (run P b s)) :
    run P a s = run P b s :=
  complete_same (apart m bd hv S C hS hC colors hcol conn hc P hP k) s a b ha hb da db

/-- C78. An element that would be finished after `n` steps alone is finished in every schedule in which it has `n` turns, and then the
entries of its connected elements are what they would be if it had been alone. -/
theorem C78_terminates (m : Mesh V) (bd : Idx → List Idx) (hv : ValidMesh m bd) (S C : Nat) (hS : S ≤ m.dim) (hC : C ≤ m.dim)
    (colors : List Nat) (hcol : IsColoring m S C colors) (conn : List (List Idx)) (hc : m.connectionsAsc S C = .ok conn)
    (P : Body L D) (hP : Local P conn) (k : Nat) (s : State L D) (sch : List Nat) (hs : ∀ i ∈ sch, colors[i]? = some k)
    (i : Nat) (hi : colors[i]? = some k) (n : Nat) (hn : Done P i (run P (List.replicate n i) s)) (hle : n ≤ sch.count i) :
    Done P i (run P sch s) ∧ ∀ c ∈ entries conn i, (run P sch s).data c = (run P (List.replicate n i) s).data c := by
  have h := apart m bd hv S C hS hC colors hcol conn hc P hP k
  refine ⟨complete_more h s sch hs i hi n hn hle, fun c hcm => ?_⟩
  have h2 := run_alone h s sch hs i hi
  rw [solo_done hn hle] at h2
  exact h2.2 c hcm

/-- The loop over the colors: the phase `k` consists of steps of elements of the color `k`, all of them are finished at its end, and there is a
phase for every color. -/
structure ByColor (P : Body L D) (colors : List Nat) (phases : List (List Nat)) (s : State L D) : Prop where
  only : ∀ (k : Nat) (sch : List Nat), phases[k]? = some sch → ∀ i ∈ sch, colors[i]? = some k
  complete : ∀ k, k < phases.length → ∀ i, colors[i]? = some k → Done P i (runPhases P (phases.take (k + 1)) s)
  all : ∀ k ∈ colors, k < phases.length

private theorem runPhases_next (P : Body L D) (phases : List (List Nat)) (s : State L D) (n : Nat) (h : n < phases.length) :
    runPhases P (phases.take (n + 1)) s = run P phases[n] (runPhases P (phases.take n) s) := by
  rw [List.take_add_one, List.getElem?_eq_getElem h]
  unfold runPhases
  rw [List.foldl_append]
  rfl

/-- C78. The loop over all colors: the result does not depend on the schedules of the phases. -/
theorem C78_phases (m : Mesh V) (bd : Idx → List Idx) (hv : ValidMesh m bd) (S C : Nat) (hS : S ≤ m.dim) (hC : C ≤ m.dim)
    (colors : List Nat) (hcol : IsColoring m S C colors) (conn : List (List Idx)) (hc : m.connectionsAsc S C = .ok conn)
    (P : Body L D) (hP : Local P conn) (s : State L D) (a b : List (List Nat)) (hlen : a.length = b.length)
    (ha : ByColor P colors a s) (hb : ByColor P colors b s) : runPhases P a s = runPhases P b s := by
  have key : ∀ n, n ≤ a.length → runPhases P (a.take n) s = runPhases P (b.take n) s := by
    intro n
    induction n with
    | zero => intro _; rfl
    | succ n ih =>
      intro hn
      have ih := ih (by omega)
      have ca := ha.complete n (by omega)
      have cb := hb.complete n (by omega)
      rw [runPhases_next P a s n (by omega)] at ca ⊢
      rw [runPhases_next P b s n (by omega)] at cb ⊢
      rw [← ih] at cb ⊢
      exact C78_schedules m bd hv S C hS hC colors hcol conn hc P hP n _ _ _
        (ha.only n _ (List.getElem?_eq_getElem (by omega))) (hb.only n _ (List.getElem?_eq_getElem (by omega))) ca cb
  have := key a.length (Nat.le_refl _)
  rwa [List.take_length, hlen, List.take_length] at this

open Classical in
/-- C78. Adding to the entries of the connected elements in parallel loses nothing: at the end each entry has received the contributions of all
elements incident with it, each of them once. -/
theorem C78_accumulate [AddCommMonoid D] (m : Mesh V) (bd : Idx → List Idx) (hv : ValidMesh m bd) (S C : Nat) (hS : S ≤ m.dim) (hC : C ≤ m.dim)
    (colors : List Nat) (hcol : IsColoring m S C colors) (conn : List (List Idx)) (hc : m.connectionsAsc S C = .ok conn)
    (w : Nat → Nat → D) (data : Nat → D) (phases : List (List Nat))
    (h : ByColor (addBody (entries conn) w) colors phases ⟨data, fun _ => (0, none)⟩) (c : Idx) (hcl : c < m.numElems C) :
    (runPhases (addBody (entries conn) w) phases ⟨data, fun _ => (0, none)⟩).data c =
      data c + ∑ i ∈ (Finset.range (m.numElems S)).filter (fun i => Incident m bd S C i c), w i c := by
  obtain ⟨hl, -⟩ := coloring_proper hv hS hC hcol
  have hP : Local (addBody (entries conn) w) conn := fun i l =>
    ⟨fun c f h => (addBody_uses (entries conn) w i).1 l c f h, fun c v l' h => (addBody_uses (entries conn) w i).2 l c v l' h⟩
  have hlt : ∀ i k, colors[i]? = some k → i < m.numElems S := by
    intro i k hi; have := (List.getElem?_eq_some_iff.mp hi).1; omega
  have key : ∀ n, n ≤ phases.length →
      (∀ i k, colors[i]? = some k → n ≤ k → (runPhases (addBody (entries conn) w) (phases.take n) ⟨data, fun _ => (0, none)⟩).loc i = (0, none)) ∧
      (runPhases (addBody (entries conn) w) (phases.take n) ⟨data, fun _ => (0, none)⟩).data c =
        data c + ∑ i ∈ (Finset.range (m.numElems S)).filter (fun i => Incident m bd S C i c ∧ colors[i]?.getD 0 < n), w i c := by
    intro n
    induction n with
    | zero => intro _; exact ⟨fun _ _ _ _ => rfl, by simp [runPhases]⟩
    | succ n ih =>
      intro hn
      obtain ⟨i1, i2⟩ := ih (by omega)
      have cn := h.complete n (by omega)
      have on := h.only n _ (List.getElem?_eq_getElem (by omega))
      rw [runPhases_next _ phases _ n (by omega)] at cn ⊢
      generalize runPhases (addBody (entries conn) w) (phases.take n) ⟨data, fun _ => (0, none)⟩ = u at i1 i2 cn
      have ap := apart m bd hv S C hS hC colors hcol conn hc _ hP n
      refine ⟨fun i k hi hk => ?_, ?_⟩
      · rw [run_loc]
        · exact i1 i k hi (by omega)
        · intro hm
          have := on i hm
          rw [hi] at this
          cases this
          omega
      · by_cases hex : ∃ i, colors[i]? = some n ∧ Incident m bd S C i c
        · obtain ⟨i, hi, hinc⟩ := hex
          have hic : c ∈ entries conn i := ((mem_entries hv hS hC hc i (hlt i n hi)).2 c).mpr ⟨hcl, hinc⟩
          rw [addBody_phase ap (fun j hj => (mem_entries hv hS hC hc j (hlt j n hj)).1) u (fun j hj => i1 j n hj (Nat.le_refl _)) _ on cn i hi c hic,
            i2, add_assoc]
          congr 1
          have hins : (Finset.range (m.numElems S)).filter (fun i => Incident m bd S C i c ∧ colors[i]?.getD 0 < n + 1) =
              insert i ((Finset.range (m.numElems S)).filter (fun i => Incident m bd S C i c ∧ colors[i]?.getD 0 < n)) := by
            ext j
            simp only [Finset.mem_filter, Finset.mem_range, Finset.mem_insert]
            constructor
            · rintro ⟨hj, hji, hjc⟩
              by_cases e : colors[j]?.getD 0 = n
              · left
                by_contra hne
                have hj' : colors[j]? = some n := by
                  rw [← e]; simp [show j < colors.length by omega]
                exact C78_no_race m bd hv S C hS hC colors hcol conn hc i j n hi hj' (Ne.symm hne) c hic
                  (((mem_entries hv hS hC hc j hj).2 c).mpr ⟨hcl, hji⟩)
              · right; exact ⟨hj, hji, by omega⟩
            · rintro (rfl | ⟨hj, hji, hjc⟩)
              · exact ⟨hlt _ n hi, hinc, by simp [hi]⟩
              · exact ⟨hj, hji, by omega⟩
          rw [hins, Finset.sum_insert (by simp [hi]), add_comm]
        · rw [run_data ap u _ on c, i2]
          · congr 1
            apply Finset.sum_congr _ fun _ _ => rfl
            ext j
            simp only [Finset.mem_filter, Finset.mem_range]
            constructor
            · rintro ⟨hj, hji, hjc⟩; exact ⟨hj, hji, by omega⟩
            · rintro ⟨hj, hji, hjc⟩
              refine ⟨hj, hji, ?_⟩
              have hne : colors[j]?.getD 0 ≠ n := by
                intro e
                exact hex ⟨j, by rw [← e]; simp [show j < colors.length by omega], hji⟩
              omega
          · intro i hi hic
            exact hex ⟨i, hi, (((mem_entries hv hS hC hc i (hlt i n hi)).2 c).mp hic).2⟩
  obtain ⟨-, k2⟩ := key phases.length (Nat.le_refl _)
  rw [List.take_length] at k2
  rw [k2]
  congr 1
  apply Finset.sum_congr _ fun _ _ => rfl
  ext j
  simp only [Finset.mem_filter, Finset.mem_range]
  constructor
  · rintro ⟨hj, hji, -⟩; exact ⟨hj, hji⟩
  · rintro ⟨hj, hji⟩
    have hjl : j < colors.length := by omega
    exact ⟨hj, hji, by simpa [hjl] using h.all colors[j] (List.getElem_mem hjl)⟩

/-- C78. The accumulation can always be carried out: such phases exist. -/
theorem C78_accumulate_possible [AddCommMonoid D] (m : Mesh V) (bd : Idx → List Idx) (hv : ValidMesh m bd) (S C : Nat) (hS : S ≤ m.dim) (hC : C ≤ m.dim)
    (colors : List Nat) (hcol : IsColoring m S C colors) (conn : List (List Idx)) (hc : m.connectionsAsc S C = .ok conn)
    (w : Nat → Nat → D) (data : Nat → D) :
    ∃ phases, ByColor (addBody (entries conn) w) colors phases ⟨data, fun _ => (0, none)⟩ := by
  have hP : Local (addBody (entries conn) w) conn := fun i l =>
    ⟨fun c f h => (addBody_uses (entries conn) w i).1 l c f h, fun c v l' h => (addBody_uses (entries conn) w i).2 l c v l' h⟩
  obtain ⟨hl, -⟩ := coloring_proper hv hS hC hcol
  obtain ⟨K, hK⟩ : ∃ K, ∀ k ∈ colors, k < K := by
    clear hcol hl
    induction colors with
    | nil => exact ⟨0, by simp⟩
    | cons a l ih =>
      obtain ⟨K, h⟩ := ih
      refine ⟨max K (a + 1), fun k hk => ?_⟩
      rcases List.mem_cons.mp hk with rfl | hk
      · omega
      · have := h k hk; omega
  let phase : Nat → List Nat := fun k => ((List.range colors.length).filter fun i => colors[i]? == some k).flatMap fun i =>
    List.replicate (2 * (entries conn i).length) i
  have only : ∀ k, ∀ i ∈ phase k, colors[i]? = some k := by
    intro k i hi
    obtain ⟨j, hj, hij⟩ := List.mem_flatMap.mp hi
    rw [List.eq_of_mem_replicate hij]
    simpa using (List.mem_filter.mp hj).2
  have cnt : ∀ i k, colors[i]? = some k → 2 * (entries conn i).length ≤ (phase k).count i := by
    intro i k hi
    have hm : i ∈ (List.range colors.length).filter fun i => colors[i]? == some k :=
      List.mem_filter.mpr ⟨List.mem_range.mpr (List.getElem?_eq_some_iff.mp hi).1, by simp [hi]⟩
    have := (List.sublist_flatten_of_mem (List.mem_map.mpr ⟨i, hm, rfl⟩ :
      List.replicate (2 * (entries conn i).length) i ∈ List.map (fun i => List.replicate (2 * (entries conn i).length) i) _)).count_le i
    rw [List.count_replicate_self] at this
    exact this
  have untouched : ∀ n i k, colors[i]? = some k → n ≤ k →
      (runPhases (addBody (entries conn) w) ((List.range n).map phase) ⟨data, fun _ => (0, none)⟩).loc i = (0, none) := by
    intro n i k hi
    induction n with
    | zero => intro _; rfl
    | succ n ih =>
      intro hn
      rw [List.range_succ, List.map_append]
      unfold runPhases
      rw [List.foldl_append]
      refine (run_loc _ _ i fun hm => ?_).trans (ih (by omega))
      have := only n i hm
      rw [hi] at this
      cases this
      omega
  refine ⟨(List.range K).map phase, ⟨?_, ?_, ?_⟩⟩
  · intro k sch hk
    rw [List.getElem?_map] at hk
    obtain ⟨k', hk', rfl⟩ := Option.map_eq_some_iff.mp hk
    have : k = k' := by
      obtain ⟨h, e⟩ := List.getElem?_eq_some_iff.mp hk'
      simpa using e
    subst this
    exact only k
  · intro k hk i hi
    have hk' : k < K := by simpa using hk
    rw [runPhases_next _ _ _ k hk, ← List.map_take, List.take_range, show min k K = k by omega]
    have hu := untouched k i k hi (Nat.le_refl _)
    generalize runPhases (addBody (entries conn) w) ((List.range k).map phase) ⟨data, fun _ => (0, none)⟩ = u at hu
    have hi' : i < m.numElems S := by have := (List.getElem?_eq_some_iff.mp hi).1; omega
    obtain ⟨s1, -⟩ := addBody_solo (entries conn) w i (mem_entries hv hS hC hc i hi').1 u hu _ (Nat.le_refl _)
    simp only [List.getElem_map, List.getElem_range]
    exact complete_more (apart m bd hv S C hS hC colors hcol conn hc _ hP k) u _ (only k) i hi _
      (by rw [addBody_done_iff, s1]) (cnt i k hi)
  · intro k hk
    simpa using hK k hk

namespace ColorLoopExample

/-- The vertices of the edges of two triangles with a common edge. -/
def conn : List (List Idx) := [[0, 1], [1, 2], [0, 2], [2, 3], [0, 3]]

/-- The colors of the edges: edges with a common vertex have different colors. -/
def colors : List Nat := [0, 1, 2, 0, 1]

/-- The edges of one color take turns. -/
def phases : List (List Nat) := [[0, 3, 3, 0, 3, 0, 0, 3], [4, 4, 1, 1, 1, 4, 1, 4], [2, 2, 2, 2]]

/-- How many edges meet at each vertex. -/
def P : Body (Nat × Option Nat) Nat := addBody (entries conn) fun _ _ => 1

example : twoTriangles.connectionsAsc 1 0 = .ok conn ∧ IsColoring twoTriangles 1 0 colors ∧ Local P conn ∧
    ByColor P colors phases ⟨fun _ => 0, fun _ => (0, none)⟩ ∧
    (List.range 4).map (runPhases P phases ⟨fun _ => 0, fun _ => (0, none)⟩).data = [3, 2, 3, 2] := by
  refine ⟨by decide, .inl (by decide), fun i l => ⟨(addBody_uses _ _ i).1 l, (addBody_uses _ _ i).2 l⟩, ⟨?_, ?_, by decide⟩, by decide⟩
  · intro k sch h
    obtain ⟨hk, rfl⟩ := List.getElem?_eq_some_iff.mp h
    have : ∀ k : Fin 3, ∀ i ∈ phases[k.1], colors[i]? = some k.1 := by decide
    exact this ⟨k, hk⟩
  · intro k hk i hi
    have : ∀ k : Fin 3, ∀ i : Fin 5, colors[i.1]? = some k.1 →
        P i.1 ((runPhases P (phases.take (k.1 + 1)) ⟨fun _ => 0, fun _ => (0, none)⟩).loc i.1) = none := by decide
    exact this ⟨k, hk⟩ ⟨i, (List.getElem?_eq_some_iff.mp hi).1⟩ hi

end ColorLoopExample

/-- C78, violated without colors: two edges with a common vertex at the same time. Both read the vertex 0 before one of them writes it, and one of the
two contributions is lost, although both edges have been finished. -/
theorem C78_lost_update_violated :
    let P := ColorLoopExample.P
    let s : State (Nat × Option Nat) Nat := run P [0, 2, 0, 2, 0, 0, 2, 2] ⟨fun _ => 0, fun _ => (0, none)⟩
    twoTriangles.connectionsAsc 1 0 = .ok ColorLoopExample.conn ∧ Done P 0 s ∧ Done P 2 s ∧ s.data 0 = 1 ∧
      (run P [0, 0, 0, 0, 2, 2, 2, 2] ⟨fun _ => 0, fun _ => (0, none)⟩).data 0 = 2 := by
  unfold Done
  decide

end GTMesh.Props
