import Verif.Proofs.Vtk2b

/-! # Connections of facets after reading all cells of a VTK file -/

namespace GTMesh.Vtk
open Spec
variable {ls : List (List Idx)}

/-- The cells of facet `i` in its history. -/
theorem hist_cells (hn : ∀ l ∈ ls, NoRepetition l) (i : Idx) {U : Nat → Prop}
    (hU : ∀ c, U c ↔ ∃ l, ls[c]? = some l ∧ i ∈ l) (c : Nat) :
    c ∈ (histOf i (chainCalls 0 ls)).map (·.2) ↔ U c := by
  rw [(histOf_increasing i ls 0 hn).2 c, hU]
  constructor
  · rintro ⟨k, l, a1, a2, a3⟩
    have hck : c = k := by omega
    subst hck
    exact ⟨l, a1, a2⟩
  · rintro ⟨l, a1, a2⟩
    exact ⟨c, l, a1, a2, by omega⟩

theorem facet_first_last (hn : ∀ l ∈ ls, NoRepetition l) (i : Idx) {U : Nat → Prop}
    (hU : ∀ c, U c ↔ ∃ l, ls[c]? = some l ∧ i ∈ l) (hne : ∃ c, U c) :
    FirstAndLast U (connOf (histOf i (chainCalls 0 ls))).left (connOf (histOf i (chainCalls 0 ls))).right := by
  have hu := hist_cells hn i hU
  have hinc := (histOf_increasing i ls 0 hn).1
  have hne' : histOf i (chainCalls 0 ls) ≠ [] := by
    intro hnil
    obtain ⟨c, hc⟩ := hne
    have := (hu c).mpr hc
    rw [hnil] at this
    simp at this
  obtain ⟨c, a1, a2, a3, a4⟩ := connOf_sides hinc hne'
  rw [a2]
  refine ⟨(hu c).mp a1, fun c' hc' => a3 c' ((hu c').mpr hc'), ?_⟩
  rcases a4 with ⟨b1, b2⟩ | ⟨r, b1, b2, b3, b4⟩
  · left
    refine ⟨b2, fun c' hc' => ?_⟩
    have hm := (hu c').mpr hc'
    obtain ⟨q, hq⟩ := List.length_eq_one_iff.mp b1
    rw [hq] at hm a1
    simp at hm a1
    rw [hm, a1]
  · right
    rw [b3]
    exact ⟨b2, (hu r).mp b1, fun c' hc' => b4 c' ((hu c').mpr hc')⟩

theorem facet_next (hn : ∀ l ∈ ls, NoRepetition l) (hfit : ls.length ≤ INVALID) {c : Nat} {l : List Idx}
    (hc : ls[c]? = some l) {j : Nat} (hj : j < l.length) {U : Nat → Prop}
    (hU : ∀ c, U c ↔ ∃ l', ls[c]? = some l' ∧ l[j] ∈ l')
    (h2 : ∀ a b d, U a → U b → U d → a = b ∨ b = d ∨ a = d) :
    (connOf (histOf l[j] (chainCalls 0 ls))).getNextBElem c = .ok (l[(j + 1) % l.length]'(Nat.mod_lt _ (by omega))) := by
  have hu := hist_cells hn l[j] hU
  have hinc := (histOf_increasing l[j] ls 0 hn).1
  have hll : l ∈ ls := List.mem_of_getElem? hc
  have hclt : c < ls.length := (List.getElem?_eq_some_iff.mp hc).1
  apply connOf_next
  · exact hinc.imp fun h => Nat.ne_of_lt h
  · intro p hp hpi
    obtain ⟨k, l', q1, _, q3⟩ := ((histOf_increasing l[j] ls 0 hn).2 p.2).mp (List.mem_map_of_mem hp)
    have := (List.getElem?_eq_some_iff.mp q1).1
    omega
  · rcases Nat.lt_or_ge 2 (histOf l[j] (chainCalls 0 ls)).length with hgt | hle
    · exfalso
      generalize hL : (histOf l[j] (chainCalls 0 ls)).map (·.2) = L at hu hinc
      have hlen : 2 < L.length := by rw [← hL]; simpa using hgt
      have hp := List.pairwise_iff_getElem.mp hinc
      have h01 := hp 0 1 (by omega) (by omega) (by omega)
      have h12 := hp 1 2 (by omega) (by omega) (by omega)
      have := h2 L[0] L[1] L[2] ((hu _).mp (List.getElem_mem _)) ((hu _).mp (List.getElem_mem _))
        ((hu _).mp (List.getElem_mem _))
      omega
    · exact hle
  · have hf := histOf_filter l[j] ls 0 c l hc
    rw [Nat.zero_add, consecutive_filter (hn l hll) hj (f := l[j])
      (g := l[(j + 1) % l.length]'(Nat.mod_lt _ (by omega))) (by simp [cyc, Nat.mod_eq_of_lt hj])
      (by simp [cyc, Nat.mod_lt _ (Nat.lt_of_le_of_lt (Nat.zero_le j) hj)])] at hf
    have : (l[(j + 1) % l.length]'(Nat.mod_lt _ (by omega)), c) ∈
        (histOf l[j] (chainCalls 0 ls)).filter (fun p => decide (p.2 = c)) := by
      rw [hf]; simp
    exact List.mem_of_mem_filter this

/-- The connection that results from the calls for all cells. -/
theorem runOps_allOps (hn : ∀ l ∈ ls, NoRepetition l) (hfit : ls.length ≤ INVALID) {i : Idx} (hi : i ≠ INVALID)
    (hv : ∀ l ∈ ls, INVALID ∉ l) :
    runOps {} (opsOf i (allOps 0 ls)) = connOf (histOf i (chainCalls 0 ls)) := by
  rw [opsOf_allOps i hi ls 0 hn hv]
  obtain ⟨p1, p2⟩ := histOf_increasing i ls 0 hn
  apply run_hist
  · exact p1.imp fun h => Nat.ne_of_lt h
  · intro p hp hpi
    obtain ⟨c, l, q1, _, q3⟩ := (p2 p.2).mp (List.mem_map_of_mem hp)
    have := (List.getElem?_eq_some_iff.mp q1).1
    omega

end GTMesh.Vtk
