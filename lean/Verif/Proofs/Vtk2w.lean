import Verif.Proofs.Vtk2b
import Verif.Proofs.Trace
import Verif.Spec.Incidence

/-! # The 2D VTK writer follows a polygon -/

namespace GTMesh.Vtk
open Spec GTMesh.Fpma
variable {edges : List Edge} {l : List Idx} {n : Nat} {V E : Nat → Idx}

/-- The state in which `k` vertices are written and edge `t` is looked at. -/
def walkState (V E : Nat → Idx) (t : Idx) (k : Nat) : WalkState :=
  { tmp := t, last := E (k - 1), next := V k, out := (List.range k).map V }

/-- The successor of edge `j` of the chain. -/
def ChainNext (edges : List Edge) (cell : Idx) (l : List Idx) : Prop :=
  ∀ (s : Nat) t, l[s % l.length]? = some t → ∃ e t', edges[t]? = some e ∧ l[(s + 1) % l.length]? = some t' ∧
    e.conn.getNextBElem cell = .ok t'

theorem walkStep_stay (h : Ring edges l n V E) {cell t' : Idx} {e : Edge} {k j : Nat} (h1 : 1 ≤ k) (hk : k ≤ n) (hj : j < n)
    (hjk : j ≠ k) (hj0 : j = 0 → k < n ∨ n = 1) (he : edges[E j]? = some e) (hn : e.conn.getNextBElem cell = .ok t') :
    walkStep edges cell (walkState V E (E j) k) = .ok (walkState V E t' k) := by
  obtain ⟨ed, g1, g2⟩ := h.joins j hj
  rw [he] at g1
  cases g1
  unfold walkStep
  rw [show Res.at' edges (walkState V E (E j) k).tmp = .ok e by simp [walkState, he]]
  simp only [Res.bind]
  by_cases hl : j = k - 1
  · subst hl
    simp [walkState, hn]
  · have hv : V j ≠ V k := by
      intro hh
      rcases Nat.lt_or_ge k n with hlt | hge
      · rcases h.vpos (by omega) hlt hh with h' | h' <;> omega
      · have : k = n := by omega
        subst this
        rw [h.close] at hh
        rcases h.vpos (by omega) h.pos hh with h' | h' <;> omega
    have hv' : V (j + 1) ≠ V k := by
      intro hh
      rcases Nat.lt_or_ge k n with hlt | hge
      · rcases h.vpos (by omega) hlt hh with h' | h' <;> omega
      · have : k = n := by omega
        subst this
        rw [h.close] at hh
        rcases h.vpos (by omega) h.pos hh with h' | h' <;> omega
    have ha : e.a ≠ V k := by
      rcases g2 with g2 | g2
      · simp only [Prod.mk.injEq] at g2; rw [g2.1]; exact hv
      · simp only at g2; rw [g2.1]; exact hv'
    have hb : e.b ≠ V k := by
      rcases g2 with g2 | g2
      · simp only [Prod.mk.injEq] at g2; rw [g2.2]; exact hv'
      · simp only at g2; rw [g2.2]; exact hv
    simp [walkState, hn, ha, hb]

theorem walkStep_take (h : Ring edges l n V E) {cell t' : Idx} {e : Edge} {k : Nat} (h1 : 1 ≤ k) (hk : k < n)
    (he : edges[E k]? = some e) (hn : e.conn.getNextBElem cell = .ok t') :
    walkStep edges cell (walkState V E (E k) k) = .ok (walkState V E t' (k + 1)) := by
  obtain ⟨ed, g1, g2⟩ := h.joins k hk
  rw [he] at g1
  cases g1
  have hne : E (k - 1) ≠ E k := fun hh => by have := h.einj _ _ (by omega) hk hh; omega
  unfold walkStep
  rw [show Res.at' edges (walkState V E (E k) k).tmp = .ok e by simp [walkState, he]]
  simp only [Res.bind, walkState, hn]
  rcases g2 with g2 | ⟨ga, gb⟩
  · simp only [Prod.mk.injEq] at g2
    by_cases hs : e.b = V k
    · have : e.a = V (k + 1) := by rw [← g2.2, hs, g2.1]
      simp [hne, List.range_succ, this, hs]
    · rw [g2.2] at hs
      simp [hne, hs, List.range_succ, g2.1, g2.2]
  · simp only at ga gb
    simp [hne, List.range_succ, ga, gb]

/-- From a state with `k` written vertices the loop ends with the whole polygon. -/
theorem walkLoop_ring (h : Ring edges l n V E) {cell : Idx} (hc : ChainNext edges cell l) :
    ∀ (r : Nat), ∀ (t fuel s k : Nat), n - k = r → 1 ≤ k → k < n → l[(s + t) % l.length]? = some (E k) →
      n * (r - 1) + t + 1 ≤ fuel → ∃ x, l[s % l.length]? = some x ∧
      walkLoop edges cell (V 0) fuel (walkState V E x k) = .ok ((List.range n).map V) := by
  have hnl : n = l.length := h.length
  have hpos := h.pos
  intro r
  induction r with
  | zero => intro t fuel s k h1 _ h3; omega
  | succ r ih =>
    intro t
    induction t with
    | zero =>
      intro fuel s k hr h1 hk hE hf
      refine ⟨E k, by simpa using hE, ?_⟩
      obtain ⟨e, t', c1, c2, c3⟩ := hc s (E k) (by simpa using hE)
      cases fuel with
      | zero => omega
      | succ fuel =>
        rw [walkLoop, walkStep_take h h1 hk c1 c3]
        simp only [Res.bind]
        rcases Nat.lt_or_ge (k + 1) n with hlt | hge
        · have hne : V (k + 1) ≠ V 0 := fun hh => by have := h.vinj _ _ hlt h.pos hh; omega
          rw [if_pos (show (walkState V E t' (k + 1)).next ≠ V 0 from hne)]
          -- position of the next edge to be taken
          obtain ⟨p, hp⟩ := List.getElem?_of_mem ((h.mem (E (k + 1))).mpr ⟨k + 1, hlt, rfl⟩)
          have hpl := (List.getElem?_eq_some_iff.mp hp).1
          obtain ⟨u, hu1, hu2⟩ : ∃ u, u < n ∧ (s + 1 + u) % l.length = p := by
            refine ⟨(p + l.length - (s + 1) % l.length) % l.length, by rw [hnl]; exact Nat.mod_lt _ (by omega), ?_⟩
            have hm : (s + 1) % l.length < l.length := Nat.mod_lt _ (by omega)
            have hdm := Nat.mod_add_div (s + 1) l.length
            rw [Nat.add_mod, Nat.mod_mod, ← Nat.add_mod]
            have e1 : s + 1 + (p + l.length - (s + 1) % l.length) = p + l.length * ((s + 1) / l.length + 1) := by
              rw [Nat.mul_add]; omega
            rw [e1, Nat.add_mul_mod_self_left, Nat.mod_eq_of_lt hpl]
          obtain ⟨x, x1, x2⟩ := ih u fuel (s + 1) (k + 1) (by omega) (by omega) hlt (by rw [hu2]; exact hp) (by
            have : n * (r + 1 - 1) = n * (r - 1) + n := by
              have hr' : r = (r - 1) + 1 := by omega
              rw [show r + 1 - 1 = (r - 1) + 1 by omega, Nat.mul_succ]
            omega)
          rw [c2] at x1
          cases x1
          exact x2
        · have hkn : k + 1 = n := by omega
          rw [if_neg (by simp [walkState, hkn, h.close])]
          simp [walkState, hkn]
    | succ t iht =>
      intro fuel s k hr h1 hk hE hf
      have hlt : s % l.length < l.length := Nat.mod_lt _ (by omega)
      obtain ⟨x, hx⟩ : ∃ x, l[s % l.length]? = some x := ⟨_, List.getElem?_eq_getElem hlt⟩
      refine ⟨x, hx, ?_⟩
      by_cases hxk : x = E k
      · -- taken already now
        have hf' : n * (r + 1 - 1) + 0 + 1 ≤ fuel := by omega
        -- the case `t = 0`
        rw [hxk] at hx ⊢
        obtain ⟨e, t', c1, c2, c3⟩ := hc s (E k) hx
        cases fuel with
        | zero => omega
        | succ fuel =>
          rw [walkLoop, walkStep_take h h1 hk c1 c3]
          simp only [Res.bind]
          rcases Nat.lt_or_ge (k + 1) n with hlt2 | hge
          · have hne : V (k + 1) ≠ V 0 := fun hh => by have := h.vinj _ _ hlt2 h.pos hh; omega
            rw [if_pos (show (walkState V E t' (k + 1)).next ≠ V 0 from hne)]
            obtain ⟨p, hp⟩ := List.getElem?_of_mem ((h.mem (E (k + 1))).mpr ⟨k + 1, hlt2, rfl⟩)
            have hpl := (List.getElem?_eq_some_iff.mp hp).1
            obtain ⟨u, hu1, hu2⟩ : ∃ u, u < n ∧ (s + 1 + u) % l.length = p := by
              refine ⟨(p + l.length - (s + 1) % l.length) % l.length, by rw [hnl]; exact Nat.mod_lt _ (by omega), ?_⟩
              have hm : (s + 1) % l.length < l.length := Nat.mod_lt _ (by omega)
              have hdm := Nat.mod_add_div (s + 1) l.length
              rw [Nat.add_mod, Nat.mod_mod, ← Nat.add_mod]
              have e1 : s + 1 + (p + l.length - (s + 1) % l.length) = p + l.length * ((s + 1) / l.length + 1) := by
                rw [Nat.mul_add]; omega
              rw [e1, Nat.add_mul_mod_self_left, Nat.mod_eq_of_lt hpl]
            obtain ⟨x, x1, x2⟩ := ih u fuel (s + 1) (k + 1) (by omega) (by omega) hlt2 (by rw [hu2]; exact hp) (by
              have : n * (r + 1 - 1) = n * (r - 1) + n := by
                have hr' : r = (r - 1) + 1 := by omega
                rw [show r + 1 - 1 = (r - 1) + 1 by omega, Nat.mul_succ]
              omega)
            rw [c2] at x1
            cases x1
            exact x2
          · have hkn : k + 1 = n := by omega
            rw [if_neg (by simp [walkState, hkn, h.close])]
            simp [walkState, hkn]
      · obtain ⟨e, t', c1, c2, c3⟩ := hc s x hx
        obtain ⟨j, hj, hxj⟩ := (h.mem x).mp (List.mem_of_getElem? hx)
        subst hxj
        cases fuel with
        | zero => omega
        | succ fuel =>
          rw [walkLoop, walkStep_stay h h1 (by omega) hj (fun hh => hxk (by rw [hh])) (fun _ => Or.inl hk) c1 c3]
          simp only [Res.bind]
          have hne : V k ≠ V 0 := fun hh => by have := h.vinj _ _ hk h.pos hh; omega
          rw [if_pos (show (walkState V E t' k).next ≠ V 0 from hne)]
          obtain ⟨y, y1, y2⟩ := iht fuel (s + 1) k hr h1 hk
            (by rwa [show s + 1 + t = s + (t + 1) by omega]) (by omega)
          rw [c2] at y1
          cases y1
          exact y2

/-- The cell is traced along a ring that starts with its boundary element. -/
theorem indexCell_ring (h : Ring edges l n V E) {cell : Idx} (hc : ChainNext edges cell l) (h0 : l[0]? = some (E 0))
    (hlen : l.length ≤ edges.length) {ed : Edge} (he : edges[E 0]? = some ed)
    (hs : (if ed.conn.left = cell then (ed.a, ed.b) else (ed.b, ed.a)) = (V 0, V 1)) :
    indexCell edges cell (E 0) = .ok ((List.range n).map V) := by
  have hnl : n = l.length := h.length
  have hpos := h.pos
  unfold indexCell
  rw [show Res.at' edges (E 0) = .ok ed by simp [he]]
  simp only [Res.bind, hs]
  obtain ⟨e, t', c1, c2, c3⟩ := hc 0 (E 0) (by simpa [Nat.zero_mod] using h0)
  have hst : ({ tmp := E 0, last := E 0, next := V 1, out := [V 0] } : WalkState) = walkState V E (E 0) 1 := by
    simp [walkState, List.range_succ]
  rw [hst, show 2 * edges.length * edges.length + 2 = (2 * edges.length * edges.length + 1) + 1 from rfl, walkLoop,
    walkStep_stay h (Nat.le_refl _) hpos hpos (by omega) (fun _ => by omega) c1 c3]
  simp only [Res.bind]
  rcases Nat.lt_or_ge 1 n with hlt | hge
  · have hne : V 1 ≠ V 0 := fun hh => by have := h.vinj _ _ hlt h.pos hh; omega
    rw [if_pos (show (walkState V E t' 1).next ≠ V 0 from hne)]
    obtain ⟨p, hp⟩ := List.getElem?_of_mem ((h.mem (E 1)).mpr ⟨1, hlt, rfl⟩)
    have hpl := (List.getElem?_eq_some_iff.mp hp).1
    have hp0 : p ≠ 0 := by
      rintro rfl
      rw [h0] at hp
      have := h.einj _ _ h.pos hlt (Option.some.inj hp)
      omega
    obtain ⟨x, x1, x2⟩ := walkLoop_ring h hc (n - 1) (p - 1) (2 * edges.length * edges.length + 1) 1 1 rfl
      (Nat.le_refl _) hlt (by rw [show 1 + (p - 1) = p by omega, Nat.mod_eq_of_lt hpl]; exact hp) (by
        have h1 : n * (n - 1 - 1) ≤ edges.length * edges.length := by
          apply Nat.mul_le_mul <;> omega
        have h2 : edges.length ≤ edges.length * edges.length := Nat.le_mul_of_pos_left _ (by omega)
        have h3 : 2 * edges.length * edges.length = edges.length * edges.length + edges.length * edges.length := by
          rw [Nat.mul_assoc]; omega
        omega)
    rw [c2] at x1
    cases x1
    exact x2
  · have : n = 1 := by omega
    subst this
    rw [if_neg (by simp [walkState, h.close])]
    simp [walkState]

theorem indexCell_polygon {cell : Idx} {vs : List Idx} (hc : ChainNext edges cell l) (hp : IsPolygon edges l vs)
    {b : Idx} (h0 : l[0]? = some b) : ∃ n V E, Ring edges l n V E ∧
      indexCell edges cell b = .ok ((List.range n).map V) ∧ SameCycle ((List.range n).map V) vs := by
  obtain ⟨es, hen, hl, hn, hperm, hj⟩ := isPolygon_per hp
  have hvn := hp.1
  have hv : vs.Nodup := hp.2.1
  obtain ⟨t, ht⟩ := (mem_iff_per hen b).mp (hperm.mem_iff.mpr (List.mem_of_getElem? h0))
  obtain ⟨ed, g1, g2⟩ := hj t
  rw [← ht] at g1
  have hlen : l.length ≤ edges.length := by
    have hsub : l ⊆ List.range edges.length := by
      intro x hx
      obtain ⟨z, hz⟩ := (mem_iff_per hen x).mp (hperm.mem_iff.mpr hx)
      obtain ⟨ed', q, _⟩ := hj z
      rw [hz]
      exact List.mem_range.mpr (List.getElem?_eq_some_iff.mp q).1
    simpa using (List.subperm_of_subset hp.2.2.1 hsub).length_le
  have hfw := ring_forward hv hvn hen hl hn hperm hj t
  have hbw := ring_backward hv hvn hen hl hn hperm hj t
  have hrot : SameCycle ((List.range vs.length).map fun j : Nat => per vs (t + 1 - j)) vs := by
    right
    have := range_per_rotated hvn (t + 2 - vs.length)
    rw [← List.isRotated_reverse_comm_iff]
    convert this using 1
    apply List.ext_getElem
    · simp
    · intro i h1 h2
      simp only [List.length_map, List.length_range] at h2
      simp only [List.getElem_reverse, List.getElem_map, List.getElem_range, List.length_map, List.length_range]
      congr 1
      omega
  have f0 : per es (((0 : Nat) : Int) + t) = b := by rw [ht]; congr 1; omega
  have b0 : per es (t - ((0 : Nat) : Int)) = b := by rw [ht]; congr 1; omega
  -- the direction of the first edge
  have hdir : (if ed.conn.left = cell then (ed.a, ed.b) else (ed.b, ed.a)) = (per vs t, per vs (t + 1)) ∨
      (if ed.conn.left = cell then (ed.a, ed.b) else (ed.b, ed.a)) = (per vs (t + 1), per vs t) := by
    rcases g2 with g2 | g2
    · simp only [Prod.mk.injEq] at g2
      split
      · left; rw [g2.1, g2.2]
      · right; rw [g2.1, g2.2]
    · simp only at g2
      split
      · right; rw [g2.1, g2.2]
      · left; rw [g2.1, g2.2]
  rcases hdir with hdir | hdir
  · have := indexCell_ring hfw hc (by rw [f0]; exact h0) hlen (by rw [f0]; exact g1) (by
      rw [hdir]; congr 1 <;> congr 1 <;> push_cast <;> omega)
    rw [f0] at this
    exact ⟨_, _, _, hfw, this, Or.inl (range_per_rotated hvn t)⟩
  · have := indexCell_ring hbw hc (by rw [b0]; exact h0) hlen (by rw [b0]; exact g1) (by
      rw [hdir]; congr 1 <;> congr 1 <;> push_cast <;> omega)
    rw [b0] at this
    exact ⟨_, _, _, hbw, this, hrot⟩

end GTMesh.Vtk
