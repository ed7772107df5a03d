import Verif.Model.Fpma
import Verif.Spec.Polygon
import Mathlib.Data.Int.ModEq

/-! # Tracing a polygon along its edges -/

namespace GTMesh.Fpma
open Spec
variable {R : Type}

/-- A polygon with the edges `E 0, E 1, …` and vertices `V 0, V 1, …`. -/
structure Ring (edges : List Edge) (subs : List Idx) (n : Nat) (V E : Nat → Idx) : Prop where
  pos : 0 < n
  joins : ∀ j, j < n → Joins edges (E j) (V j) (V (j + 1))
  close : V n = V 0
  vinj : ∀ i j, i < n → j < n → V i = V j → i = j
  einj : ∀ i j, i < n → j < n → E i = E j → i = j
  nodup : subs.Nodup
  mem : ∀ e, e ∈ subs ↔ ∃ j, j < n ∧ e = E j

/-- The state in which `k` vertices are written. -/
def ringState (V E : Nat → Idx) (k : Nat) : TraceState :=
  { last := E (k - 1), next := V k, out := (List.range k).map V }

variable {edges : List Edge} {subs : List Idx} {n : Nat} {V E : Nat → Idx}

/-- Two positions of the same vertex. -/
theorem Ring.vpos (h : Ring edges subs n V E) {j k : Nat} (hj : j ≤ n) (hk : k < n) (he : V j = V k) :
    j = k ∨ (j = n ∧ k = 0) := by
  rcases Nat.lt_or_ge j n with hlt | hge
  · exact Or.inl (h.vinj _ _ hlt hk he)
  · have : j = n := by omega
    subst this
    rw [h.close] at he
    exact Or.inr ⟨rfl, (h.vinj _ _ h.pos hk he).symm⟩

theorem Ring.step_next (h : Ring edges subs n V E) {k : Nat} (h1 : 1 ≤ k) (hk : k < n) :
    traceStep edges (ringState V E k) (E k) = .ok (ringState V E (k + 1)) := by
  obtain ⟨ed, g1, g2⟩ := h.joins k hk
  have hne : E k ≠ E (k - 1) := fun he => by have := h.einj _ _ hk (by omega) he; omega
  unfold traceStep
  rw [show Res.at' edges (E k) = .ok ed by simp [g1]]
  simp only [Res.bind]
  rw [if_pos (show E k ≠ (ringState V E k).last from hne)]
  rcases g2 with g2 | ⟨ga, gb⟩
  · simp only [Prod.mk.injEq] at g2
    rw [if_pos (show ed.a = (ringState V E k).next from g2.1)]
    simp [ringState, g2.1, g2.2, List.range_succ]
  · simp only at ga gb
    by_cases hs : ed.a = V k
    · rw [if_pos (show ed.a = (ringState V E k).next from hs)]
      simp [ringState, List.range_succ, gb, ← ga, ← hs]
    · rw [if_neg (show ¬ ed.a = (ringState V E k).next from hs), if_pos (show ed.b = (ringState V E k).next from gb)]
      simp [ringState, List.range_succ, ga, gb]

theorem Ring.step_other (h : Ring edges subs n V E) {k j : Nat} (h1 : 1 ≤ k) (hk : k ≤ n) (hj : j < n)
    (hjk : j ≠ k) (hj0 : j = 0 → k < n) :
    traceStep edges (ringState V E k) (E j) = .ok (ringState V E k) := by
  obtain ⟨ed, g1, g2⟩ := h.joins j hj
  unfold traceStep
  rw [show Res.at' edges (E j) = .ok ed by simp [g1]]
  simp only [Res.bind, ringState]
  by_cases hl : j = k - 1
  · subst hl; simp
  · have hv : V j ≠ V k := by
      intro he
      rcases Nat.lt_or_ge k n with hlt | hge
      · rcases h.vpos (by omega) hlt he with h' | h' <;> omega
      · have : k = n := by omega
        subst this
        rw [h.close] at he
        rcases h.vpos (by omega) h.pos he with h' | h' <;> omega
    have hv' : V (j + 1) ≠ V k := by
      intro he
      rcases Nat.lt_or_ge k n with hlt | hge
      · rcases h.vpos (by omega) hlt he with h' | h' <;> omega
      · have : k = n := by omega
        subst this
        rw [h.close] at he
        rcases h.vpos (by omega) h.pos he with h' | h' <;> omega
    have ha : ed.a ≠ V k := by
      rcases g2 with g2 | g2
      · simp only [Prod.mk.injEq] at g2; rw [g2.1]; exact hv
      · simp only at g2; rw [g2.1]; exact hv'
    have hb : ed.b ≠ V k := by
      rcases g2 with g2 | g2
      · simp only [Prod.mk.injEq] at g2; rw [g2.2]; exact hv'
      · simp only at g2; rw [g2.2]; exact hv
    simp [ha, hb]

theorem Ring.pass (h : Ring edges subs n V E) : ∀ (l : List Idx), (∀ e ∈ l, ∃ j, 1 ≤ j ∧ j < n ∧ e = E j) →
    ∀ k, 1 ≤ k → k ≤ n → ∃ k', k ≤ k' ∧ k' ≤ n ∧ tracePass edges l (ringState V E k) = .ok (ringState V E k') ∧
      (k < n → E k ∈ l → k < k') := by
  intro l
  induction l with
  | nil => intro _ k _ hk; exact ⟨k, Nat.le_refl _, hk, rfl, by simp⟩
  | cons e l ih =>
    intro hl k h1 hk
    obtain ⟨j, hj1, hjn, rfl⟩ := hl e (by simp)
    by_cases hjk : j = k
    · subst hjk
      obtain ⟨k', a1, a2, a3, _⟩ := ih (fun e he => hl e (by simp [he])) (j + 1) (by omega) (by omega)
      refine ⟨k', by omega, a2, ?_, fun _ _ => by omega⟩
      simp only [tracePass]
      rw [h.step_next h1 hjn]
      exact a3
    · obtain ⟨k', a1, a2, a3, a4⟩ := ih (fun e he => hl e (by simp [he])) k h1 hk
      refine ⟨k', a1, a2, ?_, ?_⟩
      · simp only [tracePass]
        rw [h.step_other h1 hk hjn hjk (by omega)]
        exact a3
      · intro hkn hm
        rcases List.mem_cons.mp hm with he | hm
        · exact absurd (h.einj _ _ hkn hjn he).symm hjk
        · exact a4 hkn hm

theorem Ring.fullPass (h : Ring edges subs n V E) (h0 : subs[0]? = some (E 0)) {k : Nat} (h1 : 1 ≤ k) (hk : k < n) :
    ∃ k', k < k' ∧ k' ≤ n ∧ tracePass edges subs (ringState V E k) = .ok (ringState V E k') := by
  cases hs : subs with
  | nil => simp [hs] at h0
  | cons e l =>
    have he : e = E 0 := by simpa [hs] using h0
    subst he
    have hnd := h.nodup
    rw [hs, List.nodup_cons] at hnd
    have hrest : ∀ e ∈ l, ∃ j, 1 ≤ j ∧ j < n ∧ e = E j := by
      intro e he
      obtain ⟨j, hj, rfl⟩ := (h.mem e).mp (by rw [hs]; simp [he])
      refine ⟨j, ?_, hj, rfl⟩
      rcases Nat.eq_zero_or_pos j with rfl | hp
      · exact absurd he hnd.1
      · exact hp
    obtain ⟨k', a1, a2, a3, a4⟩ := h.pass l hrest k h1 (by omega)
    have hkm : E k ∈ l := by
      have := (h.mem (E k)).mpr ⟨k, hk, rfl⟩
      rw [hs] at this
      rcases List.mem_cons.mp this with he | hm
      · have := h.einj _ _ hk h.pos he; omega
      · exact hm
    refine ⟨k', a4 hk hkm, a2, ?_⟩
    simp only [tracePass]
    rw [h.step_other h1 (by omega) h.pos (by omega) (fun _ => hk)]
    exact a3

theorem Ring.loop (h : Ring edges subs n V E) (h0 : subs[0]? = some (E 0)) : ∀ (fuel k : Nat), 1 ≤ k → k ≤ n →
    n - k < fuel → traceLoop edges subs (V 0) fuel (ringState V E k) = .ok ((List.range n).map V) := by
  intro fuel
  induction fuel with
  | zero => intro k _ _ h; omega
  | succ f ih =>
    intro k h1 hk hf
    rw [traceLoop]
    rcases Nat.lt_or_ge k n with hlt | hge
    · have hne : V 0 ≠ (ringState V E k).next := by
        intro he
        have := h.vinj _ _ h.pos hlt he
        omega
      rw [if_pos hne]
      obtain ⟨k', a1, a2, a3⟩ := h.fullPass h0 h1 hlt
      rw [a3]
      exact ih k' (by omega) a2 (by omega)
    · have : k = n := by omega
      subst this
      rw [if_neg (by simp [ringState, h.close])]
      rfl

theorem Ring.perm (h : Ring edges subs n V E) : ((List.range n).map E).Perm subs := by
  rw [List.perm_ext_iff_of_nodup ?_ h.nodup]
  · intro a
    rw [h.mem]
    simp only [List.mem_map, List.mem_range]
    constructor
    · rintro ⟨j, hj, rfl⟩; exact ⟨j, hj, rfl⟩
    · rintro ⟨j, hj, rfl⟩; exact ⟨j, hj, rfl⟩
  · rw [List.nodup_map_iff_inj_on List.nodup_range]
    intro a ha b hb hab
    exact h.einj _ _ (List.mem_range.mp ha) (List.mem_range.mp hb) hab

theorem Ring.length (h : Ring edges subs n V E) : n = subs.length := by
  simpa using h.perm.length_eq

theorem Ring.edgesOf (h : Ring edges subs n V E) : EdgesOf edges ((List.range n).map E) ((List.range n).map V) := by
  refine ⟨by simp, fun j hj => ?_⟩
  simp only [List.length_map, List.length_range] at hj
  refine ⟨E j, V j, V (j + 1), by simp [hj], ?_, ?_, h.joins j hj⟩
  · simp [cyc, Nat.mod_eq_of_lt hj, hj]
  · simp only [cyc, List.length_map, List.length_range]
    rcases Nat.lt_or_ge (j + 1) n with hlt | hge
    · simp [Nat.mod_eq_of_lt hlt, hlt]
    · have : j + 1 = n := by omega
      rw [this, Nat.mod_self]
      simp [h.pos, h.close]

/-- The face is traced when its first edge goes from `V 1` to `V 0`. -/
theorem Ring.indexFace (h : Ring edges subs n V E) (h0 : subs[0]? = some (E 0)) {ed : Edge}
    (he : edges[E 0]? = some ed) (ha : ed.a = V 1) (hb : ed.b = V 0) :
    indexFace edges subs = .ok ((List.range n).map V) := by
  unfold Fpma.indexFace
  rw [show Res.idx subs 0 = .ok (E 0) by simp [h0]]
  simp only [Res.bind]
  rw [show Res.at' edges (E 0) = .ok ed by simp [he]]
  simp only [Res.bind, ha, hb]
  have := h.loop h0 (2 * subs.length + 2) 1 (Nat.le_refl _) h.pos (by rw [← h.length]; omega)
  simpa [ringState, List.range_succ] using this

/-! ## From a polygon to a ring -/

/-- The entries of a list, extended periodically. -/
def per (vs : List Idx) (z : Int) : Idx := (vs[(z % vs.length).toNat]?).getD 0

theorem per_add_length (vs : List Idx) (z : Int) : per vs (z + vs.length) = per vs z := by
  unfold per; rw [Int.add_emod_right]

theorem toNat_emod_lt {n : Nat} (hn : 0 < n) (z : Int) : (z % n).toNat < n := by
  have h1 := Int.emod_lt_of_pos z (b := (n : Int)) (by omega)
  have h2 := Int.emod_nonneg z (b := (n : Int)) (by omega)
  omega

theorem cyc_eq_per {vs : List Idx} (hn : vs ≠ []) (j : Nat) : cyc vs j = some (per vs j) := by
  have hp : 0 < vs.length := List.length_pos_of_ne_nil hn
  have h1 : j % vs.length < vs.length := Nat.mod_lt _ hp
  have h2 : (((j : Int) % (vs.length : Int)).toNat) = j % vs.length := by
    rw [← Int.natCast_mod]; exact Int.toNat_natCast _
  unfold cyc per
  rw [h2, List.getElem?_eq_getElem h1]
  rfl

theorem per_emod (vs : List Idx) (z : Int) : per vs (z % vs.length) = per vs z := by
  unfold per; rw [Int.emod_emod]

theorem per_inj {vs : List Idx} (hnd : vs.Nodup) (hn : vs ≠ []) {y z : Int} (h : per vs y = per vs z) :
    y % vs.length = z % vs.length := by
  have hp : 0 < vs.length := List.length_pos_of_ne_nil hn
  have h1 := toNat_emod_lt hp y
  have h2 := toNat_emod_lt hp z
  unfold per at h
  rw [List.getElem?_eq_getElem h1, List.getElem?_eq_getElem h2] at h
  have := (List.Nodup.getElem_inj_iff hnd).mp (by simpa using h)
  have a := Int.emod_nonneg y (b := (vs.length : Int)) (by omega)
  have b := Int.emod_nonneg z (b := (vs.length : Int)) (by omega)
  omega

theorem mem_iff_per {es : List Idx} (hn : es ≠ []) (e : Idx) : e ∈ es ↔ ∃ z : Int, e = per es z := by
  have hp : 0 < es.length := List.length_pos_of_ne_nil hn
  constructor
  · intro h
    obtain ⟨j, hj⟩ := List.getElem?_of_mem h
    have hlt := (List.getElem?_eq_some_iff.mp hj).1
    refine ⟨j, ?_⟩
    have := cyc_eq_per hn j
    rw [cyc, Nat.mod_eq_of_lt hlt, hj] at this
    exact Option.some.inj this
  · rintro ⟨z, rfl⟩
    unfold per
    rw [List.getElem?_eq_getElem (toNat_emod_lt hp z)]
    simp

theorem range_per_rotated {vs : List Idx} (hn : vs ≠ []) (t : Int) :
    (List.range vs.length).map (fun z : Nat => per vs (z + t)) ~r vs := by
  have hp : 0 < vs.length := List.length_pos_of_ne_nil hn
  have : (List.range vs.length).map (fun z : Nat => per vs (z + t)) = vs.rotate (t % vs.length).toNat := by
    apply List.ext_getElem
    · simp
    · intro i h1 h2
      simp only [List.getElem_map, List.getElem_range, List.getElem_rotate]
      have hc := cyc_eq_per hn (i + (t % vs.length).toNat)
      rw [cyc, List.getElem?_eq_getElem (Nat.mod_lt _ hp)] at hc
      rw [Option.some.inj hc]
      unfold per
      congr 3
      have h3 := Int.emod_nonneg t (b := (vs.length : Int)) (by omega)
      push_cast
      rw [Int.toNat_of_nonneg h3, Int.add_emod_emod]
  rw [this]
  exact (List.IsRotated.forall vs _)

theorem isPolygon_per {subs vs : List Idx} (h : IsPolygon edges subs vs) : ∃ es : List Idx, es ≠ [] ∧
    es.length = vs.length ∧ es.Nodup ∧ es.Perm subs ∧
    ∀ z : Int, Joins edges (per es z) (per vs z) (per vs (z + 1)) := by
  obtain ⟨hne, hv, hs, es, hp, hl, hj⟩ := h
  have hlp : 0 < vs.length := List.length_pos_of_ne_nil hne
  have hene : es ≠ [] := by intro h; rw [h] at hl; simp at hl; omega
  refine ⟨es, hene, hl, ?_, hp, ?_⟩
  · exact hp.nodup_iff.mpr hs
  · intro z
    have hlt := toNat_emod_lt hlp z
    obtain ⟨e, u, v, h1, h2, h3, h4⟩ := hj (z % vs.length).toNat hlt
    have hnn := Int.emod_nonneg z (b := (vs.length : Int)) (by omega)
    have hcast : (((z % vs.length).toNat : Nat) : Int) = z % vs.length := Int.toNat_of_nonneg hnn
    rw [cyc_eq_per hne] at h2 h3
    push_cast at h3
    rw [hcast] at h2 h3
    rw [per_emod] at h2
    have h3' : per vs (z + 1) = v := by
      have : per vs (z % vs.length + 1) = per vs (z + 1) := by
        unfold per
        rw [Int.emod_add_emod]
      rw [← this]; exact Option.some.inj h3
    have he : per es z = e := by
      unfold per
      rw [hl, h1]; rfl
    rw [he, Option.some.inj h2, h3']
    exact h4

theorem ring_forward {subs vs es : List Idx} (hv : vs.Nodup) (hvn : vs ≠ []) (hen : es ≠ []) (hl : es.length = vs.length)
    (hn : es.Nodup) (hp : es.Perm subs) (hj : ∀ z : Int, Joins edges (per es z) (per vs z) (per vs (z + 1))) (t : Int) :
    Ring edges subs vs.length (fun j : Nat => per vs (j + t)) (fun j : Nat => per es (j + t)) where
  pos := List.length_pos_of_ne_nil hvn
  joins j _ := by
    have := hj (j + t)
    simpa [Int.add_right_comm] using this
  close := by
    have := per_add_length vs t
    simpa [Int.add_comm] using this
  vinj i j hi hj he := by
    have := per_inj hv hvn he
    have h2 := (Int.emod_emod_of_dvd ((i : Int) + t) (dvd_refl (vs.length : Int)))
    have h3 : (i : Int) % vs.length = j % vs.length := Int.ModEq.add_right_cancel' t this
    rw [Int.emod_eq_of_lt (by omega) (by omega), Int.emod_eq_of_lt (by omega) (by omega)] at h3
    omega
  einj i j hi hj he := by
    have := per_inj hn hen he
    rw [hl] at this
    have h3 : (i : Int) % vs.length = j % vs.length := Int.ModEq.add_right_cancel' t this
    rw [Int.emod_eq_of_lt (by omega) (by omega), Int.emod_eq_of_lt (by omega) (by omega)] at h3
    omega
  nodup := hp.nodup_iff.mp hn
  mem e := by
    rw [← hp.mem_iff, mem_iff_per hen]
    have hpos : 0 < es.length := List.length_pos_of_ne_nil hen
    constructor
    · rintro ⟨z, rfl⟩
      refine ⟨((z - t) % es.length).toNat, ?_, ?_⟩
      · rw [← hl]; exact toNat_emod_lt hpos _
      · rw [Int.toNat_of_nonneg (Int.emod_nonneg _ (by omega))]
        unfold per
        rw [Int.emod_add_emod, Int.sub_add_cancel]
    · rintro ⟨j, _, rfl⟩; exact ⟨_, rfl⟩

theorem joins_symm {e u v : Idx} (h : Joins edges e u v) : Joins edges e v u := by
  obtain ⟨ed, h1, h2⟩ := h
  refine ⟨ed, h1, ?_⟩
  rcases h2 with h2 | h2
  · simp only [Prod.mk.injEq] at h2; exact Or.inr h2
  · simp only at h2; exact Or.inl (by simp [h2.1, h2.2])

theorem ring_backward {subs vs es : List Idx} (hv : vs.Nodup) (hvn : vs ≠ []) (hen : es ≠ []) (hl : es.length = vs.length)
    (hn : es.Nodup) (hp : es.Perm subs) (hj : ∀ z : Int, Joins edges (per es z) (per vs z) (per vs (z + 1))) (t : Int) :
    Ring edges subs vs.length (fun j : Nat => per vs (t + 1 - j)) (fun j : Nat => per es (t - j)) where
  pos := List.length_pos_of_ne_nil hvn
  joins j _ := by
    have := joins_symm (hj (t - j))
    have e1 : t - (j : Int) + 1 = t + 1 - j := by omega
    have e2 : t + 1 - ((j + 1 : Nat) : Int) = t - j := by omega
    simp only [e2]
    rw [e1] at this
    exact this
  close := by
    have := per_add_length vs (t + 1 - vs.length)
    have e : t + 1 - (vs.length : Int) + vs.length = t + 1 - ((0 : Nat) : Int) := by omega
    rw [e] at this
    exact this.symm
  vinj i j hi hj he := by
    have := per_inj hv hvn he
    have h3 : (j : Int) % vs.length = i % vs.length := by
      have h4 : Int.ModEq vs.length (t + 1 - i) (t + 1 - j) := this
      have h5 := (h4.add_right ((i : Int) + j)).symm
      have e1 : t + 1 - (i : Int) + (i + j) = j + (t + 1) := by omega
      have e2 : t + 1 - (j : Int) + (i + j) = i + (t + 1) := by omega
      rw [e1, e2] at h5
      exact (Int.ModEq.add_right_cancel' (t + 1) h5).symm
    rw [Int.emod_eq_of_lt (by omega) (by omega), Int.emod_eq_of_lt (by omega) (by omega)] at h3
    omega
  einj i j hi hj he := by
    have := per_inj hn hen he
    rw [hl] at this
    have h3 : (j : Int) % vs.length = i % vs.length := by
      have h4 : Int.ModEq vs.length (t - i) (t - j) := this
      have h5 := (h4.add_right ((i : Int) + j)).symm
      have e1 : t - (i : Int) + (i + j) = j + t := by omega
      have e2 : t - (j : Int) + (i + j) = i + t := by omega
      rw [e1, e2] at h5
      exact (Int.ModEq.add_right_cancel' t h5).symm
    rw [Int.emod_eq_of_lt (by omega) (by omega), Int.emod_eq_of_lt (by omega) (by omega)] at h3
    omega
  nodup := hp.nodup_iff.mp hn
  mem e := by
    rw [← hp.mem_iff, mem_iff_per hen]
    have hpos : 0 < es.length := List.length_pos_of_ne_nil hen
    constructor
    · rintro ⟨z, rfl⟩
      refine ⟨((t - z) % es.length).toNat, ?_, ?_⟩
      · rw [← hl]; exact toNat_emod_lt hpos _
      · rw [Int.toNat_of_nonneg (Int.emod_nonneg _ (by omega))]
        unfold per
        rw [Int.sub_emod_emod, Int.sub_sub_self]
    · rintro ⟨j, _, rfl⟩; exact ⟨_, rfl⟩

/-- The writer finds the polygon. -/
theorem indexFace_ring {subs vs : List Idx} (h : IsPolygon edges subs vs) :
    ∃ n V E, Ring edges subs n V E ∧ Fpma.indexFace edges subs = .ok ((List.range n).map V) ∧
      SameCycle ((List.range n).map V) vs := by
  obtain ⟨es, hen, hl, hn, hp, hj⟩ := isPolygon_per h
  have hvn := h.1
  have hv : vs.Nodup := h.2.1
  have hsne : subs ≠ [] := by
    intro hh; rw [hh] at hp; exact hen hp.eq_nil
  obtain ⟨e0, he0⟩ : ∃ e0, subs[0]? = some e0 := by
    cases subs with
    | nil => exact absurd rfl hsne
    | cons x xs => exact ⟨x, rfl⟩
  obtain ⟨t, ht⟩ := (mem_iff_per hen e0).mp (hp.mem_iff.mpr (List.mem_of_getElem? he0))
  obtain ⟨ed, g1, g2⟩ := hj t
  rw [← ht] at g1
  have hfw := ring_forward hv hvn hen hl hn hp hj t
  have hbw := ring_backward hv hvn hen hl hn hp hj t
  rcases g2 with g2 | g2
  · simp only [Prod.mk.injEq] at g2
    refine ⟨_, _, _, hbw, hbw.indexFace (ed := ed) (by simpa [ht] using he0) (by simpa [ht] using g1) ?_ ?_, ?_⟩
    · rw [g2.1]; congr 1; omega
    · rw [g2.2]; congr 1; omega
    · right
      have := range_per_rotated hvn (t + 2 - vs.length)
      rw [← List.isRotated_reverse_comm_iff]
      convert this using 1
      apply List.ext_getElem
      · simp
      · intro i h1 h2
        simp only [List.length_map, List.length_range] at h2
        simp only [List.getElem_reverse, List.getElem_map, List.getElem_range, List.length_map, List.length_range]
        congr 1
        omega
  · simp only at g2
    refine ⟨_, _, _, hfw, hfw.indexFace (ed := ed) (by simpa [ht] using he0) (by simpa [ht] using g1) ?_ ?_, ?_⟩
    · rw [g2.1]; congr 1; push_cast; omega
    · rw [g2.2]; congr 1; omega
    · exact Or.inl (range_per_rotated hvn t)

end GTMesh.Fpma
