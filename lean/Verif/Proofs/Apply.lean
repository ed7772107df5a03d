import Verif.Model.Apply
import Verif.Spec.Incidence
import Verif.Proofs.Lists
import Mathlib.Data.List.Nodup
import Mathlib.Data.List.Range
import Mathlib.Data.List.Perm.Subperm
import Mathlib.Data.Nat.Find

namespace GTMesh
open Spec Std'

section ForAll

theorem forAll_ok {α : Type u} {β : Type v} {body : α → Res (List β)} {f : α → List β} {l : List α}
    (h : ∀ x ∈ l, body x = .ok (f x)) : forAll body l = .ok (l.flatMap f) := by
  induction l with
  | nil => rfl
  | cons x xs ih =>
    simp only [forAll, h x (by simp), ih (fun y hy => h y (by simp [hy])), Res.bind, List.flatMap_cons]

theorem forAll_eq_ok {α : Type u} {β : Type v} {body : α → Res (List β)} {l : List α} {r : List β}
    (h : forAll body l = .ok r) : ∃ f : α → List β, (∀ x ∈ l, body x = .ok (f x)) ∧ r = l.flatMap f := by
  induction l generalizing r with
  | nil => simp [forAll] at h; exact ⟨fun _ => [], by simp, by simp [h]⟩
  | cons x xs ih =>
    simp only [forAll] at h
    cases hb : body x with
    | ok a =>
      rw [hb] at h
      simp only [Res.bind] at h
      cases hf : forAll body xs with
      | ok rs =>
        rw [hf] at h
        simp only [Res.ok.injEq] at h
        obtain ⟨f, h1, h2⟩ := ih hf
        classical
        refine ⟨fun y => match body y with | .ok a => a | _ => [], ?_, ?_⟩
        · intro y hy
          rcases List.mem_cons.mp hy with rfl | hy
          · simp [hb]
          · simp [h1 y hy]
        · rw [← h, h2, List.flatMap_cons]
          congr 1
          · simp [hb]
          · apply List.flatMap_congr
            intro y hy
            simp [h1 y hy]
      | throw e => simp [hf] at h
      | ub => simp [hf] at h
      | diverge => simp [hf] at h
    | throw e => simp [hb] at h
    | ub => simp [hb] at h
    | diverge => simp [hb] at h

theorem forAll_ne_diverge {α : Type u} {β : Type v} {body : α → Res (List β)} {l : List α}
    (h : ∀ x ∈ l, body x ≠ .diverge) : forAll body l ≠ .diverge := by
  induction l with
  | nil => simp [forAll]
  | cons x xs ih =>
    have h1 := h x (by simp)
    have h2 := ih (fun y hy => h y (by simp [hy]))
    simp only [forAll]
    cases hb : body x <;> simp_all
    cases hf : forAll body xs <;> simp_all

end ForAll

namespace Mesh
variable {V : Type} {β : Type}

theorem nextFace_eq_ok {m : Mesh V} {cell f g : Idx} :
    m.nextFace cell f = .ok g ↔ Linked m cell f g := by
  unfold nextFace Linked
  cases h : m.faceConn f <;> simp

theorem at'_ne_diverge {α : Type u} (l : List α) (i : Nat) : Res.at' l i ≠ .diverge := by
  unfold Res.at'; cases l[i]? <;> simp

theorem at'_ne_ub {α : Type u} (l : List α) (i : Nat) : Res.at' l i ≠ .ub := by
  unfold Res.at'; cases l[i]? <;> simp

theorem faceConn_ne_diverge (m : Mesh V) (f : Idx) : m.faceConn f ≠ .diverge := by
  unfold faceConn Res.at'
  split
  · cases m.edges[f]? <;> simp
  · cases (m.midElems (m.dim - 1))[f]? <;> simp

theorem faceConn_lt {m : Mesh V} (hd : 2 ≤ m.dim) {f : Idx} {c : Conn} (h : m.faceConn f = .ok c) :
    f < m.numFaces := by
  unfold faceConn at h
  unfold numFaces numElems
  split at h
  · next h2 =>
    cases he : m.edges[f]? with
    | none => simp [Res.at', he] at h
    | some e =>
      have := (List.getElem?_eq_some_iff.mp he).1
      simp [h2, this]
  · next h2 =>
    cases he : (m.midElems (m.dim - 1))[f]? with
    | none => simp [Res.at', he] at h
    | some e =>
      have := (List.getElem?_eq_some_iff.mp he).1
      rw [if_neg (by omega), if_neg (by omega), if_neg (by omega)]
      exact this

theorem getNextBElem_ne_diverge (c : Conn) (i : Idx) : c.getNextBElem i ≠ .diverge := by
  unfold Conn.getNextBElem; split <;> (try split) <;> (try split) <;> simp

theorem nextFace_ne_diverge (m : Mesh V) (cell f : Idx) : m.nextFace cell f ≠ .diverge := by
  unfold nextFace
  have := faceConn_ne_diverge m f
  cases h : m.faceConn f <;> simp_all
  exact getNextBElem_ne_diverge _ _

/-! ### the walk along a closed chain -/

theorem cellLoop_chain {m : Mesh V} {body : Idx → Res (List β)} {f : Idx → List β} {cell : Idx}
    {l : List Idx} (hc : ClosedChain m cell l) (hb : ∀ x ∈ l, body x = .ok (f x))
    {start : Idx} (hs : l[0]? = some start) :
    ∀ n i (h : i < l.length), l.length - i ≤ n →
      m.cellLoop body cell start n l[i] = .ok ((l.drop i).flatMap f) := by
  obtain ⟨hne, hnr, hl⟩ := hc
  intro n
  induction n with
  | zero => intro i h h2; omega
  | succ n ih =>
    intro i h h2
    simp only [cellLoop, hb _ (List.getElem_mem h), Res.bind]
    have hlk := hl i h
    rw [nextFace_eq_ok.mpr hlk]
    simp only
    have h0 : start = l[0]'(by omega) := by
      rw [List.getElem?_eq_getElem (by omega)] at hs
      exact (Option.some.inj hs).symm
    by_cases hi : i + 1 = l.length
    · have : (i + 1) % l.length = 0 := by rw [hi]; exact Nat.mod_self _
      simp only [this, h0, if_true]
      have hd : l.drop i = [l[i]] := by
        rw [List.drop_eq_getElem_cons h, List.drop_eq_nil_of_le (by omega)]
      simp [hd]
    · have hlt : i + 1 < l.length := by omega
      have hmod : (i + 1) % l.length = i + 1 := Nat.mod_eq_of_lt hlt
      simp only [hmod]
      have hne' : l[i + 1] ≠ start := by
        rw [h0]
        have := List.pairwise_iff_getElem.mp hnr 0 (i + 1) (by omega) hlt (by omega)
        exact fun h => this h.symm
      rw [if_neg hne', ih (i + 1) hlt (by omega)]
      simp only
      rw [List.drop_eq_getElem_cons h, List.flatMap_cons]

theorem chain_lt {m : Mesh V} (hd : 2 ≤ m.dim) {cell : Idx} {l : List Idx} (hc : ClosedChain m cell l) :
    ∀ x ∈ l, x < m.numFaces := by
  intro x hx
  obtain ⟨i, hi, rfl⟩ := List.mem_iff_getElem.mp hx
  obtain ⟨c, h1, _⟩ := hc.2.2 i hi
  exact faceConn_lt hd h1

theorem nodup_length_le {l : List Nat} {n : Nat} (hn : l.Nodup) (h : ∀ x ∈ l, x < n) : l.length ≤ n := by
  have hsub : l ⊆ List.range n := fun x hx => List.mem_range.mpr (h x hx)
  have := (List.Nodup.subperm hn hsub).length_le
  simpa using this

theorem chain_length {m : Mesh V} (hd : 2 ≤ m.dim) {cell : Idx} {l : List Idx}
    (hc : ClosedChain m cell l) : l.length ≤ m.numFaces :=
  nodup_length_le hc.2.1 (chain_lt hd hc)

/-! ### converse -/

theorem cellLoop_ok_linked {m : Mesh V} {cell start : Idx} :
    ∀ n t l, m.cellLoop (fun f => .ok [f]) cell start n t = .ok l →
      ∃ l', l = t :: l' ∧ (∀ i (h : i + 1 < l.length), Linked m cell l[i] l[i + 1])
        ∧ (∀ h : l ≠ [], Linked m cell (l.getLast h) start) ∧ (∀ x ∈ l', x ≠ start) := by
  intro n
  induction n with
  | zero => intro t l h; simp [cellLoop] at h
  | succ n ih =>
    intro t l h
    simp only [cellLoop, Res.bind] at h
    cases hn : m.nextFace cell t with
    | ok nxt =>
      rw [hn] at h
      simp only at h
      have hlk := nextFace_eq_ok.mp hn
      by_cases hs : nxt = start
      · rw [if_pos hs] at h
        simp only [Res.ok.injEq] at h
        subst h hs
        refine ⟨[], rfl, ?_, ?_, by simp⟩
        · intro i hi; simp at hi
        · intro _; exact hlk
      · rw [if_neg hs] at h
        cases hr : m.cellLoop (fun f => .ok [f]) cell start n nxt with
        | ok rest =>
          rw [hr] at h
          simp only [Res.ok.injEq] at h
          obtain ⟨l', h1, h2, h3, h4⟩ := ih nxt rest hr
          subst h
          refine ⟨rest, rfl, ?_, ?_, ?_⟩
          · intro i hi
            cases i with
            | zero => subst h1; exact hlk
            | succ i => simpa using h2 i (by simpa using hi)
          · intro _
            have hne : rest ≠ [] := by rw [h1]; simp
            have : ([t] ++ rest).getLast (by simp) = rest.getLast hne := by
              simp [List.getLast_append, hne]
            rw [this]; exact h3 hne
          · intro x hx
            rw [h1] at hx
            rcases List.mem_cons.mp hx with rfl | hx
            · exact hs
            · exact h4 x hx
        | throw e => simp [hr] at h
        | ub => simp [hr] at h
        | diverge => simp [hr] at h
    | throw e => simp [hn] at h
    | ub => simp [hn] at h
    | diverge => simp [hn] at h

/-! ### fuel -/

theorem cellLoop_mono {m : Mesh V} {body : Idx → Res (List β)} {cell start : Idx} :
    ∀ n t, m.cellLoop body cell start n t ≠ .diverge →
      m.cellLoop body cell start (n + 1) t = m.cellLoop body cell start n t := by
  intro n
  induction n with
  | zero => intro t h; simp [cellLoop] at h
  | succ n ih =>
    intro t h
    rw [cellLoop]
    conv => rhs; rw [cellLoop]
    rw [cellLoop] at h
    cases hb : body t with
    | ok r =>
      rw [hb] at h
      simp only [Res.bind] at h ⊢
      cases hn : m.nextFace cell t with
      | ok nxt =>
        rw [hn] at h
        simp only at h ⊢
        by_cases hs : nxt = start
        · simp [hs]
        · rw [if_neg hs] at h
          rw [if_neg hs, if_neg hs]
          have : m.cellLoop body cell start n nxt ≠ .diverge := by
            intro hd; rw [hd] at h; simp at h
          rw [ih nxt this]
      | throw e => rfl
      | ub => rfl
      | diverge => rfl
    | throw e => rfl
    | ub => rfl
    | diverge => rfl

theorem cellLoop_mono_le {m : Mesh V} {body : Idx → Res (List β)} {cell start : Idx} {n k t : Nat}
    (hk : n ≤ k) (h : m.cellLoop body cell start n t ≠ .diverge) :
    m.cellLoop body cell start k t = m.cellLoop body cell start n t := by
  induction hk with
  | refl => rfl
  | step _ ih => rw [cellLoop_mono _ _ (by rw [ih]; exact h), ih]

/-- If the loop ends after exactly `r + 1` steps from `t`, there are `r` different faces on the way. -/
theorem cellLoop_rank {m : Mesh V} (hd : 2 ≤ m.dim) {body : Idx → Res (List β)} {cell start : Idx}
    (hbody : ∀ x, body x ≠ .diverge) :
    ∀ r t, m.cellLoop body cell start (r + 1) t ≠ .diverge →
      m.cellLoop body cell start r t = .diverge →
      ∃ l : List Idx, l.length = r ∧ l.Nodup ∧ ∀ x ∈ l, x < m.numFaces ∧
        ∃ k, 1 ≤ k ∧ k ≤ r ∧ m.cellLoop body cell start (k + 1) x ≠ .diverge ∧
          m.cellLoop body cell start k x = .diverge := by
  intro r
  induction r with
  | zero => intro t _ _; exact ⟨[], rfl, List.nodup_nil, by simp⟩
  | succ r ih =>
    intro t h1 h2
    have h1' := h1
    have h2' := h2
    rw [cellLoop] at h1 h2
    have hbt := hbody t
    cases hb : body t with
    | ok rr =>
      rw [hb] at h1 h2
      simp only [Res.bind] at h1 h2
      have hnd := nextFace_ne_diverge m cell t
      cases hn : m.nextFace cell t with
      | ok nxt =>
        rw [hn] at h1 h2
        simp only at h1 h2
        by_cases hs : nxt = start
        · simp [hs] at h2
        · rw [if_neg hs] at h1 h2
          have e1 : m.cellLoop body cell start (r + 1) nxt ≠ .diverge := by
            intro hdv; rw [hdv] at h1; simp at h1
          have e2 : m.cellLoop body cell start r nxt = .diverge := by
            cases hc : m.cellLoop body cell start r nxt <;> simp_all
          obtain ⟨l, hl1, hl2, hl3⟩ := ih nxt e1 e2
          refine ⟨t :: l, by simp [hl1], ?_, ?_⟩
          · refine List.nodup_cons.mpr ⟨?_, hl2⟩
            intro ht
            obtain ⟨_, k, hk1, hk2, hk3, hk4⟩ := hl3 t ht
            have := cellLoop_mono_le (body := body) (show k + 1 ≤ r + 1 by omega) hk3
            rw [h2'] at this
            exact hk3 this.symm
          · intro x hx
            rcases List.mem_cons.mp hx with rfl | hx
            · refine ⟨?_, r + 1, by omega, by omega, h1', h2'⟩
              obtain ⟨c, hc, _⟩ := nextFace_eq_ok.mp hn
              exact faceConn_lt hd hc
            · obtain ⟨a, k, b, c, d, e⟩ := hl3 x hx
              exact ⟨a, k, b, by omega, d, e⟩
      | throw e => rw [hn] at h2; simp at h2
      | ub => rw [hn] at h2; simp at h2
      | diverge => exact absurd hn hnd
    | throw e => rw [hb] at h2; simp at h2
    | ub => rw [hb] at h2; simp at h2
    | diverge => exact absurd hb hbt

theorem cellLoop_fuel_enough {m : Mesh V} (hd : 2 ≤ m.dim) {body : Idx → Res (List β)} {cell start t : Idx}
    (hbody : ∀ x, body x ≠ .diverge)
    (h : m.cellLoop body cell start (m.numFaces + 1) t = .diverge) :
    ∀ n, m.cellLoop body cell start n t = .diverge := by
  intro n
  apply Classical.byContradiction
  intro hn
  classical
  -- the least number of steps after which the loop has ended
  have hex : ∃ k, m.cellLoop body cell start k t ≠ .diverge := ⟨n, hn⟩
  let k := Nat.find hex
  have hk := Nat.find_spec hex
  have hmin : ∀ j < k, m.cellLoop body cell start j t = .diverge := by
    intro j hj
    have := Nat.find_min hex hj
    simpa using this
  have hk0 : k ≠ 0 := by
    intro h0
    have : m.cellLoop body cell start k t ≠ .diverge := hk
    rw [h0] at this
    simp [cellLoop] at this
  obtain ⟨r, hr⟩ := Nat.exists_eq_succ_of_ne_zero hk0
  have e1 : m.cellLoop body cell start (r + 1) t ≠ .diverge := by rw [← Nat.succ_eq_add_one, ← hr]; exact hk
  have e2 := hmin r (by omega)
  obtain ⟨l, hl1, hl2, hl3⟩ := cellLoop_rank hd hbody r t e1 e2
  have hle := nodup_length_le hl2 (fun x hx => (hl3 x hx).1)
  have := cellLoop_mono_le (body := body) (show r + 1 ≤ m.numFaces + 1 by omega) e1
  rw [h] at this
  exact e1 this.symm

theorem meshRun_ne_diverge (m : Mesh V) (target : Nat) :
    ∀ k, target + k < m.dim → ∀ i, m.meshRun target k i ≠ .diverge := by
  intro k
  induction k with
  | zero => intro _ i; simp [meshRun]
  | succ k ih =>
    intro h i
    have ih' := ih (by omega)
    rw [meshRun, if_neg (by omega)]
    split
    · have h1 := at'_ne_diverge m.edges i
      cases ha : Res.at' m.edges i with
      | ok e =>
        simp only [Res.bind]
        have h2 := ih' e.a
        have h3 := ih' e.b
        cases h4 : m.meshRun target k e.a <;> cases h5 : m.meshRun target k e.b <;> simp_all
      | throw e => simp
      | ub => simp
      | diverge => exact absurd ha h1
    · have h1 := at'_ne_diverge (m.midElems (target + k + 1)) i
      cases ha : Res.at' (m.midElems (target + k + 1)) i with
      | ok e => simp only [Res.bind]; exact forAll_ne_diverge (fun x _ => ih' x)
      | throw e => simp
      | ub => simp
      | diverge => exact absurd ha h1

/-! ### the recursion over dimensions on a valid mesh -/

theorem meshRun_descend {m : Mesh V} {bd : Idx → List Idx} (hv : ValidMesh m bd) (t : Nat) :
    ∀ k, t + k ≤ m.dim → ∀ i, i < m.numElems (t + k) → m.meshRun t k i = .ok (descend m bd t k i) := by
  intro k
  induction k with
  | zero => intro _ i _; simp [meshRun, descend]
  | succ k ih =>
    intro hle i hi
    have ih' := ih (by omega)
    have hrange := hv.range (t + k + 1) i (by omega) hle hi
    have hsub : ∀ s ∈ directSubs m bd (t + k + 1) i, m.meshRun t k s = .ok (descend m bd t k s) := by
      intro s hs
      exact ih' s (by simpa using hrange s hs)
    rw [meshRun, descend]
    by_cases hd : t + k + 1 = m.dim
    · rw [if_pos hd]
      have hi' : i < m.cells.length := by
        have : t + (k + 1) = m.dim := by omega
        rw [this] at hi; simpa [numElems] using hi
      have hc : m.cells[i]? = some m.cells[i] := List.getElem?_eq_getElem hi'
      obtain ⟨h1, h2⟩ := hv.chain i _ hc
      have hat : Res.at' m.cells i = .ok m.cells[i] := by simp [hc]
      rw [hat]
      simp only [Res.bind]
      have hds : directSubs m bd (t + k + 1) i = bd i := by simp [directSubs, hd]
      rw [hds] at hsub ⊢
      have h0 : 0 < (bd i).length := List.length_pos_iff.mpr h1.1
      have hget : (bd i)[0] = (m.cells[i]).bElem := by
        rw [List.getElem?_eq_getElem h0] at h2; exact Option.some.inj h2
      have := cellLoop_chain h1 hsub h2 (m.numFaces + 1) 0 h0
        (by have := chain_length hv.dim_ge h1; omega)
      rw [hget] at this
      simpa using this
    · rw [if_neg hd]
      by_cases h1 : t + k + 1 = 1
      · rw [if_pos h1]
        have hi' : i < m.edges.length := by
          have e : t + (k + 1) = 1 := by omega
          rw [e] at hi
          unfold numElems at hi
          rwa [if_neg (by have := hv.dim_ge; omega), if_neg (by omega), if_pos rfl] at hi
        have hc : m.edges[i]? = some m.edges[i] := List.getElem?_eq_getElem hi'
        have hat : Res.at' m.edges i = .ok m.edges[i] := by simp [hc]
        have hds : directSubs m bd (t + k + 1) i = [m.edges[i].a, m.edges[i].b] := by
          unfold directSubs; rw [if_neg hd, if_pos h1, hc]; rfl
        rw [hds] at hsub ⊢
        rw [hat]
        simp [hsub]
      · rw [if_neg h1]
        have hi' : i < (m.midElems (t + k + 1)).length := by
          have e : t + (k + 1) = t + k + 1 := by omega
          rw [e] at hi
          unfold numElems at hi
          rwa [if_neg hd, if_neg (by omega), if_neg h1] at hi
        have hc : (m.midElems (t + k + 1))[i]? = some (m.midElems (t + k + 1))[i] :=
          List.getElem?_eq_getElem hi'
        have hat : Res.at' (m.midElems (t + k + 1)) i = .ok (m.midElems (t + k + 1))[i] := by simp [hc]
        have hds : directSubs m bd (t + k + 1) i = ((m.midElems (t + k + 1))[i]).sub := by
          unfold directSubs; rw [if_neg hd, if_neg h1, hc]; rfl
        rw [hds] at hsub ⊢
        rw [hat]
        simp only [Res.bind]
        exact forAll_ok hsub

theorem mem_descend {m : Mesh V} {bd : Idx → List Idx} {t : Nat} :
    ∀ {k i j}, j ∈ descend m bd t k i ↔ PartOf m bd t k i j := by
  intro k
  induction k with
  | zero =>
    intro i j
    simp only [descend, List.mem_singleton]
    constructor
    · rintro rfl; exact PartOf.refl _
    · intro h; cases h; rfl
  | succ k ih =>
    intro i j
    simp only [descend, List.mem_flatMap]
    constructor
    · rintro ⟨s, h1, h2⟩; exact PartOf.step h1 (ih.mp h2)
    · intro h
      cases h with
      | step h1 h2 => exact ⟨_, h1, ih.mpr h2⟩

theorem descend_lt {m : Mesh V} {bd : Idx → List Idx} (hv : ValidMesh m bd) {t : Nat} :
    ∀ {k i j}, t + k ≤ m.dim → i < m.numElems (t + k) → j ∈ descend m bd t k i → j < m.numElems t := by
  intro k
  induction k with
  | zero => intro i j _ hi hj; simp [descend] at hj; subst hj; simpa using hi
  | succ k ih =>
    intro i j hle hi hj
    simp only [descend, List.mem_flatMap] at hj
    obtain ⟨s, h1, h2⟩ := hj
    have := hv.range (t + k + 1) i (by omega) hle hi s h1
    exact ih (by omega) (by simpa using this) h2

end Mesh
end GTMesh

/-! ### a checker for valid meshes (used only to exhibit examples) -/
namespace GTMesh
open Spec

/-- Boolean version of `ClosedChain`. -/
def closedChainB {V : Type} (m : Mesh V) (cell : Idx) (l : List Idx) : Bool :=
  !l.isEmpty && decide (l.Pairwise (· ≠ ·)) &&
  (List.range l.length).all fun i =>
    decide (m.nextFace cell (l[i]?.getD 0) = .ok (l[(i + 1) % l.length]?.getD 0))

/-- Boolean version of `ValidMesh`. -/
def validB {V : Type} (m : Mesh V) (bd : Idx → List Idx) : Bool :=
  decide (2 ≤ m.dim) &&
  ((List.range m.cells.length).all fun i =>
    closedChainB m i (bd i) && decide ((bd i)[0]? = m.cells[i]?.map (·.bElem))) &&
  (List.range m.dim).all fun d' =>
    (List.range (m.numElems (d' + 1))).all fun i =>
      (directSubs m bd (d' + 1) i).all fun s => decide (s < m.numElems d')

theorem closedChainB_sound {V : Type} {m : Mesh V} {cell : Idx} {l : List Idx}
    (h : closedChainB m cell l = true) : ClosedChain m cell l := by
  unfold closedChainB at h
  simp only [Bool.and_eq_true, Bool.not_eq_true', List.isEmpty_eq_false_iff, decide_eq_true_eq,
    List.all_eq_true, List.mem_range] at h
  obtain ⟨⟨h1, h2⟩, h3⟩ := h
  refine ⟨h1, h2, ?_⟩
  intro i hi
  have h4 := h3 i hi
  have hmod : (i + 1) % l.length < l.length := Nat.mod_lt _ (by omega)
  rw [List.getElem?_eq_getElem hi, List.getElem?_eq_getElem hmod] at h4
  exact Mesh.nextFace_eq_ok.mp h4

theorem validB_sound {V : Type} {m : Mesh V} {bd : Idx → List Idx} (h : validB m bd = true) :
    ValidMesh m bd := by
  unfold validB at h
  simp only [Bool.and_eq_true, decide_eq_true_eq, List.all_eq_true, List.mem_range] at h
  obtain ⟨⟨h1, h2⟩, h3⟩ := h
  refine ⟨h1, ?_, ?_⟩
  · intro i c hc
    have hi := (List.getElem?_eq_some_iff.mp hc).1
    obtain ⟨h4, h5⟩ := h2 i hi
    refine ⟨closedChainB_sound h4, ?_⟩
    rw [h5, hc]; rfl
  · intro d i hd1 hd2 hi s hs
    obtain ⟨d', rfl⟩ : ∃ d', d = d' + 1 := ⟨d - 1, by omega⟩
    exact h3 d' (by omega) i hi s hs

end GTMesh
