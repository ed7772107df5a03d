import Verif.Spec.Renumber
import Verif.Proofs.Geometry
import Verif.Proofs.Measures
import Verif.Props.Connections

/-! # Renumbering: lists and iteration -/

namespace GTMesh
open Spec Std' Vec
variable {V α β : Type}

/-- A function applied to the result. -/
def Res.rmap (f : α → β) (r : Res α) : Res β := r.bind fun a => .ok (f a)

namespace Res
@[simp] theorem rmap_ok (f : α → β) (a : α) : (Res.ok a).rmap f = .ok (f a) := rfl
@[simp] theorem rmap_throw (f : α → β) (e : Exc) : (Res.throw e : Res α).rmap f = .throw e := rfl
@[simp] theorem rmap_ub (f : α → β) : (Res.ub : Res α).rmap f = .ub := rfl
@[simp] theorem rmap_diverge (f : α → β) : (Res.diverge : Res α).rmap f = .diverge := rfl
theorem rmap_id (r : Res α) : r.rmap (fun a => a) = r := by cases r <;> rfl
theorem at'_map {l : List α} {l' : List β} {i j : Nat} {f : α → β} (h : l'[j]? = (l[i]?).map f) : at' l' j = (at' l i).rmap f := by
  unfold at'; rw [h]; cases l[i]? <;> rfl
theorem idx_map {l : List α} {l' : List β} {i j : Nat} {f : α → β} (h : l'[j]? = (l[i]?).map f) : idx l' j = (idx l i).rmap f := by
  unfold idx; rw [h]; cases l[i]? <;> rfl
theorem at'_same {l l' : List α} {i j : Nat} (h : l'[j]? = l[i]?) : at' l' j = at' l i := by unfold at'; rw [h]
theorem idx_same {l l' : List α} {i j : Nat} (h : l'[j]? = l[i]?) : idx l' j = idx l i := by unfold idx; rw [h]
/-- The rule for sequences. -/
theorem bind_rmap {γ δ : Type} {x : Res α} {x' : Res β} {f : α → β} {k : α → Res γ} {k' : β → Res δ} {g : γ → δ} (hx : x' = x.rmap f)
    (hk : ∀ a, k' (f a) = (k a).rmap g) : x'.bind k' = (x.bind k).rmap g := by
  subst hx; cases x <;> first | exact hk _ | rfl
/-- The same when the last results are equal. -/
theorem bind_same {γ : Type} {x : Res α} {x' : Res β} {f : α → β} {k : α → Res γ} {k' : β → Res γ} (hx : x' = x.rmap f)
    (hk : ∀ a, k' (f a) = k a) : x'.bind k' = x.bind k := by
  subst hx; cases x <;> first | exact hk _ | rfl
end Res

theorem forAll_map {α' β' : Type} {body : α → Res (List β)} {body' : α' → Res (List β')} {f : α → α'} {g : β → β'}
    (h : ∀ a, body' (f a) = (body a).rmap (List.map g)) : ∀ l : List α, forAll body' (l.map f) = (forAll body l).rmap (List.map g) := by
  intro l
  induction l with
  | nil => rfl
  | cons a as ih =>
    simp only [List.map_cons, forAll]
    refine Res.bind_rmap (h a) fun r => Res.bind_rmap ih fun rs => ?_
    simp

theorem forEach_map' {α' : Type} {body : α → Res β} {body' : α' → Res β} {f : α → α'}
    (h : ∀ a, body' (f a) = body a) : ∀ l : List α, forEach body' (l.map f) = forEach body l := by
  intro l
  induction l with
  | nil => rfl
  | cons a as ih => simp only [List.map_cons, forEach, h, ih]

/-! ## Permutations that keep the numbers from `n` on -/

theorem perm_lt {ρ : Equiv.Perm Nat} {n : Nat} (h : ∀ i, n ≤ i → ρ i = i) {i : Nat} : ρ i < n ↔ i < n := by
  constructor
  · intro hi
    by_contra hc
    rw [h i (by omega)] at hi
    exact hc hi
  · intro hi
    by_contra hc
    have := h (ρ i) (by omega)
    have := ρ.injective this
    omega

theorem length_of_carried {ρ : Equiv.Perm Nat} {l : List α} {l' : List β} (hf : ∀ i, l.length ≤ i → ρ i = i) {f : α → β}
    (h : ∀ i : Nat, l'[ρ i]? = (l[i]?).map f) : l'.length = l.length := by
  have key : ∀ j : Nat, j < l'.length ↔ j < l.length := by
    intro j
    have h1 := h (ρ.symm j)
    rw [ρ.apply_symm_apply] at h1
    have h2 : ρ.symm j < l.length ↔ j < l.length := by
      have := perm_lt hf (i := ρ.symm j)
      rw [ρ.apply_symm_apply] at this
      exact this.symm
    rw [← h2]
    constructor
    · intro hj
      rw [List.getElem?_eq_getElem hj] at h1
      by_contra hc
      rw [List.getElem?_eq_none (by omega)] at h1
      cases h1
    · intro hj
      rw [List.getElem?_eq_getElem hj] at h1
      by_contra hc
      rw [List.getElem?_eq_none (by omega)] at h1
      cases h1
  have a := key l'.length
  have b := key l.length
  omega

theorem Carried.length {ρ : Equiv.Perm Nat} {l l' : List α} (hf : ∀ i, l.length ≤ i → ρ i = i) (h : Carried ρ l l') :
    l'.length = l.length :=
  length_of_carried hf (f := fun a => a) fun i => by rw [h i]; simp

theorem forEach_range {body : Idx → Res α} {n : Nat} {l : List α} (h : forEach body (List.range n) = .ok l) :
    l.length = n ∧ ∀ i (hi : i < l.length), body i = .ok l[i] := by
  have hF := forEach_eq_ok h
  have hl : l.length = n := by rw [← hF.length_eq, List.length_range]
  refine ⟨hl, fun i hi => ?_⟩
  have := (List.forall₂_iff_get.mp hF).2 i (by simp; omega) hi
  simpa using this

theorem forEach_total {body : α → Res β} : ∀ {l : List α}, (∀ x ∈ l, ∃ y, body x = .ok y) → ∃ ys, forEach body l = .ok ys := by
  intro l
  induction l with
  | nil => intro _; exact ⟨[], rfl⟩
  | cons x xs ih =>
    intro h
    obtain ⟨y, hy⟩ := h x (by simp)
    obtain ⟨ys, hys⟩ := ih fun z hz => h z (by simp [hz])
    exact ⟨y :: ys, by simp only [forEach, hy, hys, Res.bind]⟩

/-- A loop over all elements of a dimension. -/
theorem forEach_carried {ρ : Equiv.Perm Nat} {n : Nat} (hf : ∀ i, n ≤ i → ρ i = i) {body : Idx → Res α} {body' : Idx → Res β} {f : α → β}
    (h : ∀ i, i < n → body' (ρ i) = (body i).rmap f) {l : List α} (hl : forEach body (List.range n) = .ok l) :
    ∃ l', forEach body' (List.range n) = .ok l' ∧ l.length = n ∧ l'.length = n ∧ ∀ i : Nat, l'[ρ i]? = (l[i]?).map f := by
  obtain ⟨hlen, hb⟩ := forEach_range hl
  have hex : ∃ l', forEach body' (List.range n) = .ok l' := by
    refine forEach_total fun j hj => ?_
    have hj := List.mem_range.mp hj
    have hs : ρ.symm j < n := by
      have := perm_lt hf (i := ρ.symm j)
      rw [ρ.apply_symm_apply] at this
      exact this.mp hj
    have h1 := h _ hs
    rw [ρ.apply_symm_apply, hb _ (by omega)] at h1
    exact ⟨_, h1⟩
  obtain ⟨l', hl'⟩ := hex
  obtain ⟨hlen', hb'⟩ := forEach_range hl'
  refine ⟨l', hl', hlen, hlen', fun i => ?_⟩
  by_cases hi : i < n
  · have hr := (perm_lt hf).mpr hi
    have h1 := h i hi
    rw [hb i (by omega), hb' _ (by omega), Res.rmap_ok, Res.ok.injEq] at h1
    rw [List.getElem?_eq_getElem (by omega), List.getElem?_eq_getElem (by omega), h1]
    rfl
  · rw [hf i (by omega), List.getElem?_eq_none (by omega), List.getElem?_eq_none (by omega)]
    rfl

theorem forEach_carried_same {ρ : Equiv.Perm Nat} {n : Nat} (hf : ∀ i, n ≤ i → ρ i = i) {body body' : Idx → Res α}
    (h : ∀ i, i < n → body' (ρ i) = body i) {l : List α} (hl : forEach body (List.range n) = .ok l) :
    ∃ l', forEach body' (List.range n) = .ok l' ∧ l.length = n ∧ Carried ρ l l' := by
  obtain ⟨l', h1, h2, _, h3⟩ := forEach_carried hf (body' := body') (f := fun a => a) (fun i hi => by rw [h i hi, Res.rmap_id]) hl
  exact ⟨l', h1, h2, fun i => by rw [h3 i]; simp⟩

/-! ## The elements of a renumbered mesh -/

namespace Spec.Renumbered
variable {ρ : Nat → Equiv.Perm Nat} {m m' : Mesh V} (h : Renumbered ρ m m')
include h

omit h in
theorem numCells : m.numElems m.dim = m.cells.length := by simp [Mesh.numElems]

theorem numVertices : m.numElems 0 = m.vertices.length := by
  have := h.dim_ge
  unfold Mesh.numElems
  rw [if_neg (by omega), if_pos rfl]

theorem numEdges : m.numElems 1 = m.edges.length := by
  have := h.dim_ge
  unfold Mesh.numElems
  rw [if_neg (by omega), if_neg (by omega), if_pos rfl]

omit h in
theorem numMids {d : Nat} (h1 : 2 ≤ d) (h2 : d < m.dim) : m.numElems d = (m.midElems d).length := by
  unfold Mesh.numElems
  rw [if_neg (by omega), if_neg (by omega), if_neg (by omega)]

theorem numElems {d : Nat} (hd : d ≤ m.dim) : m'.numElems d = m.numElems d := by
  have hge := h.dim_ge
  have hfix := fun i => h.fixed d i hd
  unfold Mesh.numElems at hfix ⊢
  rw [h.dim]
  split
  · rename_i hdd
    rw [if_pos hdd] at hfix
    exact length_of_carried hfix (hdd ▸ h.cells)
  · rename_i hdd
    rw [if_neg hdd] at hfix
    split
    · rename_i h0
      rw [if_pos h0] at hfix
      subst h0
      exact length_of_carried hfix (f := fun a => a) fun i => by rw [h.vertices i]; simp
    · rename_i h0
      rw [if_neg h0] at hfix
      split
      · rename_i h1
        rw [if_pos h1] at hfix
        subst h1
        exact length_of_carried hfix h.edges
      · rename_i h1
        rw [if_neg h1] at hfix
        exact length_of_carried hfix (fun i => h.mids d i (by omega) (by omega))

theorem numFaces : m'.numFaces = m.numFaces := by
  unfold Mesh.numFaces
  rw [h.dim]
  exact h.numElems (by omega)

theorem cell_invalid (c : Idx) : ρ m.dim c = INVALID ↔ c = INVALID := by
  have hB : BOUNDARY < INVALID := by decide
  have := h.fits m.dim le_rfl
  have e := h.fixed m.dim INVALID le_rfl (by omega)
  constructor
  · intro k
    exact (ρ m.dim).injective (k.trans e.symm)
  · rintro rfl; exact e

theorem cell_boundary (c : Idx) : BOUNDARY ≤ ρ m.dim c ↔ BOUNDARY ≤ c := by
  have := h.fits m.dim le_rfl
  have k := perm_lt (fun i => h.fixed m.dim i le_rfl) (i := c)
  constructor
  · intro hc
    by_contra hx
    have : m.numElems m.dim ≤ c := by
      by_contra hy
      have := k.mpr (by omega)
      omega
    rw [h.fixed m.dim c le_rfl this] at hc
    exact hx hc
  · intro hc
    rw [h.fixed m.dim c le_rfl (by omega)]
    exact hc

theorem faceConn (f : Idx) : m'.faceConn (ρ (m.dim - 1) f) = (m.faceConn f).rmap (renameConn (ρ m.dim) (ρ (m.dim - 1))) := by
  have hge := h.dim_ge
  unfold Mesh.faceConn
  rw [h.dim]
  split
  · rename_i hd
    have : m.dim - 1 = 1 := by omega
    refine Res.bind_rmap (Res.at'_map (f := renameEdge (ρ 1) (ρ 0) (ρ m.dim) (ρ (m.dim - 1))) ?_) fun e => rfl
    have hk := h.edges f
    rw [← hk, this]
  · rename_i hd
    exact Res.bind_rmap (Res.at'_map (h.mids (m.dim - 1) f (by omega) (by omega))) fun e => rfl

theorem next (c : Conn) (cell : Idx) :
    (renameConn (ρ m.dim) (ρ (m.dim - 1)) c).getNextBElem (ρ m.dim cell) = (c.getNextBElem cell).rmap (ρ (m.dim - 1)) := by
  simp only [Conn.getNextBElem, renameConn, h.cell_invalid, (ρ m.dim).injective.eq_iff]
  split
  · rfl
  · split
    · rfl
    · split <;> rfl

theorem nextFace (cell f : Idx) :
    m'.nextFace (ρ m.dim cell) (ρ (m.dim - 1) f) = (m.nextFace cell f).rmap (ρ (m.dim - 1)) :=
  Res.bind_rmap (h.faceConn f) fun c => h.next c cell

theorem cellLoop {β β' : Type} {body : Idx → Res (List β)} {body' : Idx → Res (List β')} {g : β → β'}
    (hb : ∀ f, body' (ρ (m.dim - 1) f) = (body f).rmap (List.map g)) (cell start : Idx) :
    ∀ (k : Nat) (t : Idx), m'.cellLoop body' (ρ m.dim cell) (ρ (m.dim - 1) start) k (ρ (m.dim - 1) t) =
      (m.cellLoop body cell start k t).rmap (List.map g) := by
  intro k
  induction k with
  | zero => intro t; rfl
  | succ k ih =>
    intro t
    simp only [Mesh.cellLoop]
    refine Res.bind_rmap (hb t) fun r => Res.bind_rmap (h.nextFace cell t) fun nxt => ?_
    simp only [(ρ (m.dim - 1)).injective.eq_iff]
    split
    · rfl
    · exact Res.bind_rmap (ih nxt) fun rest => by simp

theorem meshRun (t : Nat) : ∀ (k : Nat) (i : Idx), t + k ≤ m.dim →
    m'.meshRun t k (ρ (t + k) i) = (m.meshRun t k i).rmap (List.map (ρ t)) := by
  intro k
  induction k with
  | zero => intro i _; rfl
  | succ k ih =>
    intro i hk
    have hge := h.dim_ge
    have ih' := fun j => ih j (by omega)
    simp only [Mesh.meshRun, h.dim]
    split
    · rename_i hd
      have e1 : t + (k + 1) = m.dim := by omega
      have e2 : t + k = m.dim - 1 := by omega
      rw [e2] at ih'
      rw [e1, h.numFaces]
      refine Res.bind_rmap (Res.at'_map (h.cells i)) fun c => ?_
      exact h.cellLoop ih' i c.bElem _ _
    · rename_i hd
      split
      · rename_i h1
        have e1 : t + (k + 1) = 1 := by omega
        have e2 : t + k = 0 := by omega
        rw [e2] at ih'
        rw [e1]
        refine Res.bind_rmap (Res.at'_map (h.edges i)) fun e => ?_
        refine Res.bind_rmap (ih' e.a) fun ra => Res.bind_rmap (ih' e.b) fun rb => ?_
        simp
      · rename_i h1
        refine Res.bind_rmap (Res.at'_map (h.mids (t + k + 1) i (by omega) (by omega))) fun f => ?_
        exact forAll_map ih' f.sub

theorem applyOne {S T : Nat} (hS : S ≤ m.dim) (hT : T ≤ S) (i : Idx) :
    m'.applyOne S T (ρ S i) = (m.applyOne S T i).rmap (List.map (ρ T)) := by
  have := h.meshRun T (S - T) i (by omega)
  rwa [show T + (S - T) = S by omega] at this

/-- The boundaries of the cells in the new numbers. -/
def boundaries (_ : Renumbered ρ m m') (bd : Idx → List Idx) : Idx → List Idx :=
  fun j => (bd ((ρ m.dim).symm j)).map (ρ (m.dim - 1))

theorem boundaries_apply (bd : Idx → List Idx) (i : Idx) : h.boundaries bd (ρ m.dim i) = (bd i).map (ρ (m.dim - 1)) := by
  simp [boundaries]

theorem directSubs (bd : Idx → List Idx) {d : Nat} (h1 : 1 ≤ d) (h2 : d ≤ m.dim) (i : Idx) :
    directSubs m' (h.boundaries bd) d (ρ d i) = (directSubs m bd d i).map (ρ (d - 1)) := by
  have hge := h.dim_ge
  unfold Spec.directSubs
  rw [h.dim]
  split
  · rename_i hd; subst hd; exact h.boundaries_apply bd i
  · rename_i hd
    split
    · rename_i hd1
      subst hd1
      rw [h.edges i]
      cases m.edges[i]? <;> rfl
    · rename_i hd1
      rw [h.mids d i (by omega) (by omega)]
      cases (m.midElems d)[i]? <;> rfl

theorem valid {bd : Idx → List Idx} (hv : ValidMesh m bd) : ValidMesh m' (h.boundaries bd) := by
  refine ⟨h.dim ▸ hv.dim_ge, ?_, ?_⟩
  · intro j c' hc'
    obtain ⟨i, rfl⟩ : ∃ i, ρ m.dim i = j := ⟨(ρ m.dim).symm j, by simp⟩
    rw [h.cells i] at hc'
    cases hc : m.cells[i]? with
    | none => rw [hc] at hc'; cases hc'
    | some c =>
      rw [hc] at hc'
      cases hc'
      obtain ⟨⟨k1, k2, k3⟩, k4⟩ := hv.chain i c hc
      rw [h.boundaries_apply]
      refine ⟨⟨by simpa using k1, ?_, ?_⟩, ?_⟩
      · exact List.Pairwise.map _ (fun a b hab hc => hab ((ρ (m.dim - 1)).injective hc)) k2
      · intro a ha
        have ha' : a < (bd i).length := by simpa using ha
        obtain ⟨cn, l1, l2⟩ := k3 a ha'
        refine ⟨renameConn (ρ m.dim) (ρ (m.dim - 1)) cn, ?_, ?_⟩
        · rw [List.getElem_map, h.faceConn, l1]; rfl
        · rw [h.next, l2, Res.rmap_ok, Res.ok.injEq, List.getElem_map]
          congr 2
          simp
      · rw [List.getElem?_map, k4]; rfl
  · intro d j h1 h2 hj s hs
    rw [h.dim] at h2
    obtain ⟨i, rfl⟩ : ∃ i, ρ d i = j := ⟨(ρ d).symm j, by simp⟩
    rw [h.numElems h2, perm_lt (fun i => h.fixed d i h2)] at hj
    rw [h.directSubs bd h1 h2, List.mem_map] at hs
    obtain ⟨t, ht, rfl⟩ := hs
    rw [h.numElems (by omega), perm_lt (fun i => h.fixed (d - 1) i (by omega))]
    exact hv.range d i h1 h2 hj t ht

theorem partOf (bd : Idx → List Idx) (t : Nat) : ∀ (k : Nat) (i j : Idx), t + k ≤ m.dim →
    (PartOf m' (h.boundaries bd) t k (ρ (t + k) i) (ρ t j) ↔ PartOf m bd t k i j) := by
  intro k
  induction k with
  | zero =>
    intro i j _
    constructor
    · intro hp
      have key : ∀ x y, PartOf m' (h.boundaries bd) t 0 x y → x = y := by
        intro x y hxy; cases hxy; rfl
      have : ρ t i = ρ t j := key _ _ hp
      rw [(ρ t).injective this]
      exact .refl _
    · intro hp
      cases hp
      exact .refl _
  | succ k ih =>
    intro i j hk
    constructor
    · intro hp
      generalize hx : ρ (t + (k + 1)) i = x at hp
      generalize hy : ρ t j = y at hp
      cases hp with
      | step hs hp =>
        subst hx
        subst hy
        have := h.directSubs bd (d := t + k + 1) (by omega) (by omega) i
        rw [show t + (k + 1) = t + k + 1 from rfl, this, List.mem_map] at hs
        obtain ⟨u, hu, rfl⟩ := hs
        exact .step hu ((ih u j (by omega)).mp hp)
    · intro hp
      generalize hy : j = y at hp
      cases hp with
      | @step _ _ s _ hs hp =>
        refine .step (s := ρ (t + k) s) ?_ ((ih s _ (by omega)).mpr (hy ▸ hp))
        have := h.directSubs bd (d := t + k + 1) (by omega) (by omega) i
        rw [show t + (k + 1) = t + k + 1 from rfl, this, List.mem_map]
        exact ⟨s, hs, rfl⟩

theorem incident (bd : Idx → List Idx) {S T : Nat} (hS : S ≤ m.dim) (hT : T ≤ m.dim) (s t : Idx) :
    Incident m' (h.boundaries bd) S T (ρ S s) (ρ T t) ↔ Incident m bd S T s t := by
  unfold Incident
  split
  · have := h.partOf bd T (S - T) s t (by omega)
    rwa [show T + (S - T) = S by omega] at this
  · have := h.partOf bd S (T - S) t s (by omega)
    rwa [show S + (T - S) = T by omega] at this

end Spec.Renumbered
end GTMesh
