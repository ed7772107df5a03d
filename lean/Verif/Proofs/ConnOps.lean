import Verif.Model.Vtk
import Verif.Proofs.Chains

/-! # Histories of calls on the connection of a facet -/

namespace GTMesh.Vtk
open Spec

/-- Calls on the connection of a facet made by the VTK readers. -/
inductive ConnOp where
  | attach (c : Idx)
  | next (g c : Idx)

/-- Registering a cell: the first one is the left one, any later one the right one. -/
def attach (cn : Conn) (c : Idx) : Conn :=
  if cn.left = INVALID then cn.setCellLeftIndex c else cn.setCellRightIndex c

/-- Effect of one call. -/
def ConnOp.run (cn : Conn) : ConnOp → Conn
  | .attach c => Vtk.attach cn c
  | .next g c => (cn.setNextBElem g c).1

/-- Effect of a history. -/
def runOps (cn : Conn) (ops : List ConnOp) : Conn := ops.foldl ConnOp.run cn

/-- The calls concerning facet `i`. -/
def opsOf (i : Idx) (g : List (Idx × ConnOp)) : List ConnOp := (g.filter fun p => decide (p.1 = i)).map (·.2)

theorem opsOf_append (i : Idx) (a b) : opsOf i (a ++ b) = opsOf i a ++ opsOf i b := by simp [opsOf]

theorem runOps_append (cn : Conn) (a b) : runOps cn (a ++ b) = runOps (runOps cn a) b := by simp [runOps]

/-- The calls for one facet. -/
def stepOps (cell prev first e : Idx) (isLast : Bool) : List (Idx × ConnOp) :=
  (e, .attach cell) :: (if prev ≠ INVALID then [(prev, .next e cell)] else []) ++
    (if isLast then [(e, .next first cell)] else [])

/-- The calls for the facets `l` of a cell. -/
def cellOps (cell : Idx) : Idx → Option Idx → List Idx → List (Idx × ConnOp)
  | _, _, [] => []
  | prev, first, e :: l =>
    stepOps cell prev (first.getD e) e (decide (l = [])) ++ cellOps cell e (some (first.getD e)) l

theorem cellOps_first_none (cell prev e : Idx) (l : List Idx) :
    cellOps cell prev none (e :: l) = cellOps cell prev (some e) (e :: l) := rfl

theorem opsOf_cellOps_aux (cell i first : Idx) (hi : i ≠ INVALID) : ∀ (l : List Idx) (prev e : Idx),
    NoRepetition (e :: l) → prev ∉ e :: l →
    opsOf i (cellOps cell prev (some first) (e :: l)) =
      (if prev = i ∧ prev ≠ INVALID then [.next e cell] else []) ++
      ((pairsFrom first (e :: l)).filter fun p => decide (p.1 = i)).flatMap
        fun p => [.attach cell, .next p.2 cell] := by
  intro l
  induction l with
  | nil =>
    intro prev e hn hp
    have hpe : prev ≠ e := by simpa using hp
    simp only [cellOps, stepOps, opsOf, pairsFrom]
    by_cases h1 : e = i
    · subst h1
      by_cases h2 : prev = INVALID <;> simp [h2, hpe]
    · by_cases h2 : prev = INVALID
      · simp [h2, h1]
      · by_cases h3 : prev = i <;> simp [h2, h1, h3, hi]
  | cons g l ih =>
    intro prev e hn hp
    have hpe : prev ≠ e := by simp at hp; exact hp.1
    have hn' := List.pairwise_cons.mp hn
    rw [cellOps, opsOf_append]
    simp only [Option.getD_some]
    rw [ih e g hn'.2 (fun hm => hn'.1 e hm rfl)]
    have hei : e ∉ g :: l := fun hm => hn'.1 e hm rfl
    simp only [stepOps, opsOf]
    rw [show pairsFrom first (e :: g :: l) = (e, g) :: pairsFrom first (g :: l) from rfl]
    by_cases h1 : e = i
    · subst h1
      have hnil : ((pairsFrom first (g :: l)).filter fun p => decide (p.1 = e)) = [] := by
        rw [List.filter_eq_nil_iff]
        intro p hpm hh
        simp only [decide_eq_true_eq] at hh
        obtain ⟨j, hj⟩ := List.getElem?_of_mem hpm
        have hjl : j < (g :: l).length := by
          have := (List.getElem?_eq_some_iff.mp hj).1
          rw [pairsFrom_length] at this; exact this
        rw [pairsFrom_get first _ j hjl] at hj
        simp only [Option.some.injEq] at hj
        apply hei
        rw [← hh, ← hj]
        exact List.getElem_mem hjl
      by_cases h2 : prev = INVALID
      · by_cases h3 : e = INVALID
        · exact absurd (h2.trans h3.symm) hpe
        · simp [h2, h3, hnil]
      · by_cases h3 : e = INVALID
        · exact absurd h3 hi
        · simp [h2, hpe, hnil, h3]
    · by_cases h2 : prev = INVALID
      · simp [h2, h1]
      · by_cases h3 : prev = i <;> simp [h2, h1, h3, hi]

theorem opsOf_cellOps (cell i : Idx) (hi : i ≠ INVALID) {l : List Idx} (hn : NoRepetition l) (hv : INVALID ∉ l) :
    opsOf i (cellOps cell INVALID none l) =
      ((consecutive l).filter fun p => decide (p.1 = i)).flatMap fun p => [.attach cell, .next p.2 cell] := by
  cases l with
  | nil => simp [cellOps, opsOf, consecutive]
  | cons e l =>
    rw [cellOps_first_none, opsOf_cellOps_aux cell i e hi l INVALID e hn hv, consecutive_eq_pairsFrom]
    simp

/-- The calls for all cells, numbered from `k` on. -/
def allOps : Nat → List (List Idx) → List (Idx × ConnOp)
  | _, [] => []
  | k, l :: ls => cellOps k INVALID none l ++ allOps (k + 1) ls

theorem allOps_append (k : Nat) (a b : List (List Idx)) : allOps k (a ++ b) = allOps k a ++ allOps (k + a.length) b := by
  induction a generalizing k with
  | nil => simp [allOps]
  | cons x a ih => simp [allOps, ih, show k + 1 + a.length = k + (a.length + 1) by omega]

theorem opsOf_allOps (i : Idx) (hi : i ≠ INVALID) : ∀ (ls : List (List Idx)) (k : Nat), (∀ l ∈ ls, NoRepetition l) →
    (∀ l ∈ ls, INVALID ∉ l) →
    opsOf i (allOps k ls) = (histOf i (chainCalls k ls)).flatMap fun p => [.attach p.2, .next p.1 p.2] := by
  intro ls
  induction ls with
  | nil => intro k _ _; simp [allOps, chainCalls, opsOf, histOf]
  | cons l ls ih =>
    intro k h1 h2
    rw [allOps, opsOf_append, chainCalls, histOf_append, List.flatMap_append,
      ih (k + 1) (fun l hl => h1 l (by simp [hl])) (fun l hl => h2 l (by simp [hl])),
      opsOf_cellOps k i hi (h1 l (by simp)) (h2 l (by simp)), histOf_cell]
    simp [List.flatMap_map]

/-! ## Effect of a history -/

/-- The connection after cells `c` with successors `g` were registered, in this order. -/
def connOf (h : List (Idx × Idx)) : Conn :=
  match h with
  | [] => {}
  | (g, c) :: r =>
    match r.getLast? with
    | none => { left := c, nextL := g }
    | some (g', c') => { left := c, nextL := g, right := c', nextR := g' }

theorem run_pair_later {cn : Conn} {g c : Idx} (hl : cn.left ≠ INVALID) (hc : c ≠ INVALID) (hlc : cn.left ≠ c) :
    runOps cn [.attach c, .next g c] = { cn with right := c, nextR := g } := by
  simp [runOps, ConnOp.run, attach, hl, Conn.setCellRightIndex, Conn.setNextBElem, hc, hlc, Conn.setNextBElemWRTCR]

theorem run_later : ∀ (h : List (Idx × Idx)) (cn : Conn), cn.left ≠ INVALID → (∀ p ∈ h, p.2 ≠ INVALID ∧ cn.left ≠ p.2) →
    runOps cn (h.flatMap fun p => [.attach p.2, .next p.1 p.2]) =
      match h.getLast? with
      | none => cn
      | some (g', c') => { cn with right := c', nextR := g' } := by
  intro h
  induction h with
  | nil => intro cn _ _; rfl
  | cons p h ih =>
    intro cn hl hp
    obtain ⟨g, c⟩ := p
    rw [List.flatMap_cons, runOps_append, run_pair_later hl (hp _ (by simp)).1 (hp (g, c) (by simp)).2]
    simp only
    rw [ih { cn with right := c, nextR := g } hl (fun q hq => hp q (by simp [hq]))]
    cases h with
    | nil => simp
    | cons q h =>
      rw [List.getLast?_cons_cons]
      rw [List.getLast?_eq_some_getLast (by simp)]

theorem run_hist {h : List (Idx × Idx)} (hn : NoRepetition (h.map (·.2))) (hv : ∀ p ∈ h, p.2 ≠ INVALID) :
    runOps {} (h.flatMap fun p => [.attach p.2, .next p.1 p.2]) = connOf h := by
  cases h with
  | nil => rfl
  | cons p h =>
    obtain ⟨g, c⟩ := p
    have hc : c ≠ INVALID := hv (g, c) (by simp)
    have hn' := List.pairwise_cons.mp hn
    rw [List.flatMap_cons, runOps_append]
    have h1 : runOps {} [.attach c, .next g c] = { left := c, nextL := g } := by
      simp [runOps, ConnOp.run, attach, Conn.setCellLeftIndex, Conn.setNextBElem, hc, Conn.setNextBElemWRTCL]
    simp only [h1]
    rw [run_later h _ hc (fun q hq => ⟨hv q (by simp [hq]), hn'.1 q.2 (List.mem_map_of_mem hq)⟩)]
    rfl

/-- The successor with respect to the cells of a history of at most two cells. -/
theorem connOf_next {h : List (Idx × Idx)} (hn : NoRepetition (h.map (·.2))) (hv : ∀ p ∈ h, p.2 ≠ INVALID)
    (h2 : h.length ≤ 2) {g c : Idx} (hm : (g, c) ∈ h) : (connOf h).getNextBElem c = .ok g := by
  match h, h2 with
  | [], _ => simp at hm
  | [(g1, c1)], _ =>
    simp at hm
    obtain ⟨rfl, rfl⟩ := hm
    have := hv (g, c) (by simp)
    simp [connOf, Conn.getNextBElem, this]
  | [(g1, c1), (g2, c2)], _ =>
    have h1 := hv (g1, c1) (by simp)
    have h2 := hv (g2, c2) (by simp)
    have hne : c1 ≠ c2 := by simpa [NoRepetition] using hn
    simp at hm
    rcases hm with ⟨rfl, rfl⟩ | ⟨rfl, rfl⟩
    · simp only at h1; simp [connOf, Conn.getNextBElem, h1, hne]
    · simp only at h2; simp [connOf, Conn.getNextBElem, h2]

/-! ## Lists of elements with a connection -/

section Elements
variable {α : Type} {conn : α → Conn} {wc : (Conn → Conn) → α → α}

/-- Connection of element `i` (default when there is none). -/
def connAt (conn : α → Conn) (fs : List α) (i : Nat) : Conn := ((fs[i]?).map conn).getD {}

theorem connAt_lt (fs : List α) (i : Nat) (h : i < fs.length) : connAt conn fs i = conn fs[i] := by
  simp [connAt, h]

/-- Modifying the connection of one element; other data (`key`) stays. -/
theorem modifyAt_spec {κ : Type} {key : α → κ} (hw : ∀ f x, conn (wc f x) = f (conn x))
    (hk : ∀ f x, key (wc f x) = key x) (fs : List α) (i : Nat) (hi : i < fs.length) (f : Conn → Conn) :
    ∃ fs', modifyAt fs i (wc f) = .ok fs' ∧ fs'.map key = fs.map key ∧
      (∀ j, connAt conn fs' j = if i = j then f (connAt conn fs j) else connAt conn fs j) := by
  refine ⟨fs.set i (wc f fs[i]), by simp [modifyAt, Res.at', hi], ?_, ?_⟩
  · rw [List.map_set]
    apply List.ext_getElem
    · simp
    · intro j h1 h2
      simp only [List.getElem_set, List.getElem_map]
      split
      · subst i; exact hk _ _
      · rfl
  · intro j
    by_cases hj : i = j
    · subst hj
      simp [connAt, hi, hw]
    · simp [connAt, hj, List.getElem?_set_ne hj]

/-- The effect of `linkFacet` on the connections. -/
theorem linkFacet_spec {κ : Type} {key : α → κ} (hw : ∀ f x, conn (wc f x) = f (conn x))
    (hk : ∀ f x, key (wc f x) = key x) (fs : List α) (cell prev first e : Idx) (isNew isLast : Bool)
    (he : e < fs.length) (hp : prev = INVALID ∨ prev < fs.length)
    (hnew : isNew = true ↔ (connAt conn fs e).left = INVALID) :
    ∃ fs', linkFacet wc cell prev first e isNew isLast fs = .ok fs' ∧ fs'.map key = fs.map key ∧
      ∀ j, connAt conn fs' j = runOps (connAt conn fs j) (opsOf j (stepOps cell prev first e isLast)) := by
  have len : ∀ {a b : List α}, a.map key = b.map key → a.length = b.length := by
    intro a b h; simpa using congrArg List.length h
  obtain ⟨f1, a1, a2, a3⟩ := modifyAt_spec hw hk fs e he
    (fun c => if isNew then c.setCellLeftIndex cell else c.setCellRightIndex cell)
  have b : ∃ f2, (if prev ≠ INVALID then modifyAt f1 prev (wc fun c => (c.setNextBElem e cell).1) else .ok f1) = .ok f2 ∧
      f2.map key = f1.map key ∧ ∀ j, connAt conn f2 j =
        if prev ≠ INVALID ∧ prev = j then ((connAt conn f1 j).setNextBElem e cell).1 else connAt conn f1 j := by
    by_cases h : prev = INVALID
    · exact ⟨f1, by simp [h], rfl, by simp [h]⟩
    · obtain ⟨f2, b1, b2, b3⟩ := modifyAt_spec hw hk f1 prev
        (by rw [len a2]; rcases hp with hp | hp; exact absurd hp h; exact hp) (fun c => (c.setNextBElem e cell).1)
      exact ⟨f2, by rw [if_pos h]; exact b1, b2, by simp [h, b3]⟩
  obtain ⟨f2, b1, b2, b3⟩ := b
  have c : ∃ f3, (if isLast then modifyAt f2 e (wc fun c => (c.setNextBElem first cell).1) else .ok f2) = .ok f3 ∧
      f3.map key = f2.map key ∧ ∀ j, connAt conn f3 j =
        if isLast ∧ e = j then ((connAt conn f2 j).setNextBElem first cell).1 else connAt conn f2 j := by
    by_cases h : isLast = true
    · obtain ⟨f3, b1, b2, b3⟩ := modifyAt_spec hw hk f2 e
        (by rw [len b2, len a2]; exact he) (fun c => (c.setNextBElem first cell).1)
      exact ⟨f3, by rw [if_pos h]; exact b1, b2, by simp [h, b3]⟩
    · exact ⟨f2, by simp [h], rfl, by simp [h]⟩
  obtain ⟨f3, c1, c2, c3⟩ := c
  refine ⟨f3, ?_, by rw [c2, b2, a2], ?_⟩
  · unfold linkFacet
    rw [a1]
    simp only [Res.bind]
    rw [b1]
    exact c1
  · intro j
    rw [c3, b3, a3]
    have hat : e = j → (if isNew then (connAt conn fs j).setCellLeftIndex cell else (connAt conn fs j).setCellRightIndex cell)
        = attach (connAt conn fs j) cell := by
      rintro rfl
      unfold attach
      by_cases h : isNew = true
      · rw [if_pos h, if_pos (hnew.mp h)]
      · rw [if_neg h, if_neg (fun h' => h (hnew.mpr h'))]
    simp only [stepOps]
    by_cases h1 : e = j
    · simp only [h1, if_true]
      rw [hat h1]
      subst h1
      by_cases h2 : prev = INVALID
      · cases isLast <;> simp [opsOf, runOps, ConnOp.run, h2]
      · by_cases h3 : prev = e
        · subst h3; cases isLast <;> simp [opsOf, runOps, ConnOp.run, h2]
        · cases isLast <;> simp [opsOf, runOps, ConnOp.run, h2, h3]
    · simp only [h1, if_false, and_false]
      by_cases h2 : prev = INVALID
      · cases isLast <;> simp [opsOf, runOps, h1, h2]
      · by_cases h3 : prev = j
        · subst h3; cases isLast <;> simp [opsOf, runOps, ConnOp.run, h2, h1]
        · cases isLast <;> simp [opsOf, runOps, h2, h1, h3]

/-- `setNextBElem` and registering keep a valid left cell valid. -/
theorem run_left_valid {cn : Conn} (h : cn.left ≠ INVALID) : ∀ ops, (runOps cn ops).left ≠ INVALID := by
  intro ops
  induction ops generalizing cn with
  | nil => exact h
  | cons o ops ih =>
    refine ih (cn := ConnOp.run cn o) ?_
    cases o with
    | attach c => simp [ConnOp.run, attach, h, Conn.setCellRightIndex]
    | next g c =>
      have : (cn.setNextBElem g c).1.left = cn.left := by
        unfold Conn.setNextBElem
        by_cases h1 : c = INVALID
        · rw [if_pos h1]
        rw [if_neg h1]
        by_cases h2 : cn.left = c
        · rw [if_pos h2]; rfl
        rw [if_neg h2]
        by_cases h3 : cn.right = c
        · rw [if_pos h3]; rfl
        rw [if_neg h3]
        rw [if_neg h]
        by_cases h4 : cn.right = INVALID
        · rw [if_neg (Ne.symm h2), if_pos h4]
          simp [Conn.setCellRightIndex, Conn.setNextBElemWRTCR]
        · rw [if_neg (Ne.symm h2), if_neg h4, if_neg (Ne.symm h3)]
      simp only [ConnOp.run]
      rw [this]
      exact h

end Elements

end GTMesh.Vtk
