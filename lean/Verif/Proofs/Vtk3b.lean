import Verif.Proofs.Vtk3

namespace GTMesh.Vtk
open Spec
variable {R : Type}

/-! ## Edges of a cell -/

theorem keepsEnds_of_append {es es' : List Edge} (h : es' = es ∨ ∃ e, es' = es ++ [e]) : KeepsEnds es es' := by
  rcases h with rfl | ⟨e, rfl⟩
  · exact KeepsEnds.refl _
  · intro i x hx
    exact ⟨x, by rw [List.getElem?_append_left (List.getElem?_eq_some_iff.mp hx).1]; exact hx, rfl, rfl⟩

theorem templateEdges_spec (vs : List Idx) (used : List (Idx × Idx)) : ∀ (ps : List (Nat × Nat)) (d : Dict)
    (es : List Edge), TableInv d es used → (∀ p ∈ ps, p.1 < vs.length ∧ p.2 < vs.length) →
    (∀ p ∈ ps, (ent vs p.1, ent vs p.2) ∈ used) →
    ∃ eidx d' es', templateEdges vs d es ps = .ok (eidx, d', es') ∧ TableInv d' es' used ∧ KeepsEnds es es' ∧
      eidx.length = ps.length ∧ es'.length ≤ es.length + ps.length ∧
      ∀ (j : Nat), j < ps.length → Joins es' (ent eidx j) (ent vs (ps[j]!).1) (ent vs (ps[j]!).2) := by
  intro ps
  induction ps with
  | nil => intro d es h _ _; exact ⟨[], d, es, rfl, h, KeepsEnds.refl _, rfl, by simp, by simp⟩
  | cons p ps ih =>
    intro d es h hlt hu
    obtain ⟨a, b⟩ := p
    have hab := hlt (a, b) (by simp)
    obtain ⟨h1, h2, h3, h4⟩ := findOrAddEdge_spec h (ent vs a) (ent vs b) (hu (a, b) (by simp))
    obtain ⟨eidx, d', es', g1, g2, g3, g4, g5, g6⟩ := ih _ _ h1 (fun p hp => hlt p (by simp [hp]))
      (fun p hp => hu p (by simp [hp]))
    refine ⟨(findOrAddEdge d es (ent vs a) (ent vs b)).2.2.1 :: eidx, d', es', ?_, g2,
      (keepsEnds_of_append h3).trans g3, by simp [g4], ?_, ?_⟩
    · simp only [templateEdges, Res.at', ent_eq hab.1, ent_eq hab.2, Res.bind]
      rw [g1]
    · have : (findOrAddEdge d es (ent vs a) (ent vs b)).2.1.length ≤ es.length + 1 := by
        rcases h3 with h3 | ⟨e, h3⟩ <;> rw [h3] <;> simp
      simp; omega
    · intro j hj
      cases j with
      | zero =>
        have : ent ((findOrAddEdge d es (ent vs a) (ent vs b)).2.2.1 :: eidx) 0 =
          (findOrAddEdge d es (ent vs a) (ent vs b)).2.2.1 := rfl
        rw [this]
        exact GTMesh.Joins.mono h2 g3
      | succ j =>
        have := g6 j (by simpa using hj)
        have e1 : ent ((findOrAddEdge d es (ent vs a) (ent vs b)).2.2.1 :: eidx) (j + 1) = ent eidx j := by simp [ent]
        have e2 : ((a, b) :: ps)[j + 1]! = ps[j]! := by simp
        rw [e1, e2]; exact this

/-! ## Faces of a cell -/

/-- The dictionary describes the faces. -/
structure FaceInv (d : Dict) (fs : List Face) : Prop where
  find : ∀ s (i : Nat), d.find (faceKey s) = some i ↔ ∃ f, fs[i]? = some f ∧ f.sub.Perm s
  index : ∀ (i : Nat) f, fs[i]? = some f → f.index = i

theorem FaceInv.empty : FaceInv [] [] where
  find k i := by simp [Dict.find]
  index i e h := by simp at h

theorem FaceInv.unique {d : Dict} {fs : List Face} (h : FaceInv d fs) {i j : Nat} {f g : Face}
    (hi : fs[i]? = some f) (hj : fs[j]? = some g) (hp : f.sub.Perm g.sub) : i = j := by
  have h1 := (h.find g.sub i).mpr ⟨f, hi, hp⟩
  have h2 := (h.find g.sub j).mpr ⟨g, hj, List.Perm.refl _⟩
  rw [h2] at h1
  simpa using h1.symm

/-- Later faces keep their number and edges. -/
def KeepsSub (fs fs' : List Face) : Prop :=
  ∀ (i : Nat) x, fs[i]? = some x → ∃ y, fs'[i]? = some y ∧ y.sub = x.sub

theorem KeepsSub.refl (fs : List Face) : KeepsSub fs fs := fun _ x h => ⟨x, h, rfl⟩

theorem KeepsSub.trans {a b c : List Face} (h : KeepsSub a b) (h' : KeepsSub b c) : KeepsSub a c := by
  intro i x hx
  obtain ⟨y, h1, h2⟩ := h i x hx
  obtain ⟨z, g1, g2⟩ := h' i y h1
  exact ⟨z, g1, g2.trans h2⟩

theorem keepsSub_of_map {fs fs' : List Face}
    (h : fs'.map (fun f => (f.index, f.sub)) = fs.map (fun f => (f.index, f.sub))) :
    ∀ (i : Nat) x, fs[i]? = some x → ∃ y, fs'[i]? = some y ∧ y.sub = x.sub ∧ y.index = x.index := by
  intro i x hx
  have := congrArg (fun l => l[i]?) h
  simp only [List.getElem?_map, hx, Option.map_some] at this
  cases hh : fs'[i]? with
  | none => simp [hh] at this
  | some y =>
    rw [hh] at this
    simp at this
    exact ⟨y, rfl, this.2, this.1⟩

theorem FaceInv.congr {d : Dict} {fs fs' : List Face} (h : FaceInv d fs)
    (he : fs'.map (fun f => (f.index, f.sub)) = fs.map (fun f => (f.index, f.sub))) : FaceInv d fs' := by
  refine ⟨fun s i => ?_, fun i f hf => ?_⟩
  · rw [h.find]
    constructor
    · rintro ⟨f, h1, h2⟩
      obtain ⟨y, h3, h4, _⟩ := keepsSub_of_map he i f h1
      exact ⟨y, h3, h4 ▸ h2⟩
    · rintro ⟨f, h1, h2⟩
      obtain ⟨y, h3, h4, _⟩ := keepsSub_of_map he.symm i f h1
      exact ⟨y, h3, h4 ▸ h2⟩
  · obtain ⟨y, h3, _, h4⟩ := keepsSub_of_map he.symm i f hf
    rw [← h4]; exact h.index i y h3

/-- Connections of the faces. -/
abbrev faceConnAt (fs : List Face) (i : Nat) : Conn := connAt Face.conn fs i

/-- Effect of finding or adding a face. -/
theorem findOrAddFace_spec {d : Dict} {fs : List Face} (h : FaceInv d fs) (hleft : ∀ f ∈ fs, f.conn.left ≠ INVALID)
    (res : Nat) (sub : List Idx) (hres : res = 0 ∨ sub.length ≤ res) :
    ∃ fs' e isNew, findOrAddFace res d fs sub = .ok (fs', e, isNew) ∧ FaceInv (d.put (faceKey sub) e) fs' ∧
      e < fs'.length ∧ (∃ f, fs'[e]? = some f ∧ f.sub.Perm sub) ∧ KeepsSub fs fs' ∧
      fs.length ≤ fs'.length ∧ fs'.length ≤ fs.length + 1 ∧
      (∀ j, faceConnAt fs' j = faceConnAt fs j) ∧
      (isNew = true ↔ (faceConnAt fs' e).left = INVALID) ∧
      (∀ j, j < fs'.length → j ≠ e → j < fs.length) := by
  unfold findOrAddFace
  cases hf : d.find (faceKey sub) with
  | some i =>
    obtain ⟨f, h1, h2⟩ := (h.find sub i).mp hf
    refine ⟨fs, i, false, rfl, ⟨?_, h.index⟩, (List.getElem?_eq_some_iff.mp h1).1, ⟨f, h1, h2⟩, KeepsSub.refl _,
      Nat.le_refl _, by omega, fun _ => rfl, ?_, fun j hj _ => hj⟩
    · intro s j
      rw [lookup_cons_eq]
      by_cases hk : faceKey s = faceKey sub
      · rw [if_pos hk, ← h.find, hk, hf]
      · rw [if_neg hk, h.find]
    · simp only [faceConnAt, connAt, h1, Option.map_some, Option.getD_some]
      have := hleft f (List.mem_of_getElem? h1)
      constructor
      · intro h; simp at h
      · intro h; exact absurd h this
  | none =>
    have hc : ¬ (res ≠ 0 ∧ res < sub.length) := by omega
    refine ⟨fs ++ [{ index := fs.length, sub := sub }], fs.length, true, ?_, ⟨?_, ?_⟩, by simp,
      ⟨{ index := fs.length, sub := sub }, by simp, List.Perm.refl _⟩, ?_, by simp, by simp, ?_, ?_, ?_⟩
    · simp only; rw [if_neg hc]
    · intro s i
      rw [lookup_cons_eq]
      by_cases hk : faceKey s = faceKey sub
      · rw [if_pos hk]
        have hp := faceKey_eq_iff.mp hk
        constructor
        · intro hi
          have hi' : fs.length = i := by simpa using hi
          subst hi'
          exact ⟨{ index := fs.length, sub := sub }, by simp, hp.symm⟩
        · rintro ⟨f, he, h2⟩
          by_cases hi : i < fs.length
          · rw [List.getElem?_append_left hi] at he
            have := (h.find sub i).mpr ⟨f, he, h2.trans hp⟩
            rw [hf] at this; simp at this
          · have hlt := (List.getElem?_eq_some_iff.mp he).1
            simp at hlt
            have : fs.length = i := by omega
            rw [this]
      · rw [if_neg hk, h.find]
        constructor
        · rintro ⟨f, he, h2⟩
          exact ⟨f, by rw [List.getElem?_append_left (List.getElem?_eq_some_iff.mp he).1]; exact he, h2⟩
        · rintro ⟨f, he, h2⟩
          by_cases hi : i < fs.length
          · rw [List.getElem?_append_left hi] at he
            exact ⟨f, he, h2⟩
          · exfalso
            have hlt := (List.getElem?_eq_some_iff.mp he).1
            simp at hlt
            have hi' : i = fs.length := by omega
            subst hi'
            simp at he
            subst he
            exact hk (faceKey_eq_iff.mpr h2.symm)
    · intro i f he
      by_cases hi : i < fs.length
      · rw [List.getElem?_append_left hi] at he
        exact h.index i f he
      · have hlt := (List.getElem?_eq_some_iff.mp he).1
        simp at hlt
        have hi' : i = fs.length := by omega
        subst hi'
        simp at he
        rw [← he]
    · intro i x hx
      exact ⟨x, by rw [List.getElem?_append_left (List.getElem?_eq_some_iff.mp hx).1]; exact hx, rfl⟩
    · intro j
      simp only [faceConnAt, connAt]
      rcases Nat.lt_trichotomy j fs.length with hj | hj | hj
      · rw [List.getElem?_append_left hj]
      · subst hj; simp
      · rw [List.getElem?_eq_none (by simp; omega), List.getElem?_eq_none (by omega)]
    · simp [faceConnAt, connAt]
    · intro j h1 h2
      simp at h1
      omega

theorem forEach_at {eidx : List Idx} : ∀ {f : List Nat}, (∀ x ∈ f, x < eidx.length) →
    Std'.forEach (Res.at' eidx) f = .ok (f.map (ent eidx)) := by
  intro f
  induction f with
  | nil => intro _; rfl
  | cons x f ih =>
    intro h
    simp only [Std'.forEach, Res.at', ent_eq (h x (by simp)), Res.bind]
    have := ih (fun y hy => h y (by simp [hy]))
    rw [this]
    rfl

theorem addCellFaces_spec (res : Nat) (cell : Idx) (hcell : cell ≠ INVALID) (eidx : List Idx) :
    ∀ (ps : List (List Nat)) (prev : Idx) (first : Option Idx) (d : Dict) (fs : List Face), FaceInv d fs →
      (∀ f ∈ ps, ∀ x ∈ f, x < eidx.length) → (∀ f ∈ ps, res = 0 ∨ f.length ≤ res) →
      (∀ f ∈ fs, f.conn.left ≠ INVALID) → (prev = INVALID ∨ prev < fs.length) →
      ∃ l d' fs', addCellFaces res cell eidx prev first d fs ps = .ok (first.or l.head?, d', fs') ∧
        FaceInv d' fs' ∧ KeepsSub fs fs' ∧ l.length = ps.length ∧
        (∀ (j : Nat) p, ps[j]? = some p → ∃ e x, l[j]? = some e ∧ fs'[e]? = some x ∧ x.sub.Perm (p.map (ent eidx))) ∧
        (∀ f ∈ fs', f.conn.left ≠ INVALID) ∧ fs.length ≤ fs'.length ∧ fs'.length ≤ fs.length + ps.length ∧
        (∀ i, i < fs'.length → i < fs.length ∨ i ∈ l) ∧
        (∀ i, faceConnAt fs' i = runOps (faceConnAt fs i) (opsOf i (cellOps cell prev first l))) := by
  intro ps
  induction ps with
  | nil =>
    intro prev first d fs h _ _ hl _
    exact ⟨[], d, fs, by simp [addCellFaces], h, KeepsSub.refl _, rfl, by simp, hl, Nat.le_refl _, by simp,
      fun i hi => Or.inl hi, fun i => rfl⟩
  | cons p ps ih =>
    intro prev first d fs h hr hres hleft hprev
    obtain ⟨fs0, e, isNew, h1, h2, h3, ⟨f, h4, h5⟩, h6, h7, h8, k1, k2, k3⟩ := findOrAddFace_spec h hleft res
      (p.map (ent eidx)) (by simpa using hres p (by simp))
    obtain ⟨fs1, l1, l2, l3⟩ := linkFacet_spec (conn := Face.conn) (wc := faceConnW)
      (key := fun f : Face => (f.index, f.sub)) (fun f x => rfl) (fun f x => rfl)
      fs0 cell prev (first.getD e) e isNew (decide (ps = [])) h3
      (by rcases hprev with hp | hp
          · exact Or.inl hp
          · right; omega) k2
    have hfs1 : fs1.length = fs0.length := by simpa using congrArg List.length l2
    have hleft1 : ∀ f ∈ fs1, f.conn.left ≠ INVALID := by
      intro x hx
      obtain ⟨j, hj⟩ := List.getElem?_of_mem hx
      have hjl := (List.getElem?_eq_some_iff.mp hj).1
      have hc : x.conn = faceConnAt fs1 j := by simp [faceConnAt, connAt, hj]
      rw [hc]
      simp only [faceConnAt]
      rw [l3 j]
      by_cases hje : j = e
      · rw [hje]
        have : ∃ tl, opsOf e (stepOps cell prev (first.getD e) e (decide (ps = []))) = .attach cell :: tl := by
          simp [opsOf, stepOps]
        obtain ⟨tl, htl⟩ := this
        rw [htl]
        refine run_left_valid (cn := attach _ cell) ?_ tl
        unfold attach
        split
        · exact hcell
        · assumption
      · have hlt := k3 j (by omega) hje
        refine run_left_valid ?_ _
        have := k1 j
        simp only [faceConnAt] at this
        rw [this, connAt_lt _ _ hlt]
        exact hleft _ (List.getElem_mem hlt)
    obtain ⟨l, d', fs', g1, g2, g3, g4, g5, g6, g6', g7, g8, g9⟩ := ih e (some (first.getD e))
      (d.put (faceKey (p.map (ent eidx))) e) fs1 (h2.congr l2) (fun p hp => hr p (by simp [hp]))
      (fun p hp => hres p (by simp [hp])) hleft1 (Or.inr (by rw [hfs1]; exact h3))
    have hks : KeepsSub fs0 fs' := by
      intro i x hx
      obtain ⟨y, q1, q2, _⟩ := keepsSub_of_map l2 i x hx
      obtain ⟨z, r1, r2⟩ := g3 i y q1
      exact ⟨z, r1, r2.trans q2⟩
    refine ⟨e :: l, d', fs', ?_, g2, h6.trans hks, by simp [g4], ?_, g6, by omega, by simp; omega, ?_, ?_⟩
    · simp only [addCellFaces]
      rw [forEach_at (hr p (by simp))]
      simp only [Res.bind]
      rw [h1]
      simp only [Res.bind]
      rw [l1]
      simp only [Res.bind]
      rw [g1]
      cases first <;> simp
    · intro j q hj
      cases j with
      | zero =>
        simp only [List.getElem?_cons_zero, Option.some.injEq] at hj
        subst hj
        obtain ⟨y, q1, q2⟩ := hks e f h4
        exact ⟨e, y, by simp, q1, q2 ▸ h5⟩
      | succ j =>
        obtain ⟨i, x, he1, he2⟩ := g5 j q (by simpa using hj)
        exact ⟨i, x, by simpa using he1, he2⟩
    · intro i hi
      rcases g8 i hi with q | q
      · by_cases hie : i = e
        · right; simp [hie]
        · left; exact k3 i (by omega) hie
      · right; simp [q]
    · intro i
      rw [g9 i, cellOps, opsOf_append, runOps_append]
      simp only [faceConnAt] at k1 ⊢
      rw [l3 i, k1 i]
      have hnil : decide (l = []) = decide (ps = []) := by
        cases l <;> cases ps <;> simp at g4 ⊢
      rw [hnil]

/-! ## All cells -/

/-- The pairs of vertices joined in the cells. -/
def cellPairs (vs : List Idx) : List (Idx × Idx) :=
  ((template vs.length).map fun T => T.edges.map fun p => (ent vs p.1, ent vs p.2)).getD []

theorem FacesOf.keeps {es es' : List Edge} {fs fs' : List Face} {l vs : List Idx} (h : FacesOf es fs l vs)
    (he : KeepsEnds es es') (hf : KeepsSub fs fs') : FacesOf es' fs' l vs := by
  refine ⟨h.1, fun j p hp => ?_⟩
  obtain ⟨i, x, h1, h2, h3⟩ := h.2 j p hp
  obtain ⟨y, h4, h5⟩ := hf i x h2
  exact ⟨i, y, h1, h4, h5 ▸ IsPolygon.keeps h3 he⟩

theorem facePolygons_length (vs : List Idx) : (facePolygons vs).length = (cellPolygons vs.length).length := by
  simp [facePolygons]

/-- Reading one cell. -/
theorem cell3_step (res : Nat) (used : List (Idx × Idx)) (vs : List Idx) (k : Nat) (hk : k ≠ INVALID)
    (de df : Dict) (es : List Edge) (fs : List Face) (h : TableInv de es used) (hf : FaceInv df fs)
    (hu : ∀ p ∈ cellPairs vs, p ∈ used) (hleft : ∀ f ∈ fs, f.conn.left ≠ INVALID)
    (hknown : vs.length = 4 ∨ vs.length = 5 ∨ vs.length = 6 ∨ vs.length = 8) (hn : vs.Nodup)
    (hres : ∀ p ∈ facePolygons vs, res = 0 ∨ p.length ≤ res) :
    ∃ T eidx de1 es1 b l df1 fs1, template vs.length = some T ∧
      templateEdges vs de es T.edges = .ok (eidx, de1, es1) ∧
      addCellFaces res k eidx INVALID none df fs T.faces = .ok (some b, df1, fs1) ∧ l[0]? = some b ∧
      TableInv de1 es1 used ∧ FaceInv df1 fs1 ∧ KeepsEnds es es1 ∧ KeepsSub fs fs1 ∧
      FacesOf es1 fs1 l vs ∧ NoRepetition l ∧ (∀ f ∈ fs1, f.conn.left ≠ INVALID) ∧
      fs.length ≤ fs1.length ∧ fs1.length ≤ fs.length + 6 ∧ es1.length ≤ es.length + 12 ∧
      (∀ i, i < fs1.length → i < fs.length ∨ i ∈ l) ∧
      (∀ i, faceConnAt fs1 i = runOps (faceConnAt fs i) (opsOf i (cellOps k INVALID none l))) := by
    obtain ⟨T, hT, hTok⟩ := template_known hknown
    obtain ⟨eidx, de1, es1, a1, a2, a3, a4, a5, a6⟩ := templateEdges_spec vs used T.edges de es h hTok.ends
      (by
        intro p hp
        apply hu
        simp only [cellPairs, hT, Option.map_some, Option.getD_some]
        exact List.mem_map_of_mem hp)
    have hEF : EdgesFor es1 T vs eidx := ⟨a4, a6⟩
    have hfaces : ∀ f ∈ T.faces, res = 0 ∨ f.length ≤ res := by
      intro f hfm
      obtain ⟨j, hj⟩ := List.getElem?_of_mem hfm
      have hjl := (List.getElem?_eq_some_iff.mp hj).1
      have h1 := facePolygons_get hTok hjl
      have h2 := hres _ (List.mem_of_getElem? h1)
      rw [List.length_map, (hTok.poly j hjl).2.2.1, (hTok.perm j hjl).length_eq, getElem!_of hj] at h2
      exact h2
    obtain ⟨l, df1, fs1, g1, g2, g3, g4, g5, g6, g6', g7, g8, g9⟩ := addCellFaces_spec res k hk eidx
      T.faces INVALID none df fs hf (by rw [a4]; exact hTok.inRange) hfaces hleft (Or.inl rfl)
    have hFO : FacesOf es1 fs1 l vs := by
      refine ⟨by rw [g4, facePolygons_length, hTok.facesLen.1], fun j p hj => ?_⟩
      have hjl : j < T.faces.length := by
        have := (List.getElem?_eq_some_iff.mp hj).1
        rw [facePolygons_length, ← hTok.facesLen.1] at this; exact this
      rw [facePolygons_get hTok hjl] at hj
      cases hj
      obtain ⟨e, x, b1, b2, b3⟩ := g5 j T.faces[j]! (by rw [getElem!_pos T.faces j hjl]; simp)
      exact ⟨e, x, b1, b2, IsPolygon.perm (hEF.polygon hTok hn hjl).1 b3⟩
    have hnr : NoRepetition l := by
      unfold NoRepetition
      rw [← List.Nodup.eq_1, List.nodup_iff_injective_get]
      rintro ⟨i, hi⟩ ⟨j, hj⟩ hij
      simp only [List.get_eq_getElem] at hij
      rw [g4] at hi hj
      obtain ⟨e, x, b1, b2, b3⟩ := g5 i T.faces[i]! (by rw [getElem!_pos T.faces i hi]; simp)
      obtain ⟨e', x', c1, c2, c3⟩ := g5 j T.faces[j]! (by rw [getElem!_pos T.faces j hj]; simp)
      have hee : e = e' := by
        rw [List.getElem?_eq_getElem (by rw [g4]; exact hi)] at b1
        rw [List.getElem?_eq_getElem (by rw [g4]; exact hj)] at c1
        rw [← Option.some.inj b1, ← Option.some.inj c1, hij]
      subst hee
      rw [b2] at c2
      cases c2
      have := hEF.faces_ne hTok hn hi hj (b3.symm.trans c3)
      simp [this]
    have hfew := hTok.few
    have hl0 : ∃ b, l.head? = some b := by
      cases l with
      | nil => simp at g4; omega
      | cons x xs => exact ⟨x, rfl⟩
    obtain ⟨b, hb⟩ := hl0
    refine ⟨T, eidx, de1, es1, b, l, df1, fs1, hT, a1, ?_, ?_, a2, g2, a3, g3, hFO, hnr, g6, g6', by omega, by omega, g8, g9⟩
    · rw [g1, hb]; rfl
    · rw [← hb]; cases l <;> rfl

theorem loadCellList3_spec (res : Nat) (used : List (Idx × Idx)) : ∀ (polys : List (List Idx)) (cs : List Cell) (k : Nat)
    (de df : Dict) (es : List Edge) (fs : List Face) (ts rest : List (VTok R)), TableInv de es used → FaceInv df fs →
    (∀ vs ∈ polys, ∀ p ∈ cellPairs vs, p ∈ used) →
    (∀ f ∈ fs, f.conn.left ≠ INVALID) → k + polys.length ≤ INVALID → cs.length = polys.length →
    (∀ vs ∈ polys, vs.length = 4 ∨ vs.length = 5 ∨ vs.length = 6 ∨ vs.length = 8) → (∀ vs ∈ polys, NoRepetition vs) →
    (∀ vs ∈ polys, ∀ p ∈ facePolygons vs, res = 0 ∨ p.length ≤ res) →
    skipNl ts = skipNl (polys.flatMap lineTokens ++ rest) →
    ∃ ls de' df' es' fs' cs' r, loadCellList3 res cs k de df es fs ts = .ok (cs', es', fs', r) ∧ skipNl r = skipNl rest ∧
      TableInv de' es' used ∧ FaceInv df' fs' ∧ KeepsEnds es es' ∧ KeepsSub fs fs' ∧
      ls.length = polys.length ∧ cs'.length = polys.length ∧
      (∀ f ∈ fs', f.conn.left ≠ INVALID) ∧ fs'.length ≤ fs.length + 6 * polys.length ∧
      es'.length ≤ es.length + 12 * polys.length ∧
      (∀ (c : Nat) vs, polys[c]? = some vs → ∃ l, ls[c]? = some l ∧ FacesOf es' fs' l vs ∧ NoRepetition l ∧
        ∃ cl, cs'[c]? = some cl ∧ cl.index = k + c ∧ l[0]? = some cl.bElem) ∧
      (∀ i, i < fs'.length → i < fs.length ∨ ∃ l ∈ ls, i ∈ l) ∧
      (∀ i, faceConnAt fs' i = runOps (faceConnAt fs i) (opsOf i (allOps k ls))) := by
  intro polys
  induction polys with
  | nil =>
    intro cs k de df es fs ts rest h hf _ hl _ hcs _ _ _ hts
    have : cs = [] := by simpa using hcs
    subst this
    exact ⟨[], de, df, es, fs, [], ts, rfl, by simpa using hts, h, hf, KeepsEnds.refl _, KeepsSub.refl _, rfl, rfl, hl,
      by simp, by simp, by simp, fun i hi => Or.inl hi, fun i => rfl⟩
  | cons vs polys ih =>
    intro cs k de df es fs ts rest h hf hu hleft hfit hcs hknown hnd hres hts
    cases cs with
    | nil => simp at hcs
    | cons c0 cs =>
    obtain ⟨T, eidx, de1, es1, b, l, df1, fs1, hT, a1, g1, hb, a2, g2, a3, g3, hFO, hnr, g6, g6', g7, a5, g8, g9⟩ :=
      cell3_step res used vs k (by simp at hfit; omega) de df es fs h hf (hu vs (by simp)) hleft (hknown vs (by simp))
        (hnd vs (by simp)) (hres vs (by simp))
    obtain ⟨ls, de2, df2, es2, fs2, cs2, r, e1, e2, e3, e3', e4, e4', e5, e6, e7, e8, e8', e9, e10, e11⟩ := ih cs (k + 1)
      de1 df1 es1 fs1 (.nl :: (polys.flatMap lineTokens ++ rest)) rest a2 g2
      (fun v hv => hu v (by simp [hv])) g6
      (by simp at hfit; omega) (by simpa using hcs) (fun v hv => hknown v (by simp [hv]))
      (fun v hv => hnd v (by simp [hv])) (fun v hv => hres v (by simp [hv])) (by simp)
    refine ⟨l :: ls, de2, df2, es2, fs2, { index := k, bElem := b } :: cs2, r, ?_, e2, e3, e3', a3.trans e4, g3.trans e4',
      by simp [e5], by simp [e6], e7, by simp; omega, by simp; omega, ?_, ?_, ?_⟩
    · simp only [loadCellList3]
      rw [readNum_congr hts]
      simp only [List.flatMap_cons, lineTokens, List.cons_append, List.append_assoc, readNum_num, Res.bind]
      rw [readNums_map]
      simp only [Res.bind]
      rw [hT]
      simp only
      rw [a1]
      simp only [Res.bind]
      rw [g1]
      simp only [Res.bind, List.nil_append]
      rw [e1]
      rfl
    · intro c ws hc
      cases c with
      | zero =>
        simp only [List.getElem?_cons_zero, Option.some.injEq] at hc
        subst hc
        refine ⟨l, by simp, hFO.keeps e4 e4', hnr, { index := k, bElem := b }, by simp, by simp, hb⟩
      | succ c =>
        obtain ⟨l', c1, c2, c2', cl, c3, c4, c5⟩ := e9 c ws (by simpa using hc)
        exact ⟨l', by simpa using c1, c2, c2', cl, by simpa using c3, by rw [c4]; omega, c5⟩
    · intro i hi
      rcases e10 i hi with q | ⟨l', q1, q2⟩
      · rcases g8 i q with q | q
        · exact Or.inl q
        · exact Or.inr ⟨l, by simp, q⟩
      · exact Or.inr ⟨l', by simp [q1], q2⟩
    · intro i
      rw [e11, g9, allOps, opsOf_append, runOps_append]

/-- A cell with a number of vertices that is not known is refused. -/
theorem loadCellList3_throws (res : Nat) (used : List (Idx × Idx)) (bad : List Idx) (tail : List (VTok R))
    (hbad : template bad.length = none) : ∀ (polys : List (List Idx)) (cs : List Cell) (k : Nat)
    (de df : Dict) (es : List Edge) (fs : List Face) (ts : List (VTok R)), TableInv de es used → FaceInv df fs →
    (∀ vs ∈ polys, ∀ p ∈ cellPairs vs, p ∈ used) →
    (∀ f ∈ fs, f.conn.left ≠ INVALID) → k + polys.length ≤ INVALID → polys.length < cs.length →
    (∀ vs ∈ polys, vs.length = 4 ∨ vs.length = 5 ∨ vs.length = 6 ∨ vs.length = 8) → (∀ vs ∈ polys, NoRepetition vs) →
    (∀ vs ∈ polys, ∀ p ∈ facePolygons vs, res = 0 ∨ p.length ≤ res) →
    skipNl ts = skipNl (polys.flatMap lineTokens ++ (lineTokens bad ++ tail)) →
    loadCellList3 res cs k de df es fs ts = .throw .outOfRange := by
  intro polys
  induction polys with
  | nil =>
    intro cs k de df es fs ts h hf _ hl _ hcs _ _ _ hts
    cases cs with
    | nil => simp at hcs
    | cons c0 cs =>
      simp only [loadCellList3]
      rw [readNum_congr hts]
      simp only [List.flatMap_nil, lineTokens, List.nil_append, List.cons_append, List.append_assoc, readNum_num, Res.bind]
      rw [readNums_map]
      simp only
      rw [hbad]
  | cons vs polys ih =>
    intro cs k de df es fs ts h hf hu hleft hfit hcs hknown hnd hres hts
    cases cs with
    | nil => simp at hcs
    | cons c0 cs =>
    obtain ⟨T, eidx, de1, es1, b, l, df1, fs1, hT, a1, g1, hb, a2, g2, a3, g3, hFO, hnr, g6, g6', g7, a5, g8, g9⟩ :=
      cell3_step res used vs k (by simp at hfit; omega) de df es fs h hf (hu vs (by simp)) hleft (hknown vs (by simp))
        (hnd vs (by simp)) (hres vs (by simp))
    have e1 := ih cs (k + 1)
      de1 df1 es1 fs1 (.nl :: (polys.flatMap lineTokens ++ (lineTokens bad ++ tail))) a2 g2
      (fun v hv => hu v (by simp [hv])) g6
      (by simp at hfit; omega) (by simpa using hcs) (fun v hv => hknown v (by simp [hv]))
      (fun v hv => hnd v (by simp [hv])) (fun v hv => hres v (by simp [hv])) (by simp)
    simp only [loadCellList3]
    rw [readNum_congr hts]
    simp only [List.flatMap_cons, lineTokens, List.cons_append, List.append_assoc, readNum_num, Res.bind]
    rw [readNums_map]
    simp only
    rw [hT]
    simp only
    rw [a1]
    simp only
    rw [g1]
    simp only [List.nil_append]
    simp only [lineTokens, List.cons_append, List.append_assoc, List.nil_append] at e1
    rw [e1]

end GTMesh.Vtk
