import Verif.Props.Renumber
import Verif.Proofs.Measures

/-!
# C72: the numbers of the elements do not matter (geometry)

For every type of numbers, in particular for rounded ones: the operations for an element are the same, in the same order.
-/

namespace GTMesh.Props
open GTMesh Spec Std' Vec Geo
variable {n : Nat} {F : Type} {ρ : Nat → Equiv.Perm Nat}

section centers
variable {m m' : Mesh (Vec n F)}

theorem rn_edgeEnds (h : Renumbered ρ m m') (e : Idx) : edgeEnds m' (ρ 1 e) = edgeEnds m e := by
  unfold edgeEnds
  refine Res.bind_same (Res.at'_map (h.edges e)) fun ed => ?_
  have ha : Res.at' m'.vertices (ρ 0 ed.a) = Res.at' m.vertices ed.a := Res.at'_same (h.vertices _)
  have hb : Res.at' m'.vertices (ρ 0 ed.b) = Res.at' m.vertices ed.b := Res.at'_same (h.vertices _)
  simp only [renameEdge, ha, hb]

theorem rn_fixed {V : Type} {m m' : Mesh V} (h : Renumbered ρ m m') {d : Nat} (hd : d ≤ m.dim) {k : Nat} (hk : m.numElems d = k) (i : Nat) (hi : k ≤ i) :
    ρ d i = i := h.fixed d i hd (by omega)

variable [Add F] [Mul F] [Zero F] [One F] [Div F] [NatCast F]

theorem rn_sumAt {σ : Equiv.Perm Nat} {prev prev' : List (Vec n F)} (hp : Carried σ prev prev') :
    ∀ (subs : List Idx) (acc : Vec n F), sumAt prev' (subs.map σ) acc = sumAt prev subs acc := by
  intro subs
  induction subs with
  | nil => intro acc; rfl
  | cons s ss ih =>
    intro acc
    simp only [List.map_cons, sumAt, Res.at'_same (hp s), ih]

theorem rn_elemCenter (h : Renumbered ρ m m') {d : Nat} (h1 : 1 ≤ d) (h2 : d ≤ m.dim) {prev prev' : List (Vec n F)}
    (hp : Carried (ρ (d - 1)) prev prev') (i : Idx) : elemCenter m' d prev' (ρ d i) = elemCenter m d prev i := by
  unfold elemCenter
  refine Res.bind_same (h.applyOne h2 (by omega) i) fun subs => ?_
  rw [rn_sumAt hp, List.length_map]

theorem rn_centersFrom (h : Renumbered ρ m m') : ∀ (k d : Nat), 2 ≤ d → d + k ≤ m.dim + 1 → ∀ {prev prev' : List (Vec n F)},
    Carried (ρ (d - 1)) prev prev' → ∀ {cs}, centersFrom m d prev k = .ok cs →
    ∃ cs', centersFrom m' d prev' k = .ok cs' ∧ cs'.length = cs.length ∧
      ∀ (j : Nat) l l', cs[j]? = some l → cs'[j]? = some l' → Carried (ρ (d + j)) l l' := by
  intro k
  induction k with
  | zero => intro d _ _ prev prev' _ cs hc; cases hc; exact ⟨[], rfl, rfl, by simp⟩
  | succ k ih =>
    intro d h1 h2 prev prev' hp cs hc
    simp only [centersFrom] at hc ⊢
    cases e1 : forEach (elemCenter m d prev) (List.range (m.numElems d)) <;> rw [e1] at hc <;> simp only [Res.bind, reduceCtorEq] at hc
    rename_i cur
    obtain ⟨cur', c1, c2, c3⟩ := forEach_carried_same (rn_fixed h (by omega) rfl) (fun i _ => rn_elemCenter h (by omega) (by omega) hp i) e1
    cases e2 : centersFrom m (d + 1) cur k <;> rw [e2] at hc <;> simp only [Res.ok.injEq, reduceCtorEq] at hc
    rename_i rest
    obtain ⟨rest', r1, r2, r3⟩ := ih (d + 1) (by omega) (by omega) (by rw [Nat.add_sub_cancel]; exact c3) e2
    subst hc
    rw [h.numElems (by omega), c1]
    simp only [Res.bind, r1]
    refine ⟨cur' :: rest', rfl, by simp [r2], ?_⟩
    intro j l l' hl hl'
    cases j with
    | zero => cases hl; cases hl'; exact c3
    | succ j =>
      have := r3 j l l' (by simpa using hl) (by simpa using hl')
      rwa [show d + (j + 1) = d + 1 + j by omega]

theorem rn_edgeCenters (h : Renumbered ρ m m') {es : List (Vec n F)} (he : forEach (edgeCenter m) (List.range m.edges.length) = .ok es) :
    ∃ es', forEach (edgeCenter m') (List.range m'.edges.length) = .ok es' ∧ Carried (ρ 1) es es' := by
  have hd := h.dim_ge
  have hn : m'.edges.length = m.edges.length := length_of_carried (rn_fixed h (by omega) h.numEdges) h.edges
  obtain ⟨es', c1, _, c3⟩ := forEach_carried_same (body' := edgeCenter m') (rn_fixed h (d := 1) (by omega) h.numEdges)
    (fun i _ => by unfold edgeCenter; rw [rn_edgeEnds h]) he
  exact ⟨es', hn ▸ c1, c3⟩

/-- C72. The centers of the elements of all dimensions. -/
theorem C72_centers (h : Renumbered ρ m m') (cs : List (List (Vec n F))) (hc : computeCenters m = .ok cs) :
    ∃ cs', computeCenters m' = .ok cs' ∧ CarriedAll ρ cs cs' := by
  have hd := h.dim_ge
  unfold computeCenters at hc
  cases e1 : forEach (edgeCenter m) (List.range m.edges.length) <;> rw [e1] at hc <;> simp only [Res.bind, reduceCtorEq] at hc
  rename_i es
  obtain ⟨es', c1, c3⟩ := rn_edgeCenters h e1
  cases e2 : centersFrom m 2 es (m.dim - 1) <;> rw [e2] at hc <;> simp only [Res.ok.injEq, reduceCtorEq] at hc
  rename_i rest
  obtain ⟨rest', r1, r2, r3⟩ := rn_centersFrom h (m.dim - 1) 2 le_rfl (by omega) c3 e2
  subst hc
  refine ⟨es' :: rest', ?_, by simp [r2], ?_⟩
  · unfold computeCenters
    rw [c1, h.dim]
    simp only [Res.bind, r1]
  · intro j l l' hl hl'
    cases j with
    | zero => cases hl; cases hl'; exact c3
    | succ j =>
      have := r3 j l l' (by simpa using hl) (by simpa using hl')
      rwa [show j + 1 + 1 = 2 + j by omega]

end centers

section tess
variable {m m' : Mesh (Vec 3 F)} [Add F] [Sub F] [Mul F] [Zero F] [One F] [Div F] [NatCast F] [HasSqrt F]

theorem rn_tessCenter (h : Renumbered ρ m m') (h2 : 2 ≤ m.dim) {es es' : List (Vec 3 F)} (hp : Carried (ρ 1) es es') (i : Idx) :
    tessCenter m' es' (ρ 2 i) = tessCenter m es i := by
  unfold tessCenter
  rw [rn_elemCenter h (d := 2) (by omega) h2 hp]
  refine Res.bind_same (Res.rmap_id _).symm fun c => ?_
  refine Res.bind_same (h.applyOne h2 (by omega) i) fun ls => ?_
  rw [forEach_map' (body := tessTerm m es c)]
  intro e
  unfold tessTerm
  rw [rn_edgeEnds h, Res.at'_same (hp e)]

/-- C72. The centers of a 3D mesh by the tessellation. -/
theorem C72_centers_tessellated (h : Renumbered ρ m m') (h3 : m.dim = 3) (cs : List (List (Vec 3 F))) (hc : computeCentersTess m = .ok cs) :
    ∃ cs', computeCentersTess m' = .ok cs' ∧ CarriedAll ρ cs cs' := by
  unfold computeCentersTess at hc
  cases e1 : forEach (edgeCenter m) (List.range m.edges.length) <;> rw [e1] at hc <;> simp only [Res.bind, reduceCtorEq] at hc
  rename_i es
  obtain ⟨es', c1, c3⟩ := rn_edgeCenters h e1
  cases e2 : forEach (tessCenter m es) (List.range (m.numElems 2)) <;> rw [e2] at hc <;> simp only [reduceCtorEq] at hc
  rename_i fs
  obtain ⟨fs', f1, _, f3⟩ := forEach_carried_same (rn_fixed h (d := 2) (by omega) rfl) (fun i _ => rn_tessCenter h (by omega) c3 i) e2
  cases e3 : forEach (elemCenter m 3 fs) (List.range (m.numElems 3)) <;> rw [e3] at hc <;> simp only [Res.ok.injEq, reduceCtorEq] at hc
  rename_i ccs
  obtain ⟨ccs', g1, _, g3⟩ := forEach_carried_same (rn_fixed h (d := 3) (by omega) rfl) (fun i _ => rn_elemCenter h (by omega) (by omega) f3 i) e3
  subst hc
  refine ⟨[es', fs', ccs'], ?_, rfl, ?_⟩
  · unfold computeCentersTess
    rw [c1, h.numElems (d := 2) (by omega), h.numElems (d := 3) (by omega)]
    simp only [Res.bind, f1, g1]
  · intro j l l' hl hl'
    rcases j with _ | _ | _ | j
    · cases hl; cases hl'; exact c3
    · cases hl; cases hl'; exact f3
    · cases hl; cases hl'; exact g3
    · simp at hl

end tess

section measures
variable {g g' : GMesh n F}

/-- C72. `initializeCenters` gives the centers to the renumbered elements. -/
theorem C72_set_centers [Zero F] (h : RenumberedG ρ g g') (cs cs' : List (List (Vec n F))) (hl : cs.length = g.mesh.dim)
    (hc : CarriedAll ρ cs cs') : RenumberedG ρ (setCenters g cs) (setCenters g' cs') := by
  have hd := h.mesh.dim_ge
  have key : ∀ k, k < g.mesh.dim → ∀ i, ((cs'[k]?.getD [])[ρ (k + 1) i]?).getD 0 = ((cs[k]?.getD [])[i]?).getD 0 := by
    intro k hk i
    have k1 : k < cs.length := by omega
    have k2 : k < cs'.length := by rw [hc.1]; omega
    have := hc.2 k _ _ (List.getElem?_eq_getElem k1) (List.getElem?_eq_getElem k2) i
    rw [List.getElem?_eq_getElem k1, List.getElem?_eq_getElem k2, Option.getD_some, Option.getD_some, this]
  refine ⟨h.mesh, ?_, ?_, h.bCellCenter⟩
  · intro f
    have := key (g.mesh.dim - 2) (by omega) f
    rw [show g.mesh.dim - 2 + 1 = g.mesh.dim - 1 by omega] at this
    simp only [setCenters, h.mesh.dim]
    exact this
  · intro f
    have := key (g.mesh.dim - 1) (by omega) f
    rw [show g.mesh.dim - 1 + 1 = g.mesh.dim by omega] at this
    simp only [setCenters, h.mesh.dim]
    exact this

variable [Add F] [Sub F] [Mul F] [Zero F] [One F] [Div F] [NatCast F] [HasSqrt F]

theorem rn_edgeMeasures {m m' : Mesh (Vec n F)} (h : Renumbered ρ m m') {ls : List F} (he : edgeMeasures m = .ok ls) :
    ∃ ls', edgeMeasures m' = .ok ls' ∧ Carried (ρ 1) ls ls' := by
  have hd := h.dim_ge
  have hn : m'.edges.length = m.edges.length := length_of_carried (rn_fixed h (by omega) h.numEdges) h.edges
  obtain ⟨ls', c1, _, c3⟩ := forEach_carried_same (body' := edgeMeasure m') (rn_fixed h (d := 1) (by omega) h.numEdges)
    (fun i _ => by unfold edgeMeasure; rw [rn_edgeEnds h]) he
  exact ⟨ls', by unfold edgeMeasures; rw [hn]; exact c1, c3⟩

end measures

section two
variable {g g' : GMesh 2 F} [Add F] [Sub F] [Mul F] [Zero F] [One F] [Div F] [NatCast F] [HasSqrt F] [HasAbs F]

/-- C72. The lengths and areas of a 2D mesh. -/
theorem C72_measures_2d (h : RenumberedG ρ g g') (h2 : g.mesh.dim = 2) (ls as : List F) (hm : computeMeasures2 g = .ok (ls, as)) :
    ∃ ls' as', computeMeasures2 g' = .ok (ls', as') ∧ Carried (ρ 1) ls ls' ∧ Carried (ρ 2) as as' := by
  unfold computeMeasures2 at hm
  cases e1 : edgeMeasures g.mesh <;> rw [e1] at hm <;> simp only [Res.bind, reduceCtorEq] at hm
  rename_i l0
  obtain ⟨ls', c1, c2⟩ := rn_edgeMeasures h.mesh e1
  cases e2 : forEach (cellMeasure2 g) (List.range g.mesh.cells.length) <;> rw [e2] at hm <;> simp only [Res.ok.injEq, reduceCtorEq, Prod.mk.injEq] at hm
  obtain ⟨rfl, rfl⟩ := hm
  have hn : g.mesh.numElems 2 = g.mesh.cells.length := by simp [Mesh.numElems, h2]
  have hn' : g'.mesh.cells.length = g.mesh.cells.length := by
    have := h.mesh.numElems (d := 2) (by omega)
    rw [hn] at this
    rw [← this]
    simp [Mesh.numElems, h.mesh.dim, h2]
  have hb : ∀ i, i < g.mesh.cells.length → cellMeasure2 g' (ρ 2 i) = cellMeasure2 g i := by
    intro i _
    have hc := h.mesh.cells i
    rw [h2] at hc
    unfold cellMeasure2
    refine Res.bind_same (Res.at'_map hc) fun c => ?_
    have hcc := h.cellCenter i
    have hl := h.mesh.cellLoop (g := fun a : F => a)
      (body := fun e => (edgeEnds g.mesh e).bind fun p => .ok [triangle2 (g.cellCenter i) p.1 p.2])
      (body' := fun e => (edgeEnds g'.mesh e).bind fun p => .ok [triangle2 (g'.cellCenter (ρ 2 i)) p.1 p.2])
      (by
        intro f
        rw [h2]
        show (edgeEnds g'.mesh (ρ 1 f)).bind _ = _
        rw [h2] at hcc
        rw [rn_edgeEnds h.mesh, hcc]
        cases edgeEnds g.mesh f <;> rfl) i c.bElem (g.mesh.numFaces + 1) c.bElem
    rw [h2] at hl
    simp only [renameCell, h.mesh.numFaces]
    refine Res.bind_same hl fun ts => ?_
    simp
  obtain ⟨as', a1, _, a3⟩ := forEach_carried_same (rn_fixed h.mesh (d := 2) (by omega) hn) hb e2
  refine ⟨ls', as', ?_, c2, a3⟩
  unfold computeMeasures2
  rw [c1, hn']
  simp only [Res.bind, a1]

end two
end GTMesh.Props
