import Verif.Proofs.Geometry
import Verif.Proofs.Gs
import Verif.Props.Apply
import Mathlib.Tactic.IntervalCases

/-! # C38: centers of elements -/

namespace GTMesh.Props
open GTMesh Spec Std' Vec Geo

variable {n : Nat} {F : Type}

/-! ## Examples: the positions of the vertices of `twoTriangles` and `twoTets` -/

/-- The corners of the unit square. -/
def squarePos : Nat → Vec 2 ℝ
  | 0 => ![0, 0]
  | 1 => ![1, 0]
  | 2 => ![1, 1]
  | _ => ![0, 1]

/-- The unit square divided to two triangles. -/
noncomputable def square : Mesh (Vec 2 ℝ) := twoTriangles.mapV squarePos

theorem square_valid : ValidMesh square twoTrianglesBd := twoTriangles_valid.mapV squarePos

/-- Vertices of two tetrahedra. -/
def tetPos : Nat → Vec 3 ℝ
  | 0 => ![0, 0, 0]
  | 1 => ![1, 0, 0]
  | 2 => ![0, 1, 0]
  | 3 => ![0, 0, 1]
  | _ => ![1, 1, 1]

/-- Two tetrahedra with a common face. -/
noncomputable def tets : Mesh (Vec 3 ℝ) := twoTets.mapV tetPos

theorem tets_valid : ValidMesh tets twoTetsBd := twoTets_valid.mapV tetPos

theorem square_noEmpty : NoEmptyElement square := by
  intro d i f _ _ h
  simp [square, twoTriangles, Mesh.mapV, Mesh.midElems] at h

theorem tets_noEmpty : NoEmptyElement tets := by
  intro d i f _ _ h
  have hd : (tets.midElems d) = [] ∨ tets.midElems d = tets.midElems 2 := by
    by_cases hd : d ≤ 2
    · right; unfold Mesh.midElems; congr 2; omega
    · left
      obtain ⟨k, rfl⟩ : ∃ k, d = k + 3 := ⟨d - 3, by omega⟩
      simp [tets, twoTets, Mesh.mapV, Mesh.midElems, show k + 3 - 2 = k + 1 by omega]
  rcases hd with hd | hd
  · rw [hd] at h; simp at h
  · rw [hd] at h
    have hall : ∀ f ∈ tets.midElems 2, f.sub ≠ [] := by
      show ∀ f ∈ twoTets.midElems 2, f.sub ≠ []
      decide
    exact hall f (List.mem_of_getElem? h)

/-! ## The theorems -/

/-- C38. On every valid mesh of any dimension the centers are computed for all elements: the midpoint of every edge, and for every
higher element the arithmetic mean of the centers of its direct sub-elements. -/
theorem C38_centers [Field F] (m : Mesh (Vec n F)) (bd : Idx → List Idx) (hv : ValidMesh m bd) (hne : NoEmptyElement m) :
    ∃ cs, computeCenters m = .ok cs ∧ AreCenters m bd cs := by
  have hd := hv.dim_ge
  have hn1 : m.numElems 1 = m.edges.length := by
    unfold Mesh.numElems; rw [if_neg (by omega), if_neg (by omega), if_pos rfl]
  have hex : ∀ e, e < m.edges.length → ∃ c, edgeCenter m e = .ok c ∧
      ∀ ed A B, m.edges[e]? = some ed → m.vertices[ed.a]? = some A → m.vertices[ed.b]? = some B → c = mean [A, B] := by
    intro e he
    have h := List.getElem?_eq_getElem he
    obtain ⟨A, B, hA, hB⟩ := exists_ends hv h
    refine ⟨mean [A, B], edgeCenter_ok h hA hB, ?_⟩
    intro ed A' B' h' hA' hB'
    rw [h] at h'
    obtain rfl := Option.some.inj h'
    rw [hA] at hA'; rw [hB] at hB'
    rw [Option.some.inj hA', Option.some.inj hB']
  classical
  let f : Nat → Vec n F := fun e => if he : e < m.edges.length then (hex e he).choose else 0
  have hf : ∀ e ∈ List.range m.edges.length, edgeCenter m e = .ok (f e) := by
    intro e he
    rw [List.mem_range] at he
    simp only [f, dif_pos he]
    exact (hex e he).choose_spec.1
  obtain ⟨cs, h1, h2, h3, h4⟩ := centersFrom_ok hv hne (m.dim - 1) 2 ((List.range m.edges.length).map f) (le_refl 2) (by omega)
    (by simp [hn1])
  refine ⟨(List.range m.edges.length).map f :: cs, ?_, ?_, ?_, ?_, ?_⟩
  · rw [computeCenters, forEach_ok hf]
    simp only [Res.bind, h1]
  · simp [h2]; omega
  · intro d l hd1 hl
    obtain ⟨k, rfl⟩ : ∃ k, d = k + 1 := ⟨d - 1, by omega⟩
    cases k with
    | zero => simp at hl; rw [← hl, hn1]; simp
    | succ k =>
      rw [Nat.add_sub_cancel, List.getElem?_cons_succ] at hl
      rw [h3 k l hl]; congr 1; omega
  · intro e ed A B he hA hB
    have hlt := (List.getElem?_eq_some_iff.mp he).1
    have := (hex e hlt).choose_spec.2 ed A B he hA hB
    simp only [entry, Nat.sub_self, List.getElem?_cons_zero, Option.bind_some]
    rw [List.getElem?_map, List.getElem?_range hlt]
    simp only [Option.map_some, f, dif_pos hlt]
    rw [this]
  · intro d i hd1 hd2 hi
    obtain ⟨k, rfl⟩ : ∃ k, d = k + 2 := ⟨d - 2, by omega⟩
    obtain ⟨ps, below, cur, p1, p2, p3, p4, p5⟩ := h4 k i (by omega) (by rw [show 2 + k = k + 2 by omega]; exact hi)
    refine ⟨ps, ?_, p4, ?_⟩
    · rw [show k + 2 = 2 + k by omega]
      refine p3.imp ?_
      intro s p hsp
      rw [entry, show 2 + k - 1 - 1 = k by omega, p1]
      exact hsp
    · rw [entry, show k + 2 - 1 = k + 1 by omega, List.getElem?_cons_succ, p2]
      exact p5

example : ∃ cs, computeCenters tets = .ok cs ∧ AreCenters tets twoTetsBd cs := C38_centers tets _ tets_valid tets_noEmpty

/-- The conditions determine the centers. -/
theorem AreCenters.unique [Field F] {m : Mesh (Vec n F)} {bd : Idx → List Idx} (hv : ValidMesh m bd) {cs cs' : List (List (Vec n F))}
    (h : AreCenters m bd cs) (h' : AreCenters m bd cs') : cs = cs' := by
  have hd := hv.dim_ge
  have hn1 : m.numElems 1 = m.edges.length := by
    unfold Mesh.numElems; rw [if_neg (by omega), if_neg (by omega), if_pos rfl]
  have key : ∀ k, k + 1 ≤ m.dim → ∀ i, i < m.numElems (k + 1) → entry cs (k + 1) i = entry cs' (k + 1) i := by
    intro k
    induction k with
    | zero =>
      intro _ i hi
      have hg := List.getElem?_eq_getElem (hn1 ▸ hi)
      obtain ⟨A, B, hA, hB⟩ := exists_ends hv hg
      rw [h.edges i _ A B hg hA hB, h'.edges i _ A B hg hA hB]
    | succ k ih =>
      intro hk i hi
      obtain ⟨ps, h1, _, h3⟩ := h.higher (k + 2) i (by omega) hk hi
      obtain ⟨ps', h1', _, h3'⟩ := h'.higher (k + 2) i (by omega) hk hi
      have hr := hv.range (k + 2) i (by omega) hk hi
      have : ps = ps' := by
        have hm : ∀ {ss : List Idx} {ps ps' : List (Vec n F)}, (∀ s ∈ ss, s < m.numElems (k + 1)) →
            List.Forall₂ (fun s p => entry cs (k + 1) s = some p) ss ps →
            List.Forall₂ (fun s p => entry cs' (k + 1) s = some p) ss ps' → ps = ps' := by
          intro ss ps ps' hs h1 h2
          induction h1 generalizing ps' with
          | nil => cases h2; rfl
          | cons ha _ ih' =>
            cases h2 with
            | cons hb h2 =>
              rw [← ih (by omega) _ (hs _ List.mem_cons_self), ha] at hb
              rw [Option.some.inj hb, ih' (fun s hs' => hs s (List.mem_cons_of_mem _ hs')) h2]
        exact hm hr h1 h1'
      rw [h3, h3', this]
  apply List.ext_getElem?
  intro j
  by_cases hj : j < m.dim
  · have hj1 : j < cs.length := by rw [h.dims]; exact hj
    have hj2 : j < cs'.length := by rw [h'.dims]; exact hj
    have g1 := List.getElem?_eq_getElem hj1
    have g2 := List.getElem?_eq_getElem hj2
    have s1 := h.sizes (j + 1) _ (by omega) g1
    have s2 := h'.sizes (j + 1) _ (by omega) g2
    rw [g1, g2]
    congr 1
    apply List.ext_getElem?
    intro i
    by_cases hi : i < m.numElems (j + 1)
    · have := key j (by omega) i hi
      rw [entry, entry, Nat.add_sub_cancel, g1, g2] at this
      exact this
    · rw [List.getElem?_eq_none (by omega), List.getElem?_eq_none (by omega)]
  · rw [List.getElem?_eq_none (by rw [h.dims]; omega), List.getElem?_eq_none (by rw [h'.dims]; omega)]

theorem mean_map [Field F] [CharZero F] (L : Vec n F →ₗ[F] Vec n F) (t : Vec n F) {ps : List (Vec n F)} (h : ps ≠ []) :
    mean (ps.map fun p => L p + t) = L (mean ps) + t := by
  have hs : (ps.map fun p => L p + t).sum = L ps.sum + (ps.length : F) • t := by
    clear h
    induction ps with
    | nil => simp
    | cons p ps ih => rw [List.map_cons, List.sum_cons, ih, List.sum_cons, map_add, List.length_cons, Nat.cast_add, add_smul, Nat.cast_one, one_smul]; abel
  have hl : (ps.length : F) ≠ 0 := by
    rw [Nat.cast_ne_zero]
    exact fun h0 => h (List.length_eq_zero_iff.mp h0)
  rw [mean, hs, List.length_map, smul_add, smul_smul, inv_mul_cancel₀ hl, one_smul, mean, map_smul]

/-- C38. Moving the vertices by an affine map (for instance a rotation, a change of scale, a translation) moves all centers by the same map. -/
theorem C38_affine [Field F] [CharZero F] (m : Mesh (Vec n F)) (bd : Idx → List Idx) (hv : ValidMesh m bd) (hne : NoEmptyElement m)
    (L : Vec n F →ₗ[F] Vec n F) (t : Vec n F) :
    ∃ cs, computeCenters m = .ok cs ∧
      computeCenters (m.mapV fun p => L p + t) = .ok (cs.map fun l => l.map fun p => L p + t) := by
  obtain ⟨cs, h1, h2⟩ := C38_centers m bd hv hne
  obtain ⟨cs', h1', h2'⟩ := C38_centers (m.mapV fun p => L p + t) bd (hv.mapV _) hne
  refine ⟨cs, h1, ?_⟩
  rw [h1']
  congr 1
  refine AreCenters.unique (hv.mapV _) h2' ?_
  have hent : ∀ d i, entry (cs.map fun l => l.map fun p => L p + t) d i = (entry cs d i).map fun p => L p + t := by
    intro d i
    unfold entry
    rw [List.getElem?_map]
    cases cs[d - 1]? <;> simp
  constructor
  · simp [h2.dims]
  · intro d l hd hl
    rw [List.getElem?_map] at hl
    cases hc : cs[d - 1]? with
    | none => rw [hc] at hl; simp at hl
    | some l' =>
      rw [hc] at hl
      simp at hl
      rw [← hl, List.length_map, h2.sizes d l' hd hc, Mesh.mapV_numElems]
  · intro e ed A B he hA hB
    simp only [Mesh.mapV_edges, Mesh.mapV_vertices, List.getElem?_map, Option.map_eq_some_iff] at he hA hB
    obtain ⟨A', hA1, rfl⟩ := hA
    obtain ⟨B', hB1, rfl⟩ := hB
    rw [hent, h2.edges e ed A' B' he hA1 hB1]
    have := mean_map L t (ps := [A', B']) (by simp)
    simp only [List.map_cons, List.map_nil] at this
    rw [this]; rfl
  · intro d i hd1 hd2 hi
    rw [Mesh.mapV_numElems] at hi
    obtain ⟨ps, p1, p2, p3⟩ := h2.higher d i hd1 hd2 hi
    refine ⟨ps.map fun p => L p + t, ?_, by simpa using p2, ?_⟩
    · rw [Mesh.mapV_directSubs, List.forall₂_map_right_iff]
      refine p1.imp ?_
      intro s p hs
      rw [hent, hs]; rfl
    · rw [hent, p3, mean_map L t p2]; rfl

/-- C38. Translation of the mesh translates all centers. -/
theorem C38_translation [Field F] [CharZero F] (m : Mesh (Vec n F)) (bd : Idx → List Idx) (hv : ValidMesh m bd) (hne : NoEmptyElement m)
    (t : Vec n F) : ∃ cs, computeCenters m = .ok cs ∧ computeCenters (m.mapV (· + t)) = .ok (cs.map fun l => l.map (· + t)) :=
  C38_affine m bd hv hne LinearMap.id t

example : ∃ cs, computeCenters square = .ok cs ∧ computeCenters (square.mapV (· + ![5, 7])) = .ok (cs.map fun l => l.map (· + ![5, 7])) :=
  C38_translation square _ square_valid square_noEmpty ![5, 7]

theorem mean_mem [Field F] [LinearOrder F] [IsStrictOrderedRing F] {S : Set (Vec n F)} (hS : Convex F S) {ps : List (Vec n F)} (hne : ps ≠ [])
    (h : ∀ p ∈ ps, p ∈ S) : mean ps ∈ S := by
  have hl : (0 : F) < ps.length := by
    rw [Nat.cast_pos]; exact List.length_pos_iff.mpr hne
  have e : mean ps = ∑ i : Fin ps.length, (ps.length : F)⁻¹ • ps[i] := by
    rw [mean, ← Finset.smul_sum]
    congr 1
    rw [← List.sum_ofFn]
    congr 1
    exact (List.ofFn_getElem (xs := ps)).symm
  rw [e]
  apply hS.sum_mem
  · intro i _; exact (inv_pos.mpr hl).le
  · rw [Finset.sum_const, Finset.card_univ, Fintype.card_fin, nsmul_eq_mul, mul_inv_cancel₀ hl.ne']
  · intro i _; exact h _ (List.getElem_mem _)

/-- C38. The center of an element lies in every convex set that contains the vertices of the element. -/
theorem C38_convex [Field F] [LinearOrder F] [IsStrictOrderedRing F] (m : Mesh (Vec n F)) (bd : Idx → List Idx) (hv : ValidMesh m bd)
    (hne : NoEmptyElement m) (cs : List (List (Vec n F))) (hcs : computeCenters m = .ok cs) (S : Set (Vec n F)) (hS : Convex F S) :
    ∀ d i c, 1 ≤ d → entry cs d i = some c → verticesOf m bd d i ⊆ S → c ∈ S := by
  obtain ⟨cs', h1, h2⟩ := C38_centers m bd hv hne
  rw [hcs] at h1
  obtain rfl := Res.ok.inj h1
  have hd := hv.dim_ge
  have hn1 : m.numElems 1 = m.edges.length := by
    unfold Mesh.numElems; rw [if_neg (by omega), if_neg (by omega), if_pos rfl]
  have hin : ∀ d i c, 1 ≤ d → entry cs d i = some c → d ≤ m.dim ∧ i < m.numElems d := by
    intro d i c hd1 he
    unfold entry at he
    cases hl : cs[d - 1]? with
    | none => rw [hl] at he; simp at he
    | some l =>
      rw [hl] at he
      have h3 := (List.getElem?_eq_some_iff.mp hl).1
      have h4 := (List.getElem?_eq_some_iff.mp (show l[i]? = some c from he)).1
      rw [h2.dims] at h3
      rw [h2.sizes d l hd1 hl] at h4
      exact ⟨by omega, h4⟩
  have key : ∀ k i c, entry cs (k + 1) i = some c → verticesOf m bd (k + 1) i ⊆ S → c ∈ S := by
    intro k
    induction k with
    | zero =>
      intro i c he hs
      obtain ⟨_, hi⟩ := hin 1 i c (le_refl 1) he
      have hg := List.getElem?_eq_getElem (hn1 ▸ hi)
      obtain ⟨A, B, hA, hB⟩ := exists_ends hv hg
      rw [h2.edges i _ A B hg hA hB] at he
      rw [← Option.some.inj he]
      have hds : descend m bd 0 1 i = [(m.edges[i]'(hn1 ▸ hi)).a, (m.edges[i]'(hn1 ▸ hi)).b] := by
        simp only [descend]
        have : directSubs m bd (0 + 0 + 1) i = [(m.edges[i]'(hn1 ▸ hi)).a, (m.edges[i]'(hn1 ▸ hi)).b] := by
          unfold directSubs; rw [if_neg (by omega), if_pos rfl, hg]; rfl
        rw [this]; rfl
      apply mean_mem hS (by simp)
      intro p hp
      simp only [List.mem_cons, List.not_mem_nil, or_false] at hp
      rcases hp with rfl | rfl
      · exact hs ⟨_, by rw [hds]; simp, hA⟩
      · exact hs ⟨_, by rw [hds]; simp, hB⟩
    | succ k ih =>
      intro i c he hs
      obtain ⟨hk, hi⟩ := hin (k + 2) i c (by omega) he
      obtain ⟨ps, p1, p2, p3⟩ := h2.higher (k + 2) i (by omega) hk hi
      rw [p3] at he
      rw [← Option.some.inj he]
      apply mean_mem hS p2
      intro p hp
      have hmem : ∀ {ss : List Idx} {ps : List (Vec n F)}, List.Forall₂ (fun s p => entry cs (k + 1) s = some p) ss ps → ∀ p ∈ ps, ∃ s ∈ ss,
          entry cs (k + 1) s = some p := by
        intro ss ps hf
        induction hf with
        | nil => simp
        | cons ha _ ih' =>
          intro p hp
          rcases List.mem_cons.mp hp with rfl | hp
          · exact ⟨_, List.mem_cons_self, ha⟩
          · obtain ⟨s, h1, h2⟩ := ih' p hp
            exact ⟨s, List.mem_cons_of_mem _ h1, h2⟩
      obtain ⟨s, hs1, hs2⟩ := hmem p1 p hp
      apply ih s p hs2
      rintro q ⟨v, hv1, hv2⟩
      refine hs ⟨v, ?_, hv2⟩
      rw [descend, List.mem_flatMap]
      exact ⟨s, by rw [show 0 + (k + 1) + 1 = k + 2 by omega]; exact hs1, hv1⟩
  intro d i c hd1 he hs
  obtain ⟨k, rfl⟩ : ∃ k, d = k + 1 := ⟨d - 1, by omega⟩
  exact key k i c he hs

/-- C38. The center of an element lies in every half-space `a · x ≤ b` that contains the vertices of the element. -/
theorem C38_half_space [Field F] [LinearOrder F] [IsStrictOrderedRing F] (m : Mesh (Vec n F)) (bd : Idx → List Idx) (hv : ValidMesh m bd)
    (hne : NoEmptyElement m) (cs : List (List (Vec n F))) (hcs : computeCenters m = .ok cs) (a : Vec n F) (b : F) (d i : Nat) (c : Vec n F)
    (hd : 1 ≤ d) (hc : entry cs d i = some c) (h : ∀ p ∈ verticesOf m bd d i, dot a p ≤ b) : dot a c ≤ b := by
  refine C38_convex m bd hv hne cs hcs {p | dot a p ≤ b} ?_ d i c hd hc h
  intro x hx y hy s t hs ht hst
  simp only [Set.mem_ofPred_eq] at hx hy ⊢
  rw [dot_add_right, dot_smul_right, dot_smul_right]
  calc s * dot a x + t * dot a y ≤ s * b + t * b := add_le_add (mul_le_mul_of_nonneg_left hx hs) (mul_le_mul_of_nonneg_left hy ht)
    _ = b := by rw [← add_mul, hst, one_mul]

example : ∃ cs, computeCenters square = .ok cs ∧ ∀ i c, entry cs 2 i = some c → c 0 ≤ 1 := by
  obtain ⟨cs, h1, _⟩ := C38_centers square _ square_valid square_noEmpty
  refine ⟨cs, h1, ?_⟩
  intro i c hc
  have := C38_half_space square _ square_valid square_noEmpty cs h1 ![1, 0] 1 2 i c (by omega) hc (by
    rintro p ⟨v, _, hp⟩
    have hp := List.mem_of_getElem? hp
    simp [square, twoTriangles, Mesh.mapV, squarePos] at hp
    rcases hp with rfl | rfl | rfl | rfl <;> simp [dot_eq, Fin.sum_univ_two])
  simpa [dot_eq, Fin.sum_univ_two] using this

/-! ## Tessellated faces -/

theorem triangleArea_gs (A B c : Vec 3 ℝ) (h : A ≠ c) :
    ∃ us n0 n1, gramSchmidtN [sub c A, sub c B] = .ok (us, [n0, n1]) ∧ n0 * (1 / 2) * n1 = triangleArea A B c := by
  have h0 : sub c A ≠ 0 := by rw [sub_eq]; exact sub_ne_zero.mpr (Ne.symm h)
  obtain ⟨us, hg⟩ := gs2 (sub c A) (sub c B) h0
  refine ⟨us, _, _, hg, ?_⟩
  have hp := (norm_pos h0).ne'
  have hc : cross (sub c A) (sub c B) = cross (A - c) (B - c) := by
    rw [sub_eq, sub_eq, ← neg_sub A c, ← neg_sub B c]
    have e : ∀ x : Vec 3 ℝ, -x = (-1 : ℝ) • x := fun x => by simp
    rw [e, e (B - c), cross_smul_left, cross_smul_right, smul_smul]; simp
  rw [hc, triangleArea]
  field_simp

theorem tess_fold (c : Vec 3 ℝ) (sides : List (Vec 3 ℝ × Vec 3 ℝ)) (hs : (sides.map fun p => triangleArea p.1 p.2 c).sum ≠ 0) :
    let ts := sides.map fun p => (triangleArea p.1 p.2 c, mean [p.1, p.2])
    add (div c 3) (div (ts.foldl (fun acc t => addAssign acc (.other (smul t.2 (t.1 * (2 / 3))))) 0) (ts.foldl (fun acc t => acc + t.1) 0)) =
      gravityCenter c sides := by
  intro ts
  have h1 : ∀ (l : List (ℝ × Vec 3 ℝ)) (a : Vec 3 ℝ), l.foldl (fun acc t => addAssign acc (.other (smul t.2 (t.1 * (2 / 3))))) a =
      a + (l.map fun t => (t.1 * (2 / 3)) • t.2).sum := by
    intro l
    induction l with
    | nil => intro a; simp
    | cons t l ih => intro a; rw [List.foldl_cons, ih, addAssign_eq, Operand.get, smul_eq, List.map_cons, List.sum_cons, add_assoc]
  have h2 : ∀ (l : List (ℝ × Vec 3 ℝ)) (a : ℝ), l.foldl (fun acc t => acc + t.1) a = a + (l.map (·.1)).sum := by
    intro l
    induction l with
    | nil => intro a; simp
    | cons t l ih => intro a; rw [List.foldl_cons, ih, List.map_cons, List.sum_cons, add_assoc]
  rw [h1, h2, add_eq, div_eq, div_eq, zero_add, zero_add]
  have e1 : (ts.map (·.1)).sum = (sides.map fun p => triangleArea p.1 p.2 c).sum := by
    simp [ts, List.map_map, Function.comp_def]
  have e2 : ∀ l : List (Vec 3 ℝ × Vec 3 ℝ), (l.map fun p => triangleArea p.1 p.2 c • mean [p.1, p.2, c]).sum =
      (l.map fun p => (triangleArea p.1 p.2 c * (2 / 3)) • mean [p.1, p.2]).sum + ((l.map fun p => triangleArea p.1 p.2 c).sum * 3⁻¹) • c := by
    intro l
    induction l with
    | nil => simp
    | cons p l ih =>
      simp only [List.map_cons, List.sum_cons, ih]
      have : mean [p.1, p.2, c] = (2 / 3 : ℝ) • mean [p.1, p.2] + (3⁻¹ : ℝ) • c := by
        funext k
        simp [mean]
        ring
      rw [this, smul_add, smul_smul, smul_smul, add_mul, add_smul]
      abel
  have e3 : (ts.map fun t => (t.1 * (2 / 3)) • t.2).sum = (sides.map fun p => (triangleArea p.1 p.2 c * (2 / 3)) • mean [p.1, p.2]).sum := by
    simp [ts, List.map_map, Function.comp_def]
  rw [e1, e3, gravityCenter, e2, smul_add, smul_smul, ← mul_assoc, inv_mul_cancel₀ hs, one_mul, add_comm]

/-- C38. With `METHOD_TESSELLATED` in 3D the center of a face is the center of gravity of the triangles that join the edges of the face
to the mean of the edge centers; the cells are treated as by the default method. The faces must not be degenerate. -/
theorem C38_tessellated (m : Mesh (Vec 3 ℝ)) (bd : Idx → List Idx) (hv : ValidMesh m bd) (h3 : m.dim = 3)
    (hnd : ∀ i, i < (m.midElems 2).length → (∀ p ∈ faceEdges m i, p.1 ≠ edgeMean m i) ∧
      ((faceEdges m i).map fun p => triangleArea p.1 p.2 (edgeMean m i)).sum ≠ 0) :
    ∃ es fs cs, computeCentersTess m = .ok [es, fs, cs] ∧
      es = (List.range m.edges.length).map (fun e => mean [(ends m e).1, (ends m e).2]) ∧
      fs = (List.range (m.midElems 2).length).map (fun i => gravityCenter (edgeMean m i) (faceEdges m i)) ∧
      cs = (List.range m.cells.length).map (fun i => mean ((bd i).map fun f => gravityCenter (edgeMean m f) (faceEdges m f))) := by
  set es := (List.range m.edges.length).map (fun e => mean [(ends m e).1, (ends m e).2]) with hes
  set fs := (List.range (m.midElems 2).length).map (fun i => gravityCenter (edgeMean m i) (faceEdges m i)) with hfs
  have hn2 : m.numElems 2 = (m.midElems 2).length := by
    unfold Mesh.numElems; rw [if_neg (by omega), if_neg (by omega), if_neg (by omega)]
  have hn3 : m.numElems 3 = m.cells.length := by
    unfold Mesh.numElems; rw [if_pos h3.symm]
  have hface : ∀ i ∈ List.range (m.numElems 2), tessCenter m es i = .ok (gravityCenter (edgeMean m i) (faceEdges m i)) := by
    intro i hi
    rw [List.mem_range, hn2] at hi
    have hf := List.getElem?_eq_getElem hi
    obtain ⟨d1, d2, _⟩ := face_edges_lt hv h3 hf
    set sub' := ((m.midElems 2)[i]).sub with hsub
    have hfe : faceEdges m i = sub'.map (ends m) := by rw [faceEdges, hf]; rfl
    have hel : elemCenter m 2 es i = .ok (edgeMean m i) := by
      have := elemCenter_ok hv (d := 2) (i := i) (prev := es) (ps := sub'.map fun e => mean [(ends m e).1, (ends m e).2])
        (by omega) (by omega) (by rw [hn2]; exact hi) (by
          rw [d1, List.forall₂_map_right_iff, List.forall₂_same]
          intro e he
          rw [hes, List.getElem?_map, List.getElem?_range (d2 e he)]; rfl)
      rw [this, edgeMean, hfe, List.map_map]; rfl
    have happ := Mesh.applyOne_direct hv (d := 2) (i := i) (by omega) (by omega) (by rw [hn2]; exact hi)
    rw [d1] at happ
    obtain ⟨n1, n2⟩ := hnd i hi
    have hts : forEach (tessTerm m es (edgeMean m i)) sub' =
        .ok (sub'.map fun e => (triangleArea (ends m e).1 (ends m e).2 (edgeMean m i), mean [(ends m e).1, (ends m e).2])) := by
      apply forEach_ok
      intro e he
      obtain ⟨us, a, b, hg, hab⟩ := triangleArea_gs (ends m e).1 (ends m e).2 (edgeMean m i)
        (n1 (ends m e) (by rw [hfe]; exact List.mem_map_of_mem he))
      have hat : Res.at' es e = .ok (mean [(ends m e).1, (ends m e).2]) := by
        rw [Res.at'_eq_ok, hes, List.getElem?_map, List.getElem?_range (d2 e he)]; rfl
      rw [tessTerm, ends_ok hv (d2 e he)]
      have ha : Res.at' [a, b] 0 = .ok a := rfl
      have hb : Res.at' [a, b] 1 = .ok b := rfl
      simp only [Res.bind, hg, ha, hb, hat, hab]
    rw [tessCenter, hel]
    simp only [Res.bind, happ, hts]
    congr 1
    have := tess_fold (edgeMean m i) (faceEdges m i) n2
    rw [hfe, List.map_map] at this
    rw [hfe]
    exact this
  refine ⟨es, fs, _, ?_, rfl, rfl, rfl⟩
  rw [computeCentersTess, edgeCenters_ok hv]
  simp only [Res.bind]
  rw [← hes, forEach_ok hface, hn2]
  simp only [Res.bind]
  rw [← hfs, forEach_ok (f := fun i => mean ((bd i).map fun f => gravityCenter (edgeMean m f) (faceEdges m f))), hn3]
  intro i hi
  rw [List.mem_range] at hi
  have hd : directSubs m bd 3 i = bd i := by unfold directSubs; rw [if_pos h3.symm]
  have hr := hv.range 3 i (by omega) (by omega) hi
  apply elemCenter_ok hv (by omega) (by omega) hi
  rw [List.forall₂_map_right_iff]
  rw [hd] at hr ⊢
  rw [List.forall₂_same]
  intro f hf
  have := hr f hf
  rw [show 3 - 1 = 2 from rfl, hn2] at this
  rw [hfs, List.getElem?_map, List.getElem?_range this]; rfl

/-- A way to check the second condition: one of the triangles is not degenerate. -/
theorem area_sum_ne_zero {c : Vec 3 ℝ} {sides : List (Vec 3 ℝ × Vec 3 ℝ)} (p : Vec 3 ℝ × Vec 3 ℝ) (hp : p ∈ sides)
    (h : cross (p.1 - c) (p.2 - c) ≠ 0) : (sides.map fun p => triangleArea p.1 p.2 c).sum ≠ 0 := by
  have hnn : ∀ q : Vec 3 ℝ × Vec 3 ℝ, 0 ≤ triangleArea q.1 q.2 c := fun q => mul_nonneg (by norm_num) (norm_nonneg' _)
  have hs : ∀ l : List (Vec 3 ℝ × Vec 3 ℝ), 0 ≤ (l.map fun p => triangleArea p.1 p.2 c).sum := by
    intro l
    induction l with
    | nil => simp
    | cons q l ih => rw [List.map_cons, List.sum_cons]; exact add_nonneg (hnn q) ih
  have hpos : 0 < triangleArea p.1 p.2 c := mul_pos (by norm_num) (norm_pos h)
  have key : 0 < (sides.map fun p => triangleArea p.1 p.2 c).sum := by
    induction sides with
    | nil => simp at hp
    | cons q l ih =>
      rw [List.map_cons, List.sum_cons]
      rcases List.mem_cons.mp hp with e | hp
      · rw [← e]; exact add_pos_of_pos_of_nonneg hpos (hs l)
      · exact add_pos_of_nonneg_of_pos (hnn q) (ih hp)
  exact key.ne'

/-- A triangle that is not degenerate meets the conditions. -/
theorem triangle_conditions {m : Mesh (Vec 3 ℝ)} {i : Nat} {A B C : Vec 3 ℝ} (hf : faceEdges m i = [(A, B), (B, C), (C, A)] ∨
    faceEdges m i = [(A, B), (B, C), (A, C)] ∨ faceEdges m i = [(A, B), (A, C), (B, C)]) (hc : cross (A - C) (B - C) ≠ 0) :
    (∀ p ∈ faceEdges m i, p.1 ≠ edgeMean m i) ∧
    ((faceEdges m i).map fun p => triangleArea p.1 p.2 (edgeMean m i)).sum ≠ 0 := by
  have hmean : edgeMean m i = (3⁻¹ : ℝ) • (A + B + C) := by
    rcases hf with hf | hf | hf <;> rw [edgeMean, hf] <;> funext k <;> simp [mean] <;> ring
  have hA : ∀ X Y Z : Vec 3 ℝ, cross (X - Z) (Y - Z) ≠ 0 → X ≠ (3⁻¹ : ℝ) • (X + Y + Z) := by
    intro X Y Z h e
    apply h
    have e2 : X - Z = (-1 : ℝ) • ((X - Y)) := by
      funext k
      have := congrFun e k
      simp at this ⊢
      linarith
    have e3 : Y - Z = (X - Z) - (X - Y) := by abel
    rw [e3, cross_sub_right, cross_self, e2, cross_smul_left, cross_self]; simp
  have perm1 : cross (B - C) (A - C) ≠ 0 := by
    intro h
    apply hc
    have h1 := cross_apply (B - C) (A - C)
    have h2 := cross_apply (A - C) (B - C)
    have z0 := congrFun h 0
    have z1 := congrFun h 1
    have z2 := congrFun h 2
    apply ext3 <;> simp only [h1, h2, Pi.zero_apply] at * <;> linarith
  have perm2 : cross (C - A) (B - A) ≠ 0 := by
    intro h
    apply hc
    have h1 := cross_apply (C - A) (B - A)
    have h2 := cross_apply (A - C) (B - C)
    have z0 := congrFun h 0
    have z1 := congrFun h 1
    have z2 := congrFun h 2
    apply ext3 <;> simp only [h1, h2, Pi.zero_apply, Pi.sub_apply] at * <;> linarith
  have a1 := hA A B C hc
  have a2 : B ≠ (3⁻¹ : ℝ) • (A + B + C) := by have := hA B A C perm1; rwa [add_comm B A] at this
  have a3 : C ≠ (3⁻¹ : ℝ) • (A + B + C) := by have := hA C B A perm2; rwa [show C + B + A = A + B + C by abel] at this
  have harea : cross (A - (3⁻¹ : ℝ) • (A + B + C)) (B - (3⁻¹ : ℝ) • (A + B + C)) ≠ 0 := by
    intro h
    apply hc
    have h1 := cross_apply (A - (3⁻¹ : ℝ) • (A + B + C)) (B - (3⁻¹ : ℝ) • (A + B + C))
    have h2 := cross_apply (A - C) (B - C)
    have z0 := congrFun h 0
    have z1 := congrFun h 1
    have z2 := congrFun h 2
    apply ext3 <;> simp only [h1, h2, Pi.zero_apply, Pi.sub_apply, Pi.smul_apply, Pi.add_apply, smul_eq_mul] at *
    · linarith
    · linarith
    · linarith
  rw [hmean]
  refine ⟨?_, area_sum_ne_zero (A, B) ?_ harea⟩
  · intro p hp
    rcases hf with hf | hf | hf <;> rw [hf] at hp <;> simp at hp <;> rcases hp with rfl | rfl | rfl <;> assumption
  · rcases hf with hf | hf | hf <;> rw [hf] <;> simp

theorem tets_faceEdges : ∀ i, i < (tets.midElems 2).length → (∀ p ∈ faceEdges tets i, p.1 ≠ edgeMean tets i) ∧
    ((faceEdges tets i).map fun p => triangleArea p.1 p.2 (edgeMean tets i)).sum ≠ 0 := by
  intro i hi
  have hi : i < 7 := hi
  have ne : ∀ x : Vec 3 ℝ, x 0 ≠ 0 ∨ x 1 ≠ 0 ∨ x 2 ≠ 0 → x ≠ 0 := by
    rintro x h rfl
    simp at h
  interval_cases i
  · exact triangle_conditions (A := tetPos 0) (B := tetPos 1) (C := tetPos 2) (by left; rfl) (ne _ (by simp [cross_apply, tetPos]))
  · exact triangle_conditions (A := tetPos 0) (B := tetPos 1) (C := tetPos 3) (by right; left; rfl) (ne _ (by simp [cross_apply, tetPos]))
  · exact triangle_conditions (A := tetPos 2) (B := tetPos 0) (C := tetPos 3) (by right; left; rfl) (ne _ (by simp [cross_apply, tetPos]))
  · exact triangle_conditions (A := tetPos 1) (B := tetPos 2) (C := tetPos 3) (by right; left; rfl) (ne _ (by simp [cross_apply, tetPos]))
  · exact triangle_conditions (A := tetPos 1) (B := tetPos 2) (C := tetPos 4) (by right; left; rfl) (ne _ (by simp [cross_apply, tetPos]))
  · exact triangle_conditions (A := tetPos 2) (B := tetPos 3) (C := tetPos 4) (by right; left; rfl) (ne _ (by simp [cross_apply, tetPos]))
  · exact triangle_conditions (A := tetPos 1) (B := tetPos 3) (C := tetPos 4) (by right; right; rfl) (ne _ (by simp [cross_apply, tetPos]))

example : ∃ es fs cs, computeCentersTess tets = .ok [es, fs, cs] ∧ fs.length = 7 := by
  obtain ⟨es, fs, cs, h1, _, h2, _⟩ := C38_tessellated tets _ tets_valid rfl tets_faceEdges
  exact ⟨es, fs, cs, h1, by rw [h2]; simp; rfl⟩

end GTMesh.Props
