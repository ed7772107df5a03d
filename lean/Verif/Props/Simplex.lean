import Verif.Proofs.Simplex

/-! # C39: measures of simplices in any dimension -/

namespace GTMesh.Props
open GTMesh Spec Std' Vec Geo Simplex

variable {n : Nat}

/-! ## Lists of points -/

/-- The position of a vertex. -/
noncomputable def posOf (m : Mesh (Vec n ℝ)) (v : Idx) : Vec n ℝ := (m.vertices[v]?).getD 0

theorem positions_iff {m : Mesh (Vec n ℝ)} {vs : List Idx} {ps : List (Vec n ℝ)} :
    PositionsOf m vs ps ↔ (∀ v ∈ vs, v < m.vertices.length) ∧ ps = vs.map (posOf m) := by
  unfold PositionsOf
  induction vs generalizing ps with
  | nil => cases ps <;> simp
  | cons v vs ih =>
    cases ps with
    | nil => simp
    | cons p ps =>
      rw [List.forall₂_cons, ih]
      simp only [List.mem_cons, forall_eq_or_imp, List.map_cons, List.cons.injEq]
      constructor
      · rintro ⟨h1, h2, h3⟩
        exact ⟨⟨(List.getElem?_eq_some_iff.mp h1).1, h2⟩, by simp [posOf, h1], h3⟩
      · rintro ⟨⟨h1, h2⟩, h3, h4⟩
        refine ⟨?_, h2, h4⟩
        rw [h3, posOf, List.getElem?_eq_getElem h1]; rfl

theorem not_mem_plane {V : List (Vec n ℝ)} (h : AffineIndependent ℝ V.get) {k : Nat} (hk : k < V.length) : V[k] ∉ plane (V.eraseIdx k) := by
  have h1 := h.notMem_affineSpan_sdiff ⟨k, hk⟩ Set.univ
  intro hmem
  apply h1
  refine affineSpan_mono ℝ ?_ hmem
  intro x hx
  obtain ⟨i, hi, hne, rfl⟩ := List.mem_eraseIdx_iff_getElem.mp hx
  exact ⟨⟨i, hi⟩, ⟨trivial, by simpa [Fin.ext_iff] using hne⟩, rfl⟩

theorem independent_add {sp : List (Vec n ℝ)} (h : AffineIndependent ℝ sp.get) {c : Vec n ℝ} (hc : c ∉ plane sp) {l : List (Vec n ℝ)} (i : Fin l.length)
    (hi : l.get i = c) (f : Fin l.length → Fin sp.length) (hf : ∀ j, j ≠ i → l.get j = sp.get (f j)) (hinj : ∀ a b, a ≠ i → b ≠ i → f a = f b → a = b) :
    AffineIndependent ℝ l.get := by
  apply AffineIndependent.affineIndependent_of_notMem_span (i := i)
  · have e : (fun x : {y // y ≠ i} => l.get x) = sp.get ∘ fun x : {y // y ≠ i} => f x := by
      funext x; exact hf x.1 x.2
    rw [e]
    exact h.comp_embedding ⟨fun x : {y // y ≠ i} => f x, fun a b hab => Subtype.ext (hinj a b a.2 b.2 hab)⟩
  · rw [hi]
    intro hmem
    apply hc
    refine affineSpan_mono ℝ ?_ hmem
    rintro _ ⟨j, hj, rfl⟩
    rw [hf j hj]
    exact List.getElem_mem _

theorem independent_cons {sp : List (Vec n ℝ)} (h : AffineIndependent ℝ sp.get) {c : Vec n ℝ} (hc : c ∉ plane sp) :
    AffineIndependent ℝ (c :: sp).get := by
  by_cases h0 : sp = []
  · subst h0
    have : Subsingleton (Fin [c].length) := by show Subsingleton (Fin 1); infer_instance
    exact affineIndependent_of_subsingleton ℝ _
  have hpos := List.length_pos_iff.mpr h0
  refine independent_add h hc (l := c :: sp) ⟨0, by simp⟩ rfl
    (fun j => if hj : j.val = 0 then ⟨0, hpos⟩ else ⟨j.val - 1, by have := j.isLt; simp at this; omega⟩) ?_ ?_
  · rintro ⟨j, hj⟩ hne
    have h0 : j ≠ 0 := fun e => hne (Fin.ext e)
    obtain ⟨j, rfl⟩ : ∃ i, j = i + 1 := ⟨j - 1, by omega⟩
    simp
  · rintro ⟨a, ha⟩ ⟨b, hb⟩ hna hnb e
    have ha0 : a ≠ 0 := fun e => hna (Fin.ext e)
    have hb0 : b ≠ 0 := fun e => hnb (Fin.ext e)
    simp only [ha0, hb0, dite_false, Fin.mk.injEq] at e
    exact Fin.ext (show a = b by omega)

theorem independent_snoc {sp : List (Vec n ℝ)} (h : AffineIndependent ℝ sp.get) {c : Vec n ℝ} (hc : c ∉ plane sp) :
    AffineIndependent ℝ (sp ++ [c]).get := by
  by_cases h0 : sp = []
  · subst h0
    have : Subsingleton (Fin ([] ++ [c]).length) := by show Subsingleton (Fin 1); infer_instance
    exact affineIndependent_of_subsingleton ℝ _
  have hpos := List.length_pos_iff.mpr h0
  refine independent_add h hc (l := sp ++ [c]) ⟨sp.length, by simp⟩ (by simp)
    (fun j => if hj : j.val < sp.length then ⟨j.val, hj⟩ else ⟨0, hpos⟩) ?_ ?_
  · rintro ⟨j, hj⟩ hne
    have h0 : j ≠ sp.length := fun e => hne (Fin.ext e)
    have hlt : j < sp.length := by simp at hj; omega
    simp [hlt]
  · rintro ⟨a, ha⟩ ⟨b, hb⟩ hna hnb e
    have ha0 : a ≠ sp.length := fun e => hna (Fin.ext e)
    have hb0 : b ≠ sp.length := fun e => hnb (Fin.ext e)
    have ha1 : a < sp.length := by simp at ha; omega
    have hb1 : b < sp.length := by simp at hb; omega
    simp only [ha1, hb1, dite_true, Fin.mk.injEq] at e
    exact Fin.ext e

/-- The mean of a simplex lies above each facet, at the height of the opposite vertex divided by the number of vertices. -/
theorem mean_above {V : List (Vec n ℝ)} {d k : Nat} (hl : V.length = d + 1) (hd : 1 ≤ d) (hk : k < d + 1) :
    ∃ g ∈ plane (V.eraseIdx k), mean V = g + ((d : ℝ) + 1)⁻¹ • (V[k] - g) := by
  have hlen : (V.eraseIdx k).length = d := by rw [List.length_eraseIdx]; simp [hl, hk]
  have hne : V.eraseIdx k ≠ [] := by intro e; rw [e] at hlen; simp at hlen; omega
  refine ⟨mean (V.eraseIdx k), mean_mem_plane hne, ?_⟩
  rw [← mean_perm (List.getElem_cons_eraseIdx_perm (by omega : k < V.length)), mean_cons _ hne, hlen]

/-- The center is not in the plane of a facet. -/
theorem mean_not_mem {V : List (Vec n ℝ)} {d k : Nat} (hl : V.length = d + 1) (hd : 1 ≤ d) (hk : k < d + 1) (h : AffineIndependent ℝ V.get) :
    mean V ∉ plane (V.eraseIdx k) := by
  obtain ⟨g, hg, e⟩ := mean_above hl hd hk
  intro hm
  apply not_mem_plane h (show k < V.length by omega)
  have hd' : ((d : ℝ) + 1) ≠ 0 := by positivity
  have := AffineMap.lineMap_mem ((d : ℝ) + 1) hg hm
  rw [AffineMap.lineMap_apply, e] at this
  simp only [vsub_eq_sub, vadd_eq_add, add_sub_cancel_left, smul_smul, mul_inv_cancel₀ hd', one_smul, sub_add_cancel] at this
  exact this

/-- The center and a facet span the plane of the simplex. -/
theorem plane_center {V sp : List (Vec n ℝ)} {d k : Nat} (hl : V.length = d + 1) (hd : 1 ≤ d) (hk : k < d + 1)
    (hsp : plane sp = plane (V.eraseIdx k)) : plane (mean V :: sp) = plane V := by
  obtain ⟨g, hg, e⟩ := mean_above hl hd hk
  have hne : V ≠ [] := by rintro rfl; simp at hl
  have hd' : ((d : ℝ) + 1) ≠ 0 := by positivity
  have hperm := List.getElem_cons_eraseIdx_perm (by omega : k < V.length)
  apply le_antisymm
  · apply affineSpan_le.mpr
    intro x hx
    rcases List.mem_cons.mp hx with rfl | hx
    · exact mean_mem_plane hne
    · have h1 : x ∈ plane sp := subset_affineSpan ℝ _ hx
      rw [hsp] at h1
      refine affineSpan_mono ℝ ?_ h1
      intro y hy
      exact hperm.mem_iff.mp (List.mem_cons_of_mem _ hy)
  · have hle : plane (V.eraseIdx k) ≤ plane (mean V :: sp) := by
      rw [← hsp]
      exact affineSpan_mono ℝ fun y hy => List.mem_cons_of_mem _ hy
    apply affineSpan_le.mpr
    intro x hx
    rcases List.mem_cons.mp (hperm.mem_iff.mpr hx) with rfl | hx
    · have hm : mean V ∈ plane (mean V :: sp) := subset_affineSpan ℝ _ List.mem_cons_self
      have := AffineMap.lineMap_mem ((d : ℝ) + 1) (hle hg) hm
      rw [AffineMap.lineMap_apply, e] at this
      simp only [vsub_eq_sub, vadd_eq_add, add_sub_cancel_left, smul_smul, mul_inv_cancel₀ hd', one_smul, sub_add_cancel] at this
      rw [← e] at this
      exact this
    · exact hle (subset_affineSpan ℝ _ hx)

/-- The volume of the cones over the facets. -/
theorem cone_volume {V : List (Vec n ℝ)} {d k : Nat} (hl : V.length = d + 1) (hd : 1 ≤ d) (hk : k < d + 1) {sp : List (Vec n ℝ)}
    (hsp : plane sp = plane (V.eraseIdx k)) {h : ℝ} (hdist : IsDistance (mean V) sp h) :
    h * heights (V.eraseIdx k) = ((d : ℝ) + 1)⁻¹ * heights V := by
  obtain ⟨g, hg, e⟩ := mean_above hl hd hk
  have hlen : (V.eraseIdx k).length = d := by rw [List.length_eraseIdx]; simp [hl, hk]
  have hne : V.eraseIdx k ≠ [] := by intro e; rw [e] at hlen; simp at hlen; omega
  have hperm := List.getElem_cons_eraseIdx_perm (by omega : k < V.length)
  have h1 := distance_scaled (t := ((d : ℝ) + 1)⁻¹) (by positivity) hg (height_spec V[k] hne)
  rw [← e] at h1
  have h2 := (isDistance_congr hsp hdist).unique h1
  rw [h2, ← heights_perm hperm, heights, mul_assoc]

theorem sum_eraseIdx (V : List (Vec n ℝ)) : ((List.range V.length).map fun k => (V.eraseIdx k).sum).sum = (V.length : ℝ) • V.sum - V.sum := by
  have e1 : (List.range V.length).map (fun k => (V.eraseIdx k).sum) = V.map fun x => V.sum - x := by
    apply List.ext_getElem
    · simp
    · intro i h1 h2
      simp only [List.length_map, List.length_range] at h1
      simp only [List.getElem_map, List.getElem_range]
      have := (List.getElem_cons_eraseIdx_perm h1).sum_eq
      rw [List.sum_cons] at this
      exact eq_sub_of_add_eq' this
  have key : ∀ (S : Vec n ℝ) (l : List (Vec n ℝ)), (l.map fun x => S - x).sum = (l.length : ℝ) • S - l.sum := by
    intro S l
    induction l with
    | nil => simp
    | cons x l ih => rw [List.map_cons, List.sum_cons, ih]; simp only [List.length_cons, Nat.cast_add, Nat.cast_one, add_smul, one_smul, List.sum_cons]; abel
  rw [e1, key]

/-- The mean of the centers of the facets is the mean of the vertices. -/
theorem mean_facets {V : List (Vec n ℝ)} {d : Nat} (hl : V.length = d + 1) (hd : 1 ≤ d) {ks : List Nat} (hks : ks.Perm (List.range (d + 1))) :
    mean (ks.map fun k => mean (V.eraseIdx k)) = mean V := by
  have hd' : (d : ℝ) ≠ 0 := by
    have : 0 < d := hd
    positivity
  rw [mean_perm (hks.map fun k => mean (V.eraseIdx k))]
  have e : (List.range (d + 1)).map (fun k => mean (V.eraseIdx k)) = (List.range (d + 1)).map fun k => (d : ℝ)⁻¹ • (V.eraseIdx k).sum := by
    apply List.map_congr_left
    intro k hk
    rw [List.mem_range] at hk
    rw [mean, List.length_eraseIdx]
    simp [hl, hk]
  have key : ∀ (c : ℝ) (l : List Nat) (f : Nat → Vec n ℝ), (l.map fun k => c • f k).sum = c • (l.map f).sum := by
    intro c l f
    induction l with
    | nil => simp
    | cons x l ih => rw [List.map_cons, List.sum_cons, ih, List.map_cons, List.sum_cons, smul_add]
  have hs := sum_eraseIdx V
  rw [hl] at hs
  conv_lhs => rw [mean, e, key, hs]
  rw [mean, hl]
  simp only [List.length_map, List.length_range, Nat.cast_add, Nat.cast_one, add_smul, one_smul, add_sub_cancel_right, smul_smul]
  rw [inv_mul_cancel₀ hd', mul_one]

/-! ## Simplicial meshes -/

section
variable {m : Mesh (Vec n ℝ)} {bd : Idx → List Idx} {vs : Nat → Idx → List Idx}

/-- The positions of the vertices of an element. -/
noncomputable def cornersOf (m : Mesh (Vec n ℝ)) (vs : Nat → Idx → List Idx) (d : Nat) (i : Idx) : List (Vec n ℝ) := (vs d i).map (posOf m)

theorem corners_length (hs : Simplicial m bd vs) {d i : Nat} (hd : d ≤ m.dim) (hi : i < m.numElems d) : (cornersOf m vs d i).length = d + 1 := by
  rw [cornersOf, List.length_map, hs.count d i hd hi]

theorem corners_facets (hs : Simplicial m bd vs) {d i : Nat} (h1 : 1 ≤ d) (hd : d ≤ m.dim) (hi : i < m.numElems d) :
    ∃ ks : List Nat, ks.Perm (List.range (d + 1)) ∧
      List.Forall₂ (fun s k => (cornersOf m vs (d - 1) s).Perm ((cornersOf m vs d i).eraseIdx k)) (directSubs m bd d i) ks := by
  obtain ⟨ks, h2, h3⟩ := hs.facets d i h1 hd hi
  refine ⟨ks, h2, h3.imp fun s k h => ?_⟩
  rw [cornersOf, cornersOf, List.eraseIdx_map]
  exact h.map _

theorem exists_facet {α β : Type} {R : α → β → Prop} {l : List α} {r : List β} (h : List.Forall₂ R l r) {x : α} (hx : x ∈ l) : ∃ y ∈ r, R x y := by
  induction h with
  | nil => simp at hx
  | cons h _ ih =>
    rcases List.mem_cons.mp hx with rfl | hx
    · exact ⟨_, List.mem_cons_self, h⟩
    · obtain ⟨y, h1, h2⟩ := ih hx
      exact ⟨y, List.mem_cons_of_mem _ h1, h2⟩

theorem exists_facet' {α β : Type} {R : α → β → Prop} {l : List α} {r : List β} (h : List.Forall₂ R l r) {y : β} (hy : y ∈ r) : ∃ x ∈ l, R x y := by
  obtain ⟨x, h1, h2⟩ := exists_facet h.flip hy
  exact ⟨x, h1, h2⟩

theorem numElems_zero (hv : ValidMesh m bd) : m.numElems 0 = m.vertices.length := by
  have := hv.dim_ge
  unfold Mesh.numElems; rw [if_neg (by omega), if_pos rfl]

/-- All the vertices exist. -/
theorem corners_range (hv : ValidMesh m bd) (hs : Simplicial m bd vs) : ∀ (d i : Nat), d ≤ m.dim → i < m.numElems d →
    ∀ v ∈ vs d i, v < m.vertices.length := by
  intro d
  induction d with
  | zero =>
    intro i _ hi v hv'
    rw [hs.vertex i hi] at hv'
    simp at hv'
    rw [hv', ← numElems_zero hv]; exact hi
  | succ d ih =>
    intro i hd hi v hmem
    obtain ⟨ks, k1, k2⟩ := hs.facets (d + 1) i (by omega) hd hi
    have hl := hs.count (d + 1) i hd hi
    obtain ⟨j, hj, rfl⟩ := List.getElem_of_mem hmem
    let k := if j = 0 then 1 else 0
    have hk : k < d + 2 := by simp only [k]; split <;> omega
    have hkj : j ≠ k := by simp only [k]; split <;> omega
    obtain ⟨s, s1, s2⟩ := exists_facet' k2 (k1.mem_iff.mpr (List.mem_range.mpr hk))
    have hsr := hv.range (d + 1) i (by omega) hd hi s s1
    exact ih s (by omega) hsr _ (s2.mem_iff.mpr (List.mem_eraseIdx_iff_getElem.mpr ⟨j, hj, hkj, rfl⟩))

/-- The two vertices of an edge. -/
theorem corners_edge (hv : ValidMesh m bd) (hs : Simplicial m bd vs) {e : Nat} {ed : Edge} {A B : Vec n ℝ} (he : m.edges[e]? = some ed)
    (hA : m.vertices[ed.a]? = some A) (hB : m.vertices[ed.b]? = some B) :
    e < m.numElems 1 ∧ ∃ k, k < 2 ∧ (cornersOf m vs 1 e).eraseIdx k = [B] ∧ (cornersOf m vs 1 e)[k]? = some A := by
  have hd := hv.dim_ge
  have hn1 : m.numElems 1 = m.edges.length := by
    unfold Mesh.numElems; rw [if_neg (by omega), if_neg (by omega), if_pos rfl]
  have hlt : e < m.numElems 1 := by rw [hn1]; exact (List.getElem?_eq_some_iff.mp he).1
  refine ⟨hlt, ?_⟩
  obtain ⟨ks, k1, k2⟩ := corners_facets hs (le_refl 1) (by omega) hlt
  have hds : directSubs m bd 1 e = [ed.a, ed.b] := by
    unfold directSubs; rw [if_neg (by omega), if_pos rfl, he]; rfl
  have hn0 := numElems_zero hv
  have ha : cornersOf m vs 0 ed.a = [A] := by
    rw [cornersOf, hs.vertex ed.a (by rw [hn0]; exact (List.getElem?_eq_some_iff.mp hA).1)]; simp [posOf, hA]
  have hb : cornersOf m vs 0 ed.b = [B] := by
    rw [cornersOf, hs.vertex ed.b (by rw [hn0]; exact (List.getElem?_eq_some_iff.mp hB).1)]; simp [posOf, hB]
  have hl := corners_length hs (d := 1) (by omega) hlt
  obtain ⟨x, y, hxy⟩ : ∃ x y, cornersOf m vs 1 e = [x, y] := by
    match h : cornersOf m vs 1 e, hl with
    | [x, y], _ => exact ⟨x, y, rfl⟩
  rw [hds] at k2
  cases k2 with
  | cons r1 k2 => cases k2 with
    | cons r2 k2 => cases k2 with
      | nil =>
        rename_i ka kb
        simp only [Nat.sub_self] at r1 r2
        rw [ha, hxy] at r1
        rw [hb, hxy] at r2
        have hnd : [ka, kb].Nodup := k1.nodup_iff.mpr List.nodup_range
        have hka : ka < 2 := List.mem_range.mp (k1.mem_iff.mp (by simp))
        have hkb : kb < 2 := List.mem_range.mp (k1.mem_iff.mp (by simp))
        have hne : ka ≠ kb := by simpa using hnd
        have : (ka = 0 ∧ kb = 1) ∨ (ka = 1 ∧ kb = 0) := by omega
        rcases this with ⟨rfl, rfl⟩ | ⟨rfl, rfl⟩
        · simp at r1 r2
          exact ⟨1, by omega, by simp [hxy, r2], by simp [hxy, r1]⟩
        · simp at r1 r2
          exact ⟨0, by omega, by simp [hxy, r2], by simp [hxy, r1]⟩

/-- The center of a simplex is the mean of its vertices. -/
theorem simplex_center (hv : ValidMesh m bd) (hs : Simplicial m bd vs) {cs : List (List (Vec n ℝ))} (hc : AreCenters m bd cs) :
    ∀ (d i : Nat), d + 1 ≤ m.dim → i < m.numElems (d + 1) → entry cs (d + 1) i = some (mean (cornersOf m vs (d + 1) i)) := by
  have hdim := hv.dim_ge
  intro d
  induction d with
  | zero =>
    intro i _ hi
    have hn1 : m.numElems 1 = m.edges.length := by
      unfold Mesh.numElems; rw [if_neg (by omega), if_neg (by omega), if_pos rfl]
    have he := List.getElem?_eq_getElem (show i < m.edges.length by rw [← hn1]; exact hi)
    obtain ⟨A, B, hA, hB⟩ := exists_ends hv he
    rw [hc.edges i _ A B he hA hB]
    obtain ⟨_, k, hk, k1, k2⟩ := corners_edge hv hs he hA hB
    obtain ⟨hk', k2⟩ := List.getElem?_eq_some_iff.mp k2
    have hperm := List.getElem_cons_eraseIdx_perm hk'
    rw [k1, k2] at hperm
    rw [mean_perm hperm]
  | succ d ih =>
    intro i hd hi
    obtain ⟨ps, p1, p2, p3⟩ := hc.higher (d + 2) i (by omega) hd hi
    clear p2
    rw [p3]
    obtain ⟨ks, k1, k2⟩ := corners_facets hs (by omega) hd hi
    have hl := corners_length hs hd hi
    have : ps = ks.map fun k => mean ((cornersOf m vs (d + 2) i).eraseIdx k) := by
      have hr : ∀ s ∈ directSubs m bd (d + 2) i, s < m.numElems (d + 1) := hv.range (d + 2) i (by omega) hd hi
      revert p1 k2 hr
      clear k1 p3
      generalize directSubs m bd (d + 2) i = subs
      intro p1 k2 hr
      induction p1 generalizing ks with
      | nil => cases k2; rfl
      | cons hp _ ih2 =>
        cases k2 with
        | cons hk k2 =>
          rw [List.map_cons]
          congr 1
          · have := ih _ (by omega) (hr _ List.mem_cons_self)
            simp only [show d + 2 - 1 = d + 1 from rfl] at hp hk
            rw [hp] at this
            rw [Option.some.inj this, mean_perm hk]
          · exact ih2 _ k2 fun s hs => hr s (List.mem_cons_of_mem _ hs)
    rw [this, mean_facets hl (by omega) k1]

/-- The points that span a simplex: independent, and in its plane. -/
theorem simplex_spine (hv : ValidMesh m bd) (hs : Simplicial m bd vs) {cs : List (List (Vec n ℝ))} (hc : AreCenters m bd cs)
    (hind : ∀ d i, 1 ≤ d → d ≤ m.dim → i < m.numElems d → AffineIndependent ℝ (cornersOf m vs d i).get) :
    ∀ (d i : Nat) sp, d + 1 < m.dim → i < m.numElems (d + 1) → Spine m cs (d + 1) i sp →
      plane sp = plane (cornersOf m vs (d + 1) i) ∧ AffineIndependent ℝ sp.get := by
  intro d
  induction d with
  | zero =>
    intro i sp hd hi hsp
    cases hsp with
    | edge he hA hB =>
      rename_i A B
      obtain ⟨_, k, hk, k1, k2⟩ := corners_edge hv hs he hA hB
      obtain ⟨hk', k2⟩ := List.getElem?_eq_some_iff.mp k2
      have hperm := List.getElem_cons_eraseIdx_perm hk'
      have hnot := not_mem_plane (hind 1 i (le_refl 1) (by omega) hi) hk'
      rw [k1, k2] at hperm hnot
      refine ⟨plane_perm hperm, independent_cons ?_ hnot⟩
      have : Subsingleton (Fin [B].length) := by show Subsingleton (Fin 1); infer_instance
      exact affineIndependent_of_subsingleton ℝ _
  | succ d ih =>
    intro i sp hd hi hsp
    cases hsp with
    | step hcen hf hs0 hsp =>
      rename_i c f s sp
      rw [simplex_center hv hs hc (d + 1) i (by omega) hi] at hcen
      obtain rfl := Option.some.inj hcen
      have hds : directSubs m bd (d + 2) i = f.sub := by
        unfold directSubs; rw [if_neg (by omega), if_neg (by omega), hf]; rfl
      obtain ⟨ks, k1, k2⟩ := corners_facets hs (by omega) (by omega : d + 2 ≤ m.dim) hi
      have hmem : s ∈ directSubs m bd (d + 2) i := by rw [hds]; exact List.mem_of_getElem? hs0
      obtain ⟨k, hk1, hk2⟩ := exists_facet k2 hmem
      have hk := List.mem_range.mp (k1.mem_iff.mp hk1)
      obtain ⟨i1, i2⟩ := ih s sp (by omega) (hv.range (d + 2) i (by omega) (by omega) hi s hmem) hsp
      have hl := corners_length hs (by omega : d + 2 ≤ m.dim) hi
      have hplane : plane sp = plane ((cornersOf m vs (d + 2) i).eraseIdx k) := i1.trans (plane_perm hk2)
      refine ⟨plane_center hl (by omega) hk hplane, independent_cons i2 ?_⟩
      have := mean_not_mem hl (by omega) hk (hind (d + 2) i (by omega) (by omega) hi)
      have e : affineSpan ℝ {x | x ∈ sp} = _ := hplane
      show _ ∉ affineSpan ℝ {x | x ∈ sp}
      rw [e]; exact this

theorem simplex_nonDegenerate (hv : ValidMesh m bd) (hs : Simplicial m bd vs) {cs : List (List (Vec n ℝ))} (hc : AreCenters m bd cs)
    (hind : ∀ d i, 1 ≤ d → d ≤ m.dim → i < m.numElems d → AffineIndependent ℝ (cornersOf m vs d i).get) : NonDegenerateHigh m bd cs := by
  intro d i s c sp h1 h2 hi hmem hcen hsp
  obtain ⟨d, rfl⟩ : ∃ k, d = k + 2 := ⟨d - 2, by omega⟩
  rw [simplex_center hv hs hc (d + 1) i (by omega) hi] at hcen
  obtain rfl := Option.some.inj hcen
  obtain ⟨i1, i2⟩ := simplex_spine hv hs hc hind d s sp (by omega) (hv.range (d + 2) i (by omega) h2 hi s hmem) hsp
  obtain ⟨ks, k1, k2⟩ := corners_facets hs (by omega) h2 hi
  obtain ⟨k, hk1, hk2⟩ := exists_facet k2 hmem
  have hk := List.mem_range.mp (k1.mem_iff.mp hk1)
  have hl := corners_length hs h2 hi
  have hplane : plane sp = plane ((cornersOf m vs (d + 2) i).eraseIdx k) := i1.trans (plane_perm hk2)
  apply independent_snoc i2
  have := mean_not_mem hl (by omega) hk (hind (d + 2) i (by omega) h2 hi)
  have e : affineSpan ℝ {x | x ∈ sp} = _ := hplane
  show _ ∉ affineSpan ℝ {x | x ∈ sp}
  rw [e]; exact this

theorem simplex_measures (hv : ValidMesh m bd) (hs : Simplicial m bd vs) {cs : List (List (Vec n ℝ))} (hc : AreCenters m bd cs)
    (hind : ∀ d i, 1 ≤ d → d ≤ m.dim → i < m.numElems d → AffineIndependent ℝ (cornersOf m vs d i).get) {ms : List (List ℝ)}
    (hm : AreMeasures m bd cs ms) : ∀ (d i : Nat), d + 1 ≤ m.dim → i < m.numElems (d + 1) →
      measureOf ms (d + 1) i = some (heights (cornersOf m vs (d + 1) i) / ((d + 1).factorial : ℝ)) := by
  have hdim := hv.dim_ge
  intro d
  induction d with
  | zero =>
    intro i _ hi
    have hn1 : m.numElems 1 = m.edges.length := by
      unfold Mesh.numElems; rw [if_neg (by omega), if_neg (by omega), if_pos rfl]
    have he := List.getElem?_eq_getElem (show i < m.edges.length by rw [← hn1]; exact hi)
    obtain ⟨A, B, hA, hB⟩ := exists_ends hv he
    rw [hm.edges i _ A B he hA hB]
    obtain ⟨_, k, hk, k1, k2⟩ := corners_edge hv hs he hA hB
    obtain ⟨hk', k2⟩ := List.getElem?_eq_some_iff.mp k2
    have hperm := List.getElem_cons_eraseIdx_perm hk'
    rw [k1, k2] at hperm
    rw [← heights_perm hperm]
    rw [heights, heights, heights, height_single, height, dif_pos rfl]
    simp
  | succ d ih =>
    intro i hd hi
    have hl := corners_length hs hd hi
    obtain ⟨ts, t1, t2⟩ := hm.higher (d + 2) i _ (by omega) hd hi (simplex_center hv hs hc (d + 1) i hd hi)
    rw [t2]
    obtain ⟨ks, k1, k2⟩ := corners_facets hs (by omega) hd hi
    have hcount : (directSubs m bd (d + 2) i).length = d + 3 := by rw [k2.length_eq, k1.length_eq, List.length_range]
    have hterm : ∀ t ∈ ts, t = (((d + 2 : Nat) : ℝ) + 1)⁻¹ * heights (cornersOf m vs (d + 2) i) / ((d + 1).factorial : ℝ) := by
      intro t ht
      obtain ⟨s, hmem, ps, h, μ, q1, q2, q3, rfl⟩ := exists_facet' t1 ht
      have hsr := hv.range (d + 2) i (by omega) hd hi s hmem
      obtain ⟨i1, _⟩ := simplex_spine hv hs hc hind d s ps (by omega) hsr q1
      obtain ⟨k, hk1, hk2⟩ := exists_facet k2 hmem
      have hk := List.mem_range.mp (k1.mem_iff.mp hk1)
      have := ih s (by omega) hsr
      rw [show d + 2 - 1 = d + 1 from rfl] at q3
      rw [q3] at this
      rw [Option.some.inj this]
      have hcone := cone_volume hl (by omega) hk (i1.trans (plane_perm hk2)) q2
      have hk2' : (cornersOf m vs (d + 1) s).Perm ((cornersOf m vs (d + 2) i).eraseIdx k) := hk2
      rw [heights_perm hk2', mul_div_assoc', hcone]
    have hlen : ts.length = d + 3 := by rw [← t1.length_eq]; exact hcount
    have hsum : ts.sum = ((d + 3 : Nat) : ℝ) * ((((d + 2 : Nat) : ℝ) + 1)⁻¹ * heights (cornersOf m vs (d + 2) i) / ((d + 1).factorial : ℝ)) := by
      rw [List.eq_replicate_of_mem hterm, List.sum_replicate, hlen, nsmul_eq_mul]
    rw [hsum]
    congr 1
    have hf : ((d + 1).factorial : ℝ) ≠ 0 := by positivity
    rw [show d + 1 + 1 = d + 2 from rfl, Nat.factorial_succ (d + 1)]
    push_cast
    field_simp
    ring

/-- C39, simplices in any dimension. On every valid mesh whose elements are non-degenerate simplices, in any dimension, the computed
centers and measures exist, and the measure of every element (edge, triangle, tetrahedron, …, cell) is its volume. -/
theorem C39_simplices (m : Mesh (Vec n ℝ)) (bd : Idx → List Idx) (vs : Nat → Idx → List Idx) (hv : ValidMesh m bd) (hne : NoEmptyElement m)
    (hs : Simplicial m bd vs)
    (hind : ∀ d i ps, 1 ≤ d → d ≤ m.dim → i < m.numElems d → PositionsOf m (vs d i) ps → AffineIndependent ℝ ps.get) :
    ∃ cs ms, computeCenters m = .ok cs ∧ computeMeasuresHigh cs m = .ok ms ∧
      ∀ d i, 1 ≤ d → d ≤ m.dim → i < m.numElems d → ∃ ps, PositionsOf m (vs d i) ps ∧ entry cs d i = some (mean ps) ∧
        measureOf ms d i = some (simplexVolume ps) := by
  have hpos : ∀ d i, d ≤ m.dim → i < m.numElems d → PositionsOf m (vs d i) (cornersOf m vs d i) :=
    fun d i hd hi => positions_iff.mpr ⟨corners_range hv hs d i hd hi, rfl⟩
  have hind' : ∀ d i, 1 ≤ d → d ≤ m.dim → i < m.numElems d → AffineIndependent ℝ (cornersOf m vs d i).get :=
    fun d i h1 hd hi => hind d i _ h1 hd hi (hpos d i hd hi)
  obtain ⟨cs, c1, c2⟩ := C38_centers m bd hv hne
  obtain ⟨ms, m1, m2⟩ := C39_measures_high m bd hv hne cs c2.dims c2.sizes (simplex_nonDegenerate hv hs c2 hind')
  refine ⟨cs, ms, c1, m1, ?_⟩
  intro d i h1 hd hi
  refine ⟨cornersOf m vs d i, hpos d i hd hi, ?_, ?_⟩
  · obtain ⟨d, rfl⟩ : ∃ k, d = k + 1 := ⟨d - 1, by omega⟩
    exact simplex_center hv hs c2 d i hd hi
  · rw [simplexVolume_eq (corners_length hs hd hi) h1 (hind' d i h1 hd hi)]
    obtain ⟨d, rfl⟩ : ∃ k, d = k + 1 := ⟨d - 1, by omega⟩
    exact simplex_measures hv hs c2 hind' m2 d i hd hi

end

/-! ## A 4D simplex with all its faces -/

/-- One 4D cell: 5 vertices, 10 edges, 10 triangles, 5 tetrahedra. -/
def pentaN : Mesh Nat where
  dim := 4
  vertices := [0, 1, 2, 3, 4]
  edges := [{ index := 0, a := 0, b := 1 }, { index := 1, a := 0, b := 2 }, { index := 2, a := 0, b := 3 }, { index := 3, a := 0, b := 4 }, { index := 4, a := 1, b := 2 }, { index := 5, a := 1, b := 3 }, { index := 6, a := 1, b := 4 }, { index := 7, a := 2, b := 3 }, { index := 8, a := 2, b := 4 }, { index := 9, a := 3, b := 4 }]
  mids := [[{ index := 0, sub := [4, 1, 0] }, { index := 1, sub := [5, 2, 0] }, { index := 2, sub := [6, 3, 0] }, { index := 3, sub := [7, 2, 1] }, { index := 4, sub := [8, 3, 1] }, { index := 5, sub := [9, 3, 2] }, { index := 6, sub := [7, 5, 4] }, { index := 7, sub := [8, 6, 4] }, { index := 8, sub := [9, 6, 5] }, { index := 9, sub := [9, 8, 7] }],
           [{ index := 0, sub := [6, 3, 1, 0], conn := { left := 0, nextL := 1 } }, { index := 1, sub := [7, 4, 2, 0], conn := { left := 0, nextL := 2 } }, { index := 2, sub := [8, 5, 2, 1], conn := { left := 0, nextL := 3 } }, { index := 3, sub := [9, 5, 4, 3], conn := { left := 0, nextL := 4 } }, { index := 4, sub := [9, 8, 7, 6], conn := { left := 0, nextL := 0 } }]]
  cells := [{ index := 0, bElem := 0 }]

/-- Vertices of its elements. -/
def pentaVs (d i : Nat) : List Idx :=
  ((([[[0], [1], [2], [3], [4]], [[0, 1], [0, 2], [0, 3], [0, 4], [1, 2], [1, 3], [1, 4], [2, 3], [2, 4], [3, 4]], [[0, 1, 2], [0, 1, 3], [0, 1, 4], [0, 2, 3], [0, 2, 4], [0, 3, 4], [1, 2, 3], [1, 2, 4], [1, 3, 4], [2, 3, 4]], [[0, 1, 2, 3], [0, 1, 2, 4], [0, 1, 3, 4], [0, 2, 3, 4], [1, 2, 3, 4]], [[0, 1, 2, 3, 4]]] : List (List (List Nat)))[d]?.getD [])[i]?).getD []

/-- The vertex missing in each sub-element. -/
def pentaKs (d : Nat) : List Nat := if d = 4 then [4, 3, 2, 1, 0] else if d = 1 then [1, 0] else List.range (d + 1)

def pentaPos : Nat → Vec 4 ℝ
  | 0 => 0
  | 1 => ![1, 0, 0, 0]
  | 2 => ![0, 1, 0, 0]
  | 3 => ![0, 0, 1, 0]
  | _ => ![0, 0, 0, 1]

noncomputable def penta : Mesh (Vec 4 ℝ) := pentaN.mapV pentaPos

theorem penta_valid : ValidMesh penta fun _ => [0, 1, 2, 3, 4] :=
  ValidMesh.mapV (m := pentaN) (validB_sound (by decide +kernel)) pentaPos

theorem penta_noEmpty : NoEmptyElement penta := by
  intro d i f _ _ h
  have hd : penta.midElems d = [] ∨ penta.midElems d = penta.midElems 2 ∨ penta.midElems d = penta.midElems 3 := by
    by_cases hd : d ≤ 2
    · right; left; unfold Mesh.midElems; congr 2; omega
    · by_cases hd3 : d = 3
      · subst hd3; right; right; rfl
      · left
        obtain ⟨k, rfl⟩ : ∃ k, d = k + 4 := ⟨d - 4, by omega⟩
        simp [penta, pentaN, Mesh.mapV, Mesh.midElems, show k + 4 - 2 = k + 2 by omega]
  have h2 : ∀ f ∈ penta.midElems 2, f.sub ≠ [] := by show ∀ f ∈ pentaN.midElems 2, f.sub ≠ []; decide
  have h3 : ∀ f ∈ penta.midElems 3, f.sub ≠ [] := by show ∀ f ∈ pentaN.midElems 3, f.sub ≠ []; decide
  rcases hd with hd | hd | hd <;> rw [hd] at h
  · simp at h
  · exact h2 f (List.mem_of_getElem? h)
  · exact h3 f (List.mem_of_getElem? h)

theorem penta_simplicial : Simplicial penta (fun _ => [0, 1, 2, 3, 4]) pentaVs := by
  refine ⟨?_, ?_, ?_⟩
  · show ∀ i, i < pentaN.numElems 0 → pentaVs 0 i = [i]
    decide
  · have : ∀ d, d < 5 → ∀ i, i < pentaN.numElems d → (pentaVs d i).length = d + 1 := by decide +kernel
    intro d i hd hi
    exact this d (by have : penta.dim = 4 := rfl
                     omega) i hi
  · have key : ∀ d, d < 5 → 1 ≤ d → ∀ i, i < pentaN.numElems d → (pentaKs d).Perm (List.range (d + 1)) ∧
        ((directSubs pentaN (fun _ => [0, 1, 2, 3, 4]) d i).length = (pentaKs d).length) ∧
        ∀ j, j < (pentaKs d).length →
          (pentaVs (d - 1) ((directSubs pentaN (fun _ => [0, 1, 2, 3, 4]) d i).getD j 0)).Perm ((pentaVs d i).eraseIdx ((pentaKs d).getD j 0)) := by
      decide +kernel
    intro d i h1 hd hi
    obtain ⟨k1, k2, k3⟩ := key d (by have : penta.dim = 4 := rfl
                                     omega) h1 i hi
    refine ⟨pentaKs d, k1, List.forall₂_iff_get.mpr ⟨k2, ?_⟩⟩
    intro j h1 h2
    have := k3 j h2
    have h1 : j < (directSubs pentaN (fun _ => [0, 1, 2, 3, 4]) d i).length := h1
    rw [List.getD_eq_getElem?_getD, List.getD_eq_getElem?_getD, List.getElem?_eq_getElem h2, List.getElem?_eq_getElem h1] at this
    exact this

/-- Its five vertices are independent. -/
theorem penta_independent : AffineIndependent ℝ fun v : Fin 5 => pentaPos v := by
  rw [affineIndependent_iff_linearIndependent_vsub ℝ _ (0 : Fin 5)]
  rw [Fintype.linearIndependent_iff]
  intro g hg
  rw [Fintype.sum_eq_add_sum_compl (⟨1, by decide⟩ : {x : Fin 5 // x ≠ 0})] at hg
  have huniv : ({⟨1, by decide⟩}ᶜ : Finset {x : Fin 5 // x ≠ 0}) = {⟨2, by decide⟩, ⟨3, by decide⟩, ⟨4, by decide⟩} := by decide
  rw [huniv, Finset.sum_insert (by decide), Finset.sum_insert (by decide), Finset.sum_singleton] at hg
  have z0 := congrFun hg 0
  have z1 := congrFun hg 1
  have z2 := congrFun hg 2
  have z3 := congrFun hg 3
  simp [pentaPos] at z0 z1 z2 z3
  rintro ⟨i, hi⟩
  have hc : ∀ i : Fin 5, i ≠ 0 → i = 1 ∨ i = 2 ∨ i = 3 ∨ i = 4 := by decide
  rcases hc i hi with rfl | rfl | rfl | rfl
  · exact z0
  · exact z1
  · exact z2
  · exact z3

example : ∃ cs ms, computeCenters penta = .ok cs ∧ computeMeasuresHigh cs penta = .ok ms ∧
    ∀ d i, 1 ≤ d → d ≤ penta.dim → i < penta.numElems d → ∃ ps, PositionsOf penta (pentaVs d i) ps ∧ entry cs d i = some (mean ps) ∧
      measureOf ms d i = some (simplexVolume ps) := by
  refine C39_simplices penta _ pentaVs penta_valid penta_noEmpty penta_simplicial ?_
  intro d i ps h1 hd hi hps
  have hd4 : d < 5 := by
    have : penta.dim = 4 := rfl
    omega
  have hvs : ∀ d, d < 5 → ∀ i, i < pentaN.numElems d → (pentaVs d i).Nodup ∧ ∀ v ∈ pentaVs d i, v < 5 := by decide +kernel
  obtain ⟨v1, v2⟩ := hvs d hd4 i hi
  obtain ⟨_, rfl⟩ := positions_iff.mp hps
  have hpos : ∀ v, v < 5 → posOf penta v = pentaPos v := by
    intro v hv
    interval_cases v <;> rfl
  have hl : ((pentaVs d i).map (posOf penta)).length = (pentaVs d i).length := by simp
  let f : Fin ((pentaVs d i).map (posOf penta)).length → Fin 5 := fun j => ⟨(pentaVs d i).get (j.cast hl), v2 _ (List.get_mem _ _)⟩
  have hf : Function.Injective f := by
    intro a b hab
    have h := congrArg Fin.val hab
    have := (List.nodup_iff_injective_get.mp v1) h
    exact Fin.ext (by simpa [Fin.ext_iff] using this)
  have e : ((pentaVs d i).map (posOf penta)).get = (fun v : Fin 5 => pentaPos v) ∘ f := by
    funext j
    simp only [List.get_eq_getElem, List.getElem_map, Function.comp, f]
    exact hpos _ (v2 _ (List.getElem_mem _))
  rw [e]
  exact penta_independent.comp_embedding ⟨f, hf⟩

end GTMesh.Props
