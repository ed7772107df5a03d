import Verif.Spec.MeasuresHigh
import Verif.Props.Measures2

/-! # C39 in dimensions above 3 -/

namespace GTMesh.Props
open GTMesh Spec Std' Vec Geo

variable {n : Nat}

/-! ## Distances -/

/-- Independent points give independent differences. -/
theorem independent_spanVectors {r0 c : Vec n ℝ} {rs : List (Vec n ℝ)} (h : AffineIndependent ℝ ((r0 :: rs) ++ [c]).get) :
    Independent (spanVectors (r0 :: rs) c) := by
  have h' := (affineIndependent_iff_linearIndependent_vsub ℝ _ (⟨0, by simp⟩ : Fin ((r0 :: rs) ++ [c]).length)).mp h
  have hlen : (spanVectors (r0 :: rs) c).length = rs.length + 1 := by simp [spanVectors]
  let f : Fin (spanVectors (r0 :: rs) c).length → {x : Fin ((r0 :: rs) ++ [c]).length // x ≠ ⟨0, by simp⟩} :=
    fun j => ⟨⟨j.val + 1, by have := j.isLt; simp; omega⟩, by simp [Fin.ext_iff]⟩
  have hf : Function.Injective f := by
    intro a b hab
    have : a.val + 1 = b.val + 1 := congrArg (fun x => x.1.1) hab
    exact Fin.ext (by omega)
  have h2 := h'.comp f hf
  suffices e : (spanVectors (r0 :: rs) c).get = (fun i : {x : Fin ((r0 :: rs) ++ [c]).length // x ≠ ⟨0, by simp⟩} =>
      ((r0 :: rs) ++ [c]).get i -ᵥ ((r0 :: rs) ++ [c]).get ⟨0, by simp⟩) ∘ f by
    unfold Independent
    rw [e]
    exact h2
  funext j
  have hj : j.val < rs.length + 1 := lt_of_lt_of_eq j.isLt hlen
  simp only [Function.comp, f, List.get_eq_getElem, List.cons_append, List.getElem_cons_succ, List.getElem_cons_zero, vsub_eq_sub]
  by_cases hjr : j.val < rs.length
  · simp only [spanVectors]
    rw [List.getElem_append_left (by simpa using hjr), List.getElem_append_left hjr, List.getElem_map, sub_eq]
  · have e : j.val = rs.length := by omega
    simp only [spanVectors]
    rw [List.getElem_append_right (by simp [e]), List.getElem_append_right (by omega)]
    simp [e, sub_eq]

theorem mem_affineSpan_cons {r0 q : Vec n ℝ} {rs : List (Vec n ℝ)} :
    q ∈ affineSpan ℝ {x | x ∈ r0 :: rs} ↔ q - r0 ∈ Submodule.span ℝ {x | x ∈ rs.map fun r => sub r r0} := by
  have hr0 : r0 ∈ {x | x ∈ r0 :: rs} := List.mem_cons_self
  have hr0' : r0 ∈ affineSpan ℝ {x | x ∈ r0 :: rs} := subset_affineSpan ℝ _ hr0
  rw [← AffineSubspace.vsub_right_mem_direction_iff_mem hr0', direction_affineSpan, vectorSpan_eq_span_vsub_set_right ℝ hr0, vsub_eq_sub]
  have : Submodule.span ℝ ((fun x => x -ᵥ r0) '' {x | x ∈ r0 :: rs}) = Submodule.span ℝ {x | x ∈ rs.map fun r => sub r r0} := by
    apply le_antisymm
    · rw [Submodule.span_le]
      rintro _ ⟨x, hx, rfl⟩
      rcases List.mem_cons.mp hx with rfl | hx
      · simp
      · apply Submodule.subset_span
        exact List.mem_map.mpr ⟨x, hx, by rw [sub_eq]; rfl⟩
    · rw [Submodule.span_le]
      intro y hy
      obtain ⟨x, hx, rfl⟩ := List.mem_map.mp hy
      apply Submodule.subset_span
      exact ⟨x, List.mem_cons_of_mem _ hx, by rw [sub_eq]; rfl⟩
  rw [this]

/-- The last norm is the distance of the point from the plane of the others. -/
theorem gs_distance {r0 c : Vec n ℝ} {rs : List (Vec n ℝ)} (h : AffineIndependent ℝ ((r0 :: rs) ++ [c]).get) :
    ∃ r x, gramSchmidtN (spanVectors (r0 :: rs) c) = .ok r ∧ r.2[rs.length]? = some x ∧ IsDistance c (r0 :: rs) x := by
  obtain ⟨us, norms, e1, _, _, _, _, _, e7⟩ := C37_normalized (spanVectors (r0 :: rs) c) (by simp [spanVectors]) (independent_spanVectors h)
  have hget : (spanVectors (r0 :: rs) c)[rs.length]? = some (sub c r0) := by
    simp only [spanVectors]
    rw [List.getElem?_append_right (by simp)]; simp
  have htake : (spanVectors (r0 :: rs) c).take rs.length = rs.map fun r => sub r r0 := by
    simp only [spanVectors]
    rw [List.take_append_of_le_length (by simp), List.take_of_length_le (by simp)]
  obtain ⟨d, d1, _, d3, s, s1, s2⟩ := e7 rs.length _ hget
  rw [htake] at d3 s1
  refine ⟨(us, norms), d, e1, d1, ⟨r0 + s, ?_, ?_⟩, ?_⟩
  · rw [mem_affineSpan_cons]; simpa using s1
  · rw [s2, sub_eq, sub_eq, sub_sub]
  · rintro x ⟨q, hq, rfl⟩
    have := d3 _ (mem_affineSpan_cons.mp hq)
    rw [sub_eq, sub_eq, sub_sub_sub_cancel_right] at this
    exact this

theorem IsDistance.nonneg {p : Vec n ℝ} {ps : List (Vec n ℝ)} {h : ℝ} (hd : IsDistance p ps h) : 0 ≤ h := by
  obtain ⟨q, _, rfl⟩ := hd.1
  exact Real.sqrt_nonneg _

/-! ## The spanning points -/

theorem spine_ok {m : Mesh (Vec n ℝ)} {bd : Idx → List Idx} (hv : ValidMesh m bd) (hne : NoEmptyElement m) {cs : List (List (Vec n ℝ))}
    (hlen : cs.length = m.dim) (hs : ∀ (d : Nat) l, 1 ≤ d → cs[d - 1]? = some l → l.length = m.numElems d) :
    ∀ (k i : Nat), k + 1 < m.dim → i < m.numElems (k + 1) →
      ∃ r0 rs, Spine m cs (k + 1) i (r0 :: rs) ∧ getCenters cs m (k + 1) i = .ok (r0 :: rs) ∧ rs.length = k + 1 := by
  intro k
  induction k with
  | zero =>
    intro i hk hi
    have hi' : i < m.edges.length := by
      have e : m.numElems 1 = m.edges.length := by
        unfold Mesh.numElems; rw [if_neg (by omega), if_neg (by omega), if_pos rfl]
      rwa [Nat.zero_add, e] at hi
    have he := List.getElem?_eq_getElem hi'
    obtain ⟨A, B, hA, hB⟩ := exists_ends hv he
    refine ⟨A, [B], .edge he hA hB, ?_, rfl⟩
    rw [getCenters, Res.idx_eq_ok.mpr he]
    simp only [Res.bind]
    rw [Res.idx_eq_ok.mpr hA]
    simp only
    rw [Res.idx_eq_ok.mpr hB]
  | succ k ih =>
    intro i hk hi
    have en : m.numElems (k + 2) = (m.midElems (k + 2)).length := by
      unfold Mesh.numElems; rw [if_neg (by omega), if_neg (by omega), if_neg (by omega)]
    have hi' := hi
    rw [show k + 1 + 1 = k + 2 from rfl, en] at hi'
    have hf := List.getElem?_eq_getElem hi'
    set f := (m.midElems (k + 2))[i] with hfd
    have hsub := hne _ _ _ (by omega) (by omega) hf
    obtain ⟨s, hs0⟩ : ∃ s, f.sub[0]? = some s := ⟨_, List.getElem?_eq_getElem (List.length_pos_iff.mpr hsub)⟩
    have hds : directSubs m bd (k + 2) i = f.sub := by
      unfold directSubs; rw [if_neg (by omega), if_neg (by omega), hf]; rfl
    have hsr := hv.range (k + 2) i (by omega) (by omega) hi s (by rw [hds]; exact List.mem_of_getElem? hs0)
    obtain ⟨r0, rs, h1, h2, h3⟩ := ih s (by omega) hsr
    obtain ⟨l, hl⟩ : ∃ l, cs[k + 2 - 1]? = some l := ⟨_, List.getElem?_eq_getElem (by omega)⟩
    have hll := hs (k + 2) l (by omega) hl
    obtain ⟨c, hc⟩ : ∃ c, l[i]? = some c := ⟨_, List.getElem?_eq_getElem (by rw [hll]; exact hi)⟩
    have hentry : entry cs (k + 2) i = some c := by rw [entry, hl]; exact hc
    refine ⟨c, r0 :: rs, .step hentry hf hs0 h1, ?_, by simp [h3]⟩
    have hidx : Res.idx (cs[k + 1]?.getD []) i = .ok c := Res.idx_eq_ok.mpr (by rw [show k + 1 = k + 2 - 1 from rfl, hl]; exact hc)
    rw [show k + 1 + 1 = k + 2 from rfl, getCenters, hidx]
    simp only [Res.bind]
    rw [Res.idx_eq_ok.mpr hf]
    simp only
    rw [Res.idx_eq_ok.mpr hs0]
    simp only
    rw [h2]

/-- What one sub-element adds to the measure. -/
theorem highTerm_ok {m : Mesh (Vec n ℝ)} {bd : Idx → List Idx} (hv : ValidMesh m bd) (hne : NoEmptyElement m) {cs : List (List (Vec n ℝ))}
    (hlen : cs.length = m.dim) (hs : ∀ (d : Nat) l, 1 ≤ d → cs[d - 1]? = some l → l.length = m.numElems d)
    (hnd : NonDegenerateHigh m bd cs) {d i s : Nat} {c : Vec n ℝ} (hd : 2 ≤ d) (hd2 : d ≤ m.dim) (hi : i < m.numElems d)
    (hsub : s ∈ directSubs m bd d i) (hc : entry cs d i = some c) {prev : List ℝ} {μ : ℝ} (hμ : prev[s]? = some μ) :
    ∃ ps h, highTerm cs m prev d c s = .ok (h * μ) ∧ Spine m cs (d - 1) s ps ∧ IsDistance c ps h := by
  obtain ⟨k, rfl⟩ : ∃ k, d = k + 2 := ⟨d - 2, by omega⟩
  have hsr := hv.range (k + 2) i (by omega) hd2 hi s hsub
  obtain ⟨r0, rs, h1, h2, h3⟩ := spine_ok hv hne hlen hs k s (by omega) hsr
  obtain ⟨r, x, g1, g2, g3⟩ := gs_distance (hnd (k + 2) i s c _ hd hd2 hi hsub hc h1)
  refine ⟨r0 :: rs, x, ?_, h1, g3⟩
  rw [highTerm, show k + 2 - 1 = k + 1 from rfl, h2]
  simp only [Res.bind]
  rw [g1]
  simp only
  rw [Res.idx_eq_ok.mpr (by rw [← h3]; exact g2)]
  simp only
  rw [Res.idx_eq_ok.mpr hμ]

/-- The values of one level from those of the level below. -/
theorem highMeasure_ok {m : Mesh (Vec n ℝ)} {bd : Idx → List Idx} (hv : ValidMesh m bd) (hne : NoEmptyElement m) {cs : List (List (Vec n ℝ))}
    (hlen : cs.length = m.dim) (hs : ∀ (d : Nat) l, 1 ≤ d → cs[d - 1]? = some l → l.length = m.numElems d)
    (hnd : NonDegenerateHigh m bd cs) {d i : Nat} (hd : 2 ≤ d) (hd2 : d ≤ m.dim) (hi : i < m.numElems d)
    {prev : List ℝ} (hp : prev.length = m.numElems (d - 1)) :
    ∃ x, highMeasure cs m prev d i = .ok x ∧ ∀ c, entry cs d i = some c → ∃ ts : List ℝ,
      List.Forall₂ (fun (s : Nat) t => ∃ ps h μ, Spine m cs (d - 1) s ps ∧ IsDistance c ps h ∧ prev[s]? = some μ ∧ t = h * μ)
        (directSubs m bd d i) ts ∧ x = 1 / (d : ℝ) * ts.sum := by
  obtain ⟨l, hl⟩ : ∃ l, cs[d - 1]? = some l := ⟨_, List.getElem?_eq_getElem (by omega)⟩
  have hll := hs d l (by omega) hl
  obtain ⟨c, hc⟩ : ∃ c, l[i]? = some c := ⟨_, List.getElem?_eq_getElem (by rw [hll]; exact hi)⟩
  have hentry : entry cs d i = some c := by rw [entry, hl]; exact hc
  have hex : ∀ s ∈ directSubs m bd d i, ∃ t, highTerm cs m prev d c s = .ok t ∧
      ∃ ps h μ, Spine m cs (d - 1) s ps ∧ IsDistance c ps h ∧ prev[s]? = some μ ∧ t = h * μ := by
    intro s hsub
    have hsr := hv.range d i (by omega) hd2 hi s hsub
    obtain ⟨μ, hμ⟩ : ∃ μ, prev[s]? = some μ := ⟨_, List.getElem?_eq_getElem (by rw [hp]; exact hsr)⟩
    obtain ⟨ps, h, e1, e2, e3⟩ := highTerm_ok hv hne hlen hs hnd hd hd2 hi hsub hentry hμ
    exact ⟨_, e1, ps, h, μ, e2, e3, hμ, rfl⟩
  have loop : ∀ subs : List Idx, (∀ s ∈ subs, ∃ t, highTerm cs m prev d c s = .ok t ∧
      ∃ ps h μ, Spine m cs (d - 1) s ps ∧ IsDistance c ps h ∧ prev[s]? = some μ ∧ t = h * μ) →
      ∃ ts, forEach (highTerm cs m prev d c) subs = .ok ts ∧
      List.Forall₂ (fun (s : Nat) t => ∃ ps h μ, Spine m cs (d - 1) s ps ∧ IsDistance c ps h ∧ prev[s]? = some μ ∧ t = h * μ) subs ts := by
    intro subs
    induction subs with
    | nil => intro _; exact ⟨[], rfl, .nil⟩
    | cons s subs ih =>
      intro h
      obtain ⟨t, t1, t2⟩ := h s List.mem_cons_self
      obtain ⟨ts, u1, u2⟩ := ih fun s' hs' => h s' (List.mem_cons_of_mem _ hs')
      refine ⟨t :: ts, ?_, .cons t2 u2⟩
      simp only [forEach, t1, u1, Res.bind]
  obtain ⟨ts, t1, t2⟩ := loop _ hex
  refine ⟨1 / (d : ℝ) * ts.sum, ?_, ?_⟩
  · rw [highMeasure, Res.idx_eq_ok.mpr (show (cs[d - 1]?.getD [])[i]? = some c by rw [hl]; exact hc)]
    simp only [Res.bind]
    rw [Mesh.applyOne_direct hv (by omega) hd2 hi]
    simp only
    rw [t1]
    simp only [total_eq]
  · intro c' hc'
    rw [hentry] at hc'
    obtain rfl := Option.some.inj hc'
    exact ⟨ts, t2, rfl⟩

theorem measuresFrom_ok {m : Mesh (Vec n ℝ)} {bd : Idx → List Idx} (hv : ValidMesh m bd) (hne : NoEmptyElement m) {cs : List (List (Vec n ℝ))}
    (hlen : cs.length = m.dim) (hs : ∀ (d : Nat) l, 1 ≤ d → cs[d - 1]? = some l → l.length = m.numElems d)
    (hnd : NonDegenerateHigh m bd cs) : ∀ (k d : Nat) (prev : List ℝ), 2 ≤ d → d + k = m.dim + 1 → prev.length = m.numElems (d - 1) →
    ∃ ms, measuresFrom cs m d prev k = .ok ms ∧ ms.length = k ∧
      (∀ (j : Nat) l, ms[j]? = some l → l.length = m.numElems (d + j)) ∧
      ∀ (j i : Nat) c, j < k → i < m.numElems (d + j) → entry cs (d + j) i = some c → ∃ ts : List ℝ, ∃ below cur,
        (prev :: ms)[j]? = some below ∧ ms[j]? = some cur ∧
        List.Forall₂ (fun (s : Nat) t => ∃ ps h μ, Spine m cs (d + j - 1) s ps ∧ IsDistance c ps h ∧ below[s]? = some μ ∧ t = h * μ)
          (directSubs m bd (d + j) i) ts ∧ cur[i]? = some (1 / ((d + j : Nat) : ℝ) * ts.sum) := by
  intro k
  induction k with
  | zero => intro d prev _ _ _; exact ⟨[], rfl, rfl, by simp, by intro j i c h; omega⟩
  | succ k ih =>
    intro d prev hd hk hp
    have hex : ∀ i, i < m.numElems d → _ := fun i hi => highMeasure_ok hv hne hlen hs hnd (d := d) (i := i) hd (by omega) hi hp
    classical
    let f : Nat → ℝ := fun i => if hi : i < m.numElems d then (hex i hi).choose else 0
    have hf : ∀ i ∈ List.range (m.numElems d), highMeasure cs m prev d i = .ok (f i) := by
      intro i hi
      rw [List.mem_range] at hi
      simp only [f, dif_pos hi]
      exact (hex i hi).choose_spec.1
    obtain ⟨ms, h1, h2, h3, h4⟩ := ih (d + 1) ((List.range (m.numElems d)).map f) (by omega) (by omega) (by simp)
    refine ⟨(List.range (m.numElems d)).map f :: ms, ?_, by simp [h2], ?_, ?_⟩
    · rw [measuresFrom, forEach_ok hf]
      simp only [Res.bind, h1]
    · intro j l hj
      cases j with
      | zero => simp at hj; rw [← hj]; simp
      | succ j =>
        rw [List.getElem?_cons_succ] at hj
        rw [h3 j l hj]; congr 1; omega
    · intro j i c hj hi hc
      cases j with
      | zero =>
        rw [Nat.add_zero] at hi hc ⊢
        obtain ⟨ts, t1, t2⟩ := (hex i hi).choose_spec.2 c hc
        refine ⟨ts, prev, (List.range (m.numElems d)).map f, rfl, rfl, t1, ?_⟩
        rw [List.getElem?_map, List.getElem?_range hi]
        simp only [Option.map_some, f, dif_pos hi]
        rw [t2]
      | succ j =>
        have e : d + (j + 1) = d + 1 + j := by omega
        rw [e] at hi hc ⊢
        obtain ⟨ts, below, cur, p1, p2, p3, p4⟩ := h4 j i c (by omega) hi hc
        exact ⟨ts, below, cur, by rw [List.getElem?_cons_succ]; exact p1, by rw [List.getElem?_cons_succ]; exact p2, p3, p4⟩

/-! ## The theorems -/

/-- C39, any dimension (the version with centers). On every valid mesh whose elements do not degenerate, the measures of all elements are
computed: the lengths of the edges, and for every higher element of dimension `d` the sum of the volumes of the cones over its direct
sub-elements with the apex in its center. The centers are any points, one per element. -/
theorem C39_measures_high (m : Mesh (Vec n ℝ)) (bd : Idx → List Idx) (hv : ValidMesh m bd) (hne : NoEmptyElement m)
    (cs : List (List (Vec n ℝ))) (hlen : cs.length = m.dim)
    (hs : ∀ (d : Nat) l, 1 ≤ d → cs[d - 1]? = some l → l.length = m.numElems d) (hnd : NonDegenerateHigh m bd cs) :
    ∃ ms, computeMeasuresHigh cs m = .ok ms ∧ AreMeasures m bd cs ms := by
  have hd := hv.dim_ge
  have hn1 : m.numElems 1 = m.edges.length := by
    unfold Mesh.numElems; rw [if_neg (by omega), if_neg (by omega), if_pos rfl]
  have hll : (lengths m).length = m.edges.length := by simp [lengths]
  obtain ⟨ms, h1, h2, h3, h4⟩ := measuresFrom_ok hv hne hlen hs hnd (m.dim - 1) 2 (lengths m) (le_refl 2) (by omega) (by rw [hll]; exact hn1.symm)
  refine ⟨lengths m :: ms, ?_, ?_, ?_, ?_, ?_⟩
  · rw [computeMeasuresHigh, edgeMeasures_ok hv]
    simp only [Res.bind, h1]
  · simp [h2]; omega
  · intro d l hd1 hl
    obtain ⟨k, rfl⟩ : ∃ k, d = k + 1 := ⟨d - 1, by omega⟩
    cases k with
    | zero => simp at hl; rw [← hl, hll, hn1]
    | succ k =>
      rw [Nat.add_sub_cancel, List.getElem?_cons_succ] at hl
      rw [h3 k l hl]; congr 1; omega
  · intro e ed A B he hA hB
    have hlt := (List.getElem?_eq_some_iff.mp he).1
    simp only [measureOf, Nat.sub_self, List.getElem?_cons_zero, Option.bind_some]
    rw [lengths, List.getElem?_map, List.getElem?_range hlt]
    simp [ends, he, hA, hB]
  · intro d i c hd1 hd2 hi hc
    obtain ⟨k, rfl⟩ : ∃ k, d = k + 2 := ⟨d - 2, by omega⟩
    have e : k + 2 = 2 + k := by omega
    obtain ⟨ts, below, cur, p1, p2, p3, p4⟩ := h4 k i c (by omega) (by rw [← e]; exact hi) (by rw [← e]; exact hc)
    refine ⟨ts, ?_, ?_⟩
    · rw [e]
      refine p3.imp ?_
      rintro s t ⟨ps, h, μ, q1, q2, q3, q4⟩
      refine ⟨ps, h, μ, q1, q2, ?_, q4⟩
      rw [measureOf, show 2 + k - 1 - 1 = k by omega, p1]
      exact q3
    · rw [measureOf, show k + 2 - 1 = k + 1 by omega, List.getElem?_cons_succ, p2]
      simp only [Option.bind_some, p4]
      rw [e]

/-- C39, any dimension: composed with the computation of the centers. -/
theorem C39_measures_high_of_centers (m : Mesh (Vec n ℝ)) (bd : Idx → List Idx) (hv : ValidMesh m bd) (hne : NoEmptyElement m)
    (hnd : ∀ cs, AreCenters m bd cs → NonDegenerateHigh m bd cs) :
    ∃ cs ms, computeCenters m = .ok cs ∧ AreCenters m bd cs ∧ computeMeasuresHigh cs m = .ok ms ∧ AreMeasures m bd cs ms := by
  obtain ⟨cs, h1, h2⟩ := C38_centers m bd hv hne
  obtain ⟨ms, h3, h4⟩ := C39_measures_high m bd hv hne cs h2.dims h2.sizes (hnd cs h2)
  exact ⟨cs, ms, h1, h2, h3, h4⟩

/-- C39. No measure computed in any dimension is negative, on any mesh with any centers. -/
theorem C39_nonneg_high (cs : List (List (Vec n ℝ))) (m : Mesh (Vec n ℝ)) (ms : List (List ℝ)) (h : computeMeasuresHigh cs m = .ok ms) :
    ∀ l ∈ ms, ∀ x ∈ l, 0 ≤ x := by
  have level : ∀ (k d : Nat) (prev : List ℝ) (ms : List (List ℝ)), (∀ x ∈ prev, 0 ≤ x) → measuresFrom cs m d prev k = .ok ms →
      ∀ l ∈ ms, ∀ x ∈ l, 0 ≤ x := by
    intro k
    induction k with
    | zero => intro d prev ms _ h; simp [measuresFrom] at h; rw [h]; simp
    | succ k ih =>
      intro d prev ms hp h
      rw [measuresFrom] at h
      cases h1 : forEach (highMeasure cs m prev d) (List.range (m.numElems d)) <;> rw [h1] at h <;> simp only [Res.bind, reduceCtorEq] at h
      rename_i cur
      cases h2 : measuresFrom cs m (d + 1) cur k <;> rw [h2] at h <;> simp only [reduceCtorEq, Res.ok.injEq] at h
      have hcur : ∀ x ∈ cur, 0 ≤ x := by
        refine forall₂_right ?_ (forEach_eq_ok h1)
        intro i x hx
        rw [highMeasure] at hx
        cases h3 : Res.idx (cs[d - 1]?.getD []) i <;> rw [h3] at hx <;> simp only [Res.bind, reduceCtorEq] at hx
        rename_i c
        cases h4 : m.applyOne d (d - 1) i <;> rw [h4] at hx <;> simp only [reduceCtorEq] at hx
        rename_i subs
        cases h5 : forEach (highTerm cs m prev d c) subs <;> rw [h5] at hx <;> simp only [reduceCtorEq] at hx
        rw [← Res.ok.inj hx]
        refine mul_nonneg (by positivity) (total_nonneg (forall₂_right ?_ (forEach_eq_ok h5)))
        intro s y hy
        rw [highTerm] at hy
        cases h6 : getCenters cs m (d - 1) s <;> rw [h6] at hy <;> simp only [Res.bind, reduceCtorEq] at hy
        split at hy <;> (try simp only [reduceCtorEq] at hy)
        rename_i r h7
        cases h8 : Res.idx r.2 (d - 1) <;> rw [h8] at hy <;> simp only [reduceCtorEq] at hy
        cases h9 : Res.idx prev s <;> rw [h9] at hy <;> simp only [reduceCtorEq] at hy
        rw [← Res.ok.inj hy]
        exact mul_nonneg (gs_nonneg h7 (Res.idx_eq_ok.mp h8)) (hp _ (List.mem_of_getElem? (Res.idx_eq_ok.mp h9)))
      subst h
      intro l hl
      rcases List.mem_cons.mp hl with rfl | hl
      · exact hcur
      · exact ih _ _ _ hcur h2 l hl
  rw [computeMeasuresHigh] at h
  cases h1 : edgeMeasures m <;> rw [h1] at h <;> simp only [Res.bind, reduceCtorEq] at h
  rename_i ls
  cases h2 : measuresFrom cs m 2 ls (m.dim - 1) <;> rw [h2] at h <;> simp only [reduceCtorEq, Res.ok.injEq] at h
  subst h
  intro l hl
  rcases List.mem_cons.mp hl with rfl | hl
  · exact edgeMeasures_nonneg h1
  · exact level _ _ _ _ (edgeMeasures_nonneg h1) h2 l hl

end GTMesh.Props
