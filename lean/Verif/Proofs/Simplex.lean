import Verif.Spec.Simplex
import Verif.Props.MeasuresHigh

/-! # Distances from planes and volumes of simplices -/

namespace GTMesh.Simplex
open GTMesh Spec Std' Vec Geo Props

variable {n : Nat}

/-! ## Projections -/

theorem exists_projection (l : List (Vec n ℝ)) : ∀ v : Vec n ℝ, ∃ r, v - r ∈ Submodule.span ℝ {x | x ∈ l} ∧
    ∀ s ∈ Submodule.span ℝ {x | x ∈ l}, dot r s = 0 := by
  induction l with
  | nil =>
    intro v
    refine ⟨v, by simp, ?_⟩
    intro s hs
    simp at hs
    rw [hs]; exact dot_zero v
  | cons a l ih =>
    intro v
    obtain ⟨a', a1, a2⟩ := ih a
    obtain ⟨v', v1, v2⟩ := ih v
    have hmono : Submodule.span ℝ {x | x ∈ l} ≤ Submodule.span ℝ {x | x ∈ a :: l} :=
      Submodule.span_mono fun x hx => List.mem_cons_of_mem _ hx
    have ha : a ∈ Submodule.span ℝ {x | x ∈ a :: l} := Submodule.subset_span List.mem_cons_self
    have ha' : a' ∈ Submodule.span ℝ {x | x ∈ a :: l} := by
      have := Submodule.sub_mem _ ha (hmono a1)
      simpa using this
    by_cases h0 : a' = 0
    · refine ⟨v', hmono v1, ?_⟩
      apply dot_span
      intro s hs
      rcases List.mem_cons.mp hs with rfl | hs
      · rw [h0] at a1
        simp at a1
        exact v2 _ a1
      · exact v2 s (Submodule.subset_span hs)
    · have hpos : dot a' a' ≠ 0 := fun e => h0 ((dot_self_eq_zero a').mp e)
      refine ⟨v' - (dot v' a' / dot a' a') • a', ?_, ?_⟩
      · have := Submodule.add_mem _ (hmono v1) (Submodule.smul_mem _ (dot v' a' / dot a' a') ha')
        rw [show v - (v' - (dot v' a' / dot a' a') • a') = v - v' + (dot v' a' / dot a' a') • a' by abel]
        exact this
      · apply dot_span
        intro s hs
        have key : ∀ t, dot (v' - (dot v' a' / dot a' a') • a') t = dot v' t - dot v' a' / dot a' a' * dot a' t := by
          intro t
          rw [sub_eq_add_neg, dot_add, show -((dot v' a' / dot a' a') • a') = (-(dot v' a' / dot a' a')) • a' by simp, dot_smul]
          ring
        have hA : dot (v' - (dot v' a' / dot a' a') • a') a' = 0 := by rw [key]; field_simp; ring
        have hB : ∀ t ∈ Submodule.span ℝ {x | x ∈ l}, dot (v' - (dot v' a' / dot a' a') • a') t = 0 := by
          intro t ht; rw [key, v2 t ht, a2 t ht]; ring
        rcases List.mem_cons.mp hs with rfl | hs
        · rw [show s = a' + (s - a') by abel, dot_add_right, hA, hB _ a1, add_zero]
        · exact hB s (Submodule.subset_span hs)

/-- The plane through the points `r0 :: rs`. -/
abbrev plane (ps : List (Vec n ℝ)) : AffineSubspace ℝ (Vec n ℝ) := affineSpan ℝ {x | x ∈ ps}

abbrev dirs (r0 : Vec n ℝ) (rs : List (Vec n ℝ)) : Submodule ℝ (Vec n ℝ) := Submodule.span ℝ {x | x ∈ rs.map fun r => sub r r0}

/-- An orthogonal foot gives the distance. -/
theorem isDistance_of_foot {p r0 r : Vec n ℝ} {rs : List (Vec n ℝ)} (h1 : p - r0 - r ∈ dirs r0 rs) (h2 : ∀ s ∈ dirs r0 rs, dot r s = 0) :
    IsDistance p (r0 :: rs) (Vec.norm r) := by
  refine ⟨⟨p - r, ?_, by rw [sub_sub_cancel]⟩, ?_⟩
  · rw [mem_affineSpan_cons]
    rw [show p - r - r0 = p - r0 - r by abel]; exact h1
  · rintro x ⟨q, hq, rfl⟩
    rw [mem_affineSpan_cons] at hq
    apply Real.sqrt_le_sqrt
    show dot r r ≤ dot (p - q) (p - q)
    have hs : p - q = r + (p - r0 - r - (q - r0)) := by abel
    have hm : p - r0 - r - (q - r0) ∈ dirs r0 rs := Submodule.sub_mem _ h1 hq
    rw [hs]
    generalize p - r0 - r - (q - r0) = s at hm
    rw [dot_add, dot_add_right, dot_add_right, dot_comm s r, h2 s hm]
    have := dot_self_nonneg s
    linarith

theorem exists_distance (p : Vec n ℝ) {ps : List (Vec n ℝ)} (h : ps ≠ []) : ∃ x, IsDistance p ps x := by
  cases ps with
  | nil => exact absurd rfl h
  | cons r0 rs =>
    obtain ⟨r, h1, h2⟩ := exists_projection (rs.map fun r => sub r r0) (p - r0)
    exact ⟨_, isDistance_of_foot h1 h2⟩

open Classical in
/-- The distance of a point from a plane (1 if there are no points). -/
noncomputable def height (p : Vec n ℝ) (ps : List (Vec n ℝ)) : ℝ := if h : ps = [] then 1 else (exists_distance p h).choose

theorem height_spec (p : Vec n ℝ) {ps : List (Vec n ℝ)} (h : ps ≠ []) : IsDistance p ps (height p ps) := by
  unfold height; rw [dif_neg h]; exact (exists_distance p h).choose_spec

theorem height_eq {p : Vec n ℝ} {ps : List (Vec n ℝ)} {x : ℝ} (hd : IsDistance p ps x) (h : ps ≠ []) : height p ps = x :=
  (height_spec p h).unique hd

theorem height_nonneg (p : Vec n ℝ) (ps : List (Vec n ℝ)) : 0 ≤ height p ps := by
  by_cases h : ps = []
  · unfold height; rw [dif_pos h]; exact zero_le_one
  · exact IsDistance.nonneg (height_spec p h)

theorem isDistance_congr {p : Vec n ℝ} {ps qs : List (Vec n ℝ)} (h : plane ps = plane qs) {x : ℝ} (hd : IsDistance p ps x) : IsDistance p qs x := by
  have h : affineSpan ℝ {x | x ∈ ps} = affineSpan ℝ {x | x ∈ qs} := h
  unfold IsDistance at hd ⊢
  rw [← h]; exact hd

theorem plane_perm {ps qs : List (Vec n ℝ)} (h : ps.Perm qs) : plane ps = plane qs := by
  have : {x | x ∈ ps} = {x | x ∈ qs} := Set.ext fun x => h.mem_iff
  unfold plane; rw [this]

theorem height_perm {ps qs : List (Vec n ℝ)} (p : Vec n ℝ) (h : ps.Perm qs) : height p ps = height p qs := by
  by_cases h0 : ps = []
  · subst h0
    rw [h.nil_eq]
  · have h1 : qs ≠ [] := by rintro rfl; exact h0 h.eq_nil
    exact ((height_spec p h1).unique (isDistance_congr (plane_perm h) (height_spec p h0))).symm

/-- The product of the heights of the points above the planes of the points that follow. -/
noncomputable def heights : List (Vec n ℝ) → ℝ
  | [] => 1
  | p :: ps => height p ps * heights ps

theorem heights_nonneg : ∀ ps : List (Vec n ℝ), 0 ≤ heights ps
  | [] => zero_le_one
  | p :: ps => mul_nonneg (height_nonneg p ps) (heights_nonneg ps)

theorem height_single (p q : Vec n ℝ) : height p [q] = Vec.norm (p - q) :=
  height_eq (isDistance_of_foot (rs := []) (by simp [dirs]) (by intro s hs; simp [dirs] at hs; rw [hs]; exact dot_zero _)) (by simp)

theorem norm_sub_comm (p q : Vec n ℝ) : Vec.norm (p - q) = Vec.norm (q - p) := by
  have : dot (p - q) (p - q) = dot (q - p) (q - p) := by
    rw [← neg_sub q p, show -(q - p) = (-1 : ℝ) • (q - p) by simp, dot_smul, dot_smul_right]; ring
  simp only [norm_real]; rw [this]

/-- Twice the square of the area of the parallelogram seen along the plane of the remaining points. -/
theorem height_pair_sq {p q r0 p' q' : Vec n ℝ} {rs : List (Vec n ℝ)} (p1 : p - r0 - p' ∈ dirs r0 rs) (p2 : ∀ s ∈ dirs r0 rs, dot p' s = 0)
    (q1 : q - r0 - q' ∈ dirs r0 rs) (q2 : ∀ s ∈ dirs r0 rs, dot q' s = 0) :
    (height p (q :: r0 :: rs) * height q (r0 :: rs)) ^ 2 = dot p' p' * dot q' q' - dot p' q' ^ 2 := by
  rw [height_eq (isDistance_of_foot q1 q2) (by simp)]
  by_cases h0 : q' = 0
  · rw [h0]
    have : Vec.norm (0 : Vec n ℝ) = 0 := by simp only [norm_real]; rw [dot_zero, Real.sqrt_zero]
    rw [this, dot_zero, dot_zero]; ring
  · have hpos : dot q' q' ≠ 0 := fun e => h0 ((dot_self_eq_zero q').mp e)
    set t := dot p' q' / dot q' q' with ht
    have hperm : (q :: r0 :: rs).Perm (r0 :: q :: rs) := List.Perm.swap _ _ _
    have hmono : dirs r0 rs ≤ dirs r0 (q :: rs) := Submodule.span_mono fun x hx => List.mem_cons_of_mem _ hx
    have hq : q - r0 ∈ dirs r0 (q :: rs) := Submodule.subset_span (by simp [sub_eq])
    have hq' : q' ∈ dirs r0 (q :: rs) := by
      have := Submodule.sub_mem _ hq (hmono q1)
      rwa [sub_sub_cancel] at this
    have key : ∀ s, dot (p' - t • q') s = dot p' s - t * dot q' s := by
      intro s
      rw [sub_eq_add_neg, dot_add, show -(t • q') = (-t) • q' by simp, dot_smul]; ring
    have hdist : IsDistance p (r0 :: q :: rs) (Vec.norm (p' - t • q')) := by
      apply isDistance_of_foot
      · rw [show p - r0 - (p' - t • q') = p - r0 - p' + t • q' by abel]
        exact Submodule.add_mem _ (hmono p1) (Submodule.smul_mem _ t hq')
      · have hA : dot (p' - t • q') q' = 0 := by rw [key, ht]; field_simp; ring
        have hB : ∀ s ∈ dirs r0 rs, dot (p' - t • q') s = 0 := by
          intro s hs; rw [key, p2 s hs, q2 s hs]; ring
        apply dot_span
        intro s hs
        rcases List.mem_cons.mp hs with rfl | hs
        · show dot (p' - t • q') (sub q r0) = 0
          rw [sub_eq, show q - r0 = q' + (q - r0 - q') by abel, dot_add_right, hA, hB _ q1, add_zero]
        · exact hB s (Submodule.subset_span hs)
    rw [height_perm p hperm, height_eq hdist (by simp), mul_pow, sq, sq, norm_sq, norm_sq, key, dot_comm p' (p' - t • q'),
      dot_comm q' (p' - t • q'), key, key, dot_comm q' p', ht]
    field_simp
    ring

theorem heights_swap (p q : Vec n ℝ) (ps : List (Vec n ℝ)) :
    height p (q :: ps) * height q ps = height q (p :: ps) * height p ps := by
  cases ps with
  | nil =>
    rw [height_single, height_single, norm_sub_comm]
    unfold height; rw [dif_pos rfl, dif_pos rfl]
  | cons r0 rs =>
    obtain ⟨p', p1, p2⟩ := exists_projection (rs.map fun r => sub r r0) (p - r0)
    obtain ⟨q', q1, q2⟩ := exists_projection (rs.map fun r => sub r r0) (q - r0)
    have e1 := height_pair_sq p1 p2 q1 q2
    have e2 := height_pair_sq q1 q2 p1 p2
    rw [dot_comm q' p'] at e2
    have e : (height p (q :: r0 :: rs) * height q (r0 :: rs)) ^ 2 = (height q (p :: r0 :: rs) * height p (r0 :: rs)) ^ 2 := by
      rw [e1, e2]; ring
    exact (sq_eq_sq₀ (mul_nonneg (height_nonneg _ _) (height_nonneg _ _)) (mul_nonneg (height_nonneg _ _) (height_nonneg _ _))).mp e

theorem heights_perm {ps qs : List (Vec n ℝ)} (h : ps.Perm qs) : heights ps = heights qs := by
  induction h with
  | nil => rfl
  | cons p h ih => simp only [heights, ih, height_perm p h]
  | swap p q ps =>
    simp only [heights]
    rw [← mul_assoc, ← mul_assoc, heights_swap]
  | trans _ _ ih1 ih2 => rw [ih1, ih2]

/-! ## The Gram determinant -/

theorem heights_snoc (r0 : Vec n ℝ) (rs : List (Vec n ℝ)) :
    heights (rs.reverse ++ [r0]) = ((List.range rs.length).map fun i => height (rs.getD i 0) (r0 :: rs.take i)).prod := by
  induction rs using List.reverseRecOn with
  | nil => simp [heights, height]
  | append_singleton rs x ih =>
    rw [List.reverse_append, List.reverse_singleton, List.append_assoc, List.singleton_append, heights, ih]
    rw [List.length_append, List.length_singleton, List.range_succ, List.map_append, List.prod_append, mul_comm]
    congr 1
    · congr 1
      apply List.map_congr_left
      intro i hi
      rw [List.mem_range] at hi
      rw [List.take_append_of_le_length (by omega)]
      congr 1
      simp [List.getD, List.getElem?_append_left hi]
    · simp only [List.map_cons, List.map_nil, List.prod_cons, List.prod_nil, mul_one]
      rw [List.take_append_of_le_length (le_refl _), List.take_length]
      rw [show (rs ++ [x]).getD rs.length 0 = x by simp [List.getD]]
      apply height_perm
      have : (rs.reverse ++ [r0]).Perm (rs ++ [r0]) := (List.reverse_perm rs).append_right _
      exact this.trans (List.perm_append_singleton _ _)

theorem heights_gram {r0 : Vec n ℝ} {rs : List (Vec n ℝ)} (hne : rs ≠ []) (h : AffineIndependent ℝ (r0 :: rs).get) :
    heights (r0 :: rs) = Real.sqrt (Matrix.det (Matrix.of fun i j : Fin rs.length => dot (rs[i] - r0) (rs[j] - r0))) := by
  obtain ⟨ri, x, hsplit⟩ : ∃ ri x, rs = ri ++ [x] := ⟨rs.dropLast, rs.getLast hne, (List.dropLast_concat_getLast hne).symm⟩
  have hvs : spanVectors (r0 :: ri) x = rs.map fun r => sub r r0 := by rw [hsplit]; simp [spanVectors]
  have hi : Independent (rs.map fun r => sub r r0) := by
    rw [← hvs]; apply independent_spanVectors
    have : r0 :: rs = (r0 :: ri) ++ [x] := by rw [hsplit]; rfl
    rw [← this]; exact h
  have hne' : (rs.map fun r => sub r r0) ≠ [] := by simpa using hne
  obtain ⟨us, norms, e1, _, e3, _, _, _, e7⟩ := C37_normalized _ hne' hi
  have hvol := C37_volume _ us norms hne' hi e1
  have hnorms : norms = (List.range rs.length).map fun i => height (rs.getD i 0) (r0 :: rs.take i) := by
    apply List.ext_getElem?
    intro i
    by_cases hil : i < rs.length
    · have hrs : rs[i]? = some rs[i] := List.getElem?_eq_getElem hil
      obtain ⟨d, d1, _, d3, s, s1, s2⟩ := e7 i (sub rs[i] r0) (by rw [List.getElem?_map, hrs]; rfl)
      rw [d1, List.getElem?_map, List.getElem?_range hil]
      simp only [Option.map_some, Option.some.injEq]
      rw [List.getD, hrs, Option.getD_some]
      rw [← List.map_take] at d3 s1
      symm
      apply height_eq _ (by simp)
      refine ⟨⟨r0 + s, ?_, ?_⟩, ?_⟩
      · rw [mem_affineSpan_cons]; simpa using s1
      · rw [s2, sub_eq, sub_eq, sub_sub]
      · rintro y ⟨q, hq, rfl⟩
        have := d3 _ (mem_affineSpan_cons.mp hq)
        rw [sub_eq, sub_eq, sub_sub_sub_cancel_right] at this
        exact this
    · rw [List.getElem?_eq_none (by rw [e3]; simpa using hil), List.getElem?_eq_none (by simpa using hil)]
  have hprod : norms.prod = heights (r0 :: rs) := by
    rw [hnorms, ← heights_snoc]
    apply heights_perm
    have : (rs.reverse ++ [r0]).Perm (rs ++ [r0]) := (List.reverse_perm rs).append_right _
    exact this.trans (List.perm_append_singleton _ _)
  rw [hprod] at hvol
  rw [← Real.sqrt_sq (heights_nonneg (r0 :: rs)), hvol]
  congr 1
  let e : Fin rs.length ≃ Fin (rs.map fun r => sub r r0).length := finCongr (by simp)
  rw [← Matrix.det_submatrix_equiv_self e]
  congr 1
  ext i j
  simp [e, sub_eq]

theorem simplexVolume_eq {ps : List (Vec n ℝ)} {d : Nat} (hl : ps.length = d + 1) (hd : 1 ≤ d) (h : AffineIndependent ℝ ps.get) :
    simplexVolume ps = heights ps / (d.factorial : ℝ) := by
  cases ps with
  | nil => simp at hl
  | cons r0 rs =>
    have hl' : rs.length = d := by simpa using hl
    have hne : rs ≠ [] := by rintro rfl; simp at hl'; omega
    rw [heights_gram hne h, simplexVolume]
    subst hl'
    rfl

/-! ## Means -/

theorem mean_mem_plane {ps : List (Vec n ℝ)} (h : ps ≠ []) : mean ps ∈ plane ps := by
  cases ps with
  | nil => exact absurd rfl h
  | cons r0 rs =>
    rw [mem_affineSpan_cons]
    have hlen : ((rs.length : ℝ) + 1) ≠ 0 := by positivity
    have key : ∀ l : List (Vec n ℝ), (l.map fun r => sub r r0).sum = l.sum - (l.length : ℝ) • r0 := by
      intro l
      induction l with
      | nil => simp
      | cons x l ih => rw [List.map_cons, List.sum_cons, ih]; simp only [List.sum_cons, sub_eq, List.length_cons, Nat.cast_add, Nat.cast_one, add_smul, one_smul]; abel
    have e : mean (r0 :: rs) - r0 = ((rs.length : ℝ) + 1)⁻¹ • (rs.map fun r => sub r r0).sum := by
      rw [key, mean, List.length_cons, List.sum_cons, Nat.cast_add, Nat.cast_one]
      have : r0 = ((rs.length : ℝ) + 1)⁻¹ • (((rs.length : ℝ) + 1) • r0) := by rw [smul_smul, inv_mul_cancel₀ hlen, one_smul]
      conv_lhs => rhs; rw [this]
      rw [← smul_sub, add_smul, one_smul]
      congr 1; abel
    rw [e]
    apply Submodule.smul_mem
    apply list_sum_mem
    intro x hx
    exact Submodule.subset_span hx

theorem mean_perm {ps qs : List (Vec n ℝ)} (h : ps.Perm qs) : mean ps = mean qs := by
  unfold mean; rw [h.length_eq, h.sum_eq]

/-- The mean of the vertices of a simplex from the mean of a facet and the opposite vertex. -/
theorem mean_cons (p : Vec n ℝ) {fs : List (Vec n ℝ)} (h : fs ≠ []) :
    mean (p :: fs) = mean fs + ((fs.length : ℝ) + 1)⁻¹ • (p - mean fs) := by
  have hl : (fs.length : ℝ) ≠ 0 := by
    have := List.length_pos_iff.mpr h
    positivity
  have hlen : ((fs.length : ℝ) + 1) ≠ 0 := by positivity
  have hs : fs.sum = (fs.length : ℝ) • mean fs := by rw [mean, smul_smul, mul_inv_cancel₀ hl, one_smul]
  conv_lhs => rw [mean, List.length_cons, List.sum_cons, hs, Nat.cast_add, Nat.cast_one]
  generalize mean fs = g
  have : g = ((fs.length : ℝ) + 1)⁻¹ • (((fs.length : ℝ) + 1) • g) := by rw [smul_smul, inv_mul_cancel₀ hlen, one_smul]
  conv_rhs => lhs; rw [this]
  rw [← smul_add, add_smul, one_smul]
  congr 1; abel

theorem distance_scaled {p g : Vec n ℝ} {ps : List (Vec n ℝ)} {h t : ℝ} (ht : 0 < t) (hg : g ∈ plane ps)
    (hd : IsDistance p ps h) : IsDistance (g + t • (p - g)) ps (t * h) := by
  have hnorm : ∀ x : Vec n ℝ, Vec.norm (t • x) = t * Vec.norm x := by
    intro x; rw [norm_smul, abs_of_pos ht]
  have hmem : ∀ (a : ℝ) q, q ∈ plane ps → g + a • (q - g) ∈ plane ps := by
    intro a q hq
    have := AffineMap.lineMap_mem a hg hq
    rw [AffineMap.lineMap_apply] at this
    simpa [add_comm] using this
  obtain ⟨⟨q, hq, e⟩, hmin⟩ := hd
  refine ⟨⟨g + t • (q - g), hmem t q hq, ?_⟩, ?_⟩
  · rw [add_sub_add_left_eq_sub, ← smul_sub, sub_sub_sub_cancel_right, hnorm, e]
  · rintro x ⟨s, hs, rfl⟩
    have h1 := hmin ⟨g + t⁻¹ • (s - g), hmem t⁻¹ s hs, rfl⟩
    have e2 : g + t • (p - g) - s = t • (p - (g + t⁻¹ • (s - g))) := by
      rw [smul_sub t p (g + _), smul_add, smul_smul, mul_inv_cancel₀ ht.ne', one_smul, smul_sub]; abel
    rw [e2, hnorm]
    exact mul_le_mul_of_nonneg_left h1 ht.le

end GTMesh.Simplex
