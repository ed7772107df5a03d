import Verif.Proofs.Rounding
import Verif.Props.Measures
import Mathlib.Data.Int.Log
import Mathlib.Algebra.Order.Round

/-! # C71: what is computed with floating point numbers -/

namespace GTMesh.Props
open GTMesh Spec Std' Vec Geo

/-! ## The arithmetic -/

theorem grid_near (p : Nat) (x : ℝ) (hx : x ≠ 0) : ∃ (m q : ℤ), |m| ≤ 2 ^ p ∧ |m * (2 : ℝ) ^ q - x| ≤ 2⁻¹ ^ p * |x| ∧
    ∀ y ∈ binaryFloats p, 0 < p → |m * (2 : ℝ) ^ q - x| ≤ |y - x| := by
  have hx' : 0 < |x| := abs_pos.mpr hx
  set e := Int.log 2 |x| with he
  have h1 : (2 : ℝ) ^ e ≤ |x| := by exact_mod_cast Int.zpow_log_le_self (b := 2) (by norm_num) hx'
  have h2 : |x| < (2 : ℝ) ^ (e + 1) := by exact_mod_cast Int.lt_zpow_succ_log_self (b := 2) (by norm_num) |x|
  set q := e - p + 1 with hq
  have hq0 : (0 : ℝ) < (2 : ℝ) ^ q := zpow_pos (by norm_num) q
  set w := x / (2 : ℝ) ^ q with hw
  have hxw : x = w * (2 : ℝ) ^ q := by rw [hw, div_mul_cancel₀ _ hq0.ne']
  have hwp : |w| < 2 ^ p := by
    rw [hw, abs_div, abs_of_pos hq0, div_lt_iff₀ hq0]
    have : (2 : ℝ) ^ p * (2 : ℝ) ^ q = (2 : ℝ) ^ (e + 1) := by
      rw [← zpow_natCast, ← zpow_add₀ (by norm_num)]
      congr 1
      omega
    rw [this]; exact h2
  have hr := abs_sub_round w
  have dist : ∀ z : ℤ, |z * (2 : ℝ) ^ q - x| = |w - z| * (2 : ℝ) ^ q := by
    intro z
    rw [hxw, ← sub_mul, abs_mul, abs_of_pos hq0, abs_sub_comm]
  refine ⟨round w, q, ?_, ?_, ?_⟩
  · have : |((round w : ℤ) : ℝ)| < 2 ^ p + 1 := by
      have := abs_sub_abs_le_abs_sub ((round w : ℤ) : ℝ) w
      rw [abs_sub_comm] at hr
      linarith
    have : |round w| < 2 ^ p + 1 := by exact_mod_cast this
    omega
  · rw [dist]
    have e1 : (2 : ℝ) ^ q = 2 * (2⁻¹ ^ p * (2 : ℝ) ^ e) := by
      rw [hq, zpow_add₀ (by norm_num), zpow_sub₀ (by norm_num), zpow_natCast, zpow_one, inv_pow]
      field_simp
    have : 2⁻¹ ^ p * (2 : ℝ) ^ e ≤ 2⁻¹ ^ p * |x| := mul_le_mul_of_nonneg_left h1 (by positivity)
    calc |w - round w| * (2 : ℝ) ^ q ≤ 1 / 2 * (2 : ℝ) ^ q := mul_le_mul_of_nonneg_right hr hq0.le
      _ = 2⁻¹ ^ p * (2 : ℝ) ^ e := by rw [e1]; ring
      _ ≤ _ := this
  · rintro y ⟨m, f, hm, rfl⟩ hp
    by_cases hf : q ≤ f
    · have : (m : ℝ) * (2 : ℝ) ^ f = ((m * 2 ^ (f - q).toNat : ℤ) : ℝ) * (2 : ℝ) ^ q := by
        push_cast
        rw [mul_assoc, ← zpow_natCast, ← zpow_add₀ (by norm_num)]
        congr 2
        omega
      rw [this, dist, dist]
      exact mul_le_mul_of_nonneg_right (round_le w _) hq0.le
    · have hy : |(m : ℝ) * (2 : ℝ) ^ f| ≤ (2 : ℝ) ^ e := by
        rw [abs_mul, abs_of_pos (zpow_pos (by norm_num : (0 : ℝ) < 2) f)]
        have hm' : |(m : ℝ)| ≤ 2 ^ p := by exact_mod_cast hm
        have h3 : (2 : ℝ) ^ f ≤ (2 : ℝ) ^ (e - p) := zpow_le_zpow_right₀ (by norm_num) (by omega)
        calc |(m : ℝ)| * (2 : ℝ) ^ f ≤ 2 ^ p * (2 : ℝ) ^ (e - p) := mul_le_mul hm' h3 (zpow_pos (by norm_num) f).le (by positivity)
          _ = (2 : ℝ) ^ e := by
            rw [← zpow_natCast, ← zpow_add₀ (by norm_num)]; congr 1; omega
      have hg : (2 : ℝ) ^ e = ((2 ^ (p - 1) : ℤ) : ℝ) * (2 : ℝ) ^ q := by
        push_cast
        rw [← zpow_natCast, ← zpow_add₀ (by norm_num)]
        congr 1
        omega
      have far : |x| - (2 : ℝ) ^ e ≤ |(m : ℝ) * (2 : ℝ) ^ f - x| := by
        have := abs_sub_abs_le_abs_sub x ((m : ℝ) * (2 : ℝ) ^ f)
        rw [abs_sub_comm] at this
        linarith
      refine le_trans ?_ far
      rcases lt_or_gt_of_ne hx with hneg | hpos
      · have : |x| - (2 : ℝ) ^ e = |((-(2 ^ (p - 1)) : ℤ) : ℝ) * (2 : ℝ) ^ q - x| := by
          rw [Int.cast_neg, neg_mul, ← hg, abs_of_neg hneg]
          rw [abs_of_neg hneg] at h1
          rw [abs_of_nonneg (by linarith)]; ring
        rw [this, dist, dist]
        exact mul_le_mul_of_nonneg_right (round_le w _) hq0.le
      · have : |x| - (2 : ℝ) ^ e = |((2 ^ (p - 1) : ℤ) : ℝ) * (2 : ℝ) ^ q - x| := by
          rw [← hg, abs_of_pos hpos]
          rw [abs_of_pos hpos] at h1
          rw [abs_sub_comm, abs_of_nonneg (by linarith)]
        rw [this, dist, dist]
        exact mul_le_mul_of_nonneg_right (round_le w _) hq0.le

theorem zero_mem_floats (p : Nat) : (0 : ℝ) ∈ binaryFloats p := ⟨0, 0, by simp, by simp⟩

/-- Rounding to a nearest number with `p ≥ 2` binary digits, however ties are broken, is a rounding in the sense of the model: the unit
roundoff is `2^-p` and the natural numbers up to `2^p` are exact. For `double` these are `2^-53` and `2^53`. -/
theorem C71_nearest (p : Nat) (hp : 2 ≤ p) (rnd : ℝ → ℝ) (h : ToNearest p rnd) :
    ∃ r : Rounding, r.rnd = rnd ∧ r.u = 2⁻¹ ^ p ∧ r.exactTo = 2 ^ p := by
  refine ⟨⟨rnd, 2⁻¹ ^ p, by positivity, ?_, 2 ^ p, ?_, ?_⟩, rfl, rfl, rfl⟩
  · intro x
    by_cases hx : x = 0
    · subst hx
      have := (h 0).2 0 (zero_mem_floats p)
      simpa using this
    · obtain ⟨m, q, h1, h2, -⟩ := grid_near p x hx
      exact ((h x).2 _ ⟨m, q, h1, rfl⟩).trans h2
  · intro n hn
    have := (h n).2 n ⟨n, 0, by simpa using (show (n : ℤ) ≤ 2 ^ p by exact_mod_cast hn), by simp⟩
    rw [sub_self, abs_zero] at this
    exact sub_eq_zero.mp (abs_eq_zero.mp (le_antisymm this (abs_nonneg _)))
  · calc 3 ≤ 2 ^ 2 := by norm_num
      _ ≤ 2 ^ p := Nat.pow_le_pow_right (by norm_num) hp

/-- There is such a rounding. -/
theorem exists_nearest (p : Nat) (hp : 0 < p) : ∃ rnd, ToNearest p rnd := by
  classical
  refine ⟨fun x => if hx : x = 0 then 0 else (grid_near p x hx).choose * (2 : ℝ) ^ (grid_near p x hx).choose_spec.choose, ?_⟩
  intro x
  by_cases hx : x = 0
  · subst hx
    simp [zero_mem_floats]
  · simp only [dif_neg hx]
    obtain ⟨h1, -, h3⟩ := (grid_near p x hx).choose_spec.choose_spec
    exact ⟨⟨_, _, h1, rfl⟩, fun y hy => h3 y hy hp⟩

/-- `double` -/
noncomputable def binary64 : Rounding := (C71_nearest 53 (by norm_num) _ (exists_nearest 53 (by norm_num)).choose_spec).choose

theorem binary64_spec : ToNearest 53 binary64.rnd ∧ binary64.u = 2⁻¹ ^ 53 ∧ binary64.exactTo = 2 ^ 53 := by
  obtain ⟨h1, h2, h3⟩ := (C71_nearest 53 (by norm_num) _ (exists_nearest 53 (by norm_num)).choose_spec).choose_spec
  refine ⟨?_, h2, h3⟩
  rw [binary64, h1]
  exact (exists_nearest 53 (by norm_num)).choose_spec

/-- The effect of up to a million roundings of `double`s is less than a ten-thousand-millionth part. -/
theorem gamma64 (k : Nat) (hk : k ≤ 1000000) : k * binary64.u < 1 ∧ gamma binary64.u k ≤ 1 / 10 ^ 9 := by
  rw [binary64_spec.2.1]
  have hk' : (k : ℝ) ≤ 1000000 := by exact_mod_cast hk
  have h1 : (k : ℝ) * 2⁻¹ ^ 53 ≤ 1000000 * 2⁻¹ ^ 53 := mul_le_mul_of_nonneg_right hk' (by positivity)
  have h2 : (1000000 : ℝ) * 2⁻¹ ^ 53 ≤ 1 / 10 ^ 9 / 2 := by norm_num
  have h3 : (1 : ℝ) / 10 ^ 9 / 2 < 1 / 2 := by norm_num
  refine ⟨by linarith, ?_⟩
  unfold gamma
  rw [div_le_iff₀ (by linarith)]
  nlinarith

/-! ## Vectors -/

variable {r : Rounding} {n : Nat}

/-- The scalar product is accurate to `γₙ` of the sum of the absolute values of the terms. -/
theorem C71_scalar_product (a b : Vec n (Fl r)) (hu : n * r.u < 1) :
    |(dot a b).val - ∑ i, (a i).val * (b i).val| ≤ gamma r.u n * ∑ i, |(a i).val * (b i).val| := by
  have := (CloseV.dot_exact a b).bound hu
  rwa [dot_eq] at this

/-- The Euclidean norm is accurate to the relative error `γₙ₊₁`. -/
theorem C71_norm (a : Vec n (Fl r)) (hu : (n + 1 : Nat) * r.u < 1) :
    |(Vec.norm a).val - Real.sqrt (∑ i, (a i).val ^ 2)| ≤ gamma r.u (n + 1) * Real.sqrt (∑ i, (a i).val ^ 2) := by
  have := (CloseV.norm_exact a).bound hu
  rw [norm_real, dot_eq] at this
  simp only [pow_two]
  exact this

example (a : Vec 3 (Fl binary64)) : |(Vec.norm a).val - Real.sqrt (∑ i, (a i).val ^ 2)| ≤ 1 / 10 ^ 9 * Real.sqrt (∑ i, (a i).val ^ 2) :=
  (C71_norm a (gamma64 4 (by norm_num)).1).trans (mul_le_mul_of_nonneg_right (gamma64 4 (by norm_num)).2 (Real.sqrt_nonneg _))

/-! ## Lengths of edges and distances of cells -/

theorem ends_value {m : Mesh (Vec n (Fl r))} (e : Idx) : ends (m.mapV value) e = (value (ends m e).1, value (ends m e).2) := by
  unfold ends
  rw [Mesh.mapV_edges, Mesh.mapV_vertices]
  have h0 : ∀ o : Option (Vec n (Fl r)), (o.map value).getD 0 = value (o.getD 0) := by
    intro o; cases o <;> rfl
  cases m.edges[e]? with
  | none => rfl
  | some ed => simp only [Option.map_some, Option.getD_some, List.getElem?_map, h0]

theorem distance_close (a b : Vec n (Fl r)) : Close r (n + 2) (Vec.norm (value a - value b)) (Vec.norm (sub a b)) (Vec.norm (value a - value b)) := by
  have := (CloseV.sub_exact a b).norm
  rw [sub_eq (value a)] at this
  rwa [show n + 2 = 1 + n + 1 by omega]

/-- The lengths of all edges of every valid mesh are computed to the relative error `γₙ₊₂`, where `n` is the dimension of the space. -/
theorem C71_lengths (m : Mesh (Vec n (Fl r))) (bd : Idx → List Idx) (hv : ValidMesh m bd) (hu : (n + 2 : Nat) * r.u < 1) :
    ∃ ls, edgeMeasures m = .ok ls ∧ ls.length = m.edges.length ∧
      ∀ (e : Nat) ed A B, m.edges[e]? = some ed → m.vertices[ed.a]? = some A → m.vertices[ed.b]? = some B →
        ∃ l, ls[e]? = some l ∧ |l.val - Vec.norm (value A - value B)| ≤ gamma r.u (n + 2) * Vec.norm (value A - value B) := by
  refine ⟨(List.range m.edges.length).map fun e => Vec.norm (sub (ends m e).1 (ends m e).2), ?_, by simp, ?_⟩
  · apply forEach_ok
    intro e he
    rw [edgeMeasure, ends_ok hv (List.mem_range.mp he)]
    rfl
  · intro e ed A B he hA hB
    have hl := (List.getElem?_eq_some_iff.mp he).1
    refine ⟨Vec.norm (sub A B), ?_, (distance_close A B).bound hu⟩
    rw [List.getElem?_map, List.getElem?_range hl]
    simp [ends, he, hA, hB]

theorem sideCenter_exactly (g : GMesh n (Fl r)) (c : Idx) : sideCenter (exactly g) c = (sideCenter g c).bind fun p => .ok (value p) := by
  unfold sideCenter exactly
  simp only [Mesh.mapV_bCells, Mesh.mapV_cells]
  split <;> (cases h : Res.at' _ _ <;> rfl)

theorem innerCenter_exactly (g : GMesh n (Fl r)) (c : Idx) : innerCenter (exactly g) c = (innerCenter g c).bind fun p => .ok (value p) := by
  unfold innerCenter exactly
  simp only [Mesh.mapV_cells]
  cases h : Res.at' _ _ <;> rfl

theorem rel_forEach {α β γ : Type} {R : β → γ → Prop} {f : α → Res β} {g : α → Res γ} (h : ∀ a, (f a).Rel R (g a)) :
    ∀ l : List α, (forEach f l).Rel (List.Forall₂ R) (forEach g l) := by
  intro l
  induction l with
  | nil => exact List.Forall₂.nil
  | cons a l ih =>
    rw [forEach, forEach]
    have h1 := h a
    cases hf : f a <;> cases hg : g a <;> rw [hf, hg] at h1 <;> simp only [Res.Rel] at h1 <;> simp only [Res.bind]
    · cases h2 : forEach f l <;> cases h3 : forEach g l <;> rw [h2, h3] at ih <;> simp only [Res.Rel] at ih <;> simp only [Res.Rel]
      · exact List.Forall₂.cons h1 ih
      · exact ih
    · exact h1
    · trivial
    · trivial

/-- The distances between the centers of neighboring cells, whatever the centers and the boundary cells are: the same calls succeed as
with exact arithmetic, and the relative error is `γₙ₊₂`. -/
theorem C71_distances (g : GMesh n (Fl r)) (hu : (n + 2 : Nat) * r.u < 1) :
    (computeCellsDistance g).Rel (List.Forall₂ fun d d' => |d.val - d'| ≤ gamma r.u (n + 2) * d') (computeCellsDistance (exactly g)) := by
  have hn : (exactly g).mesh.numFaces = g.mesh.numFaces := Mesh.mapV_numFaces value g.mesh
  unfold computeCellsDistance
  rw [hn]
  apply rel_forEach
  intro i
  show ((g.mesh.faceConn i).bind _).Rel _ ((g.mesh.faceConn i).bind _)
  cases hc : g.mesh.faceConn i with
  | throw e => exact rfl
  | ub => trivial
  | diverge => trivial
  | ok c =>
    simp only [Res.bind]
    unfold cellsDistance
    have hd : ∀ a b : Vec n (Fl r), |(Vec.norm (sub a b)).val - Vec.norm (sub (value a) (value b))| ≤ gamma r.u (n + 2) * Vec.norm (sub (value a) (value b)) := by
      intro a b
      have := (distance_close a b).bound hu
      rwa [← sub_eq] at this
    have h0 : (Res.ok (0 : Fl r)).Rel (fun d d' => |d.val - d'| ≤ gamma r.u (n + 2) * d') (Res.ok 0) := by
      show |(0 : ℝ) - 0| ≤ _
      simp
    have hb : (exactly g).mesh.bCells = g.mesh.bCells := rfl
    rw [hb]
    simp only [innerCenter_exactly, sideCenter_exactly]
    split
    · split
      · cases innerCenter g c.left <;> cases innerCenter g c.right <;> first | exact hd _ _ | exact rfl | trivial
      · split
        · cases innerCenter g c.left <;> first | exact hd _ _ | exact rfl | trivial
        · split
          · cases innerCenter g c.right <;> first | exact hd _ _ | exact rfl | trivial
          · exact h0
    · cases sideCenter g c.left <;> cases sideCenter g c.right <;> first | exact hd _ _ | exact rfl | trivial

/-! ## Centers -/

theorem at_divAssign {F : Type} [Mul F] [Zero F] [One F] [Div F] (a : Vec n F) (c : F) (i : Fin n) : divAssign a (.value c) i = a i * (1 / c) := by
  rw [Vec.divAssign, Vec.smulAssign, assign_all]
  · rfl
  · intro a b i h; simp [Factor.get, h]

theorem at_addAssign {F : Type} [Add F] (a b : Vec n F) (i : Fin n) : addAssign a (.other b) i = a i + b i := by
  rw [Vec.addAssign, assign_all]
  · rfl
  · intro a b i h; simp [Operand.get, h]

/-- All coordinates are close. -/
def CloseP (r : Rounding) (k : Nat) (M : ℝ) (c : Vec n (Fl r)) (c' : Vec n ℝ) : Prop := ∀ i, Close r k M (c i) (c' i)

theorem sumAt_close {prev : List (Vec n (Fl r))} {prev' : List (Vec n ℝ)} {K : Nat} {M : ℝ} (hp : List.Forall₂ (CloseP r K M) prev prev') :
    ∀ (ss : List Idx) (j : Nat) (A : ℝ) (acc : Vec n (Fl r)) (acc' : Vec n ℝ), (∀ s ∈ ss, s < prev.length) → K ≤ j → CloseP r j A acc acc' →
      ∃ t t', sumAt prev ss acc = .ok t ∧ sumAt prev' ss acc' = .ok t' ∧ CloseP r (j + ss.length) (A + ss.length * M) t t' := by
  intro ss
  induction ss with
  | nil => intro j A acc acc' _ _ h; exact ⟨acc, acc', rfl, rfl, by simpa using h⟩
  | cons s ss ih =>
    intro j A acc acc' hs hj h
    have hl : s < prev.length := hs s List.mem_cons_self
    have hl' : s < prev'.length := by rw [← hp.length_eq]; exact hl
    have hc : CloseP r K M prev[s] prev'[s] := (List.forall₂_iff_get.mp hp).2 s hl hl'
    obtain ⟨t, t', h1, h2, h3⟩ := ih (j + 1) (A + M) (addAssign acc (.other prev[s])) (addAssign acc' (.other prev'[s]))
      (fun x hx => hs x (List.mem_cons_of_mem s hx)) (by omega) (by
        intro i
        rw [at_addAssign, at_addAssign]
        exact (h i).add ((hc i).mono hj (le_refl _)))
    have e1 : Res.at' prev s = .ok prev[s] := Res.at'_eq_ok.mpr (List.getElem?_eq_getElem hl)
    have e2 : Res.at' prev' s = .ok prev'[s] := Res.at'_eq_ok.mpr (List.getElem?_eq_getElem hl')
    refine ⟨t, t', by rw [sumAt, e1]; exact h1, by rw [sumAt, e2]; exact h2, ?_⟩
    intro i
    refine (h3 i).mono (by rw [List.length_cons]; omega) (le_of_eq ?_)
    rw [List.length_cons]; push_cast; ring

theorem inv_nat_close {c : Nat} (h0 : 0 < c) (hc : c ≤ r.exactTo) : Close r 1 (1 / (c : ℝ)) (1 / (c : Fl r)) (1 / (c : ℝ)) := by
  have h1 : Close r 0 1 (1 : Fl r) 1 := by
    have := Close.exact (1 : Fl r)
    rwa [show (1 : Fl r).val = 1 from rfl, abs_one] at this
  exact h1.div_exact (Close.nat hc) (by exact_mod_cast h0)

theorem elemCenter_close {m : Mesh (Vec n (Fl r))} {bd : Idx → List Idx} (hv : ValidMesh m bd) (hne : NoEmptyElement m) {N : Nat}
    (hN : ∀ d i, 2 ≤ d → d ≤ m.dim → i < m.numElems d → (directSubs m bd d i).length ≤ N) (hx : N ≤ r.exactTo) {d i : Nat} (h2 : 2 ≤ d)
    (hd : d ≤ m.dim) (hi : i < m.numElems d) {prev : List (Vec n (Fl r))} {prev' : List (Vec n ℝ)} {K : Nat} {M : ℝ}
    (hl : prev.length = m.numElems (d - 1)) (hp : List.Forall₂ (CloseP r K M) prev prev') :
    ∃ c c', elemCenter m d prev i = .ok c ∧ elemCenter (m.mapV value) d prev' i = .ok c' ∧ CloseP r (K + (N + 2)) M c c' := by
  have ha := Mesh.applyOne_direct hv (by omega : 1 ≤ d) hd hi
  have ha' : (m.mapV value).applyOne d (d - 1) i = .ok (directSubs m bd d i) := by rw [Mesh.mapV_applyOne]; exact ha
  have hr := hv.range d i (by omega) hd hi
  obtain ⟨t, t', s1, s2, s3⟩ := sumAt_close hp (directSubs m bd d i) K 0 0 0 (by rw [hl]; exact hr) (le_refl K) (by
    intro k hu
    constructor
    · show |(0 : ℝ) - 0| ≤ _
      simp
    · show |(0 : ℝ)| ≤ 0
      simp)
  have hpos : 0 < (directSubs m bd d i).length := List.length_pos_iff.mpr (Mesh.directSubs_ne_nil hv hne h2 hd hi)
  have hle := hN d i h2 hd hi
  refine ⟨divAssign t (.value ((directSubs m bd d i).length : Fl r)), divAssign t' (.value ((directSubs m bd d i).length : ℝ)), ?_, ?_, ?_⟩
  · rw [elemCenter, ha]; simp only [Res.bind, s1]
  · rw [elemCenter, ha']; simp only [Res.bind, s2]
  · intro k
    rw [at_divAssign, at_divAssign]
    refine ((s3 k).mul (inv_nat_close hpos (by omega))).mono (by omega) (le_of_eq ?_)
    have : ((directSubs m bd d i).length : ℝ) ≠ 0 := by exact_mod_cast hpos.ne'
    field_simp
    ring

theorem centersFrom_close {m : Mesh (Vec n (Fl r))} {bd : Idx → List Idx} (hv : ValidMesh m bd) (hne : NoEmptyElement m) {N : Nat}
    (hN : ∀ d i, 2 ≤ d → d ≤ m.dim → i < m.numElems d → (directSubs m bd d i).length ≤ N) (hx : N ≤ r.exactTo) {M : ℝ} :
    ∀ (k d K : Nat) (prev : List (Vec n (Fl r))) (prev' : List (Vec n ℝ)), 2 ≤ d → d + k = m.dim + 1 → prev.length = m.numElems (d - 1) →
      List.Forall₂ (CloseP r K M) prev prev' →
      ∃ cs cs', centersFrom m d prev k = .ok cs ∧ centersFrom (m.mapV value) d prev' k = .ok cs' ∧ cs.length = k ∧ cs'.length = k ∧
        ∀ (j : Nat) l l', cs[j]? = some l → cs'[j]? = some l' → List.Forall₂ (CloseP r (K + (j + 1) * (N + 2)) M) l l' := by
  intro k
  induction k with
  | zero => intro d K prev prev' _ _ _ _; exact ⟨[], [], rfl, rfl, rfl, rfl, by simp⟩
  | succ k ih =>
    intro d K prev prev' h2 hk hl hp
    have hex : ∀ i, i < m.numElems d → ∃ c c', elemCenter m d prev i = .ok c ∧ elemCenter (m.mapV value) d prev' i = .ok c' ∧
        CloseP r (K + (N + 2)) M c c' := fun i hi => elemCenter_close hv hne hN hx h2 (by omega) hi hl hp
    classical
    let f : Nat → Vec n (Fl r) := fun i => if hi : i < m.numElems d then (hex i hi).choose else 0
    let f' : Nat → Vec n ℝ := fun i => if hi : i < m.numElems d then (hex i hi).choose_spec.choose else 0
    have hf : ∀ i ∈ List.range (m.numElems d), elemCenter m d prev i = .ok (f i) := by
      intro i hi
      rw [List.mem_range] at hi
      simp only [f, dif_pos hi]
      exact (hex i hi).choose_spec.choose_spec.1
    have hf' : ∀ i ∈ List.range (m.numElems d), elemCenter (m.mapV value) d prev' i = .ok (f' i) := by
      intro i hi
      rw [List.mem_range] at hi
      simp only [f', dif_pos hi]
      exact (hex i hi).choose_spec.choose_spec.2.1
    have hff : List.Forall₂ (CloseP r (K + (N + 2)) M) ((List.range (m.numElems d)).map f) ((List.range (m.numElems d)).map f') := by
      rw [List.forall₂_map_left_iff, List.forall₂_map_right_iff, List.forall₂_same]
      intro i hi
      rw [List.mem_range] at hi
      simp only [f, f', dif_pos hi]
      exact (hex i hi).choose_spec.choose_spec.2.2
    obtain ⟨cs, cs', h3, h4, h5, h6, h7⟩ := ih (d + 1) (K + (N + 2)) _ _ (by omega) (by omega) (by simp) hff
    refine ⟨(List.range (m.numElems d)).map f :: cs, (List.range (m.numElems d)).map f' :: cs', ?_, ?_, by simp [h5], by simp [h6], ?_⟩
    · rw [centersFrom, forEach_ok hf]
      simp only [Res.bind, h3]
    · rw [centersFrom, Mesh.mapV_numElems, forEach_ok hf']
      simp only [Res.bind, h4]
    · intro j l l' hj hj'
      cases j with
      | zero =>
        simp only [List.getElem?_cons_zero, Option.some.injEq] at hj hj'
        rw [← hj, ← hj', zero_add, one_mul]
        exact hff
      | succ j =>
        rw [List.getElem?_cons_succ] at hj hj'
        rw [show K + (j + 1 + 1) * (N + 2) = K + (N + 2) + (j + 1) * (N + 2) by ring]
        exact h7 j l l' hj hj'

/-- The centers of all elements of every valid mesh: when the coordinates of the vertices are at most `M` and no element has more than `N`
direct sub-elements, the coordinates of the computed center of an element of dimension `d` differ from those of the exact center by at most
`γ M`, with `3 + (d - 1) (N + 2)` roundings. -/
theorem C71_centers (m : Mesh (Vec n (Fl r))) (bd : Idx → List Idx) (hv : ValidMesh m bd) (hne : NoEmptyElement m) (M : ℝ)
    (hMv : ∀ p ∈ m.vertices, ∀ i, |(p i).val| ≤ M) (N : Nat)
    (hN : ∀ d i, 2 ≤ d → d ≤ m.dim → i < m.numElems d → (directSubs m bd d i).length ≤ N) (hx : N ≤ r.exactTo)
    (hu : (3 + (m.dim - 1) * (N + 2) : Nat) * r.u < 1) :
    ∃ cs exact, computeCenters m = .ok cs ∧ AreCenters (m.mapV value) bd exact ∧
      ∀ d i c, 1 ≤ d → d ≤ m.dim → entry cs d i = some c → ∃ c', entry exact d i = some c' ∧
        ∀ k, |(c k).val - c' k| ≤ gamma r.u (3 + (d - 1) * (N + 2)) * M := by
  have hdim := hv.dim_ge
  have hbound : ∀ e : Nat, e < m.edges.length → ∀ i, |((ends m e).1 i).val| ≤ M ∧ |((ends m e).2 i).val| ≤ M := by
    intro e he i
    have hg := List.getElem?_eq_getElem he
    obtain ⟨A, B, hA, hB⟩ := exists_ends hv hg
    have : ends m e = (A, B) := by simp [ends, hg, hA, hB]
    rw [this]
    exact ⟨hMv A (List.mem_of_getElem? hA) i, hMv B (List.mem_of_getElem? hB) i⟩
  let f : Nat → Vec n (Fl r) := fun e => smul (add (ends m e).1 (ends m e).2) (1 / 2)
  let f' : Nat → Vec n ℝ := fun e => smul (add (value (ends m e).1) (value (ends m e).2)) (1 / 2)
  have he : forEach (edgeCenter m) (List.range m.edges.length) = .ok ((List.range m.edges.length).map f) := by
    apply forEach_ok
    intro e he
    rw [edgeCenter, ends_ok hv (List.mem_range.mp he)]
    rfl
  have he' : forEach (edgeCenter (m.mapV value)) (List.range m.edges.length) = .ok ((List.range m.edges.length).map f') := by
    apply forEach_ok
    intro e he
    rw [edgeCenter, ends_ok (hv.mapV value) (by rw [Mesh.mapV_edges]; exact List.mem_range.mp he), ends_value]
    rfl
  have hff : List.Forall₂ (CloseP r 3 M) ((List.range m.edges.length).map f) ((List.range m.edges.length).map f') := by
    rw [List.forall₂_map_left_iff, List.forall₂_map_right_iff, List.forall₂_same]
    intro e he i
    rw [List.mem_range] at he
    simp only [f, f']
    rw [at_smul, at_smul, at_add, at_add]
    obtain ⟨b1, b2⟩ := hbound e he i
    have h2 : Close r 1 (1 / 2) (1 / 2 : Fl r) (1 / 2) := by
      have := inv_nat_close (r := r) (c := 2) (by norm_num) (le_trans (by norm_num) r.small)
      exact this
    have := ((((Close.exact ((ends m e).1 i)).mono (le_refl 0) b1).add ((Close.exact ((ends m e).2 i)).mono (le_refl 0) b2)).mul h2)
    exact this.mono (by omega) (by linarith)
  obtain ⟨cs, cs', h3, h4, h5, h6, h7⟩ := centersFrom_close hv hne hN hx (M := M) (m.dim - 1) 2 3 _ _ (le_refl 2) (by omega)
    (by simp [edges_of_valid hv]) hff
  obtain ⟨exact, x1, x2⟩ := C38_centers (m.mapV value) bd (hv.mapV value) hne
  have hc : computeCenters (m.mapV value) = .ok ((List.range m.edges.length).map f' :: cs') := by
    rw [computeCenters, Mesh.mapV_edges, he']
    simp only [Res.bind]
    rw [Mesh.mapV_dim, h4]
  rw [hc] at x1
  obtain rfl := Res.ok.inj x1
  refine ⟨(List.range m.edges.length).map f :: cs, _, ?_, x2, ?_⟩
  · rw [computeCenters, he]
    simp only [Res.bind, h3]
  · intro d i c hd1 hd2 hc
    have key : ∀ (K : Nat) (l : List (Vec n (Fl r))) (l' : List (Vec n ℝ)), List.Forall₂ (CloseP r K M) l l' → l[i]? = some c →
        K * r.u < 1 → ∃ c', l'[i]? = some c' ∧ ∀ k, |(c k).val - c' k| ≤ gamma r.u K * M := by
      intro K l l' hl hi hK
      obtain ⟨hlt, hget⟩ := List.getElem?_eq_some_iff.mp hi
      have hlt' : i < l'.length := by rw [← hl.length_eq]; exact hlt
      refine ⟨l'[i], List.getElem?_eq_getElem hlt', fun k => ?_⟩
      have := (List.forall₂_iff_get.mp hl).2 i hlt hlt' k
      simp only [List.get_eq_getElem, hget] at this
      exact this.bound hK
    unfold entry at hc ⊢
    obtain ⟨j, rfl⟩ : ∃ j, d = j + 1 := ⟨d - 1, by omega⟩
    simp only [Nat.add_sub_cancel] at hc ⊢
    have hsmall : (3 + j * (N + 2) : Nat) * r.u < 1 := by
      refine Rounding.small_of_le ?_ hu
      have : j * (N + 2) ≤ (m.dim - 1) * (N + 2) := Nat.mul_le_mul_right _ (by omega)
      omega
    cases j with
    | zero =>
      simp only [List.getElem?_cons_zero, Option.bind_some] at hc ⊢
      rw [zero_mul] at hsmall ⊢
      exact key 3 _ _ hff hc hsmall
    | succ j =>
      rw [List.getElem?_cons_succ] at hc ⊢
      have hj : j < cs.length := by omega
      have hj' : j < cs'.length := by omega
      rw [List.getElem?_eq_getElem hj, Option.bind_some] at hc
      rw [List.getElem?_eq_getElem hj', Option.bind_some]
      exact key _ _ _ (h7 j _ _ (List.getElem?_eq_getElem hj) (List.getElem?_eq_getElem hj')) hc hsmall

/-! ## Areas in the plane -/

theorem triangle2_close (c a b : Vec 2 (Fl r)) {h : ℝ} (h1 : ∀ i, |(c i).val - (a i).val| ≤ h) (h2 : ∀ i, |(b i).val - (a i).val| ≤ h) :
    Close r 6 (h * h) (triangle2 c a b) (triangleArea2 (value a) (value b) (value c)) := by
  have d : ∀ x y : Fl r, |x.val - y.val| ≤ h → Close r 1 h (x - y) (x.val - y.val) := by
    intro x y hxy
    apply Close.rnd (k := 0)
    intro _
    simp [Rounding.amp, hxy]
  rw [← triangle2_eq]
  have h2' : Close r 1 (1 / 2) (1 / 2 : Fl r) (1 / 2) :=
    inv_nat_close (r := r) (c := 2) (by norm_num) (le_trans (by norm_num) r.small)
  have := h2'.mul ((((d _ _ (h1 0)).mul (d _ _ (h2 1))).sub ((d _ _ (h1 1)).mul (d _ _ (h2 0)))).abs)
  exact this.mono (by omega) (le_of_eq (by ring))

/-- The areas of the cells of every valid 2D mesh: when the coordinates of the points of cell `i` (its center, the ends of its edges) differ
by at most `h`, the computed area differs from the sum of the areas of the triangles over its `k` edges by at most `γ k h²`, with `k + 6`
roundings. -/
theorem C71_areas (g : GMesh 2 (Fl r)) (bd : Idx → List Idx) (hv : ValidMesh g.mesh bd) (h2 : g.mesh.dim = 2) :
    ∃ ls cs, computeMeasures2 g = .ok (ls, cs) ∧ cs.length = g.mesh.cells.length ∧
      ∀ (i : Nat) (h : ℝ), i < g.mesh.cells.length → ((bd i).length + 6 : Nat) * r.u < 1 →
        (∀ e ∈ bd i, ∀ k, |(g.cellCenter i k).val - ((ends g.mesh e).1 k).val| ≤ h ∧
          |((ends g.mesh e).2 k).val - ((ends g.mesh e).1 k).val| ≤ h) →
        ∃ S, cs[i]? = some S ∧
          |S.val - ((bd i).map fun e => triangleArea2 (value (ends g.mesh e).1) (value (ends g.mesh e).2) (value (g.cellCenter i))).sum| ≤
            gamma r.u ((bd i).length + 6) * ((bd i).length * h ^ 2) := by
  let f : Nat → Fl r := fun i => total ((bd i).map fun e => triangle2 (g.cellCenter i) (ends g.mesh e).1 (ends g.mesh e).2)
  have hls : edgeMeasures g.mesh = .ok ((List.range g.mesh.edges.length).map fun e => Vec.norm (sub (ends g.mesh e).1 (ends g.mesh e).2)) := by
    apply forEach_ok
    intro e he
    rw [edgeMeasure, ends_ok hv (List.mem_range.mp he)]
    rfl
  refine ⟨(List.range g.mesh.edges.length).map fun e => Vec.norm (sub (ends g.mesh e).1 (ends g.mesh e).2),
    (List.range g.mesh.cells.length).map f, ?_, by simp, ?_⟩
  · rw [computeMeasures2, hls]
    simp only [Res.bind]
    rw [forEach_ok (f := f)]
    intro i hi
    rw [List.mem_range] at hi
    have hc := List.getElem?_eq_getElem hi
    have hat : Res.at' g.mesh.cells i = .ok g.mesh.cells[i] := Res.at'_eq_ok.mpr hc
    rw [cellMeasure2, hat]
    simp only [Res.bind]
    have := cellWalk_ok hv hc (body := fun e => (edgeEnds g.mesh e).bind fun p => .ok [triangle2 (g.cellCenter i) p.1 p.2])
      (f := fun e => triangle2 (g.cellCenter i) (ends g.mesh e).1 (ends g.mesh e).2) (by
      intro e he
      have hlt := bd_lt hv hi e he
      rw [h2, edges_of_valid hv] at hlt
      rw [ends_ok hv hlt]
      simp only [Res.bind])
    simp only [Res.bind] at this
    rw [this]
  · intro i h hi hu hh
    refine ⟨f i, by rw [List.getElem?_map, List.getElem?_range hi]; rfl, ?_⟩
    have hl : List.Forall₂ (Close r 6 (h * h)) ((bd i).map fun e => triangle2 (g.cellCenter i) (ends g.mesh e).1 (ends g.mesh e).2)
        ((bd i).map fun e => triangleArea2 (value (ends g.mesh e).1) (value (ends g.mesh e).2) (value (g.cellCenter i))) := by
      rw [List.forall₂_map_left_iff, List.forall₂_map_right_iff, List.forall₂_same]
      intro e he
      exact triangle2_close _ _ _ (fun k => (hh e he k).1) (fun k => (hh e he k).2)
    have := Close.total hl
    rw [List.length_map, total_eq] at this
    have := (this.mono (by omega : _ ≤ (bd i).length + 6) (le_refl _)).bound hu
    rw [pow_two]
    exact this

/-- When the edges of the cell form a polygon and its stored center sees all of them from the same side, this is the accuracy of the area of
the polygon (the shoelace formula); the place of the center does not matter. -/
theorem C71_polygon (g : GMesh 2 (Fl r)) (bd : Idx → List Idx) (hv : ValidMesh g.mesh bd) (h2 : g.mesh.dim = 2) (i : Nat)
    (hi : i < g.mesh.cells.length) (vs : List Idx) (ps : List (Vec 2 (Fl r))) (hp : IsPolygon g.mesh.edges (bd i) vs)
    (hpos : PositionsOf g.mesh vs ps)
    (hs : (∀ p ∈ sidesOf (ps.map value), 0 ≤ turn (value (g.cellCenter i)) p.1 p.2) ∨
      (∀ p ∈ sidesOf (ps.map value), turn (value (g.cellCenter i)) p.1 p.2 ≤ 0))
    (h : ℝ) (hh : ∀ e ∈ bd i, ∀ k, |(g.cellCenter i k).val - ((ends g.mesh e).1 k).val| ≤ h ∧
      |((ends g.mesh e).2 k).val - ((ends g.mesh e).1 k).val| ≤ h) (hu : ((bd i).length + 6 : Nat) * r.u < 1) :
    ∃ ls cs S, computeMeasures2 g = .ok (ls, cs) ∧ cs[i]? = some S ∧
      |S.val - abs (shoelace (ps.map value))| ≤ gamma r.u ((bd i).length + 6) * ((bd i).length * h ^ 2) := by
  obtain ⟨ls, cs, h1, -, h3⟩ := C71_areas g bd hv h2
  obtain ⟨S, s1, s2⟩ := h3 i h hi hu hh
  refine ⟨ls, cs, S, h1, s1, ?_⟩
  have hpos' : PositionsOf (g.mesh.mapV value) vs (ps.map value) := by
    unfold PositionsOf at *
    rw [List.forall₂_map_right_iff]
    exact hpos.imp fun v p hvp => by rw [Mesh.mapV_vertices, List.getElem?_map, hvp]; rfl
  obtain ⟨ls', cs', e1, e2⟩ := C39_shoelace (exactly g) bd (hv.mapV value) h2 i hi vs (ps.map value) hp hpos' hs
  have e3 := C39_measures_2d (exactly g) bd (hv.mapV value) h2
  rw [e1] at e3
  have e4 := congrArg Prod.snd (Res.ok.inj e3)
  simp only at e4
  rw [e4, List.getElem?_map, List.getElem?_range (show i < (exactly g).mesh.cells.length from hi)] at e2
  have e5 := Option.some.inj e2
  have e6 : ((bd i).map fun e => triangleArea2 (value (ends g.mesh e).1) (value (ends g.mesh e).2) (value (g.cellCenter i))).sum =
      |shoelace (ps.map value)| := by
    rw [← e5]
    congr 1
    apply List.map_congr_left
    intro e _
    have : ends (exactly g).mesh e = (value (ends g.mesh e).1, value (ends g.mesh e).2) := ends_value e
    rw [this]
    rfl
  rw [← e6]
  exact s2

end GTMesh.Props
