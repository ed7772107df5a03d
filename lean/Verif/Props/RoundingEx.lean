import Verif.Props.RoundingNormals
import Verif.Props.Flux

/-! # C71: a mesh with floating point numbers -/

namespace GTMesh.Props
open GTMesh Spec Std' Vec Geo

/-- The mesh with the given numbers stored. -/
def stored (r : Rounding) {n : Nat} (g : GMesh n ℝ) : GMesh n (Fl r) :=
  { mesh := g.mesh.mapV fun p i => ⟨p i⟩, faceCenter := fun i k => ⟨g.faceCenter i k⟩, cellCenter := fun i k => ⟨g.cellCenter i k⟩,
    bCellCenter := fun i k => ⟨g.bCellCenter i k⟩ }

theorem exactly_stored (r : Rounding) {n : Nat} (g : GMesh n ℝ) : exactly (stored r g) = g := by
  have : (g.mesh.vertices.map fun p i => (⟨p i⟩ : Fl r)).map value = g.mesh.vertices := by
    rw [List.map_map]
    exact List.map_id _
  unfold exactly stored Mesh.mapV
  simp only [this]
  rfl

theorem faceEdges_stored (r : Rounding) (g : GMesh 3 ℝ) (f : Idx) :
    faceEdges g.mesh f = (faceEdges (stored r g).mesh f).map fun p => (value p.1, value p.2) := by
  rw [← faceEdges_exactly, exactly_stored]

theorem norm3_le {v : Vec 3 ℝ} {h : ℝ} (h0 : 0 ≤ h) (hh : v 0 ^ 2 + v 1 ^ 2 + v 2 ^ 2 ≤ h ^ 2) : Vec.norm v ≤ h := by
  rw [norm_real]
  apply Real.sqrt_le_iff.mpr
  refine ⟨h0, ?_⟩
  rw [dot3]
  nlinarith

theorem flat_le {u v w : Vec 3 ℝ} (h : dot u u * dot v v ≤ 16 * dot w w) :
    Vec.norm u * Vec.norm v ≤ (8 : Nat) * (1 / 2 * Vec.norm w) := by
  have hn : ∀ x : Vec 3 ℝ, 0 ≤ dot x x := fun x => by rw [dot3]; nlinarith [sq_nonneg (x 0), sq_nonneg (x 1), sq_nonneg (x 2)]
  have e : ((8 : Nat) : ℝ) * (1 / 2 * Vec.norm w) = Real.sqrt (16 * dot w w) := by
    rw [Real.sqrt_mul (by norm_num), norm_real, show (16 : ℝ) = 4 ^ 2 by norm_num, Real.sqrt_sq (by norm_num)]
    push_cast; ring
  rw [e, norm_real, norm_real, ← Real.sqrt_mul (hn u)]
  exact Real.sqrt_le_sqrt h

/-- The first of the two tetrahedra with `double`s: the volume is accurate to a millionth. -/
example : ∃ ls fs cs V, computeMeasures3 (stored binary64 tetsC) = .ok (ls, fs, cs) ∧ cs[0]? = some V ∧
    |V.val - ((twoTetsBd 0).map (pyramid tetsC (tetsC.cellCenter 0))).sum| ≤ 1 / 10 ^ 6 := by
  obtain ⟨ls, fs, cs, h1, -, h2⟩ := C71_volumes (stored binary64 tetsC) twoTetsBd (tets_valid.mapV _) rfl
    (by rw [exactly_stored]; exact tetsC_nonDegenerate)
  obtain ⟨hu, hg⟩ := gamma64 (192 * 8 + 76 + 3 + (twoTetsBd 0).length) (by simp [twoTetsBd])
  have key : ∀ f ∈ twoTetsBd 0, (∀ p ∈ faceEdges tets f, Vec.norm (p.1 - p.2) ≤ 2 ∧ Vec.norm (edgeMean tets f - p.1) ≤ 2) ∧
      (faceEdges tets f).length ≤ 3 ∧ ∀ p, (faceEdges tets f).head? = some p → Vec.norm (p.1 - tetsC.cellCenter 0) ≤ 2 ∧
        Vec.norm (p.1 - p.2) * Vec.norm (p.1 - edgeMean tets f) ≤ (8 : Nat) * triangleArea p.1 p.2 (edgeMean tets f) := by
    intro f hf
    have hmem : f = 0 ∨ f = 1 ∨ f = 2 ∨ f = 3 := by simpa [twoTetsBd] using hf
    rcases hmem with rfl | rfl | rfl | rfl
    · have hf : faceEdges tets 0 = [(tetPos 0, tetPos 1), (tetPos 1, tetPos 2), (tetPos 2, tetPos 0)] := rfl
      have hc : edgeMean tets 0 = ![1 / 3, 1 / 3, 0] := by
        rw [edgeMean, hf]
        funext k
        fin_cases k <;> simp [mean, tetPos] <;> norm_num
      rw [hf, hc]
      refine ⟨?_, by simp, ?_⟩
      · intro p hp
        simp only [List.mem_cons, List.not_mem_nil, or_false] at hp
        rcases hp with rfl | rfl | rfl <;> constructor <;> apply norm3_le (by norm_num) <;> simp [tetPos] <;> norm_num
      · intro p hp
        obtain rfl := Option.some.inj hp
        refine ⟨norm3_le (by norm_num) (by simp [tetPos, tetsC]; norm_num), flat_le ?_⟩
        rw [dot3, dot3, dot3]
        simp only [cross_apply]
        simp [tetPos]
        norm_num
    · have hf : faceEdges tets 1 = [(tetPos 0, tetPos 1), (tetPos 1, tetPos 3), (tetPos 0, tetPos 3)] := rfl
      have hc : edgeMean tets 1 = ![1 / 3, 0, 1 / 3] := by
        rw [edgeMean, hf]
        funext k
        fin_cases k <;> simp [mean, tetPos] <;> norm_num
      rw [hf, hc]
      refine ⟨?_, by simp, ?_⟩
      · intro p hp
        simp only [List.mem_cons, List.not_mem_nil, or_false] at hp
        rcases hp with rfl | rfl | rfl <;> constructor <;> apply norm3_le (by norm_num) <;> simp [tetPos] <;> norm_num
      · intro p hp
        obtain rfl := Option.some.inj hp
        refine ⟨norm3_le (by norm_num) (by simp [tetPos, tetsC]; norm_num), flat_le ?_⟩
        rw [dot3, dot3, dot3]
        simp only [cross_apply]
        simp [tetPos]
        norm_num
    · have hf : faceEdges tets 2 = [(tetPos 2, tetPos 0), (tetPos 0, tetPos 3), (tetPos 2, tetPos 3)] := rfl
      have hc : edgeMean tets 2 = ![0, 1 / 3, 1 / 3] := by
        rw [edgeMean, hf]
        funext k
        fin_cases k <;> simp [mean, tetPos] <;> norm_num
      rw [hf, hc]
      refine ⟨?_, by simp, ?_⟩
      · intro p hp
        simp only [List.mem_cons, List.not_mem_nil, or_false] at hp
        rcases hp with rfl | rfl | rfl <;> constructor <;> apply norm3_le (by norm_num) <;> simp [tetPos] <;> norm_num
      · intro p hp
        obtain rfl := Option.some.inj hp
        refine ⟨norm3_le (by norm_num) (by simp [tetPos, tetsC]; norm_num), flat_le ?_⟩
        rw [dot3, dot3, dot3]
        simp only [cross_apply]
        simp [tetPos]
        norm_num
    · have hf : faceEdges tets 3 = [(tetPos 1, tetPos 2), (tetPos 2, tetPos 3), (tetPos 1, tetPos 3)] := rfl
      have hc : edgeMean tets 3 = ![1 / 3, 1 / 3, 1 / 3] := by
        rw [edgeMean, hf]
        funext k
        fin_cases k <;> simp [mean, tetPos] <;> norm_num
      rw [hf, hc]
      refine ⟨?_, by simp, ?_⟩
      · intro p hp
        simp only [List.mem_cons, List.not_mem_nil, or_false] at hp
        rcases hp with rfl | rfl | rfl <;> constructor <;> apply norm3_le (by norm_num) <;> simp [tetPos] <;> norm_num
      · intro p hp
        obtain rfl := Option.some.inj hp
        refine ⟨norm3_le (by norm_num) (by simp [tetPos, tetsC]; norm_num), flat_le ?_⟩
        rw [dot3, dot3, dot3]
        simp only [cross_apply]
        simp [tetPos]
        norm_num
  obtain ⟨V, v1, v2⟩ := h2 0 2 8 3 (by decide) (by norm_num) (by
    intro f hf
    obtain ⟨k1, k2, k3⟩ := key f hf
    rw [show tets = tetsC.mesh from rfl, faceEdges_stored binary64 tetsC f] at k1 k2 k3
    refine ⟨?_, by simpa using k2, ?_⟩
    · intro p hp
      exact k1 _ (List.mem_map_of_mem hp)
    · intro p hp
      exact k3 (value p.1, value p.2) (by rw [List.head?_map, hp]; rfl)) hu
  refine ⟨ls, fs, cs, V, h1, v1, ?_⟩
  rw [exactly_stored] at v2
  refine v2.trans (le_trans (mul_le_mul_of_nonneg_right hg (by positivity)) ?_)
  simp only [twoTetsBd, List.length_cons, List.length_nil]
  norm_num

/-- The faces. -/
example : ∃ ls fs cs, computeMeasures3 (stored binary64 tetsC) = .ok (ls, fs, cs) ∧ fs.length = 7 := by
  obtain ⟨ls, fs, cs, h1, h2, -⟩ := C71_face_areas (stored binary64 tetsC) twoTetsBd (tets_valid.mapV _) rfl (by
      intro f hf h
      have := tetsC_nonDegenerate.nonempty f hf
      rw [faceEdges_stored binary64 tetsC f, h] at this
      exact this rfl) (by
      intro e he
      have := tetsC_nonDegenerate.edges e he
      rw [← exactly_stored binary64 tetsC, show ends (exactly (stored binary64 tetsC)).mesh e = _ from ends_value e] at this
      exact this)
  exact ⟨ls, fs, cs, h1, h2⟩

/-- The square with `double`s: lengths, centers, areas and distances. -/
example : ∃ ls, edgeMeasures (stored binary64 squareG).mesh = .ok ls ∧ ls.length = 5 := by
  obtain ⟨ls, h1, h2, -⟩ := C71_lengths (stored binary64 squareG).mesh twoTrianglesBd (square_valid.mapV _) (gamma64 (2 + 2) (by norm_num)).1
  exact ⟨ls, h1, h2⟩

example : ∃ cs exact, computeCenters (stored binary64 squareG).mesh = .ok cs ∧ AreCenters square twoTrianglesBd exact ∧
    ∀ d i c, 1 ≤ d → d ≤ 2 → entry cs d i = some c → ∃ c', entry exact d i = some c' ∧ ∀ k, |(c k).val - c' k| ≤ 1 / 10 ^ 9 := by
  obtain ⟨cs, ex, h1, h2, h3⟩ := C71_centers (stored binary64 squareG).mesh twoTrianglesBd (square_valid.mapV _) (by
      intro d i f a b h
      exact square_noEmpty d i f a b h) 1 (by
      intro p hp i
      obtain ⟨q, hq, rfl⟩ := List.mem_map.mp hp
      simp [squareG, square, Mesh.mapV, twoTriangles] at hq
      show |q i| ≤ 1
      rcases hq with rfl | rfl | rfl | rfl <;> fin_cases i <;> simp [squarePos]) 3 (by
      intro d i d1 d2 hi
      have d2 : d ≤ 2 := d2
      obtain rfl : d = 2 := by omega
      have hi : i < 2 := hi
      interval_cases i <;> simp [directSubs, twoTrianglesBd, stored, squareG, square, Mesh.mapV, twoTriangles]) (by
      rw [binary64_spec.2.2]; norm_num) (gamma64 _ (by decide)).1
  refine ⟨cs, ex, h1, ?_, ?_⟩
  · have e : (stored binary64 squareG).mesh.mapV value = square := congrArg GMesh.mesh (exactly_stored binary64 squareG)
    rwa [e] at h2
  · intro d i c d1 d2 hc
    obtain ⟨c', c1, c2⟩ := h3 d i c d1 d2 hc
    refine ⟨c', c1, fun k => (c2 k).trans ?_⟩
    rw [mul_one]
    exact (gamma64 _ (by
      have : (d - 1) * (3 + 2) ≤ 1 * 5 := Nat.mul_le_mul_right _ (by omega)
      omega)).2

example : ∃ ls cs S, computeMeasures2 (stored binary64 squareG) = .ok (ls, cs) ∧ cs[0]? = some S ∧
    |S.val - ((twoTrianglesBd 0).map fun e => triangleArea2 (ends square e).1 (ends square e).2 (squareG.cellCenter 0)).sum| ≤ 1 / 10 ^ 8 := by
  obtain ⟨ls, cs, h1, -, h2⟩ := C71_areas (stored binary64 squareG) twoTrianglesBd (square_valid.mapV _) rfl
  obtain ⟨hu, hg⟩ := gamma64 ((twoTrianglesBd 0).length + 6) (by simp [twoTrianglesBd])
  have he : ∀ e, ends square e = (value (ends (stored binary64 squareG).mesh e).1, value (ends (stored binary64 squareG).mesh e).2) := by
    intro e
    rw [← ends_value]
    exact (congrArg (fun g => ends (GMesh.mesh g) e) (exactly_stored binary64 squareG)).symm
  have key : ∀ e ∈ twoTrianglesBd 0, ∀ k, |squareG.cellCenter 0 k - (ends square e).1 k| ≤ 1 ∧ |(ends square e).2 k - (ends square e).1 k| ≤ 1 := by
    intro e he k
    simp [twoTrianglesBd] at he
    rcases he with rfl | rfl | rfl <;> fin_cases k <;> simp [ends, square, Mesh.mapV, twoTriangles, squarePos, squareG] <;> norm_num [abs_le]
  obtain ⟨S, s1, s2⟩ := h2 0 1 (by decide) hu (by
    intro e hm k
    have := key e hm k
    rw [he e] at this
    exact this)
  refine ⟨ls, cs, S, h1, s1, ?_⟩
  simp only [he]
  refine s2.trans (le_trans (mul_le_mul_of_nonneg_right hg (by positivity)) ?_)
  simp only [twoTrianglesBd, List.length_cons, List.length_nil]
  norm_num

/-- The normals of the square. -/
example : ∃ ns, computeFaceNormals2 (stored binary64 squareG).mesh = .ok ns ∧ ns.length = 5 := by
  obtain ⟨ns, h1, h2, -⟩ := C71_normals_2d (stored binary64 squareG).mesh twoTrianglesBd (square_valid.mapV _) (by
    intro e he
    have := square_edges e he
    rw [← exactly_stored binary64 squareG, show ends (exactly (stored binary64 squareG)).mesh e = _ from ends_value e] at this
    exact this) (gamma64 11 (by norm_num)).1
  exact ⟨ns, h1, h2⟩

/-- The normal of the first face of the tetrahedra. -/
example : ∃ ns ν ν', computeFaceNormals3 (stored binary64 tetsC) = .ok ns ∧ ns[0]? = some ν ∧
    IsNormal3 tetsC { left := 0, nextL := 1 } (edgeMean tets 0) (tetPos 0) (tetPos 1) ν' ∧ Vec.norm (value ν - ν') ≤ 1 / 10 ^ 9 := by
  obtain ⟨ns, h1, h2, h3⟩ := C71_normals_3d (stored binary64 tetsC) twoTetsBd (tets_valid.mapV _) rfl (by
    intro i f hf
    rw [exactly_stored]
    exact tetsC_good i f hf)
  have hlen : ns.length = 7 := h2
  have hν : ns[0]? = some (ns[0]'(by omega)) := List.getElem?_eq_getElem (by omega)
  have hf : faceEdges tets 0 = [(tetPos 0, tetPos 1), (tetPos 1, tetPos 2), (tetPos 2, tetPos 0)] := rfl
  have hc : edgeMean tets 0 = ![1 / 3, 1 / 3, 0] := by
    rw [edgeMean, hf]
    funext k
    fin_cases k <;> simp [mean, tetPos] <;> norm_num
  have hc' : value ((stored binary64 tetsC).faceCenter 0) = ![1 / 3, 1 / 3, 0] := hc
  obtain ⟨hu, hg⟩ := gamma64 (9 * 8 * (192 * 8 + 26) + 11) (by norm_num)
  obtain ⟨ν', n1, n2⟩ := h3 0 { index := 0, sub := [0, 1, 2], conn := { left := 0, nextL := 1 } } _ (fun k => ⟨tetPos 0 k⟩) (fun k => ⟨tetPos 1 k⟩)
    8 8 rfl hν rfl (by norm_num) (by norm_num) (by
      rw [hc']
      apply flat_le
      rw [dot3, dot3, dot3]
      simp only [cross_apply]
      simp [tetPos, value]
      norm_num) (by
      intro q hq _
      rw [hq (by decide +kernel), hc']
      have e1 : value ((stored binary64 tetsC).cellCenter 0) = ![1 / 4, 1 / 4, 1 / 4] := by
        funext k
        show tetsC.cellCenter 0 k = _
        rw [tetsC]; simp
      rw [e1]
      have e2 : cross (value (fun k => (⟨tetPos 1 k⟩ : Fl binary64)) - value (fun k => (⟨tetPos 0 k⟩ : Fl binary64)))
          (![1 / 3, 1 / 3, 0] - value (fun k => (⟨tetPos 0 k⟩ : Fl binary64))) = ![0, 0, 1 / 3] := by
        apply ext3 <;> simp only [cross_apply] <;> simp [tetPos, value]
      have e3 : Vec.norm (![0, 0, 1 / 3] : Vec 3 ℝ) = 1 / 3 := by
        rw [norm_real, dot3]
        simp only [Matrix.cons_val_zero, Matrix.cons_val_one, Matrix.cons_val]
        rw [show (0 : ℝ) * 0 + 0 * 0 + 1 / 3 * (1 / 3) = (1 / 3) ^ 2 by norm_num, Real.sqrt_sq (by norm_num)]
      have e4 : planeDistance ![1 / 4, 1 / 4, 1 / 4] (value fun k => (⟨tetPos 0 k⟩ : Fl binary64)) (value fun k => (⟨tetPos 1 k⟩ : Fl binary64)) ![1 / 3, 1 / 3, 0] =
          1 / 4 := by
        rw [planeDistance, e2, e3, dot3]
        simp [tetPos, value]
      rw [e4]
      apply norm3_le (by norm_num)
      simp
      norm_num) hu
  refine ⟨ns, _, ν', h1, hν, ?_, n2.trans hg⟩
  rw [exactly_stored] at n1
  exact n1

end GTMesh.Props
