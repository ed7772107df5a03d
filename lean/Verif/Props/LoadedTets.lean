import Verif.Props.LoadedGeometry

/-! # C70 for tetrahedra -/

namespace GTMesh.Props
open Spec Std' Vec Geo
open Vtk (vec2)

/-- Six times the signed volume of the tetrahedron `ABCD`. -/
def det4 (A B C D : Vec 3 ℝ) : ℝ := dot (D - A) (cross (B - A) (C - A))

/-- The triangle `PQR` and its unit normal. -/
noncomputable def tri (P Q R : Vec 3 ℝ) : List (Vec 3 ℝ) × Vec 3 ℝ :=
  ([P, Q, R], (Vec.norm (cross (Q - P) (R - P)))⁻¹ • cross (Q - P) (R - P))

theorem det4_eq (A B C D : Vec 3 ℝ) : det4 A B C D = (D 0 - A 0) * ((B 1 - A 1) * (C 2 - A 2) - (B 2 - A 2) * (C 1 - A 1)) +
    (D 1 - A 1) * ((B 2 - A 2) * (C 0 - A 0) - (B 0 - A 0) * (C 2 - A 2)) + (D 2 - A 2) * ((B 0 - A 0) * (C 1 - A 1) - (B 1 - A 1) * (C 0 - A 0)) := by
  have h := cross_apply (B - A) (C - A)
  simp only [det4, dot3, h, Pi.sub_apply]

theorem normal_pos {N : Vec 3 ℝ} (h : N ≠ 0) : 0 < (Vec.norm N)⁻¹ ∧ 0 < dot N N ∧ Vec.norm ((Vec.norm N)⁻¹ • N) = 1 := by
  have hp := norm_pos h
  refine ⟨inv_pos.mpr hp, ?_, ?_⟩
  · rw [← norm_sq]; exact mul_pos hp hp
  · rw [norm_smul, abs_of_pos (inv_pos.mpr hp), inv_mul_cancel₀ hp.ne']

theorem mem_sides3 {P Q R : Vec 3 ℝ} {p : Vec 3 ℝ × Vec 3 ℝ} (h : p ∈ sidesOf [P, Q, R]) : p = (P, Q) ∨ p = (Q, R) ∨ p = (R, P) := by
  simpa [sidesOf, List.rotate] using h

theorem tri_convex {P Q R : Vec 3 ℝ} (hN : cross (Q - P) (R - P) ≠ 0) : ∀ p ∈ sidesOf (tri P Q R).1,
    (∀ q ∈ (tri P Q R).1, dot (q - p.1) (tri P Q R).2 = 0 ∧ 0 ≤ dot (cross (p.1 - q) (p.2 - q)) (tri P Q R).2) ∧
      ∃ q ∈ (tri P Q R).1, 0 < dot (cross (p.1 - q) (p.2 - q)) (tri P Q R).2 := by
  obtain ⟨h1, h2, _⟩ := normal_pos hN
  set N := cross (Q - P) (R - P) with hNd
  have hN3 := cross_apply (Q - P) (R - P)
  have hpos := mul_pos h1 h2
  have z : ∀ x : Vec 3 ℝ, dot x N = 0 → dot x (tri P Q R).2 = 0 := by
    intro x hx; rw [tri, dot_smul_right, ← hNd, hx, mul_zero]
  have zz : ∀ x : Vec 3 ℝ, x = 0 → 0 ≤ dot x (tri P Q R).2 := by
    rintro x rfl; rw [dot_comm, dot_zero]
  have nn : ∀ x : Vec 3 ℝ, x = N → 0 < dot x (tri P Q R).2 := by
    rintro x rfl; rw [tri, dot_smul_right, ← hNd]; exact hpos
  have flat : ∀ x ∈ [P, Q, R], ∀ y ∈ [P, Q, R], dot (x - y) N = 0 := by
    intro x hx y hy
    simp only [List.mem_cons, List.not_mem_nil, or_false] at hx hy
    rcases hx with rfl | rfl | rfl <;> rcases hy with rfl | rfl | rfl <;> simp only [hNd, dot3, hN3, Pi.sub_apply] <;> ring
  have cz : ∀ a b : Vec 3 ℝ, cross (a - a) (b - a) = 0 := by
    intro a b
    have e := cross_apply (a - a) (b - a)
    apply ext3 <;> simp only [e, Pi.sub_apply, Pi.zero_apply] <;> ring
  have cz' : ∀ a b : Vec 3 ℝ, cross (a - b) (b - b) = 0 := by
    intro a b
    have e := cross_apply (a - b) (b - b)
    apply ext3 <;> simp only [e, Pi.sub_apply, Pi.zero_apply] <;> ring
  have c1 : cross (P - R) (Q - R) = N := by
    have e := cross_apply (P - R) (Q - R)
    apply ext3 <;> simp only [hNd, hN3, e, Pi.sub_apply] <;> ring
  have c2 : cross (R - Q) (P - Q) = N := by
    have e := cross_apply (R - Q) (P - Q)
    apply ext3 <;> simp only [hNd, hN3, e, Pi.sub_apply] <;> ring
  have mem : ∀ q ∈ (tri P Q R).1, q = P ∨ q = Q ∨ q = R := by
    intro q hq
    simpa [tri] using hq
  intro p hp
  have hpl := (sidesOf_mem hp).1
  rcases mem_sides3 hp with rfl | rfl | rfl
  · refine ⟨fun q hq => ⟨z _ (flat q hq _ hpl), ?_⟩, R, by simp [tri], nn _ c1⟩
    rcases mem q hq with rfl | rfl | rfl
    · exact zz _ (cz _ _)
    · exact zz _ (cz' _ _)
    · exact (nn _ c1).le
  · refine ⟨fun q hq => ⟨z _ (flat q hq _ hpl), ?_⟩, P, by simp [tri], nn _ rfl⟩
    rcases mem q hq with rfl | rfl | rfl
    · exact (nn _ rfl).le
    · exact zz _ (cz _ _)
    · exact zz _ (cz' _ _)
  · refine ⟨fun q hq => ⟨z _ (flat q hq _ hpl), ?_⟩, Q, by simp [tri], nn _ c2⟩
    rcases mem q hq with rfl | rfl | rfl
    · exact zz _ (cz' _ _)
    · exact (nn _ c2).le
    · exact zz _ (cz _ _)

theorem cross_ne_of_det {P Q R S : Vec 3 ℝ} (h : det4 P Q R S ≠ 0) : cross (Q - P) (R - P) ≠ 0 := by
  intro h0
  apply h
  rw [det4, h0, dot_zero]

theorem tri_dot (P Q R q q' : Vec 3 ℝ) : dot (q' - q) (tri P Q R).2 = (Vec.norm (cross (Q - P) (R - P)))⁻¹ * dot (q' - q) (cross (Q - P) (R - P)) := by
  rw [tri, dot_smul_right]

/-- Triangles with their common vertices behind them, closed: a convex solid. -/
theorem solid_of (L : List (Vec 3 ℝ × Vec 3 ℝ × Vec 3 ℝ × Vec 3 ℝ)) (h : ∀ x ∈ L, det4 x.1 x.2.1 x.2.2.1 x.2.2.2 < 0)
    (hm : ∀ x ∈ L, ∀ y ∈ L, ∀ q ∈ [y.1, y.2.1, y.2.2.1], q ∈ [x.1, x.2.1, x.2.2.1, x.2.2.2])
    (hs : ∀ x ∈ L, ∃ y ∈ L, x.2.2.2 ∈ [y.1, y.2.1, y.2.2.1])
    (hc : ((L.map fun x => tri x.1 x.2.1 x.2.2.1).flatMap fun x => sidesOf x.1).Perm
      (((L.map fun x => tri x.1 x.2.1 x.2.2.1).flatMap fun x => sidesOf x.1).map Prod.swap)) :
    ConvexSolid (L.map fun x => tri x.1 x.2.1 x.2.2.1) := by
  have plane : ∀ (P Q R S : Vec 3 ℝ), ∀ q ∈ [P, Q, R], ∀ q' ∈ [P, Q, R, S], (q' ∈ [P, Q, R] ∧ dot (q' - q) (cross (Q - P) (R - P)) = 0) ∨
      (q' = S ∧ dot (q' - q) (cross (Q - P) (R - P)) = det4 P Q R S) := by
    intro P Q R S q hq q' hq'
    have e := cross_apply (Q - P) (R - P)
    simp only [List.mem_cons, List.not_mem_nil, or_false] at hq hq'
    rcases hq' with rfl | rfl | rfl | rfl
    · refine .inl ⟨by simp, ?_⟩
      rcases hq with rfl | rfl | rfl <;> simp only [dot3, e, Pi.sub_apply] <;> ring
    · refine .inl ⟨by simp, ?_⟩
      rcases hq with rfl | rfl | rfl <;> simp only [dot3, e, Pi.sub_apply] <;> ring
    · refine .inl ⟨by simp, ?_⟩
      rcases hq with rfl | rfl | rfl <;> simp only [dot3, e, Pi.sub_apply] <;> ring
    · refine .inr ⟨rfl, ?_⟩
      rw [det4_eq]
      rcases hq with rfl | rfl | rfl <;> simp only [dot3, e, Pi.sub_apply] <;> ring
  refine ⟨?_, ?_, ?_, ?_, ?_, hc⟩
  · intro x hx
    obtain ⟨x, hxL, rfl⟩ := List.mem_map.mp hx; clear hx; rename x ∈ L => hx
    exact (normal_pos (cross_ne_of_det (h x hx).ne)).2.2
  · intro x hx p hp q hq
    obtain ⟨x, hxL, rfl⟩ := List.mem_map.mp hx; clear hx; rename x ∈ L => hx
    exact (tri_convex (cross_ne_of_det (h x hx).ne) p hp).1 q hq
  · intro x hx p hp
    obtain ⟨x, hxL, rfl⟩ := List.mem_map.mp hx; clear hx; rename x ∈ L => hx
    exact (tri_convex (cross_ne_of_det (h x hx).ne) p hp).2
  · intro x hx y hy q hq q' hq'
    obtain ⟨x, hxL, rfl⟩ := List.mem_map.mp hx; clear hx; rename x ∈ L => hx
    obtain ⟨y, hyL, rfl⟩ := List.mem_map.mp hy; clear hy; rename y ∈ L => hy
    have hn := (normal_pos (cross_ne_of_det (h x hx).ne)).1
    rw [tri_dot]
    rcases plane x.1 x.2.1 x.2.2.1 x.2.2.2 q hq q' (hm x hx y hy q' hq') with ⟨_, h0⟩ | ⟨_, h0⟩
    · rw [h0, mul_zero]
    · rw [h0]; exact (mul_neg_of_pos_of_neg hn (h x hx)).le
  · intro x hx q hq
    obtain ⟨x, hxL, rfl⟩ := List.mem_map.mp hx; clear hx; rename x ∈ L => hx
    have hn := (normal_pos (cross_ne_of_det (h x hx).ne)).1
    obtain ⟨y, hy, hq'⟩ := hs x hx
    refine ⟨_, List.mem_map.mpr ⟨y, hy, rfl⟩, _, hq', ?_⟩
    rw [tri_dot]
    have : dot (x.2.2.2 - q) (cross (x.2.1 - x.1) (x.2.2.1 - x.1)) = det4 x.1 x.2.1 x.2.2.1 x.2.2.2 := by
      have e := cross_apply (x.2.1 - x.1) (x.2.2.1 - x.1)
      rw [det4_eq]
      simp only [tri, List.mem_cons, List.not_mem_nil, or_false] at hq
      rcases hq with rfl | rfl | rfl <;> simp only [dot3, e, Pi.sub_apply] <;> ring
    rw [this]
    exact mul_neg_of_pos_of_neg hn (h x hx)

/-- The faces of the tetrahedron `ABCD`, in the order of the VTK format, seen from the outside. -/
noncomputable def tetFaces (A B C D : Vec 3 ℝ) : List (List (Vec 3 ℝ) × Vec 3 ℝ) :=
  if 0 < det4 A B C D then [tri A C B, tri A B D, tri B C D, tri C A D] else [tri A B C, tri A D B, tri B D C, tri C D A]

theorem tetFaces_convex {A B C D : Vec 3 ℝ} (h : det4 A B C D ≠ 0) : ConvexSolid (tetFaces A B C D) := by
  have pos : ∃ P : Nat → Vec 3 ℝ, P 0 = A ∧ P 1 = B ∧ P 2 = C ∧ P 3 = D := ⟨fun i => [A, B, C, D].getD i 0, rfl, rfl, rfl, rfl⟩
  obtain ⟨P, p0, p1, p2, p3⟩ := pos
  have perm : ∀ (l : List (Nat × Nat × Nat)), (l.flatMap fun x => sidesOf [x.1, x.2.1, x.2.2]).Perm
      ((l.flatMap fun x => sidesOf [x.1, x.2.1, x.2.2]).map Prod.swap) →
      ((l.map fun x => tri (P x.1) (P x.2.1) (P x.2.2)).flatMap fun x => sidesOf x.1).Perm
      (((l.map fun x => tri (P x.1) (P x.2.1) (P x.2.2)).flatMap fun x => sidesOf x.1).map Prod.swap) := by
    intro l hl
    have e : ((l.map fun x => tri (P x.1) (P x.2.1) (P x.2.2)).flatMap fun x => sidesOf x.1) =
        (l.flatMap fun x => sidesOf [x.1, x.2.1, x.2.2]).map fun p => (P p.1, P p.2) := by
      rw [List.map_flatMap, List.flatMap_map]
      congr 1
    rw [e, List.map_map]
    have := hl.map fun p => (P p.1, P p.2)
    rw [List.map_map] at this
    exact this
  have d1 : det4 A C B D = -det4 A B C D := by rw [det4_eq, det4_eq]; ring
  have d2 : det4 A B D C = -det4 A B C D := by rw [det4_eq, det4_eq]; ring
  have d3 : det4 B C D A = -det4 A B C D := by rw [det4_eq, det4_eq]; ring
  have d4 : det4 C A D B = -det4 A B C D := by rw [det4_eq, det4_eq]; ring
  have d5 : det4 A D B C = det4 A B C D := by rw [det4_eq, det4_eq]; ring
  have d6 : det4 B D C A = det4 A B C D := by rw [det4_eq, det4_eq]; ring
  have d7 : det4 C D A B = det4 A B C D := by rw [det4_eq, det4_eq]; ring
  unfold tetFaces
  split
  · rename_i hp
    refine solid_of [(A, C, B, D), (A, B, D, C), (B, C, D, A), (C, A, D, B)] ?_ ?_ ?_ ?_
    · simp [d1, d2, d3, d4, hp]
    · simp
    · simp
    · have := perm [(0, 2, 1), (0, 1, 3), (1, 2, 3), (2, 0, 3)] (by decide)
      simpa only [List.map_cons, List.map_nil, p0, p1, p2, p3] using this
  · rename_i hp
    have hp : det4 A B C D < 0 := lt_of_le_of_ne (not_lt.mp hp) h
    refine solid_of [(A, B, C, D), (A, D, B, C), (B, D, C, A), (C, D, A, B)] ?_ ?_ ?_ ?_
    · simp [d5, d6, d7, hp]
    · simp
    · simp
    · have := perm [(0, 1, 2), (0, 3, 1), (1, 3, 2), (2, 3, 0)] (by decide)
      simpa only [List.map_cons, List.map_nil, p0, p1, p2, p3] using this

theorem tri_area (P Q R : Vec 3 ℝ) : vectorArea (tri P Q R).1 = (1 / 2 : ℝ) • cross (Q - P) (R - P) := by
  have e0 := cross_apply (Q - P) (R - P)
  have e1 := cross_apply P Q
  have e2 := cross_apply Q R
  have e3 := cross_apply R P
  have hs : sidesOf [P, Q, R] = [(P, Q), (Q, R), (R, P)] := rfl
  simp only [vectorArea, tri, hs, List.map_cons, List.map_nil, List.sum_cons, List.sum_nil, add_zero]
  congr 1
  apply ext3 <;> simp only [Pi.add_apply, e0, e1, e2, e3, Pi.sub_apply] <;> ring

theorem tetFaces_volume {A B C D : Vec 3 ℝ} : solidVolume (tetFaces A B C D) = |det4 A B C D| / 6 := by
  have ar : ∀ P Q R : Vec 3 ℝ, dot ((tri P Q R).1.headD 0) (vectorArea (tri P Q R).1) = 1 / 2 * dot P (cross (Q - P) (R - P)) := by
    intro P Q R
    rw [tri_area, dot_smul_right]; rfl
  unfold tetFaces
  split
  · rename_i hp
    rw [abs_of_pos hp]
    have e1 := cross_apply (C - A) (B - A)
    have e2 := cross_apply (B - A) (D - A)
    have e3 := cross_apply (C - B) (D - B)
    have e4 := cross_apply (A - C) (D - C)
    rw [det4_eq]
    simp only [solidVolume, List.map_cons, List.map_nil, List.sum_cons, List.sum_nil, ar]
    simp only [dot3, e1, e2, e3, e4, Pi.sub_apply]
    ring
  · rename_i hp
    rw [abs_of_nonpos (not_lt.mp hp)]
    have e1 := cross_apply (B - A) (C - A)
    have e2 := cross_apply (D - A) (B - A)
    have e3 := cross_apply (D - B) (C - B)
    have e4 := cross_apply (D - C) (A - C)
    rw [det4_eq]
    simp only [solidVolume, List.map_cons, List.map_nil, List.sum_cons, List.sum_nil, ar]
    simp only [dot3, e1, e2, e3, e4, Pi.sub_apply]
    ring

theorem tetFaces_mean {A B C D : Vec 3 ℝ} : mean ((tetFaces A B C D).map fun x => mean x.1) = mean [A, B, C, D] := by
  unfold tetFaces
  split <;> funext k <;> simp [mean, tri] <;> ring

/-- The cell of the file with the four vertices is the tetrahedron. -/
theorem tetFaces_drawn {verts : List (ℝ × ℝ × ℝ)} {a b c d : Nat} {A B C D : Vec 3 ℝ} (hA : at3 verts a = some A) (hB : at3 verts b = some B)
    (hC : at3 verts c = some C) (hD : at3 verts d = some D) :
    List.Forall₂ (fun p x => Drawn (at3 verts) p x.1) (Vtk.facePolygons [a, b, c, d]) (tetFaces A B C D) := by
  have hf : Vtk.facePolygons [a, b, c, d] = [[a, b, c], [a, b, d], [b, c, d], [c, a, d]] := rfl
  have same : ∀ {p q r : Nat} {P Q R : Vec 3 ℝ}, at3 verts p = some P → at3 verts q = some Q → at3 verts r = some R →
      Drawn (at3 verts) [p, q, r] (tri P Q R).1 := by
    intro p q r P Q R h1 h2 h3
    exact ⟨[p, q, r], .inl (.refl _), .cons h1 (.cons h2 (.cons h3 .nil))⟩
  have rev : ∀ {p q r : Nat} {P Q R : Vec 3 ℝ}, at3 verts p = some P → at3 verts q = some Q → at3 verts r = some R →
      Drawn (at3 verts) [p, q, r] (tri P R Q).1 := by
    intro p q r P Q R h1 h2 h3
    exact ⟨[p, r, q], .inr ⟨1, rfl⟩, .cons h1 (.cons h3 (.cons h2 .nil))⟩
  rw [hf]
  unfold tetFaces
  split
  · exact .cons (rev hA hB hC) (.cons (same hA hB hD) (.cons (same hB hC hD) (.cons (same hC hA hD) .nil)))
  · exact .cons (same hA hB hC) (.cons (rev hA hB hD) (.cons (rev hB hC hD) (.cons (rev hC hA hD) .nil)))

/-- The vertices of cell `vs` are `A`, `B`, `C`, `D`. -/
def IsTet (verts : List (ℝ × ℝ × ℝ)) (vs : List Idx) (T : Vec 3 ℝ × Vec 3 ℝ × Vec 3 ℝ × Vec 3 ℝ) : Prop :=
  List.Forall₂ (fun v x => at3 verts v = some x) vs [T.1, T.2.1, T.2.2.1, T.2.2.2]

/-- A file of tetrahedra as a file of solids. -/
theorem tets_file (F : Vtk.File ℝ) (hn : ∀ vs ∈ F.cells, NoRepetition vs) (hfit : 12 * F.cells.length ≤ INVALID) (res : Nat)
    (hres : res = 0 ∨ 3 ≤ res) (T : List (Vec 3 ℝ × Vec 3 ℝ × Vec 3 ℝ × Vec 3 ℝ)) (hT : List.Forall₂ (IsTet F.verts) F.cells T)
    (hdet : ∀ t ∈ T, det4 t.1 t.2.1 t.2.2.1 t.2.2.2 ≠ 0) :
    F.Solids ∧ (∀ vs ∈ F.cells, ∀ v ∈ vs, v < F.verts.length) ∧ (∀ vs ∈ F.cells, ∀ p ∈ Vtk.facePolygons vs, res = 0 ∨ p.length ≤ res) ∧
      List.Forall₂ (fun vs faces => ConvexSolid faces ∧
        List.Forall₂ (fun p x => Drawn (at3 F.verts) p x.1) (Vtk.facePolygons vs) faces) F.cells (T.map fun t => tetFaces t.1 t.2.1 t.2.2.1 t.2.2.2) := by
  have h4 : ∀ vs ∈ F.cells, ∃ a b c d t, vs = [a, b, c, d] ∧ t ∈ T ∧ IsTet F.verts [a, b, c, d] t := by
    intro vs hvs
    obtain ⟨i, hi0⟩ := List.getElem?_of_mem hvs
    obtain ⟨hi, rfl⟩ := List.getElem?_eq_some_iff.mp hi0
    have hi' : i < T.length := by rw [← hT.length_eq]; exact hi
    have := (List.forall₂_iff_get.mp hT).2 i hi hi'
    simp only [List.get_eq_getElem] at this
    generalize hg : F.cells[i] = w at this ⊢
    have this' := this
    cases this with | cons a1 this => cases this with | cons a2 this => cases this with | cons a3 this => cases this with | cons a4 this =>
    cases this
    exact ⟨_, _, _, _, _, rfl, List.getElem_mem hi', this'⟩
  have hF : F.Solids := ⟨fun vs hvs => by obtain ⟨a, b, c, d, _, rfl, _⟩ := h4 vs hvs; exact .inl rfl, hn, hfit⟩
  have hr : ∀ vs ∈ F.cells, ∀ v ∈ vs, v < F.verts.length := by
    intro vs hvs v hv
    obtain ⟨a, b, c, d, t, rfl, _, h⟩ := h4 vs hvs
    have key : ∀ {u : Nat} {x : Vec 3 ℝ}, at3 F.verts u = some x → u < F.verts.length := by
      intro u x h
      rw [at3, Option.map_eq_some_iff] at h
      obtain ⟨y, h, _⟩ := h
      exact (List.getElem?_eq_some_iff.mp h).1
    cases h with | cons a1 h => cases h with | cons a2 h => cases h with | cons a3 h => cases h with | cons a4 h =>
    simp only [List.mem_cons, List.not_mem_nil, or_false] at hv
    rcases hv with rfl | rfl | rfl | rfl
    · exact key a1
    · exact key a2
    · exact key a3
    · exact key a4
  have hres' : ∀ vs ∈ F.cells, ∀ p ∈ Vtk.facePolygons vs, res = 0 ∨ p.length ≤ res := by
    intro vs hvs p hp
    obtain ⟨a, b, c, d, _, rfl, _⟩ := h4 vs hvs
    have : p.length = 3 := by
      have hf : Vtk.facePolygons [a, b, c, d] = [[a, b, c], [a, b, d], [b, c, d], [c, a, d]] := rfl
      rw [hf] at hp
      simp only [List.mem_cons, List.not_mem_nil, or_false] at hp
      rcases hp with rfl | rfl | rfl | rfl <;> rfl
    rcases hres with h | h
    · exact .inl h
    · exact .inr (by omega)
  refine ⟨hF, hr, hres', ?_⟩
  rw [List.forall₂_map_right_iff]
  rw [List.forall₂_iff_get] at hT ⊢
  refine ⟨hT.1, fun i i1 i2 => ?_⟩
  have := hT.2 i i1 i2
  simp only [List.get_eq_getElem] at this ⊢
  refine ⟨tetFaces_convex (hdet _ (List.getElem_mem i2)), ?_⟩
  generalize F.cells[i] = w at this ⊢
  cases this with | cons a1 this => cases this with | cons a2 this => cases this with | cons a3 this => cases this with | cons a4 this =>
  cases this
  exact tetFaces_drawn a1 a2 a3 a4

/-- C70. A VTK file of tetrahedra, none of them flat, in any of the two orientations: the volume of a cell of the loaded mesh is
`|det(B - A, C - A, D - A)| / 6`, its center is the mean of its four vertices, and the normals of its faces point out of it (when it is the
left cell). -/
theorem C70_tetrahedra (F : Vtk.File ℝ) (hn : ∀ vs ∈ F.cells, NoRepetition vs) (hfit : 12 * F.cells.length ≤ INVALID) (res : Nat)
    (hres : res = 0 ∨ 3 ≤ res) (hcodes : F.codes.length ≤ F.cells.length) (rest : List (Vtk.VTok ℝ))
    (types : List Nat) (m0 : Mesh (Vtk.Point3 ℝ)) (hd : m0.dim = 3)
    (htwo : ∀ vs ∈ F.cells, ∀ p ∈ Vtk.facePolygons vs, Vtk.AtMostTwoFace F p)
    (T : List (Vec 3 ℝ × Vec 3 ℝ × Vec 3 ℝ × Vec 3 ℝ)) (hT : List.Forall₂ (IsTet F.verts) F.cells T)
    (hdet : ∀ t ∈ T, det4 t.1 t.2.1 t.2.2.1 t.2.2.2 ≠ 0) :
    ∃ m tys, Vtk.load3 res (F.tokens ++ rest) types m0 = .ok (m, tys) ∧
      HasGeometry (m.mapV vec3) (T.map fun t => tetFaces t.1 t.2.1 t.2.2.1 t.2.2.2) ∧
      ∀ g : GMesh 3 ℝ, g.mesh = m.mapV vec3 → ∃ cs ls as vols, computeCenters g.mesh = .ok cs ∧
        computeMeasures3 (setCenters g cs) = .ok (ls, as, vols) ∧
        vols = T.map (fun t => |det4 t.1 t.2.1 t.2.2.1 t.2.2.2| / 6) ∧
        ∀ (c : Nat) t, T[c]? = some t → entry cs 3 c = some (mean [t.1, t.2.1, t.2.2.1, t.2.2.2]) := by
  obtain ⟨hF, hr, hres', hsol⟩ := tets_file F hn hfit res hres T hT hdet
  obtain ⟨m, tys, l1, hg⟩ := C70_vtk_3d F hF res hres' hcodes rest types m0 hd htwo hr (T.map fun t => tetFaces t.1 t.2.1 t.2.2.1 t.2.2.2) hsol
  refine ⟨m, tys, l1, hg, ?_⟩
  intro g hgm
  obtain ⟨cs, ls, as, vols, ns, h1, h2, _, _, h5, h6⟩ := hg g hgm
  refine ⟨cs, ls, as, vols, by rw [hgm]; exact h1, h2, ?_, ?_⟩
  · rw [h5, List.map_map]
    apply List.map_congr_left
    intro t _
    exact tetFaces_volume
  · intro c t ht
    rw [(h6 c _ (by rw [List.getElem?_map, ht]; rfl)).1, tetFaces_mean]

/-! ## Examples -/

/-- Two tetrahedra with a common face; the first one has the positive orientation, the second one the negative. -/
noncomputable def tetFile : Vtk.File ℝ where
  line1 := ["#", "vtk", "DataFile", "Version", "2.0"]
  line2 := ["tetrahedra"]
  precision := "double"
  verts := [(0, 0, 0), (1, 0, 0), (0, 1, 0), (0, 0, 1), (1, 1, 1)]
  total := 10
  cells := [[0, 1, 2, 3], [2, 1, 3, 4]]
  codes := [10, 10]

/-- Their corners. -/
noncomputable def tetCorners : List (Vec 3 ℝ × Vec 3 ℝ × Vec 3 ℝ × Vec 3 ℝ) :=
  [(vec3 (0, 0, 0), vec3 (1, 0, 0), vec3 (0, 1, 0), vec3 (0, 0, 1)), (vec3 (0, 1, 0), vec3 (1, 0, 0), vec3 (0, 0, 1), vec3 (1, 1, 1))]

theorem tetCorners_det : ∀ t ∈ tetCorners, det4 t.1 t.2.1 t.2.2.1 t.2.2.2 ≠ 0 := by
  simp [tetCorners, det4_eq, vec3]

theorem tetFile_corners : List.Forall₂ (IsTet tetFile.verts) tetFile.cells tetCorners :=
  .cons (.cons rfl (.cons rfl (.cons rfl (.cons rfl .nil)))) (.cons (.cons rfl (.cons rfl (.cons rfl (.cons rfl .nil)))) .nil)

/-- The volumes are 1/6 and 2/6. -/
example : ∃ m tys, Vtk.load3 3 (tetFile.tokens ++ []) [] { dim := 3 } = .ok (m, tys) ∧
    ∀ g : GMesh 3 ℝ, g.mesh = m.mapV vec3 → ∃ cs ls as, computeCenters g.mesh = .ok cs ∧
      computeMeasures3 (setCenters g cs) = .ok (ls, as, [1 / 6, 2 / 6]) ∧ entry cs 3 1 = some ![2 / 4, 2 / 4, 2 / 4] := by
  obtain ⟨m, tys, h1, _, h2⟩ := C70_tetrahedra tetFile (by simp only [NoRepetition, tetFile]; decide) (by simp [tetFile]; decide) 3 (.inr (le_refl 3))
    (le_refl _) [] [] { dim := 3 } rfl (by
      rintro _ _ p _ a b c ⟨_, ha, _⟩ ⟨_, hb, _⟩ ⟨_, hc, _⟩
      have ha := (List.getElem?_eq_some_iff.mp ha).1
      have hb := (List.getElem?_eq_some_iff.mp hb).1
      have hc := (List.getElem?_eq_some_iff.mp hc).1
      simp [tetFile] at ha hb hc
      omega) tetCorners tetFile_corners tetCorners_det
  refine ⟨m, tys, h1, fun g hg => ?_⟩
  obtain ⟨cs, ls, as, vols, k1, k2, k3, k4⟩ := h2 g hg
  have hv : vols = [1 / 6, 2 / 6] := by
    rw [k3]
    simp [tetCorners, det4_eq, vec3]
    norm_num
  rw [hv] at k2
  refine ⟨cs, ls, as, k1, k2, ?_⟩
  rw [k4 1 _ rfl]
  congr 1
  apply ext3 <;> simp [mean, vec3] <;> norm_num

theorem sameCycle_trans {p q r : List Idx} (h1 : SameCycle p q) (h2 : SameCycle q r) : SameCycle p r := by
  rcases h1 with h1 | h1 <;> rcases h2 with h2 | h2
  · exact .inl (h1.trans h2)
  · exact .inr (h1.trans h2)
  · exact .inr (h1.trans h2.reverse)
  · refine .inl (h1.trans ?_)
    have := h2.reverse
    rwa [List.reverse_reverse] at this

/-- The two tetrahedra as an FPMA file. -/
noncomputable def tetFpma : Fpma.File ℝ where
  verts := [(0, 0, 0), (1, 0, 0), (0, 1, 0), (0, 0, 1), (1, 1, 1)]
  faces := [[0, 1, 2], [0, 1, 3], [1, 2, 3], [3, 2, 0], [1, 2, 4], [4, 2, 3], [1, 3, 4]]
  cells := [[0, 1, 2, 3], [2, 4, 6, 5]]

example : ∃ m, Fpma.load 3 (tetFpma.tokens ++ []) { dim := 3 } = .ok m ∧ ∀ g : GMesh 3 ℝ, g.mesh = m.mapV vec3 → ∃ cs ls as,
    computeCenters (m.mapV vec3) = .ok cs ∧ computeMeasures3 (setCenters g cs) = .ok (ls, as, [1 / 6, 2 / 6]) := by
  have hw : tetFpma.WellFormed := ⟨by decide, by simp only [NoRepetition]; decide, by decide, by
    intro f
    show ([[0, 1, 2, 3], [2, 4, 6, 5]].filter fun l => decide (f ∈ l)).length ≤ 2
    exact List.length_filter_le _ _, by decide, by decide⟩
  have cyc : ∀ {p q : List Idx} {x : List (Vec 3 ℝ)}, Drawn (at3 tetFpma.verts) p x → SameCycle p q → Drawn (at3 tetFpma.verts) q x := by
    rintro p q x ⟨r, h1, h2⟩ h
    exact ⟨r, sameCycle_trans h1 h, h2⟩
  obtain ⟨m, h1, h2⟩ := C70_fpma tetFpma hw 3 (by decide) [] (by decide) (by decide) (by simp only [NoRepetition]; decide) (by
      intro f hf
      have hf : f < 7 := hf
      interval_cases f
      · exact ⟨0, _, rfl, by decide⟩
      · exact ⟨0, _, rfl, by decide⟩
      · exact ⟨0, _, rfl, by decide⟩
      · exact ⟨0, _, rfl, by decide⟩
      · exact ⟨1, _, rfl, by decide⟩
      · exact ⟨1, _, rfl, by decide⟩
      · exact ⟨1, _, rfl, by decide⟩)
    (tetCorners.map fun t => tetFaces t.1 t.2.1 t.2.2.1 t.2.2.2) (by
      have d1 := tetFaces_drawn (verts := tetFpma.verts) (a := 0) (b := 1) (c := 2) (d := 3) rfl rfl rfl rfl
      have d2 := tetFaces_drawn (verts := tetFpma.verts) (a := 2) (b := 1) (c := 3) (d := 4) rfl rfl rfl rfl
      refine .cons ⟨tetFaces_convex (tetCorners_det _ (by simp [tetCorners])), ?_⟩ (.cons ⟨tetFaces_convex (tetCorners_det _ (by simp [tetCorners])), ?_⟩ .nil)
      · generalize hz : tetFaces _ _ _ _ = z at d1
        have hz' : tetFaces _ _ _ _ = z := hz
        show List.Forall₂ _ _ (tetFaces _ _ _ _)
        rw [hz']
        clear hz hz'
        cases d1 with | cons a1 d1 => cases d1 with | cons a2 d1 => cases d1 with | cons a3 d1 => cases d1 with | cons a4 d1 =>
        exact .cons ⟨_, rfl, cyc a1 (.inl ⟨0, rfl⟩)⟩ (.cons ⟨_, rfl, cyc a2 (.inl ⟨0, rfl⟩)⟩ (.cons ⟨_, rfl, cyc a3 (.inl ⟨0, rfl⟩)⟩
          (.cons ⟨_, rfl, cyc a4 (.inl ⟨2, rfl⟩)⟩ (by cases d1; exact .nil))))
      · generalize hz : tetFaces _ _ _ _ = z at d2
        have hz' : tetFaces _ _ _ _ = z := hz
        show List.Forall₂ _ _ (tetFaces _ _ _ _)
        rw [hz']
        clear hz hz'
        cases d2 with | cons a1 d1 => cases d1 with | cons a2 d1 => cases d1 with | cons a3 d1 => cases d1 with | cons a4 d1 =>
        exact .cons ⟨_, rfl, cyc a1 (.inr ⟨2, rfl⟩)⟩ (.cons ⟨_, rfl, cyc a2 (.inr ⟨2, rfl⟩)⟩ (.cons ⟨_, rfl, cyc a3 (.inl ⟨0, rfl⟩)⟩
          (.cons ⟨_, rfl, cyc a4 (.inr ⟨0, rfl⟩)⟩ (by cases d1; exact .nil)))))
  refine ⟨m, h1, fun g hg => ?_⟩
  obtain ⟨cs, ls, as, vols, ns, k1, k2, _, _, k3, _⟩ := h2 g hg
  have hv : vols = [1 / 6, 2 / 6] := by
    rw [k3, List.map_map]
    simp only [Function.comp_def, tetFaces_volume]
    simp [tetCorners, det4_eq, vec3]
    norm_num
  rw [hv] at k2
  exact ⟨cs, ls, as, k1, k2⟩

/-- The square and the two triangles of the 2D example. -/
example : ∃ m t, Vtk.load2 (Vtk.exampleFileR.tokens ++ []) [] { dim := 2 } = .ok (m, t) ∧ ∀ g : GMesh 2 ℝ, g.mesh = m.mapV vec2 → ∃ cs ls as,
    computeCenters g.mesh = .ok cs ∧ computeMeasures2 (setCenters g cs) = .ok (ls, as) ∧ entry cs 2 0 = some ![1 / 2, 1 / 2] ∧ as[0]? = some 1 := by
  obtain ⟨m, t, h1, h2⟩ := C70_vtk_2d Vtk.exampleFileR
    ⟨Vtk.exampleFile_polygons.nodup, Vtk.exampleFile_polygons.three, Vtk.exampleFile_polygons.fit, Vtk.exampleFile_polygons.edges_fit⟩
    (by decide) [] [] { dim := 2 } rfl (Vtk.Oriented.two Vtk.exampleFileR_oriented) (by
      show ∀ vs ∈ Vtk.exampleFile.cells, ∀ v ∈ vs, v < 6
      decide)
  refine ⟨m, t, h1, fun g hg => ?_⟩
  obtain ⟨cs, ls, as, k1, k2, _, _, k3⟩ := h2 g hg
  obtain ⟨c1, c2⟩ := k3 0 [0, 1, 2, 3] [![0, 0], ![1, 0], ![1, 1], ![0, 1]] rfl ⟨[0, 1, 2, 3], .inl ⟨0, rfl⟩, by
    refine .cons ?_ (.cons ?_ (.cons ?_ (.cons ?_ .nil))) <;> simp [at2, Vtk.exampleFileR, vec2]⟩
  refine ⟨cs, ls, as, k1, k2, ?_, ?_⟩
  · rw [c1]
    congr 1
    funext i
    fin_cases i <;> simp [mean] <;> norm_num
  · rw [c2 ?_]
    · simp [shoelace, sidesOf, List.rotate]; norm_num
    · intro p hp q hq
      simp [sidesOf, List.rotate] at hp hq
      rcases hp with rfl | rfl | rfl | rfl <;> rcases hq with rfl | rfl | rfl | rfl <;> simp [turn]

end GTMesh.Props
