import Verif.Spec.SavedGeometry
import Verif.Props.LoadedGeometry

/-! # Centers and measures of meshes with flat faces -/

namespace GTMesh.Props
open Spec Std' Vec Geo

theorem cross_flip (A B c : Vec 3 ℝ) : cross (B - c) (A - c) = -cross (A - c) (B - c) := by
  have h1 := cross_apply (A - c) (B - c)
  have h2 := cross_apply (B - c) (A - c)
  apply ext3 <;> simp only [h1, h2, Pi.neg_apply] <;> ring

theorem triangleArea_symm (A B c : Vec 3 ℝ) : triangleArea A B c = triangleArea B A c := by
  rw [triangleArea, triangleArea, cross_flip A B c, norm_neg]

theorem triangleArea2_symm (A B c : Vec 2 ℝ) : triangleArea2 A B c = triangleArea2 B A c := by
  rw [triangleArea2, triangleArea2, ← abs_neg]
  congr 2
  ring

/-- The area that is computed for a face. -/
theorem faceArea_fan {g : GMesh 3 ℝ} {f : Idx} {ps : List (Vec 3 ℝ)} (h : FaceShape g.mesh f ps) (hc : g.faceCenter f = mean ps) :
    faceArea g f = fanArea ps := by
  obtain ⟨fa, vs, h1, h2, h3⟩ := h
  rw [fanArea, ← polygon_sum h2 h3 (fun A B => triangleArea A B (mean ps)) (fun A B => triangleArea_symm A B _), faceArea, faceEdges, h1, hc]
  simp only [Option.map_some, Option.getD_some, List.map_map]
  rfl

/-- Every edge of a flat face is in the plane and not on a line with the center. -/
theorem flat_edge {m : Mesh (Vec 3 ℝ)} {f : Idx} {ps : List (Vec 3 ℝ)} {ν : Vec 3 ℝ} (h : FaceShape m f ps) (hf : Flat ps ν)
    {p : Vec 3 ℝ × Vec 3 ℝ} (hp : p ∈ faceEdges m f) : ∃ s : ℝ, s ≠ 0 ∧ cross (p.1 - mean ps) (p.2 - mean ps) = s • ν := by
  obtain ⟨fa, vs, h1, h2, h3⟩ := h
  rw [faceEdges, h1] at hp
  simp only [Option.map_some, Option.getD_some] at hp
  obtain ⟨e, he, rfl⟩ := List.mem_map.mp hp
  obtain ⟨q, q1, q2⟩ := polygon_side h2 h3 he
  obtain ⟨r, r1, r2⟩ := hf.2 q q1
  rcases q2 with q2 | q2
  · rw [q2]; exact ⟨r, r1, r2⟩
  · rw [q2]
    refine ⟨-r, neg_ne_zero.mpr r1, ?_⟩
    rw [neg_smul, ← r2]
    exact cross_flip q.1 q.2 (mean ps)

theorem FaceShape.edges_ne {m : Mesh (Vec 3 ℝ)} {f : Idx} {ps : List (Vec 3 ℝ)} (h : FaceShape m f ps) : faceEdges m f ≠ [] := by
  obtain ⟨fa, vs, h1, ⟨hv0, _, _, es, q1, q2, _⟩, _⟩ := h
  rw [faceEdges, h1]
  simp only [Option.map_some, Option.getD_some, ne_eq, List.map_eq_nil_iff]
  intro h0
  rw [h0] at q1
  rw [q1.eq_nil] at q2
  exact hv0 (List.length_eq_zero_iff.mp q2.symm)

theorem firstSide_mem {m : Mesh (Vec 3 ℝ)} {f : Idx} (h : faceEdges m f ≠ []) : firstSide m f ∈ faceEdges m f := by
  rw [firstSide]
  cases hf : faceEdges m f with
  | nil => exact absurd hf h
  | cons x l => exact List.mem_cons_self

/-- The distance of a point from the plane of a flat face. -/
theorem planeDistance_flat {P A B c ν : Vec 3 ℝ} (hν : Vec.norm ν = 1) {s : ℝ} (hs : s ≠ 0) (h : cross (A - c) (B - c) = s • ν) :
    planeDistance P A B c = |dot (P - c) ν| := by
  have horth : dot (A - c) ν = 0 := by
    have := dot_cross_left (A - c) (B - c)
    rw [h, dot_smul, dot_comm] at this
    exact (mul_eq_zero.mp this).resolve_left hs
  rw [planeDistance, (cross_rel _ _ _).1, h, norm_smul, hν, mul_one, dot_smul_right, abs_mul, mul_div_cancel_left₀ _ (abs_ne_zero.mpr hs)]
  have e1 : P - A = (P - c) - (A - c) := by abel
  rw [e1, dot_sub, horth, sub_zero]

/-- What is computed for a flat face of a cell. -/
theorem pyramid_flat {g : GMesh 3 ℝ} {f : Idx} {ps : List (Vec 3 ℝ)} {ν : Vec 3 ℝ} (h : FaceShape g.mesh f ps) (hf : Flat ps ν)
    (hc : g.faceCenter f = mean ps) (P : Vec 3 ℝ) : pyramid g P f = coneVolume P (ps, ν) := by
  obtain ⟨s, s1, s2⟩ := flat_edge h hf (firstSide_mem h.edges_ne)
  rw [pyramid, hc, planeDistance_flat hf.1 s1 s2, faceArea_fan h hc, coneVolume]
  ring

/-- The centers and measures of a mesh with flat faces: a face with the polygon `ps` has the mean of the vertices as the center and the area of the
fan; the center of a cell is the mean of the centers of its faces, its measure is the sum of the cones over its faces. -/
theorem flat_geometry (g : GMesh 3 ℝ) (bd : Idx → List Idx) (hv : ValidMesh g.mesh bd) (h3 : g.mesh.dim = 3)
    (hflat : ∀ f, f < (g.mesh.midElems 2).length → ∃ ps ν, FaceShape g.mesh f ps ∧ Flat ps ν)
    (hedge : ∀ e, e < g.mesh.edges.length → (ends g.mesh e).1 ≠ (ends g.mesh e).2) :
    ∃ cs ls as vols, computeCenters g.mesh = .ok cs ∧ computeMeasures3 (setCenters g cs) = .ok (ls, as, vols) ∧ AreCenters g.mesh bd cs ∧
      ls = lengths g.mesh ∧ as.length = (g.mesh.midElems 2).length ∧ vols.length = g.mesh.cells.length ∧ NonDegenerate (setCenters g cs) ∧
      (∀ f ps, FaceShape g.mesh f ps → entry cs 2 f = some (mean ps) ∧ as[f]? = some (fanArea ps)) ∧
      ∀ (c : Nat) l L, c < g.mesh.cells.length → l.Perm (bd c) → List.Forall₂ (fun f x => FaceShape g.mesh f x.1 ∧ Flat x.1 x.2) l L →
        entry cs 3 c = some (mean (L.map fun x => mean x.1)) ∧
        vols[c]? = some ((L.map (coneVolume (mean (L.map fun x => mean x.1)))).sum) := by
  have hne : NoEmptyElement g.mesh := by
    intro d i f hd2 hd3 hf h0
    obtain rfl : d = 2 := by omega
    obtain ⟨ps, ν, k1, _⟩ := hflat i (List.getElem?_eq_some_iff.mp hf).1
    have := k1.edges_ne
    rw [faceEdges, hf] at this
    simp [h0] at this
  obtain ⟨cs, hcs, hac⟩ := C38_centers g.mesh bd hv hne
  have hfc : ∀ {f : Nat} {ps : List (Vec 3 ℝ)}, FaceShape g.mesh f ps → (setCenters g cs).faceCenter f = mean ps := by
    intro f ps h
    exact setCenters_face g (by omega) (by rw [h3]; exact h.center hv h3 hac)
  have hnd : NonDegenerate (setCenters g cs) := by
    refine ⟨hedge, ?_, ?_⟩
    · intro f hf
      obtain ⟨ps, ν, k1, _⟩ := hflat f hf
      exact k1.edges_ne
    · intro f hf
      obtain ⟨ps, ν, k1, k2⟩ := hflat f hf
      obtain ⟨s, s1, s2⟩ := flat_edge k1 k2 (firstSide_mem k1.edges_ne)
      rw [hfc k1]
      show cross ((firstSide g.mesh f).1 - mean ps) ((firstSide g.mesh f).2 - mean ps) ≠ 0
      rw [s2]
      intro h0
      have := congrArg Vec.norm h0
      rw [norm_smul, k2.1, mul_one, show Vec.norm (0 : Vec 3 ℝ) = 0 by simp [norm_real, dot_zero]] at this
      exact s1 (abs_eq_zero.mp this)
  refine ⟨cs, _, _, _, hcs, C39_measures_3d (setCenters g cs) bd hv h3 hnd, hac, rfl, by simp; rfl, by simp; rfl, hnd, ?_, ?_⟩
  · intro f ps h
    refine ⟨h.center hv h3 hac, ?_⟩
    have hlt : f < (g.mesh.midElems 2).length := by
      obtain ⟨fa, _, k, _⟩ := h; exact (List.getElem?_eq_some_iff.mp k).1
    have hlt' : f < ((setCenters g cs).mesh.midElems 2).length := hlt
    rw [List.getElem?_map, List.getElem?_range hlt', Option.map_some, faceArea_fan (g := setCenters g cs) h (hfc h)]
  · intro c l L hc hl hL
    have hcen : entry cs 3 c = some (mean (L.map fun x => mean x.1)) := by
      have hin : c < g.mesh.numElems 3 := by unfold Mesh.numElems; rw [if_pos h3.symm]; exact hc
      obtain ⟨ps, p1, p2, p3⟩ := hac.higher 3 c (by omega) (by omega) hin
      have hds : directSubs g.mesh bd 3 c = bd c := by unfold directSubs; rw [if_pos h3.symm]
      rw [hds] at p1
      rw [p3]
      have e1 : ps = (bd c).map fun f => (entry cs 2 f).getD 0 := by
        clear p2 p3 hds
        generalize bd c = b at p1
        induction p1 with
        | nil => rfl
        | cons h _ ih => rw [List.map_cons, ← ih]; congr 1; rw [show (2:Nat) = 3 - 1 from rfl, h]; rfl
      have e2 : L.map (fun x => mean x.1) = l.map fun f => (entry cs 2 f).getD 0 := by
        clear hl
        induction hL with
        | nil => rfl
        | cons h _ ih => rw [List.map_cons, List.map_cons, ih, h.1.center hv h3 hac]; rfl
      have hp : ps.Perm (L.map fun x => mean x.1) := by
        rw [e1, e2]; exact (hl.map _).symm
      congr 1
      rw [mean, mean, hp.sum_eq, hp.length_eq]
    refine ⟨hcen, ?_⟩
    have hc' : c < (setCenters g cs).mesh.cells.length := hc
    rw [List.getElem?_map, List.getElem?_range hc', Option.map_some]
    congr 1
    have hcc : (setCenters g cs).cellCenter c = mean (L.map fun x => mean x.1) := setCenters_cell g (by rw [h3]; exact hcen)
    rw [hcc, ← (hl.map (pyramid (setCenters g cs) (mean (L.map fun x => mean x.1)))).sum_eq]
    generalize mean (L.map fun x => mean x.1) = P
    congr 1
    clear hl hcc hcen
    induction hL with
    | nil => rfl
    | cons h _ ih => rw [List.map_cons, List.map_cons, ih, pyramid_flat (g := setCenters g cs) h.1 h.2 (hfc h.1)]

/-- The same in the plane, where nothing is required of the polygons. -/
theorem polygon_geometry (g : GMesh 2 ℝ) (bd : Idx → List Idx) (hv : ValidMesh g.mesh bd) (h2 : g.mesh.dim = 2) :
    ∃ cs ls as, computeCenters g.mesh = .ok cs ∧ computeMeasures2 (setCenters g cs) = .ok (ls, as) ∧ AreCenters g.mesh bd cs ∧
      ls = lengths g.mesh ∧ as.length = g.mesh.cells.length ∧
      ∀ (c : Nat) vs ps, c < g.mesh.cells.length → IsPolygon g.mesh.edges (bd c) vs → PositionsOf g.mesh vs ps →
        entry cs 2 c = some (mean ps) ∧ as[c]? = some (fanArea2 ps) := by
  have hne : NoEmptyElement g.mesh := by intro d i f h3 h4; omega
  obtain ⟨cs, hcs, hac⟩ := C38_centers g.mesh bd hv hne
  refine ⟨cs, _, _, hcs, C39_measures_2d (setCenters g cs) bd hv h2, hac, rfl, by simp; rfl, ?_⟩
  intro c vs ps hlt hp hps
  have hin : c < g.mesh.numElems 2 := by unfold Mesh.numElems; rw [if_pos h2.symm]; exact hlt
  have hcen : entry cs 2 c = some (mean ps) := by
    obtain ⟨xs, p1, p2, p3⟩ := hac.higher 2 c (by omega) (by omega) hin
    have hds : directSubs g.mesh bd 2 c = bd c := by unfold directSubs; rw [if_pos h2.symm]
    rw [hds] at p1
    rw [p3, ← polygon_mean hp hps]
    congr 2
    have hr2 := hv.range 2 c (by omega) (by omega) hin
    rw [hds] at hr2
    clear p2 p3 hds hp
    generalize bd c = b at p1 hr2
    induction p1 with
    | nil => rfl
    | @cons e x l xs h1 _ ih =>
      rw [List.map_cons, ← ih fun s hs => hr2 s (List.mem_cons_of_mem _ hs)]
      congr 1
      have he := hr2 e List.mem_cons_self
      rw [show 2 - 1 = 1 from rfl, edges_of_valid hv] at he
      have hed := List.getElem?_eq_getElem he
      obtain ⟨A, B, hA, hB⟩ := exists_ends hv hed
      rw [show 2 - 1 = 1 from rfl, hac.edges e _ A B hed hA hB] at h1
      rw [← Option.some.inj h1, ends, hed]
      simp only [Option.map_some, Option.getD_some, hA, hB]
  refine ⟨hcen, ?_⟩
  have hlt' : c < (setCenters g cs).mesh.cells.length := hlt
  rw [List.getElem?_map, List.getElem?_range hlt', Option.map_some]
  congr 1
  rw [setCenters_cell g (by rw [h2]; exact hcen), fanArea2]
  exact polygon_sum hp hps (fun A B => triangleArea2 A B (mean ps)) (fun A B => triangleArea2_symm A B _)

end GTMesh.Props
