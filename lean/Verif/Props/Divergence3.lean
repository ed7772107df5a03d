import Verif.Props.Divergence
import Verif.Props.LoadedFlux

/-! # C73: fluxes of linear fields (three dimensions) -/

namespace GTMesh.Props
open GTMesh Spec Std' Vec Geo

theorem mean3 (P Q R : Vec 3 ℝ) (k : Fin 3) : mean [P, Q, R] k = (P k + Q k + R k) / 3 := by
  simp [mean]; ring

/-- The integral along the segment from `P` to `Q` of a vector potential of the field without its divergence. -/
noncomputable def edgeIntegral (A : Fin 3 → Vec 3 ℝ) (b : Vec 3 ℝ) (P Q : Vec 3 ℝ) : ℝ :=
  dot ((1 / 3 : ℝ) • (linearField A 0 (mean [P, Q]) - (divergence A / 3) • mean [P, Q]) + (1 / 2 : ℝ) • b) (cross P Q)

theorem edgeIntegral_odd (A : Fin 3 → Vec 3 ℝ) (b : Vec 3 ℝ) (P Q : Vec 3 ℝ) : edgeIntegral A b Q P = - edgeIntegral A b P Q := by
  have h1 := cross_apply P Q
  have h2 := cross_apply Q P
  simp only [edgeIntegral, dot3, linearField, h1, h2, mean2, Pi.add_apply, Pi.smul_apply, Pi.sub_apply, smul_eq_mul]
  ring

/-- The flux through a triangle, by its center of gravity. -/
theorem triangle_flux (A : Fin 3 → Vec 3 ℝ) (b P Q R : Vec 3 ℝ) :
    dot (linearField A b (mean [Q, R, P])) ((1 / 2 : ℝ) • cross (Q - P) (R - P)) =
      divergence A / 6 * dot P (cross Q R) + (edgeIntegral A b P Q + edgeIntegral A b Q R + edgeIntegral A b R P) := by
  have h1 := cross_apply P Q
  have h2 := cross_apply Q R
  have h3 := cross_apply R P
  have h4 := cross_apply (Q - P) (R - P)
  simp only [edgeIntegral, dot3, linearField, h1, h2, h3, h4, mean2, mean3, divergence, Fin.sum_univ_three, Pi.add_apply, Pi.smul_apply,
    Pi.sub_apply, Pi.zero_apply, smul_eq_mul]
  ring

theorem list_sum_eq {α : Type} {l : List α} {u v w z : α → ℝ} (h : ∀ p ∈ l, u p = v p + w p - z p) :
    (l.map u).sum = (l.map v).sum + (l.map w).sum - (l.map z).sum := by
  induction l with
  | nil => simp
  | cons p l ih =>
    simp only [List.map_cons, List.sum_cons]
    rw [h p List.mem_cons_self, ih fun q hq => h q (List.mem_cons_of_mem p hq)]
    ring

/-- The flux through a plane polygon with its center of gravity. -/
theorem polygon_flux3 (A : Fin 3 → Vec 3 ℝ) (b c ν : Vec 3 ℝ) (ps : List (Vec 3 ℝ))
    (hpl : ∀ p ∈ sidesOf ps, cross (p.1 - c) (p.2 - c) = dot (cross (p.1 - c) (p.2 - c)) ν • ν) (hc : IsCentroid c ν ps) :
    dot (linearField A b c) (vectorArea ps) =
      divergence A / 3 * dot c (vectorArea ps) + ((sidesOf ps).map fun p => edgeIntegral A b p.1 p.2).sum := by
  have hside : ∀ p ∈ sidesOf ps, dot (linearField A b c) ((1 / 2 : ℝ) • cross (p.1 - c) (p.2 - c)) =
      (divergence A / 6 * dot c (cross p.1 p.2) + edgeIntegral A b p.1 p.2) + (edgeIntegral A b p.2 c - edgeIntegral A b p.1 c) -
        1 / 2 * dot (fun j => ∑ k, ν k * A k j) (dot (cross (p.1 - c) (p.2 - c)) ν • (mean [p.1, p.2, c] - c)) := by
    intro p hp
    have h := triangle_flux A b c p.1 p.2
    rw [edgeIntegral_odd A b p.1 c] at h
    have e : dot (linearField A b (mean [p.1, p.2, c])) ((1 / 2 : ℝ) • cross (p.1 - c) (p.2 - c)) =
        dot (linearField A b c) ((1 / 2 : ℝ) • cross (p.1 - c) (p.2 - c)) +
        1 / 2 * dot (fun j => ∑ k, ν k * A k j) (dot (cross (p.1 - c) (p.2 - c)) ν • (mean [p.1, p.2, c] - c)) := by
      have hw := hpl p hp
      generalize cross (p.1 - c) (p.2 - c) = w at hw ⊢
      generalize dot w ν = s at hw ⊢
      rw [hw]
      simp only [dot3, linearField, mean3, Fin.sum_univ_three, Pi.smul_apply, Pi.sub_apply, smul_eq_mul]
      ring
    linarith
  have hs := list_sum_eq hside
  have e1 : ((sidesOf ps).map fun p => dot (linearField A b c) ((1 / 2 : ℝ) • cross (p.1 - c) (p.2 - c))).sum =
      dot (linearField A b c) (vectorArea ps) := by
    have := congrArg (fun v => dot ((1 / 2 : ℝ) • v) (linearField A b c)) (sum_cross c ps)
    simp only [smul_smul] at this
    rw [show (1 / 2 : ℝ) * 2 = 1 by norm_num, one_smul, dot_smul, dot_list_sum, List.map_map, ← List.sum_map_mul_left, dot_comm (vectorArea ps)] at this
    rw [← this]
    congr 1
    apply List.map_congr_left
    intro p _
    rw [dot_smul_right, dot_comm]; rfl
  have e2 : ((sidesOf ps).map fun p => divergence A / 6 * dot c (cross p.1 p.2) + edgeIntegral A b p.1 p.2).sum =
      divergence A / 3 * dot c (vectorArea ps) + ((sidesOf ps).map fun p => edgeIntegral A b p.1 p.2).sum := by
    rw [List.sum_map_add, List.sum_map_mul_left, vectorArea, dot_smul_right, dot_comm c, dot_list_sum, List.map_map]
    congr 1
    rw [show (fun x => dot x c) ∘ (fun p : Vec 3 ℝ × Vec 3 ℝ => cross p.1 p.2) = fun p => dot c (cross p.1 p.2) from by
      funext p; exact dot_comm _ _]
    ring
  have e3 := sidesOf_sum (fun p => edgeIntegral A b p c) ps
  have e4 : ((sidesOf ps).map fun p => 1 / 2 * dot (fun j => ∑ k, ν k * A k j)
      (dot (cross (p.1 - c) (p.2 - c)) ν • (mean [p.1, p.2, c] - c))).sum = 0 := by
    have := congrArg (fun v => dot v (fun j => ∑ k, ν k * A k j)) hc
    simp only [dot_list_sum, List.map_map, zero_dot] at this
    rw [List.sum_map_mul_left, ← mul_zero (1 / 2 : ℝ), ← this]
    congr 2
    apply List.map_congr_left
    intro p _
    exact dot_comm _ _
  rw [e1, e2, e3, e4] at hs
  linarith

theorem swap_sum (E : Vec 3 ℝ → Vec 3 ℝ → ℝ) (hE : ∀ P Q, E Q P = - E P Q) {l : List (Vec 3 ℝ × Vec 3 ℝ)} (h : l.Perm (l.map Prod.swap)) :
    (l.map fun p => E p.1 p.2).sum = 0 := by
  have h2 := (h.map fun p => E p.1 p.2).sum_eq
  rw [List.map_map] at h2
  have h3 : ∀ l : List (Vec 3 ℝ × Vec 3 ℝ), (l.map ((fun p => E p.1 p.2) ∘ Prod.swap)).sum = - (l.map fun p => E p.1 p.2).sum := by
    intro l
    induction l with
    | nil => simp
    | cons p l ih =>
      rw [List.map_cons, List.sum_cons, ih, List.map_cons, List.sum_cons, neg_add]
      congr 1
      exact hE p.1 p.2
  rw [h3] at h2
  linarith

/-- The flux of a linear field out of a convex solid whose faces have their means as centers of gravity. -/
theorem solid_flux (A : Fin 3 → Vec 3 ℝ) (b : Vec 3 ℝ) {faces : List (List (Vec 3 ℝ) × Vec 3 ℝ)} (hs : ConvexSolid faces)
    (hne : ∀ x ∈ faces, x.1 ≠ []) (hc : ∀ x ∈ faces, IsCentroid (mean x.1) x.2 x.1) :
    (faces.map fun x => dot (linearField A b (mean x.1)) (vectorArea x.1)).sum = divergence A * solidVolume faces := by
  have hf : ∀ x ∈ faces, dot (linearField A b (mean x.1)) (vectorArea x.1) =
      divergence A / 3 * dot (x.1.headD 0) (vectorArea x.1) + ((sidesOf x.1).map fun p => edgeIntegral A b p.1 p.2).sum := by
    intro x hx
    have hpl : ∀ q ∈ x.1, dot (q - mean x.1) x.2 = 0 := by
      intro q hq
      have := mean_eq_plane (a := x.2) (b := dot x.2 q) (hne x hx) (by
        intro q' hq'
        have i1 := hs.inner x hx x hx q hq q' hq'
        have i2 := hs.inner x hx x hx q' hq' q hq
        rw [dot_sub, dot_comm q', dot_comm q] at i1 i2
        linarith)
      rw [dot_sub, dot_comm q, dot_comm (mean x.1), this, sub_self]
    rw [polygon_flux3 A b (mean x.1) x.2 x.1 (fun p hp => cross_in_plane _ _ _ (hs.unit x hx) (hpl _ (sidesOf_mem hp).1) (hpl _ (sidesOf_mem hp).2))
      (hc x hx)]
    congr 2
    rw [convexSolid_area hs hx, dot_smul_right, dot_smul_right, convexSolid_plane hs hx (hne x hx)]
  have h0 := swap_sum (edgeIntegral A b) (fun P Q => edgeIntegral_odd A b P Q) hs.closed
  have hfm : ∀ l : List (List (Vec 3 ℝ) × Vec 3 ℝ), ((l.flatMap fun x => sidesOf x.1).map fun p => edgeIntegral A b p.1 p.2).sum =
      (l.map fun x => ((sidesOf x.1).map fun p => edgeIntegral A b p.1 p.2).sum).sum := by
    intro l
    induction l with
    | nil => simp
    | cons x l ih => rw [List.flatMap_cons, List.map_append, List.sum_append, ih, List.map_cons, List.sum_cons]
  rw [hfm] at h0
  rw [List.map_congr_left hf, List.sum_map_add, h0, add_zero, List.sum_map_mul_left, solidVolume]
  ring

/-- With the centers, measures and normals that are computed: on each cell all of whose faces have the means of their vertices as centers of
gravity, the flux of every linear field, with one value at the computed center of each face, is the divergence times the computed volume,
and the Green-Gauss sum of every linear function is the volume times its gradient. -/
def ExactFluxes (m : Mesh (Vec 3 ℝ)) (solids : List (List (List (Vec 3 ℝ) × Vec 3 ℝ))) : Prop :=
  ∀ g : GMesh 3 ℝ, g.mesh = m → ∃ cs ls as vols ns, computeCenters m = .ok cs ∧ computeMeasures3 (setCenters g cs) = .ok (ls, as, vols) ∧
    computeFaceNormals3 (setCenters g cs) = .ok ns ∧
    ∀ (c : Nat) faces, solids[c]? = some faces → (∀ x ∈ faces, IsCentroid (mean x.1) x.2 x.1) →
      ∃ l v, boundaryWalk m c = .ok l ∧ vols[c]? = some v ∧
        (∀ A b, flux m l as ns (setCenters g cs).faceCenter (linearField A b) c = divergence A * v) ∧
        ∀ a b, greenGauss m l as ns (setCenters g cs).faceCenter (fun x => dot a x + b) c = v • a

/-- The flux of any field out of a cell, with the computed areas, normals and centers: the sum over the faces of the solid. -/
def FluxesOfFaces (m : Mesh (Vec 3 ℝ)) (solids : List (List (List (Vec 3 ℝ) × Vec 3 ℝ))) : Prop :=
  ∀ g : GMesh 3 ℝ, g.mesh = m → ∃ cs ls as vols ns, computeCenters m = .ok cs ∧ computeMeasures3 (setCenters g cs) = .ok (ls, as, vols) ∧
    computeFaceNormals3 (setCenters g cs) = .ok ns ∧
    ∀ (c : Nat) faces, solids[c]? = some faces → ∃ l, boundaryWalk m c = .ok l ∧ vols[c]? = some (solidVolume faces) ∧
      ∀ F, flux m l as ns (setCenters g cs).faceCenter F c = (faces.map fun x => dot (F (mean x.1)) (vectorArea x.1)).sum

theorem fluxesOfFaces {m : Mesh (Vec 3 ℝ)} {solids : List (List (List (Vec 3 ℝ) × Vec 3 ℝ))} (h3 : m.dim = 3)
    (hS : ∀ (c : Nat) faces, solids[c]? = some faces → ConvexSolid faces) (hg : HasGeometry m solids) (hc : Conservative m solids) :
    FluxesOfFaces m solids := by
  rintro g rfl
  obtain ⟨cs, ls, as, vols, ns, k1, k2, k3, _, k5, k6⟩ := hg g rfl
  obtain ⟨cs', ls', as', vols', ns', k1', k2', k3', k4', _⟩ := hc g rfl
  rw [k1] at k1'
  cases k1'
  rw [k2] at k2'
  cases k2'
  rw [k3] at k3'
  cases k3'
  refine ⟨cs, ls, as, vols, ns, k1, k2, k3, fun c faces hf => ?_⟩
  have hs := hS c faces hf
  obtain ⟨_, l, hl, hl1⟩ := k6 c faces hf
  obtain ⟨l', hl', hl2, _⟩ := k4' c faces hf
  rw [hl] at hl'
  cases hl'
  refine ⟨l, hl, by rw [k5, List.getElem?_map, hf]; rfl, fun F => ?_⟩
  refine zip_sum hl1.length_eq fun z hz => ?_
  obtain ⟨za, zc, _⟩ := forall₂_zip hl1 z hz
  obtain ⟨n, n1, n2⟩ := forall₂_zip hl2 z hz
  have hfc := setCenters_face g (cs := cs) (i := z.1) (c := mean z.2.1) (by omega) (by rw [h3]; exact zc)
  have hh := congrArg (dot (F (mean z.2.1))) (convexSolid_area hs (List.of_mem_zip hz).2)
  rw [dot_smul_right, ← n2, dot_smul_right] at hh
  rw [n1, za, hfc, hh]
  simp only [Option.getD_some]
  ring

/-- A mesh of convex solids with the right geometry and the right sides. -/
theorem exactFluxes_of {m : Mesh (Vec 3 ℝ)} {solids : List (List (List (Vec 3 ℝ) × Vec 3 ℝ))} (h3 : m.dim = 3)
    (hS : ∀ (c : Nat) faces, solids[c]? = some faces → ConvexSolid faces ∧ ∀ x ∈ faces, x.1 ≠ [])
    (hg : HasGeometry m solids) (hc : Conservative m solids) : ExactFluxes m solids := by
  intro g hgm
  obtain ⟨cs, ls, as, vols, ns, k1, k2, k3, k4⟩ := fluxesOfFaces h3 (fun c faces hf => (hS c faces hf).1) hg hc g hgm
  refine ⟨cs, ls, as, vols, ns, k1, k2, k3, fun c faces hf hcen => ?_⟩
  obtain ⟨hs, hne⟩ := hS c faces hf
  obtain ⟨l, hl, hvol, hfl⟩ := k4 c faces hf
  have hflux : ∀ A b, flux m l as ns (setCenters g cs).faceCenter (linearField A b) c = divergence A * solidVolume faces := by
    intro A b
    rw [← solid_flux A b hs hne hcen, hfl]
  refine ⟨l, solidVolume faces, hl, hvol, hflux, fun a b => ?_⟩
  funext k
  rw [greenGauss_flux, hflux, divergence_single, Pi.smul_apply, smul_eq_mul, mul_comm]

theorem forall₂_mem {α β : Type} {r : α → β → Prop} {l : List α} {k : List β} (h : List.Forall₂ r l k) {b : β} (hb : b ∈ k) : ∃ a ∈ l, r a b := by
  induction h with
  | nil => simp at hb
  | cons h1 _ ih =>
    rcases List.mem_cons.mp hb with rfl | hb
    · exact ⟨_, List.mem_cons_self, h1⟩
    · obtain ⟨a, ha, hr⟩ := ih hb
      exact ⟨a, List.mem_cons_of_mem _ ha, hr⟩

/-- C73, VTK 3D: a file whose cells are convex solids, on different sides of their common faces. -/
theorem C73_vtk_3d (F : Vtk.File ℝ) (hF : F.Solids) (res : Nat)
    (hres : ∀ vs ∈ F.cells, ∀ p ∈ Vtk.facePolygons vs, res = 0 ∨ p.length ≤ res)
    (hcodes : F.codes.length ≤ F.cells.length) (rest : List (Vtk.VTok ℝ))
    (types : List Nat) (m0 : Mesh (Vtk.Point3 ℝ)) (hd : m0.dim = 3)
    (htwo : ∀ vs ∈ F.cells, ∀ p ∈ Vtk.facePolygons vs, Vtk.AtMostTwoFace F p)
    (hr : ∀ vs ∈ F.cells, ∀ v ∈ vs, v < F.verts.length) (solids : List (List (List (Vec 3 ℝ) × Vec 3 ℝ)))
    (hsol : List.Forall₂ (fun vs faces => ConvexSolid faces ∧
      List.Forall₂ (fun p x => Drawn (at3 F.verts) p x.1) (Vtk.facePolygons vs) faces) F.cells solids)
    (hapart : Apart Vtk.SameSides (F.cells.map Vtk.facePolygons) solids) :
    ∃ m t, Vtk.load3 res (F.tokens ++ rest) types m0 = .ok (m, t) ∧ ExactFluxes (m.mapV vec3) solids := by
  obtain ⟨m, t, bd, l1, hv, h3, hb, hl, hS, hcov, hedge, hE⟩ := vtk3_shapes F hF res hres hcodes rest types m0 hd htwo hr solids hsol
  obtain ⟨m', t', l2, hc⟩ := C55_vtk3 F hF res hres hcodes rest types m0 hd htwo hr solids hsol hapart
  rw [l1] at l2
  cases l2
  refine ⟨m, t, l1, exactFluxes_of h3 (fun c faces hf => ⟨(hS c faces hf).1, ?_⟩) (hasGeometry_of hv h3 hb hl hS hcov hedge) hc⟩
  intro x hx
  obtain ⟨f, _, hf⟩ := forall₂_mem (hS c faces hf).2 hx
  exact hf.ne

/-- C73, FPMA. -/
theorem C73_fpma (F : Fpma.File ℝ) (hF : F.WellFormed) (res : Nat)
    (hres : ∀ vs ∈ F.faces, res = 0 ∨ vs.length ≤ res) (rest : List (Tok ℝ))
    (hr : ∀ vs ∈ F.faces, ∀ v ∈ vs, v < F.verts.length) (hfit : F.cells.length ≤ BOUNDARY)
    (hpoly : ∀ vs ∈ F.faces, 3 ≤ vs.length ∧ NoRepetition vs) (hall : ∀ f, f < F.faces.length → ∃ c, Lists F f c)
    (solids : List (List (List (Vec 3 ℝ) × Vec 3 ℝ)))
    (hsol : List.Forall₂ (fun l faces => ConvexSolid faces ∧
      List.Forall₂ (fun (f : Nat) x => ∃ p, F.faces[f]? = some p ∧ Drawn (at3 F.verts) p x.1) l faces) F.cells solids)
    (hapart : Apart Eq F.cells solids) :
    ∃ m, Fpma.load res (F.tokens ++ rest) { dim := 3 } = .ok m ∧ ExactFluxes (m.mapV vec3) solids := by
  obtain ⟨m, l1, hv, h3, hb, hl, hS, hcov, hedge⟩ := fpma_shapes F hF res hres rest hr hfit hpoly hall solids hsol
  obtain ⟨m', l2, hc⟩ := C55_fpma F hF res hres rest hr hfit hpoly hall solids hsol hapart
  rw [l1] at l2
  cases l2
  refine ⟨m, l1, exactFluxes_of h3 (fun c faces hf => ⟨(hS c faces hf).1, ?_⟩) (hasGeometry_of hv h3 hb hl hS hcov hedge) hc⟩
  intro x hx
  obtain ⟨f, _, hf⟩ := forall₂_mem (hS c faces hf).2 hx
  exact hf.ne

/-! ## Which polygons have their mean as center of gravity -/

/-- Triangles. -/
theorem C73_triangle (ν P Q R : Vec 3 ℝ) : IsCentroid (mean [P, Q, R]) ν [P, Q, R] := by
  have e1 := cross_apply (P - mean [P, Q, R]) (Q - mean [P, Q, R])
  have e2 := cross_apply (Q - mean [P, Q, R]) (R - mean [P, Q, R])
  have e3 := cross_apply (R - mean [P, Q, R]) (P - mean [P, Q, R])
  funext k
  simp only [sidesOf, List.rotate_cons_succ, List.rotate_zero, List.cons_append, List.nil_append, List.zip_cons_cons, List.zip_nil_right,
    List.map_cons, List.map_nil, List.sum_cons, List.sum_nil, Pi.add_apply, Pi.smul_apply, Pi.sub_apply, mean3, dot3, e1, e2, e3, smul_eq_mul,
    Pi.zero_apply]
  ring

theorem mean4 (P Q R S : Vec 3 ℝ) (k : Fin 3) : mean [P, Q, R, S] k = (P k + Q k + R k + S k) / 4 := by
  simp [mean]; ring

/-- Parallelograms. -/
theorem C73_parallelogram (ν P Q R S : Vec 3 ℝ) (h : P + R = Q + S) : IsCentroid (mean [P, Q, R, S]) ν [P, Q, R, S] := by
  obtain rfl : S = P + R - Q := by rw [h]; simp
  generalize hc : mean [P, Q, R, P + R - Q] = c
  have hk : ∀ k, c k = (P k + R k) / 2 := by
    intro k
    rw [← hc, mean4]; simp only [Pi.add_apply, Pi.sub_apply]; ring
  have e1 := cross_apply (P - c) (Q - c)
  have e2 := cross_apply (Q - c) (R - c)
  have e3 := cross_apply (R - c) (P + R - Q - c)
  have e4 := cross_apply (P + R - Q - c) (P - c)
  unfold IsCentroid
  funext k
  simp only [sidesOf, List.rotate_cons_succ, List.rotate_zero, List.cons_append, List.nil_append, List.zip_cons_cons, List.zip_nil_right,
    List.map_cons, List.map_nil, List.sum_cons, List.sum_nil, Pi.add_apply, Pi.smul_apply, Pi.sub_apply, mean3, dot3, e1, e2, e3, e4, smul_eq_mul,
    Pi.zero_apply, hk]
  ring

end GTMesh.Props
