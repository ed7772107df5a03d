import Verif.Spec.Divergence
import Verif.Props.Flux
import Verif.Props.Convex

/-! # C73: fluxes of linear fields (two dimensions) -/

namespace GTMesh.Props
open GTMesh Spec Std' Vec Geo
variable {n : Nat}

theorem dot_single (k : Fin n) (c : ℝ) (x : Vec n ℝ) : dot (Pi.single k c) x = c * x k := by
  rw [dot_eq]
  simp [Pi.single_apply, Finset.sum_ite_eq']

/-- The Green-Gauss sum from fluxes. -/
theorem greenGauss_flux {V : Type} (m : Mesh V) (faces : List Idx) (measures : List ℝ) (normals : List (Vec n ℝ)) (point : Idx → Vec n ℝ)
    (a : Vec n ℝ) (b : ℝ) (cell : Idx) (k : Fin n) :
    greenGauss m faces measures normals point (fun x => dot a x + b) cell k =
      flux m faces measures normals point (linearField (Pi.single k a) (Pi.single k b)) cell := by
  have hf : ∀ x, linearField (Pi.single k a) (Pi.single k b) x = Pi.single k (dot a x + b) := by
    intro x
    funext j
    unfold linearField
    by_cases hj : j = k
    · subst hj; simp
    · simp [Pi.single_apply, hj, dot_eq]
  rw [greenGauss, flux, vec_sum_apply, List.map_map]
  congr 1
  apply List.map_congr_left
  intro f _
  simp only [Function.comp_apply, Pi.smul_apply, smul_eq_mul, hf, dot_single]
  ring

theorem divergence_single (k : Fin n) (a : Vec n ℝ) : divergence (Pi.single k a) = a k := by
  unfold divergence
  rw [Finset.sum_eq_single k]
  · simp
  · intro j _ hj; simp [Pi.single_apply, hj]
  · simp

/-- What one side of a polygon adds to the flux. -/
noncomputable def sideFlux (A : Fin 2 → Vec 2 ℝ) (b : Vec 2 ℝ) (P Q : Vec 2 ℝ) : ℝ :=
  dot (linearField A b (mean [P, Q])) ![Q 1 - P 1, -(Q 0 - P 0)]

theorem mean2 (P Q : Vec n ℝ) (k : Fin n) : mean [P, Q] k = (P k + Q k) / 2 := by
  simp [mean]; ring

theorem sideFlux_odd (A : Fin 2 → Vec 2 ℝ) (b : Vec 2 ℝ) (P Q : Vec 2 ℝ) : sideFlux A b Q P = - sideFlux A b P Q := by
  simp only [sideFlux, dot2, linearField, mean2, Matrix.cons_val_zero, Matrix.cons_val_one]
  ring

/-- A side adds the divergence times its part of the area, and a difference that vanishes around the polygon. -/
theorem sideFlux_eq (A : Fin 2 → Vec 2 ℝ) (b : Vec 2 ℝ) : ∃ G : Vec 2 ℝ → ℝ, ∀ P Q, sideFlux A b P Q =
    divergence A * (1 / 2 * (P 0 * Q 1 - Q 0 * P 1)) + (G Q - G P) := by
  refine ⟨fun P => (A 0 0 - A 1 1) / 2 * (P 0 * P 1) + A 0 1 / 2 * (P 1 * P 1) - A 1 0 / 2 * (P 0 * P 0) + b 0 * P 1 - b 1 * P 0, fun P Q => ?_⟩
  simp only [sideFlux, dot2, linearField, mean2, divergence, Fin.sum_univ_two, Matrix.cons_val_zero, Matrix.cons_val_one]
  ring

theorem polygon_flux (A : Fin 2 → Vec 2 ℝ) (b : Vec 2 ℝ) (ps : List (Vec 2 ℝ)) :
    ((sidesOf ps).map fun p => sideFlux A b p.1 p.2).sum = divergence A * shoelace ps := by
  obtain ⟨G, hG⟩ := sideFlux_eq A b
  simp only [hG]
  rw [List.sum_map_add, sidesOf_sum, add_zero, List.sum_map_mul_left, shoelace]
  congr 1
  rw [List.sum_map_mul_left]

theorem noEmpty2 {V : Type} {m : Mesh V} (h2 : m.dim = 2) : NoEmptyElement m := fun _ _ _ _ _ _ => by omega

/-- C73. In 2D the flux of a linear field out of a cell, with one value at the computed center of each edge, is the divergence times the area
of the polygon, whatever its shape; the area is the computed measure if the polygon is convex. -/
theorem C73_divergence_2d (g : GMesh 2 ℝ) (bd : Idx → List Idx) (hv : ValidMesh g.mesh bd) (h2 : g.mesh.dim = 2)
    (hd : ∀ e, e < g.mesh.edges.length → (ends g.mesh e).1 ≠ (ends g.mesh e).2) :
    ∃ cs ns ls as, computeCenters g.mesh = .ok cs ∧ computeFaceNormals2 g.mesh = .ok ns ∧ computeMeasures2 (setCenters g cs) = .ok (ls, as) ∧
      ∀ (i : Nat) (vs : List Idx) (ps : List (Vec 2 ℝ)), i < g.mesh.cells.length → IsPolygon g.mesh.edges (bd i) vs →
        PositionsOf g.mesh vs ps → 3 ≤ vs.length → LeadAlong g.mesh (bd i) i vs →
        (∀ A b, flux g.mesh (bd i) ls ns (setCenters g cs).faceCenter (linearField A b) i = divergence A * shoelace ps) ∧
        (ConvexPolygon ps → as[i]? = some (shoelace ps)) := by
  obtain ⟨ns, n1, n2, n3⟩ := C40_normals_2d g.mesh bd hv hd
  obtain ⟨cs, hcs, hac⟩ := C38_centers g.mesh bd hv (noEmpty2 h2)
  refine ⟨cs, ns, _, _, hcs, n1, C39_measures_2d (setCenters g cs) bd hv h2, ?_⟩
  intro i vs ps hi hp hpos h3 hdir
  refine ⟨fun A b => ?_, fun hc => ?_⟩
  · have key : ∀ e ∈ bd i, outwards (cellsOfFace g.mesh e) i * ((lengths g.mesh)[e]?).getD 0 *
        dot (linearField A b ((setCenters g cs).faceCenter e)) ((ns[e]?).getD 0) =
        (outwards (cellsOfFace g.mesh e) i • (fun (P Q : Vec 2 ℝ) => (fun _ => sideFlux A b P Q : Vec 1 ℝ)) (ends g.mesh e).1 (ends g.mesh e).2) 0 := by
      intro e he
      have hlt := bd_lt hv hi e he
      rw [h2, edges_of_valid hv] at hlt
      have hee := List.getElem?_eq_getElem hlt
      obtain ⟨P, Q, hP, hQ⟩ := exists_ends hv hee
      have hends : ends g.mesh e = (P, Q) := by rw [ends, hee]; simp [hP, hQ]
      have hfc := setCenters_face g (cs := cs) (i := e) (c := mean [P, Q]) (by omega) (by rw [h2]; exact hac.edges e _ P Q hee hP hQ)
      have hln := length_normal (hd e hlt) (n3 e _ (List.getElem?_eq_getElem (by rw [n2]; exact hlt)))
      rw [lengths, List.getElem?_map, List.getElem?_range hlt, List.getElem?_eq_getElem (by rw [n2]; exact hlt), hfc]
      simp only [Option.map_some, Option.getD_some, Pi.smul_apply, smul_eq_mul]
      rw [hends] at hln ⊢
      rw [sideFlux, ← hln, dot_smul_right]
      ring
    show ((bd i).map fun f => outwards (cellsOfFace g.mesh f) i * ((lengths g.mesh)[f]?).getD 0 *
      dot (linearField A b ((setCenters g cs).faceCenter f)) ((ns[f]?).getD 0)).sum = _
    rw [List.map_congr_left key]
    have hsum := polygon_sum_directed hp hpos h3 _ (lead_signs h2 hdir) (fun (P Q : Vec 2 ℝ) => (fun _ => sideFlux A b P Q : Vec 1 ℝ)) (by
      intro P Q; funext k; exact sideFlux_odd A b P Q)
    have h0 := congrFun hsum 0
    rw [vec_sum_apply, vec_sum_apply, List.map_map, List.map_map] at h0
    refine Eq.trans h0 (Eq.trans ?_ (polygon_flux A b ps))
    rfl
  · obtain ⟨cs', ls, as, k1, k2, k3⟩ := C39_convex_2d g bd hv (noEmpty2 h2) h2 i hi vs ps hp hpos hc
    rw [hcs] at k1
    obtain rfl := Res.ok.inj k1
    rw [C39_measures_2d (setCenters g cs) bd hv h2] at k2
    have := Res.ok.inj k2
    simp only [Prod.mk.injEq] at this
    rw [this.2]
    exact k3

/-- C73. In 2D the Green-Gauss sum of a linear function, with one value at the computed center of each edge, is the area times its gradient. -/
theorem C73_gradient_2d (g : GMesh 2 ℝ) (bd : Idx → List Idx) (hv : ValidMesh g.mesh bd) (h2 : g.mesh.dim = 2)
    (hd : ∀ e, e < g.mesh.edges.length → (ends g.mesh e).1 ≠ (ends g.mesh e).2) :
    ∃ cs ns ls as, computeCenters g.mesh = .ok cs ∧ computeFaceNormals2 g.mesh = .ok ns ∧ computeMeasures2 (setCenters g cs) = .ok (ls, as) ∧
      ∀ (i : Nat) (vs : List Idx) (ps : List (Vec 2 ℝ)), i < g.mesh.cells.length → IsPolygon g.mesh.edges (bd i) vs →
        PositionsOf g.mesh vs ps → 3 ≤ vs.length → LeadAlong g.mesh (bd i) i vs →
        ∀ (a : Vec 2 ℝ) (b : ℝ), greenGauss g.mesh (bd i) ls ns (setCenters g cs).faceCenter (fun x => dot a x + b) i = shoelace ps • a := by
  obtain ⟨cs, ns, ls, as, h1, h4, h5, h6⟩ := C73_divergence_2d g bd hv h2 hd
  refine ⟨cs, ns, ls, as, h1, h4, h5, fun i vs ps hi hp hpos h3 hdir a b => ?_⟩
  funext k
  rw [greenGauss_flux, (h6 i vs ps hi hp hpos h3 hdir).1, divergence_single, Pi.smul_apply, smul_eq_mul, mul_comm]

end GTMesh.Props
