import Verif.Props.Measures2
import Verif.Props.Normals
import Verif.Props.Distances

/-! # Similar meshes -/

namespace GTMesh
open Spec Std' Vec Geo Props

theorem forEach_mapR {α β γ : Type} (f : α → Res β) (f' : α → Res γ) (h : β → γ) : ∀ l : List α, (∀ a ∈ l, f' a = (f a).bind fun b => .ok (h b)) →
    forEach f' l = (forEach f l).bind fun bs => .ok (bs.map h)
  | [], _ => rfl
  | a :: l, ha => by
    rw [forEach, forEach, ha a List.mem_cons_self, forEach_mapR f f' h l fun b hb => ha b (List.mem_cons_of_mem _ hb)]
    cases f a <;> simp only [Res.bind]
    cases forEach f l <;> simp

theorem cellLoop_map {V β γ : Type} (m : Mesh V) (b : Idx → Res (List β)) (b' : Idx → Res (List γ)) (h : β → γ)
    (hb : ∀ f, b' f = (b f).bind fun l => .ok (l.map h)) (cell start : Idx) : ∀ (k : Nat) (t : Idx),
    m.cellLoop b' cell start k t = (m.cellLoop b cell start k t).bind fun l => .ok (l.map h) := by
  intro k
  induction k with
  | zero => intro t; rfl
  | succ k ih =>
    intro t
    rw [Mesh.cellLoop, Mesh.cellLoop, hb]
    cases b t <;> simp only [Res.bind]
    cases m.nextFace cell t <;> simp only []
    split
    · rfl
    · rw [ih]
      cases m.cellLoop b cell start k _ <;> simp

theorem idx_mapR {α β : Type} (f : α → β) (l : List α) (i : Nat) : Res.idx (l.map f) i = (Res.idx l i).bind fun a => .ok (f a) := by
  unfold Res.idx
  rw [List.getElem?_map]
  cases l[i]? <;> rfl

namespace Geo
variable {n : Nat}

theorem total_scale (s : ℝ) (l : List ℝ) : total (l.map (s * ·)) = s * total l := by
  rw [total_eq, total_eq, List.sum_map_mul_left, List.map_id']

theorem norm_scale {s : ℝ} (hs : 0 < s) (x : Vec n ℝ) : Vec.norm (s • x) = s * Vec.norm x := by
  simp only [norm_real]
  rw [dot_smul, dot_smul_right, ← mul_assoc, Real.sqrt_mul (mul_self_nonneg s), Real.sqrt_mul_self hs.le]

theorem normStep_scale (s : ℝ) (us : List (Vec n ℝ)) (v : Vec n ℝ) : normStep us (s • v) = s • normStep us v := by
  unfold normStep
  have e : (us.map fun u => dot (s • v) u) = (us.map fun u => dot v u).map (s * ·) := by
    rw [List.map_map]; apply List.map_congr_left; intro u _; exact dot_smul s v u
  simp only [e]
  clear e
  generalize us.map (fun u => dot v u) = cs
  induction us generalizing cs v with
  | nil => simp
  | cons u us ih =>
    cases cs with
    | nil => simp
    | cons c cs =>
      have e1 : subAssign (s • v) (.other (smul u (s * c))) = s • (subAssign v (.other (smul u c))) := by
        rw [subAssign_eq, subAssign_eq, Operand.get, Operand.get, smul_eq, smul_eq, smul_sub, smul_smul]
      simp only [List.map_cons, List.zip_cons_cons, List.foldl_cons, e1]
      exact ih _ cs

theorem divNorm_scale {s : ℝ} (hs : 0 < s) (u : Vec n ℝ) :
    divAssign (s • u) (.value (Vec.norm (s • u))) = divAssign u (.value (Vec.norm u)) := by
  rw [divAssign_eq, divAssign_eq, norm_scale hs, Factor.get, Factor.get, smul_smul, mul_inv, mul_comm s⁻¹, mul_assoc, inv_mul_cancel₀ hs.ne', mul_one]

theorem normLoop_scale {s : ℝ} (hs : 0 < s) : ∀ (vs us : List (Vec n ℝ)) (ns : List ℝ),
    normLoop us (ns.map (s * ·)) (vs.map (s • ·)) = ((normLoop us ns vs).1, (normLoop us ns vs).2.map (s * ·)) := by
  intro vs
  induction vs with
  | nil => intro us ns; rfl
  | cons v vs ih =>
    intro us ns
    rw [List.map_cons, normLoop, normLoop]
    rw [normStep_scale, divNorm_scale hs, norm_scale hs, ← List.map_singleton (f := (s * ·)), ← List.map_append, ih]

/-- The norms scale with the vectors, and the unit vectors stay. -/
theorem gs_scale {s : ℝ} (hs : 0 < s) (vs : List (Vec n ℝ)) :
    gramSchmidtN (vs.map (s • ·)) = (gramSchmidtN vs).bind fun r => .ok (r.1, r.2.map (s * ·)) := by
  cases vs with
  | nil => rfl
  | cons v vs =>
    show Res.ok _ = Res.ok _
    congr 1
    rw [divNorm_scale hs, norm_scale hs]
    exact normLoop_scale hs vs _ [Vec.norm v]

theorem gs_similar {s : ℝ} (hs : 0 < s) {L : Vec n ℝ →ₗ[ℝ] Vec n ℝ} (hL : IsIsometry L) (vs : List (Vec n ℝ)) :
    gramSchmidtN (vs.map (s • L)) = (gramSchmidtN vs).bind fun r => .ok (r.1.map L, r.2.map (s * ·)) := by
  have : vs.map (s • L) = (vs.map L).map (s • ·) := by rw [List.map_map]; rfl
  rw [this, gs_scale hs, gs_map hL, bind_assoc']
  rfl

theorem norm_similar {s : ℝ} (hs : 0 < s) {L : Vec n ℝ →ₗ[ℝ] Vec n ℝ} (hL : IsIsometry L) (x : Vec n ℝ) :
    Vec.norm ((s • L) x) = s * Vec.norm x := by
  rw [LinearMap.smul_apply, norm_scale hs, norm_map hL]

theorem edgeMeasures_similar {s : ℝ} (hs : 0 < s) {L : Vec n ℝ →ₗ[ℝ] Vec n ℝ} (hL : IsIsometry L) (t : Vec n ℝ) (m : Mesh (Vec n ℝ)) :
    edgeMeasures (m.mapV fun p => (s • L) p + t) = (edgeMeasures m).bind fun ls => .ok (ls.map (s * ·)) := by
  unfold edgeMeasures
  apply forEach_mapR
  intro e _
  rw [edgeMeasure, edgeMeasure, edgeEnds_map, bind_assoc', bind_assoc']
  apply Res.bind_congr
  intro p _
  simp only [Res.bind]
  rw [sub_map, norm_similar hs hL]

theorem triangle2_similar {s : ℝ} {L : Vec 2 ℝ →ₗ[ℝ] Vec 2 ℝ} (hL : IsIsometry L) (t c a b : Vec 2 ℝ) :
    triangle2 ((s • L) c + t) ((s • L) a + t) ((s • L) b + t) = s ^ 2 * triangle2 c a b := by
  have key : ∀ c a b : Vec 2 ℝ, triangle2 c a b = 1 / 2 * |(sub c a) 0 * (sub b a) 1 - (sub c a) 1 * (sub b a) 0| := by
    intro c a b; rw [sub_eq, sub_eq]; rfl
  rw [key, key, sub_map, sub_map]
  simp only [LinearMap.smul_apply, Pi.smul_apply, smul_eq_mul]
  have : s * L (sub c a) 0 * (s * L (sub b a) 1) - s * L (sub c a) 1 * (s * L (sub b a) 0) =
      s ^ 2 * (L (sub c a) 0 * L (sub b a) 1 - L (sub c a) 1 * L (sub b a) 0) := by ring
  rw [this, abs_mul, abs_of_nonneg (sq_nonneg s), det_sqrt, det_sqrt, hL, hL, hL]
  ring

end Geo
end GTMesh
