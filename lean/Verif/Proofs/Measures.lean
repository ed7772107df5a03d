import Verif.Proofs.Geometry
import Verif.Proofs.Gs

/-! # Measures -/

namespace GTMesh
open Spec Std' Vec Props

theorem Res.bind_congr {α β : Type} {x : Res α} {f g : α → Res β} (h : ∀ a, x = .ok a → f a = g a) : x.bind f = x.bind g := by
  cases x with
  | ok a => exact h a rfl
  | throw e => rfl
  | ub => rfl
  | diverge => rfl

theorem forEach_congr {α β : Type} {f g : α → Res β} (h : ∀ a, f a = g a) (l : List α) : forEach f l = forEach g l := by
  have : f = g := funext h
  rw [this]

/-- What a loop with one result per element returns. -/
theorem forEach_eq_ok {α β : Type} {f : α → Res β} : ∀ {l : List α} {r : List β}, forEach f l = .ok r → List.Forall₂ (fun a b => f a = .ok b) l r := by
  intro l
  induction l with
  | nil => intro r h; simp [forEach] at h; rw [h]; exact List.Forall₂.nil
  | cons a l ih =>
    intro r h
    rw [forEach] at h
    cases h1 : f a <;> rw [h1] at h <;> simp only [Res.bind, reduceCtorEq] at h
    cases h2 : forEach f l <;> rw [h2] at h <;> simp only [Res.bind, reduceCtorEq] at h
    rw [← Res.ok.inj h]
    exact List.Forall₂.cons h1 (ih h2)

theorem forall₂_right {α β : Type} {R : α → β → Prop} {P : β → Prop} (h : ∀ a b, R a b → P b) : ∀ {l : List α} {r : List β},
    List.Forall₂ R l r → ∀ b ∈ r, P b := by
  intro l r hr
  induction hr with
  | nil => simp
  | cons h1 _ ih =>
    intro b hb
    rcases List.mem_cons.mp hb with rfl | hb
    · exact h _ _ h1
    · exact ih b hb

namespace Geo

theorem total_eq (l : List ℝ) : total l = l.sum := by
  have : ∀ (l : List ℝ) (a : ℝ), l.foldl (· + ·) a = a + l.sum := by
    intro l
    induction l with
    | nil => intro a; simp
    | cons x l ih => intro a; rw [List.foldl_cons, ih, List.sum_cons, add_assoc]
  rw [total, this, zero_add]

theorem sum_nonneg {l : List ℝ} (h : ∀ x ∈ l, 0 ≤ x) : 0 ≤ l.sum := by
  induction l with
  | nil => simp
  | cons x l ih => rw [List.sum_cons]; exact add_nonneg (h x List.mem_cons_self) (ih fun y hy => h y (List.mem_cons_of_mem x hy))

/-! ### Isometries -/

section
variable {n : Nat} {L : Vec n ℝ →ₗ[ℝ] Vec n ℝ} (hL : IsIsometry L)
include hL

theorem norm_map (x : Vec n ℝ) : Vec.norm (L x) = Vec.norm x := by
  simp only [norm_real]; rw [hL]

omit hL in
theorem sub_map (t x y : Vec n ℝ) : sub (L x + t) (L y + t) = L (sub x y) := by
  rw [sub_eq, sub_eq, map_sub]; abel

theorem normStep_map (us : List (Vec n ℝ)) (v : Vec n ℝ) : normStep (us.map L) (L v) = L (normStep us v) := by
  unfold normStep
  have e : ((us.map L).map fun u => dot (L v) u) = us.map fun u => dot v u := by
    rw [List.map_map]; apply List.map_congr_left; intro u _; exact hL v u
  simp only [e]
  clear e
  generalize us.map (fun u => dot v u) = cs
  induction us generalizing cs v with
  | nil => simp
  | cons u us ih =>
    cases cs with
    | nil => simp
    | cons c cs =>
      have e1 : subAssign (L v) (.other (smul (L u) c)) = L (subAssign v (.other (smul u c))) := by
        rw [subAssign_eq, subAssign_eq, Operand.get, Operand.get, smul_eq, smul_eq, map_sub, map_smul]
      simp only [List.map_cons, List.zip_cons_cons, List.foldl_cons, e1]
      exact ih _ cs

theorem normLoop_map : ∀ (vs us : List (Vec n ℝ)) (ns : List ℝ),
    normLoop (us.map L) ns (vs.map L) = ((normLoop us ns vs).1.map L, (normLoop us ns vs).2) := by
  intro vs
  induction vs with
  | nil => intro us ns; rfl
  | cons v vs ih =>
    intro us ns
    rw [List.map_cons, normLoop, normLoop]
    rw [normStep_map hL, norm_map hL]
    have : divAssign (L (normStep us v)) (.value (Vec.norm (normStep us v))) = L (divAssign (normStep us v) (.value (Vec.norm (normStep us v)))) := by
      rw [divAssign_eq, divAssign_eq, map_smul]; rfl
    rw [this, ← List.map_singleton (f := L), ← List.map_append, ih]

/-- The norms do not change under a rotation of all vectors, and the vectors rotate. -/
theorem gs_map (vs : List (Vec n ℝ)) : gramSchmidtN (vs.map L) = (gramSchmidtN vs).bind fun r => .ok (r.1.map L, r.2) := by
  cases vs with
  | nil => rfl
  | cons v vs =>
    show Res.ok _ = Res.ok _
    congr 1
    rw [norm_map hL]
    have : divAssign (L v) (.value (Vec.norm v)) = L (divAssign v (.value (Vec.norm v))) := by
      rw [divAssign_eq, divAssign_eq, map_smul]; rfl
    rw [this]
    exact normLoop_map hL vs [divAssign v (.value (Vec.norm v))] [Vec.norm v]

end

section
variable {n : Nat} {F : Type}

theorem at_map {α β : Type} (f : α → β) (l : List α) (i : Nat) : Res.at' (l.map f) i = (Res.at' l i).bind fun a => .ok (f a) := by
  unfold Res.at'
  rw [List.getElem?_map]
  cases l[i]? <;> rfl

theorem edgeEnds_map (f : Vec n F → Vec n F) (m : Mesh (Vec n F)) (e : Idx) :
    edgeEnds (m.mapV f) e = (edgeEnds m e).bind fun p => .ok (f p.1, f p.2) := by
  simp only [edgeEnds, Mesh.mapV_edges, Mesh.mapV_vertices, at_map]
  cases h1 : Res.at' m.edges e with
  | ok ed =>
    simp only [Res.bind]
    cases h2 : Res.at' m.vertices ed.a <;> cases h3 : Res.at' m.vertices ed.b <;> rfl
  | throw e => rfl
  | ub => rfl
  | diverge => rfl

theorem bind_assoc' {α β γ : Type} (x : Res α) (f : α → Res β) (g : β → Res γ) : (x.bind f).bind g = x.bind fun a => (f a).bind g := by
  cases x <;> rfl

end

end Geo
end GTMesh
