import Verif.Spec.LoadedGeometry
import Verif.Props.Flux

/-! # C39, C40: meshes whose cells are convex -/

namespace GTMesh.Props
open GTMesh Spec Std' Vec Geo

/-- The mean of the midpoints of the sides of a polygon is the mean of its vertices. -/
theorem polygon_mean {n : Nat} {m : Mesh (Vec n ℝ)} {subs vs : List Idx} {ps : List (Vec n ℝ)} (hp : IsPolygon m.edges subs vs)
    (hpos : PositionsOf m vs ps) : mean (subs.map fun e => mean [(ends m e).1, (ends m e).2]) = mean ps := by
  have hl : subs.length = ps.length := by
    obtain ⟨_, _, _, es, h1, h2, _⟩ := hp
    rw [← h1.length_eq, h2, hpos.length_eq]
  funext k
  simp only [mean, List.length_map, hl, Pi.smul_apply, smul_eq_mul]
  congr 1
  rw [vec_sum_apply, vec_sum_apply, List.map_map]
  have h1 : (subs.map ((fun x : Vec n ℝ => x k) ∘ fun e => mean [(ends m e).1, (ends m e).2])) =
      subs.map fun e => (1 / 2 : ℝ) * ((ends m e).1 k + (ends m e).2 k) := by
    apply List.map_congr_left
    intro e _
    simp [mean]
    ring
  simp only [mean] at h1
  rw [h1, polygon_sum hp hpos (fun A B => (1 / 2 : ℝ) * (A k + B k)) (by intro A B; ring)]
  have key : ∀ (l r : List (Vec n ℝ)), l.length = r.length →
      ((l.zip r).map fun p => (1 / 2 : ℝ) * (p.1 k + p.2 k)).sum = 1 / 2 * ((l.map fun x => x k).sum + (r.map fun x => x k).sum) := by
    intro l
    induction l with
    | nil => intro r h; cases r with
      | nil => simp
      | cons x r => simp at h
    | cons x l ih =>
      intro r h
      cases r with
      | nil => simp at h
      | cons y r =>
        simp only [List.zip_cons_cons, List.map_cons, List.sum_cons]
        rw [ih r (by simpa using h)]
        ring
  rw [sidesOf, key _ _ (by simp), ((List.rotate_perm ps 1).map fun x => x k).sum_eq]
  ring

theorem dot_mean {n : Nat} (a : Vec n ℝ) (ps : List (Vec n ℝ)) : dot a (mean ps) = (ps.length : ℝ)⁻¹ * (ps.map (dot a)).sum := by
  rw [mean, dot_smul_right]
  congr 1
  induction ps with
  | nil => rw [List.sum_nil, dot_zero]; simp
  | cons x l ih => rw [List.sum_cons, dot_add_right, ih]; simp

theorem mean_eq_plane {n : Nat} {a : Vec n ℝ} {b : ℝ} {ps : List (Vec n ℝ)} (hne : ps ≠ []) (h : ∀ p ∈ ps, dot a p = b) : dot a (mean ps) = b := by
  rw [dot_mean]
  have : (ps.map (dot a)).sum = ps.length * b := by
    clear hne
    induction ps with
    | nil => simp
    | cons x l ih =>
      rw [List.map_cons, List.sum_cons, h x List.mem_cons_self, ih fun p hp => h p (List.mem_cons_of_mem x hp)]
      push_cast [List.length_cons]; ring
  have hl : (ps.length : ℝ) ≠ 0 := by simpa using hne
  rw [this]; field_simp

theorem mean_le {n : Nat} {a : Vec n ℝ} {b : ℝ} {ps : List (Vec n ℝ)} (hne : ps ≠ []) (h : ∀ p ∈ ps, dot a p ≤ b) : dot a (mean ps) ≤ b := by
  rw [dot_mean]
  have : (ps.map (dot a)).sum ≤ ps.length * b := by
    clear hne
    induction ps with
    | nil => simp
    | cons x l ih =>
      rw [List.map_cons, List.sum_cons]
      have h1 := h x List.mem_cons_self
      have h2 := ih fun p hp => h p (List.mem_cons_of_mem x hp)
      push_cast [List.length_cons]; linarith
  have hl : (0 : ℝ) < ps.length := by have := List.length_pos_of_ne_nil hne; exact_mod_cast this
  rw [inv_mul_le_iff₀ hl]
  exact this

/-- The mean is strictly inside when one of the points is. -/
theorem mean_lt {n : Nat} {a : Vec n ℝ} {b : ℝ} {ps : List (Vec n ℝ)} (h : ∀ p ∈ ps, dot a p ≤ b) (h' : ∃ p ∈ ps, dot a p < b) :
    dot a (mean ps) < b := by
  rw [dot_mean]
  obtain ⟨q, hq, hqb⟩ := h'
  have this : (ps.map (dot a)).sum < ps.length * b := by
    have := List.sum_lt_sum (dot a) (fun _ => b) h ⟨q, hq, hqb⟩
    rwa [List.map_const', List.sum_replicate, nsmul_eq_mul] at this
  have hl : (0 : ℝ) < ps.length := by have := List.length_pos_of_mem hq; exact_mod_cast this
  rw [inv_mul_lt_iff₀ hl]
  exact this

/-- Face `f` of the mesh has the polygon `ps`. -/
def FaceShape (m : Mesh (Vec 3 ℝ)) (f : Idx) (ps : List (Vec 3 ℝ)) : Prop :=
  ∃ fa vs, (m.midElems 2)[f]? = some fa ∧ IsPolygon m.edges fa.sub vs ∧ PositionsOf m vs ps

theorem FaceShape.ne {m : Mesh (Vec 3 ℝ)} {f : Idx} {ps : List (Vec 3 ℝ)} (h : FaceShape m f ps) : ps ≠ [] := by
  obtain ⟨_, vs, _, h2, h3⟩ := h
  intro h0
  subst h0
  exact h2.1 (List.length_eq_zero_iff.mp h3.length_eq)

theorem FaceShape.center {m : Mesh (Vec 3 ℝ)} {bd : Idx → List Idx} (hv : ValidMesh m bd) (h3 : m.dim = 3) {cs : List (List (Vec 3 ℝ))}
    (hcs : AreCenters m bd cs) {f : Nat} {ps : List (Vec 3 ℝ)} (h : FaceShape m f ps) : entry cs 2 f = some (mean ps) := by
  obtain ⟨fa, vs, h1, h2, h4⟩ := h
  rw [face_entry hv h3 hcs (List.getElem?_eq_some_iff.mp h1).1, edgeMean, faceEdges, h1]
  simp only [Option.map_some, Option.getD_some, List.map_map]
  rw [← polygon_mean h2 h4]
  rfl

theorem exists_function {α β : Type} [DecidableEq α] [Inhabited β] {r : α → β → Prop} {l : List α} {xs : List β} (hn : l.Nodup)
    (h : List.Forall₂ r l xs) : ∃ P : α → β, xs = l.map P ∧ ∀ a ∈ l, r a (P a) := by
  induction h with
  | nil => exact ⟨fun _ => default, rfl, by simp⟩
  | @cons a b l xs h1 _ ih =>
    obtain ⟨hna, hn⟩ := List.nodup_cons.mp hn
    obtain ⟨P, rfl, hP⟩ := ih hn
    refine ⟨fun x => if x = a then b else P x, ?_, ?_⟩
    · rw [List.map_cons, if_pos rfl]
      congr 1
      apply List.map_congr_left
      intro x hx
      rw [if_neg]
      rintro rfl; exact hna hx
    · intro x hx
      show r x (if x = a then b else P x)
      by_cases hxa : x = a
      · rw [if_pos hxa, hxa]; exact h1
      · rw [if_neg hxa]
        exact hP x ((List.mem_cons.mp hx).resolve_left hxa)

theorem convexSolid_cell {m : Mesh (Vec 3 ℝ)} {faces : List Idx} {P : Idx → List (Vec 3 ℝ) × Vec 3 ℝ} (h : ConvexSolid (faces.map P))
    (hP : ∀ f ∈ faces, FaceShape m f (P f).1) : ConvexCell m faces (fun f => (P f).1) (fun f => (P f).2) := by
  have hm : ∀ f ∈ faces, P f ∈ faces.map P := fun f hf => List.mem_map_of_mem hf
  refine ⟨hP, fun f hf => h.unit _ (hm f hf), fun f hf => h.convex _ (hm f hf), fun f hf f' hf' => h.inner _ (hm f hf) _ (hm f' hf'), ?_⟩
  have := h.closed
  rw [List.flatMap_map] at this
  exact this

/-- C39, C40. On a mesh whose cells are convex polyhedra (and whose faces and edges all belong to cells) everything is computed; the
measures of the cells are the volumes, those of the faces the areas; the centers of the faces are the means of their vertices, those of the
cells the means of the centers of their faces; the normal of a face is the outer normal of its left cell. -/
theorem C39_convex_mesh (g : GMesh 3 ℝ) (bd : Idx → List Idx) (hv : ValidMesh g.mesh bd) (h3 : g.mesh.dim = 3)
    (hb : g.mesh.cells.length ≤ BOUNDARY) (S : Nat → List (List (Vec 3 ℝ) × Vec 3 ℝ))
    (hS : ∀ c, c < g.mesh.cells.length → ConvexSolid (S c) ∧ List.Forall₂ (fun f x => FaceShape g.mesh f x.1) (bd c) (S c))
    (hcov : ∀ (f : Nat) fa, (g.mesh.midElems 2)[f]? = some fa → fa.conn.left < g.mesh.cells.length ∧ f ∈ bd fa.conn.left)
    (hedge : ∀ e, e < g.mesh.edges.length → ∃ fa ∈ g.mesh.midElems 2, e ∈ fa.sub) :
    ∃ cs ls as vols ns, computeCenters g.mesh = .ok cs ∧ computeMeasures3 (setCenters g cs) = .ok (ls, as, vols) ∧
      computeFaceNormals3 (setCenters g cs) = .ok ns ∧ AreCenters g.mesh bd cs ∧ ls = lengths g.mesh ∧ vols.length = g.mesh.cells.length ∧
      ∀ c, c < g.mesh.cells.length → vols[c]? = some (solidVolume (S c)) ∧
        entry cs 3 c = some (mean ((S c).map fun x => mean x.1)) ∧
        List.Forall₂ (fun (f : Nat) x => as[f]? = some (Vec.norm (vectorArea x.1)) ∧ entry cs 2 f = some (mean x.1) ∧
          ∀ fa, (g.mesh.midElems 2)[f]? = some fa → fa.conn.left = c → ns[f]? = some x.2) (bd c) (S c) := by
  have hn2 : g.mesh.numElems 2 = (g.mesh.midElems 2).length := by
    unfold Mesh.numElems; rw [if_neg (by omega), if_neg (by omega), if_neg (by omega)]
  -- the faces of a cell, as functions
  have hP : ∀ c, c < g.mesh.cells.length → ∃ P : Idx → List (Vec 3 ℝ) × Vec 3 ℝ, S c = (bd c).map P ∧ ∀ f ∈ bd c, FaceShape g.mesh f (P f).1 := by
    intro c hc
    obtain ⟨hch, _⟩ := hv.chain c _ (List.getElem?_eq_getElem hc)
    exact exists_function hch.2.1 (hS c hc).2
  -- every face belongs to a solid
  have hface : ∀ f, f < (g.mesh.midElems 2).length → ∃ fa c x, (g.mesh.midElems 2)[f]? = some fa ∧ fa.conn.left = c ∧ c < g.mesh.cells.length ∧
      f ∈ bd c ∧ x ∈ S c ∧ FaceShape g.mesh f x.1 := by
    intro f hf
    have hg := List.getElem?_eq_getElem hf
    obtain ⟨k1, k2⟩ := hcov f _ hg
    obtain ⟨P, p1, p2⟩ := hP _ k1
    exact ⟨_, _, P f, hg, rfl, k1, k2, by rw [p1]; exact List.mem_map_of_mem k2, p2 f k2⟩
  have hne : NoEmptyElement g.mesh := by
    intro d i f hd2 hd3 hf h0
    obtain rfl : d = 2 := by omega
    obtain ⟨fa, c, x, h1, _, _, _, _, fa', vs, h2, h4, _⟩ := hface i (List.getElem?_eq_some_iff.mp hf).1
    rw [hf] at h1 h2
    cases h1; cases h2
    obtain ⟨hv0, _, _, es, q1, q2, _⟩ := h4
    rw [h0] at q1
    rw [q1.eq_nil] at q2
    exact hv0 (List.length_eq_zero_iff.mp q2.symm)
  obtain ⟨cs, hcs, hac⟩ := C38_centers g.mesh bd hv hne
  have hfc : ∀ {f : Nat} {ps : List (Vec 3 ℝ)}, FaceShape g.mesh f ps → (setCenters g cs).faceCenter f = mean ps := by
    intro f ps h
    exact setCenters_face g (by omega) (by rw [h3]; exact h.center hv h3 hac)
  have hcell : ∀ c, c < g.mesh.cells.length → entry cs 3 c = some (mean ((S c).map fun x => mean x.1)) := by
    intro c hc
    have hin : c < g.mesh.numElems 3 := by unfold Mesh.numElems; rw [if_pos h3.symm]; exact hc
    obtain ⟨ps, p1, _, p3⟩ := hac.higher 3 c (by omega) (by omega) hin
    have hds : directSubs g.mesh bd 3 c = bd c := by unfold directSubs; rw [if_pos h3.symm]
    rw [hds] at p1
    rw [p3]
    congr 2
    obtain ⟨P, q1, q2⟩ := hP c hc
    rw [q1, List.map_map]
    have key : ∀ {l : List Idx} {ps : List (Vec 3 ℝ)}, (∀ f ∈ l, FaceShape g.mesh f (P f).1) →
        List.Forall₂ (fun s p => entry cs (3 - 1) s = some p) l ps → ps = l.map ((fun x => mean x.1) ∘ P) := by
      intro l ps hl h
      induction h with
      | nil => rfl
      | cons h1 _ ih =>
        rw [List.map_cons, ← ih fun f hf => hl f (List.mem_cons_of_mem _ hf)]
        congr 1
        rw [show 3 - 1 = 2 from rfl, (hl _ List.mem_cons_self).center hv h3 hac] at h1
        exact (Option.some.inj h1).symm
    exact key q2 p1
  have hcc : ∀ c, c < g.mesh.cells.length → (setCenters g cs).cellCenter c = mean ((S c).map fun x => mean x.1) :=
    fun c hc => setCenters_cell g (by rw [h3]; exact hcell c hc)
  -- the center of a face is strictly inside of it
  have hinside : ∀ c x, c < g.mesh.cells.length → x ∈ S c → x.1 ≠ [] → ∀ p ∈ sidesOf x.1,
      0 < dot (cross (p.1 - mean x.1) (p.2 - mean x.1)) x.2 := by
    intro c x hc hx hx0 p hp
    have hs := (hS c hc).1
    have haff : ∀ q, dot (cross (p.1 - q) (p.2 - q)) x.2 = dot (cross p.1 p.2) x.2 - dot (cross (p.2 - p.1) x.2) q := by
      intro q
      have e1 := cross_apply (p.1 - q) (p.2 - q)
      have e2 := cross_apply p.1 p.2
      have e3 := cross_apply (p.2 - p.1) x.2
      simp only [dot3, e1, e2, e3, Pi.sub_apply]
      ring
    have := mean_lt (a := cross (p.2 - p.1) x.2) (b := dot (cross p.1 p.2) x.2) (ps := x.1) (by
      intro q hq
      have := (hs.convex x hx p hp q hq).2
      rw [haff] at this; linarith) (by
      obtain ⟨q, hq, h⟩ := hs.proper x hx p hp
      rw [haff] at h
      exact ⟨q, hq, by linarith⟩)
    rw [haff]; linarith
  have hplane : ∀ c x, c < g.mesh.cells.length → x ∈ S c → x.1 ≠ [] → ∀ q ∈ x.1, dot x.2 (mean x.1) = dot x.2 q := by
    intro c x hc hx hx0 q hq
    have hs := (hS c hc).1
    apply mean_eq_plane hx0
    intro q' hq'
    have i1 := hs.inner x hx x hx q hq q' hq'
    have i2 := hs.inner x hx x hx q' hq' q hq
    rw [dot_sub, dot_comm q', dot_comm q] at i1
    rw [dot_sub, dot_comm q', dot_comm q] at i2
    linarith
  -- the center of a cell is strictly behind its faces
  have hbehind : ∀ c x, c < g.mesh.cells.length → x ∈ S c → 0 < dot x.2 (mean x.1 - (setCenters g cs).cellCenter c) := by
    intro c x hc hx
    have hs := (hS c hc).1
    obtain ⟨P, q1, q2⟩ := hP c hc
    have hne' : ∀ y ∈ S c, y.1 ≠ [] := by
      intro y hy
      rw [q1] at hy
      obtain ⟨f, hf, rfl⟩ := List.mem_map.mp hy
      exact (q2 f hf).ne
    obtain ⟨q, hq⟩ := List.exists_mem_of_ne_nil _ (hne' x hx)
    obtain ⟨y, hy, q', hq', hlt⟩ := hs.solid x hx q hq
    have hle : ∀ y ∈ S c, ∀ q' ∈ y.1, dot x.2 q' ≤ dot x.2 q := by
      intro y hy q' hq'
      have := hs.inner x hx y hy q hq q' hq'
      rw [dot_sub, dot_comm q', dot_comm q] at this
      linarith
    have := mean_lt (a := x.2) (b := dot x.2 q) (ps := (S c).map fun x => mean x.1) (by
      intro p hp
      obtain ⟨y, hy, rfl⟩ := List.mem_map.mp hp
      exact mean_le (hne' y hy) (hle y hy)) (by
      refine ⟨mean y.1, List.mem_map.mpr ⟨y, hy, rfl⟩, mean_lt (hle y hy) ⟨q', hq', ?_⟩⟩
      rw [dot_sub, dot_comm q', dot_comm q] at hlt
      linarith)
    rw [hcc c hc, dot_sub_right, hplane c x hc hx (hne' x hx) q hq]
    linarith
  -- the first side of a face
  have hfirst : ∀ f, f < (g.mesh.midElems 2).length → ∃ fa c x, (g.mesh.midElems 2)[f]? = some fa ∧ fa.conn.left = c ∧ c < g.mesh.cells.length ∧
      f ∈ bd c ∧ x ∈ S c ∧ FaceShape g.mesh f x.1 ∧ faceEdges g.mesh f ≠ [] ∧
      ∃ s : ℝ, s ≠ 0 ∧ cross ((firstSide g.mesh f).1 - mean x.1) ((firstSide g.mesh f).2 - mean x.1) = s • x.2 := by
    intro f hf
    obtain ⟨fa, c, x, h1, h2, hc, hfb, hx, hsh⟩ := hface f hf
    have hsub := hne 2 f fa (le_refl 2) (by omega) h1
    have hfe : faceEdges g.mesh f = fa.sub.map (ends g.mesh) := by rw [faceEdges, h1]; rfl
    refine ⟨fa, c, x, h1, h2, hc, hfb, hx, hsh, by rw [hfe]; simpa using hsub, ?_⟩
    obtain ⟨fa', vs, g1, g2, g3⟩ := hsh
    rw [h1] at g1
    cases g1
    have hx0 : x.1 ≠ [] := (show FaceShape g.mesh f x.1 from ⟨fa, vs, h1, g2, g3⟩).ne
    have hs := (hS c hc).1
    have hν := hs.unit x hx
    have flat : ∀ q ∈ x.1, dot (q - mean x.1) x.2 = 0 := by
      intro q hq
      rw [dot_sub, dot_comm q, dot_comm (mean x.1), hplane c x hc hx hx0 q hq, sub_self]
    cases hsb : fa.sub with
    | nil => exact absurd hsb hsub
    | cons e es =>
      have hfs : firstSide g.mesh f = ends g.mesh e := by rw [firstSide, hfe, hsb]; rfl
      obtain ⟨p, p1, p2⟩ := polygon_side g2 g3 (e := e) (by rw [hsb]; exact List.mem_cons_self)
      have hpos := hinside c x hc hx hx0 p p1
      obtain ⟨m1, m2⟩ := sidesOf_mem p1
      have hcr := cross_in_plane (p.1 - mean x.1) (p.2 - mean x.1) x.2 hν (flat _ m1) (flat _ m2)
      rw [hfs]
      rcases p2 with p2 | p2
      · rw [p2]; exact ⟨_, hpos.ne', hcr⟩
      · rw [p2]
        refine ⟨-dot (cross (p.1 - mean x.1) (p.2 - mean x.1)) x.2, by rw [neg_ne_zero]; exact hpos.ne', ?_⟩
        show cross (p.2 - mean x.1) (p.1 - mean x.1) = _
        rw [cross_antisymm, neg_smul, ← hcr]
  have hnz : ∀ c x, c < g.mesh.cells.length → x ∈ S c → x.2 ≠ 0 := by
    intro c x hc hx h0
    have := (hS c hc).1.unit x hx
    rw [h0] at this
    simp [norm_real, dot_zero] at this
  have hd : NonDegenerate (setCenters g cs) := by
    refine ⟨?_, ?_, ?_⟩
    · intro e he
      obtain ⟨fa, hfa, hef⟩ := hedge e he
      obtain ⟨f, hf⟩ := List.getElem?_of_mem hfa
      obtain ⟨fa0, c, x, h1, _, hc, _, hx, fa', vs, g1, g2, g3⟩ := hface f (List.getElem?_eq_some_iff.mp hf).1
      rw [hf] at g1
      cases g1
      obtain ⟨p, p1, p2⟩ := polygon_side g2 g3 hef
      obtain ⟨q, hq, hlt⟩ := (hS c hc).1.proper x hx p p1
      have hpp : p.1 ≠ p.2 := by
        intro h
        rw [h] at hlt
        have hz : cross (p.2 - q) (p.2 - q) = 0 := by
          have h := cross_apply (p.2 - q) (p.2 - q)
          apply ext3 <;> simp only [h, Pi.zero_apply] <;> ring
        rw [hz, dot_comm, dot_zero] at hlt
        exact lt_irrefl _ hlt
      show (ends g.mesh e).1 ≠ (ends g.mesh e).2
      rcases p2 with p2 | p2 <;> rw [p2]
      · exact hpp
      · exact fun h => hpp h.symm
    · intro f hf
      obtain ⟨_, _, _, _, _, _, _, _, _, h, _⟩ := hfirst f hf
      exact h
    · intro f hf
      obtain ⟨fa, c, x, _, _, hc, _, hx, hsh, _, s, s1, s2⟩ := hfirst f hf
      rw [hfc hsh]
      show cross ((firstSide g.mesh f).1 - mean x.1) ((firstSide g.mesh f).2 - mean x.1) ≠ 0
      rw [s2]
      exact smul_ne_zero s1 (hnz c x hc hx)
  have hgood : ∀ (k : Nat) f, (g.mesh.midElems 2)[k]? = some f → GoodFace (setCenters g cs) k f.conn := by
    intro k f hf
    obtain ⟨fa, c, x, h1, h2, hc, _, hx, hsh, hn, s, s1, s2⟩ := hfirst k (List.getElem?_eq_some_iff.mp hf).1
    rw [hf] at h1
    cases h1
    have hcb : c < BOUNDARY := by omega
    refine ⟨hn, .inl ⟨by rw [h2]; exact hc, by rw [h2]; exact hcb⟩, hd.faces k (List.getElem?_eq_some_iff.mp hf).1, ?_, fun h => by omega⟩
    intro _
    rw [hfc hsh, h2]
    show dot _ (cross ((firstSide g.mesh k).1 - mean x.1) ((firstSide g.mesh k).2 - mean x.1)) ≠ 0
    rw [s2, dot_smul_right, dot_comm]
    exact mul_ne_zero s1 (hbehind c x hc hx).ne'
  obtain ⟨ns, n1, n2, n3⟩ := C40_normals_3d (setCenters g cs) bd hv h3 hgood
  have hmeas := C39_measures_3d (setCenters g cs) bd hv h3 hd
  refine ⟨cs, _, _, _, ns, hcs, hmeas, n1, hac, rfl, by simp; rfl, ?_⟩
  intro c hc
  obtain ⟨P, q1, q2⟩ := hP c hc
  have hsol := (hS c hc).1
  rw [q1] at hsol
  obtain ⟨ls, as, vols, m1, m2, m3⟩ := C39_convex_3d g bd hv hne h3 cs hcs hd c hc _ _ (convexSolid_cell hsol q2)
  rw [hmeas] at m1
  have m1 := Res.ok.inj m1
  simp only [Prod.mk.injEq] at m1
  obtain ⟨rfl, rfl, rfl⟩ := m1
  refine ⟨?_, hcell c hc, ?_⟩
  · rw [m2, q1, solidVolume, polyhedronVolume, List.map_map]
    rfl
  · rw [q1, List.forall₂_map_right_iff, List.forall₂_same]
    intro f hf
    refine ⟨m3 f hf, (q2 f hf).center hv h3 hac, ?_⟩
    intro fa hfa hleft
    have hlt := (List.getElem?_eq_some_iff.mp hfa).1
    have hns := List.getElem?_eq_getElem (show f < ns.length by rw [n2]; exact hlt)
    rw [hns]
    congr 1
    have hPx : P f ∈ S c := by rw [q1]; exact List.mem_map_of_mem hf
    have hx0 := (q2 f hf).ne
    refine IsNormal3.unique (hgood f fa hfa).plane (n3 f fa _ hfa hns) ?_
    have hnorm := (hS c hc).1.unit _ hPx
    -- the first side is in the plane of the face
    obtain ⟨fa', vs, g1, g2, g3⟩ := q2 f hf
    rw [hfa] at g1
    cases g1
    have hsub := hne 2 f fa (le_refl 2) (by omega) hfa
    have hfe : faceEdges g.mesh f = fa.sub.map (ends g.mesh) := by rw [faceEdges, hfa]; rfl
    have hin : (firstSide g.mesh f).1 ∈ (P f).1 ∧ (firstSide g.mesh f).2 ∈ (P f).1 := by
      cases hsb : fa.sub with
      | nil => exact absurd hsb hsub
      | cons e es =>
        have hfs : firstSide g.mesh f = ends g.mesh e := by rw [firstSide, hfe, hsb]; rfl
        obtain ⟨p, p1, p2⟩ := polygon_side g2 g3 (e := e) (by rw [hsb]; exact List.mem_cons_self)
        obtain ⟨m1, m2⟩ := sidesOf_mem p1
        rw [hfs]
        rcases p2 with p2 | p2 <;> rw [p2]
        · exact ⟨m1, m2⟩
        · exact ⟨m2, m1⟩
    rw [hfc (q2 f hf)]
    refine ⟨hnorm, ?_, ?_, ?_, fun h => by rw [hleft] at h; omega⟩
    · show dot _ ((firstSide g.mesh f).1 - _) = 0
      rw [dot_sub_right, hplane c _ hc hPx hx0 _ hin.1, sub_self]
    · show dot _ ((firstSide g.mesh f).2 - _) = 0
      rw [dot_sub_right, hplane c _ hc hPx hx0 _ hin.2, sub_self]
    · intro _
      rw [hleft]
      exact hbehind c _ hc hPx

end GTMesh.Props
