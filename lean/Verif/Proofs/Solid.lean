import Verif.Props.Vtk3w

/-! # Vertices of tetrahedra, pyramids, wedges and hexahedra found by the writer -/

namespace GTMesh.Vtk
open Spec Std' GTMesh.Props GTMesh.Fpma
variable {V : Type}

/-! ## Finite facts about the templates -/

/-- The polygons equal to `p` up to start and direction. -/
def variants (p : List Nat) : List (List Nat) :=
  (List.range p.length).flatMap fun k => [p.rotate k, p.reverse.rotate k]

/-- Does `p` have the side `a`-`b`? -/
def sideB (p : List Nat) (a b : Nat) : Bool :=
  (p.zip (p.rotate 1)).any fun s => (s.1 == a && s.2 == b) || (s.1 == b && s.2 == a)

/-- Neighbours of vertex position `v` in the cell with `n` vertices. -/
def nbrs (n v : Nat) : List Nat := (List.range n).filter fun w => (cellPolygons n).any fun p => sideB p v w

/-- Taking the vertices in the order `σ` describes the same solid. -/
def goodOrder (n : Nat) (σ : List Nat) : Bool :=
  σ.length == n && decide σ.Nodup && σ.all (· < n) &&
  (cellPolygons n).all (fun p => (cellPolygons n).any fun q => (variants q).contains (p.map fun i => σ[i]?.getD 0)) &&
  (cellPolygons n).all (fun q => (cellPolygons n).any fun p => (variants q).contains (p.map fun i => σ[i]?.getD 0))

/-- The base face `q` and the only other vertex. -/
def apexB (n : Nat) (q : List Nat) : Bool :=
  match (List.range n).filter fun x => !q.contains x with
  | [a] => goodOrder n (q ++ [a])
  | _ => false

/-- For each vertex of `vs` exactly one neighbour is new. -/
def chainB (n : Nat) : List Nat → List Nat → Bool
  | acc, [] => goodOrder n acc
  | acc, v :: vs =>
    match (nbrs n v).filter fun x => !acc.contains x with
    | [a] => chainB n (acc ++ [a]) vs
    | _ => false

theorem tetra_apex : ∀ p ∈ cellPolygons 4, ∀ q ∈ variants p, apexB 4 q = true := by decide +kernel
theorem pyramid_apex : ∀ p ∈ cellPolygons 5, 3 < p.length → ∀ q ∈ variants p, apexB 5 q = true := by decide +kernel
theorem wedge_chain : ∀ p ∈ cellPolygons 6, p.length = 3 → ∀ q ∈ variants p, chainB 6 q q = true := by decide +kernel
theorem hexahedron_chain : ∀ p ∈ cellPolygons 8, ∀ q ∈ variants p, chainB 8 q q = true := by decide +kernel

/-! ## Sides -/

theorem hasSide_per {p : List Idx} (hp : p ≠ []) (u v : Idx) :
    HasSide p u v ↔ ∃ z : Int, SamePair (per p z, per p (z + 1)) (u, v) := by
  have hpos : 0 < p.length := List.length_pos_of_ne_nil hp
  constructor
  · rintro ⟨j, a, b, _, h2, h3, h4⟩
    rw [cyc_eq_per hp] at h2 h3
    cases h2; cases h3
    exact ⟨j, by simpa using h4⟩
  · rintro ⟨z, h⟩
    have hnn := Int.emod_nonneg z (b := (p.length : Int)) (by omega)
    have hcast : (((z % p.length).toNat : Nat) : Int) = z % p.length := Int.toNat_of_nonneg hnn
    refine ⟨(z % p.length).toNat, per p z, per p (z + 1), toNat_emod_lt hpos z, ?_, ?_, h⟩
    · rw [cyc_eq_per hp, hcast, per_emod]
    · rw [cyc_eq_per hp]
      push_cast
      rw [hcast]
      congr 1
      unfold per
      rw [Int.emod_add_emod]

theorem per_rotate {p : List Idx} (hp : p ≠ []) (k : Nat) (z : Int) : per (p.rotate k) z = per p (z + k) := by
  have hpos : 0 < p.length := List.length_pos_of_ne_nil hp
  unfold per
  rw [List.length_rotate, List.getElem?_rotate (toNat_emod_lt hpos z)]
  congr 2
  have hnn := Int.emod_nonneg z (b := (p.length : Int)) (by omega)
  have : ((((z % p.length).toNat + k) % p.length : Nat) : Int) = (z + k) % p.length := by
    push_cast
    rw [Int.toNat_of_nonneg hnn, Int.emod_add_emod]
  rw [← this]
  exact (Int.toNat_natCast _).symm

theorem per_reverse {p : List Idx} (hp : p ≠ []) (z : Int) : per p.reverse z = per p (-1 - z) := by
  have hpos : 0 < p.length := List.length_pos_of_ne_nil hp
  unfold per
  rw [List.length_reverse, List.getElem?_reverse (toNat_emod_lt hpos z)]
  congr 2
  have h1 := Int.emod_nonneg z (b := (p.length : Int)) (by omega)
  have h2 := Int.emod_lt_of_pos z (b := (p.length : Int)) (by omega)
  have h3 : (-1 - z) % (p.length : Int) = p.length - 1 - z % p.length := by
    have e : -1 - z = (p.length - 1 - z % p.length) + p.length * (-1 - z / p.length) := by
      have := Int.emod_add_mul_ediv z p.length
      rw [Int.mul_sub]
      omega
    rw [e, Int.add_mul_emod_self_left, Int.emod_eq_of_lt (by omega) (by omega)]
  rw [h3]
  omega

theorem sameSides_rotate (p : List Idx) (k : Nat) : SameSides (p.rotate k) p := by
  by_cases hp : p = []
  · subst hp; intro u v; simp
  · intro u v
    rw [hasSide_per (by simpa using hp), hasSide_per hp]
    constructor
    · rintro ⟨z, h⟩
      rw [per_rotate hp, per_rotate hp] at h
      exact ⟨z + k, by rwa [Int.add_right_comm] at h⟩
    · rintro ⟨z, h⟩
      refine ⟨z - k, ?_⟩
      rw [per_rotate hp, per_rotate hp]
      have e1 : z - (k : Int) + k = z := by omega
      have e2 : z - (k : Int) + 1 + k = z + 1 := by omega
      rwa [e1, e2]

theorem samePair_swap {a b u v : Idx} : SamePair (a, b) (u, v) ↔ SamePair (b, a) (u, v) := by
  simp only [SamePair, Prod.mk.injEq]
  constructor <;> rintro (⟨h1, h2⟩ | ⟨h1, h2⟩) <;> simp [h1, h2]

theorem sameSides_reverse (p : List Idx) : SameSides p.reverse p := by
  by_cases hp : p = []
  · subst hp; intro u v; simp
  · intro u v
    rw [hasSide_per (by simpa using hp), hasSide_per hp]
    constructor
    · rintro ⟨z, h⟩
      rw [per_reverse hp, per_reverse hp, samePair_swap] at h
      refine ⟨-1 - (z + 1), ?_⟩
      have e : -1 - (z + 1) + 1 = -1 - z := by omega
      rwa [e]
    · rintro ⟨z, h⟩
      refine ⟨-1 - (z + 1), ?_⟩
      rw [per_reverse hp, per_reverse hp, samePair_swap]
      have e1 : -1 - (-1 - (z + 1) + 1) = z := by omega
      have e2 : -1 - (-1 - (z + 1)) = z + 1 := by omega
      rwa [e1, e2]

theorem mem_variants {p q : List Nat} : q ∈ variants p ↔ p ≠ [] ∧ SameCycle q p := by
  unfold variants
  simp only [List.mem_flatMap, List.mem_range, List.mem_cons, List.not_mem_nil, or_false]
  constructor
  · rintro ⟨k, hk, h⟩
    refine ⟨by rintro rfl; simp at hk, ?_⟩
    rcases h with rfl | rfl
    · exact Or.inl (List.IsRotated.symm ⟨k, rfl⟩)
    · exact Or.inr (List.IsRotated.symm ⟨k, rfl⟩)
  · rintro ⟨hp, h⟩
    have hpos : 0 < p.length := List.length_pos_of_ne_nil hp
    rcases h with h | h
    · obtain ⟨k, rfl⟩ := h.symm
      exact ⟨k % p.length, Nat.mod_lt _ hpos, Or.inl (List.rotate_mod _ _).symm⟩
    · obtain ⟨k, rfl⟩ := h.symm
      refine ⟨k % p.length, Nat.mod_lt _ hpos, Or.inr ?_⟩
      have := (List.rotate_mod p.reverse k).symm
      rwa [List.length_reverse] at this

theorem SameCycle.sameSides {p q : List Idx} (h : SameCycle p q) : SameSides p q := by
  rcases h with h | h
  · obtain ⟨k, rfl⟩ := h.symm
    exact sameSides_rotate q k
  · obtain ⟨k, rfl⟩ := h.symm
    exact (sameSides_rotate _ k).trans (sameSides_reverse q)

theorem SameCycle.map (f : Nat → Nat) {p q : List Nat} (h : SameCycle p q) : SameCycle (p.map f) (q.map f) := by
  rcases h with h | h
  · exact Or.inl (h.map f)
  · exact Or.inr (by rw [← List.map_reverse]; exact h.map f)

theorem variants_map (f : Nat → Nat) (p : List Nat) : variants (p.map f) = (variants p).map (List.map f) := by
  simp [variants, List.map_flatMap, List.map_rotate]

theorem hasSide_map' (f : Nat → Idx) (p : List Nat) (u v : Idx) :
    HasSide (p.map f) u v ↔ ∃ a b, HasSide p a b ∧ SamePair (f a, f b) (u, v) := by
  have hc : ∀ (j : Nat), cyc (p.map f) j = (cyc p j).map f := by intro j; simp [cyc]
  constructor
  · rintro ⟨j, x, y, h1, h2, h3, h4⟩
    rw [hc] at h2 h3
    obtain ⟨a, ha, rfl⟩ := Option.map_eq_some_iff.mp h2
    obtain ⟨b, hb, rfl⟩ := Option.map_eq_some_iff.mp h3
    exact ⟨a, b, ⟨j, a, b, by simpa using h1, ha, hb, Or.inl rfl⟩, h4⟩
  · rintro ⟨a, b, ⟨j, a', b', h1, h2, h3, h4⟩, h5⟩
    refine ⟨j, f a', f b', by simpa using h1, by rw [hc, h2]; rfl, by rw [hc, h3]; rfl, ?_⟩
    refine SamePair.trans ?_ h5
    rcases h4 with h4 | h4
    · simp only [Prod.mk.injEq] at h4; rw [h4.1, h4.2]; exact Or.inl rfl
    · simp only at h4; rw [h4.1, h4.2]; exact Or.inr ⟨rfl, rfl⟩

theorem SameSides.map (f : Nat → Idx) {p q : List Nat} (h : SameSides p q) : SameSides (p.map f) (q.map f) := by
  intro u v
  rw [hasSide_map', hasSide_map']
  constructor
  · rintro ⟨a, b, h1, h2⟩; exact ⟨a, b, (h a b).mp h1, h2⟩
  · rintro ⟨a, b, h1, h2⟩; exact ⟨a, b, (h a b).mpr h1, h2⟩

theorem sideB_iff {p : List Nat} (a b : Nat) : sideB p a b = true ↔ HasSide p a b := by
  unfold sideB
  rw [List.any_eq_true]
  have key : ∀ s : Nat × Nat, (((s.1 == a && s.2 == b) || (s.1 == b && s.2 == a)) = true) ↔ SamePair s (a, b) := by
    intro s
    simp only [Bool.or_eq_true, Bool.and_eq_true, beq_iff_eq, SamePair]
    constructor
    · rintro (⟨h1, h2⟩ | h)
      · exact Or.inl (Prod.ext h1 h2)
      · exact Or.inr h
    · rintro (h | h)
      · exact Or.inl ⟨by rw [h], by rw [h]⟩
      · exact Or.inr h
  constructor
  · rintro ⟨s, hs, h⟩
    rw [key] at h
    obtain ⟨j, hj⟩ := List.getElem?_of_mem hs
    rw [List.getElem?_zip_eq_some] at hj
    have hlt := (List.getElem?_eq_some_iff.mp hj.1).1
    refine ⟨j, s.1, s.2, hlt, ?_, ?_, h⟩
    · rw [cyc, Nat.mod_eq_of_lt hlt]; exact hj.1
    · rw [List.getElem?_rotate hlt] at hj; exact hj.2
  · rintro ⟨j, x, y, h1, h2, h3, h4⟩
    refine ⟨(x, y), ?_, (key (x, y)).mpr h4⟩
    apply List.mem_of_getElem? (i := j)
    rw [List.getElem?_zip_eq_some]
    rw [cyc, Nat.mod_eq_of_lt h1] at h2
    rw [List.getElem?_rotate h1]
    exact ⟨h2, h3⟩

theorem mem_nbrs {n v w : Nat} : w ∈ nbrs n v ↔ w < n ∧ ∃ p ∈ cellPolygons n, HasSide p v w := by
  simp [nbrs, sideB_iff]

end GTMesh.Vtk
