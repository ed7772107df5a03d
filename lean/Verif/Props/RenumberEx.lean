import Verif.Props.RenumberGeo3
import Verif.Props.Coloring
import Verif.Props.Convex
import Mathlib.Logic.Equiv.Basic

/-!
# C72: the numbers of the elements do not matter (coloring, examples)
-/

namespace GTMesh.Props
open GTMesh Spec Std' Vec Geo
variable {V F : Type} {n : Nat} {ρ : Nat → Equiv.Perm Nat}

/-- C72. Every choice of new numbers is met by a mesh with centers. -/
theorem C72_exists_centers (ρ : Nat → Equiv.Perm Nat) (g : GMesh n F) (hd : 2 ≤ g.mesh.dim) (fits : ∀ d, d ≤ g.mesh.dim → g.mesh.numElems d ≤ BOUNDARY)
    (fixed : ∀ d i, d ≤ g.mesh.dim → g.mesh.numElems d ≤ i → ρ d i = i) : RenumberedG ρ g (renumberG ρ g) :=
  ⟨C72_exists ρ g.mesh hd fits fixed, by simp [renumberG], by simp [renumberG], fun _ => rfl⟩

/-! ## Coloring -/

/-- C72. The coloring of a renumbered mesh is a proper coloring for the old numbers too. -/
theorem C72_coloring {m m' : Mesh V} (h : Renumbered ρ m m') (bd : Idx → List Idx) (hv : ValidMesh m bd) (S C : Nat) (hS : S ≤ m.dim) (hC : C ≤ m.dim) :
    ∃ colors', m'.colorGreedy S C = .ok colors' ∧ colors'.length = m.numElems S ∧
      ∀ s t (k : Nat), s < m.numElems S → t < m.numElems S → s ≠ t → Share m bd S C S s t →
        colors'[ρ S s]? = some k → colors'[ρ S t]? ≠ some k := by
  obtain ⟨colors, h1, h2, h3⟩ := C14_greedy_proper m' _ (h.valid hv) S C (h.dim ▸ hS) (h.dim ▸ hC)
  refine ⟨colors, h1, by rw [h2, h.numElems hS], fun s t k hs ht hne hsh hk hk' => ?_⟩
  have a := perm_lt (fun i => h.fixed S i hS) (i := s)
  have b := perm_lt (fun i => h.fixed S i hS) (i := t)
  refine h3 _ _ k ?_ ?_ (fun hc => hne ((ρ S).injective hc)) ((share_iff h bd hS hC hS s t).mpr hsh) hk hk'
  · rw [h.numElems hS]; exact a.mpr hs
  · rw [h.numElems hS]; exact b.mpr ht

/-- A strip of four quadrilaterals. -/
def strip : Mesh Nat where
  dim := 2
  vertices := List.range 10
  edges := ((List.range 5).map fun i => ⟨i, 2 * i, 2 * i + 1,
              ⟨if i < 4 then i else INVALID, if 0 < i then i - 1 else INVALID, if i < 4 then 5 + i else INVALID, if 0 < i then 8 + i else INVALID⟩⟩) ++
           ((List.range 4).map fun i => ⟨5 + i, 2 * i, 2 * i + 2, ⟨i, INVALID, i + 1, INVALID⟩⟩) ++
           ((List.range 4).map fun i => ⟨9 + i, 2 * i + 1, 2 * i + 3, ⟨i, INVALID, i, INVALID⟩⟩)
  cells := (List.range 4).map fun i => { index := i, bElem := i }

/-- The edges of its cells. -/
def stripBd (i : Idx) : List Idx := [i, 5 + i, i + 1, 9 + i]

/-- The last cell becomes the second one. -/
def stripRho (d : Nat) : Equiv.Perm Nat := if d = 2 then Equiv.swap 1 2 * Equiv.swap 2 3 else 1

theorem strip_valid : ValidMesh strip stripBd := validB_sound (by decide)

theorem strip_renumbered : Renumbered stripRho strip (renumber stripRho strip) := by
  refine C72_exists _ _ (by decide) ?_ ?_
  · intro d hd
    have : d = 0 ∨ d = 1 ∨ d = 2 := by have : d ≤ 2 := hd; omega
    rcases this with rfl | rfl | rfl <;> decide
  · intro d i hd hi
    unfold stripRho
    split
    · rename_i h2
      subst h2
      have : 4 ≤ i := hi
      simp only [Equiv.Perm.mul_apply]
      rw [Equiv.swap_apply_of_ne_of_ne (a := 2) (b := 3) (by omega) (by omega),
        Equiv.swap_apply_of_ne_of_ne (by omega) (by omega)]
    · rfl

/-- C72. The coloring itself depends on the numbers: for a strip of four cells the greedy method needs two colors, and three when the last
cell becomes the second one. -/
theorem C72_coloring_violated : ∃ (ρ : Nat → Equiv.Perm Nat) (m m' : Mesh Nat) (bd : Idx → List Idx), ValidMesh m bd ∧ Renumbered ρ m m' ∧
    m.colorGreedy 2 1 = .ok [0, 1, 0, 1] ∧ m'.colorGreedy 2 1 = .ok [0, 0, 1, 2] :=
  ⟨stripRho, strip, renumber stripRho strip, stripBd, strip_valid, strip_renumbered, by decide, by decide⟩

/-! ## Example -/

/-- Two tetrahedra, with the cells exchanged and other numbers for some vertices, edges and faces. -/
def tetsRho (d : Nat) : Equiv.Perm Nat :=
  if d = 3 then Equiv.swap 0 1 else if d = 2 then Equiv.swap 0 6 else if d = 1 then Equiv.swap 1 8 else if d = 0 then Equiv.swap 2 4 else 1

theorem tets_renumbered : RenumberedG tetsRho tetsG (renumberG tetsRho tetsG) := by
  refine C72_exists_centers _ _ (by decide) ?_ ?_
  · intro d hd
    have : d = 0 ∨ d = 1 ∨ d = 2 ∨ d = 3 := by have : d ≤ 3 := hd; omega
    rcases this with rfl | rfl | rfl | rfl <;> decide
  · intro d i hd hi
    have : d = 0 ∨ d = 1 ∨ d = 2 ∨ d = 3 := by have : d ≤ 3 := hd; omega
    rcases this with rfl | rfl | rfl | rfl
    · have : 5 ≤ i := hi
      exact Equiv.swap_apply_of_ne_of_ne (by omega) (by omega)
    · have : 9 ≤ i := hi
      exact Equiv.swap_apply_of_ne_of_ne (by omega) (by omega)
    · have : 7 ≤ i := hi
      exact Equiv.swap_apply_of_ne_of_ne (by omega) (by omega)
    · have : 2 ≤ i := hi
      exact Equiv.swap_apply_of_ne_of_ne (by omega) (by omega)

/-- The tetrahedron with the volume 1/6 is cell 0; with the new numbers it is cell 1 and has the same volume. -/
example : ∃ cs ls as vs, computeCenters (renumber tetsRho tets) = .ok cs ∧
    computeMeasures3 (setCenters (renumberG tetsRho tetsG) cs) = .ok (ls, as, vs) ∧ vs[1]? = some (1 / 6 : ℝ) := by
  obtain ⟨cs, hcs, hA⟩ := C38_centers tets _ tets_valid tets_noEmpty
  have hlen := hA.dims
  obtain ⟨ls, as, vs, h1, h2, _⟩ := C39_convex_3d tetsG _ tets_valid tets_noEmpty rfl cs hcs (tets_nonDegenerate hcs) 0
    (by simp [tetsG, tets, twoTets]) _ _ tets_convex
  obtain ⟨cs', k1, k2⟩ := C72_centers tets_renumbered.mesh cs hcs
  obtain ⟨ls', as', vs', l1, _, _, l4⟩ := C72_measures_3d (C72_set_centers tets_renumbered cs cs' hlen k2) rfl ls as vs h1
  refine ⟨cs', ls', as', vs', k1, l1, ?_⟩
  have := l4 0
  rw [show tetsRho 3 0 = 1 by decide, h2] at this
  rw [this]
  congr 1
  simp [polyhedronVolume, twoTetsBd, tetCycle, vectorArea, sidesOf, List.rotate, tetPos, dot3, cross_apply]
  norm_num

end GTMesh.Props
