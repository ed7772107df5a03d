import Verif.Model.Mesh
import Verif.Spec.Lists

/-!
# Specification of incidence

`bd i` stands for the list of boundary faces of cell `i` in the order of the chain.  A mesh is valid
with respect to `bd` when the successor pointers really link `bd i` to a closed chain that begins with
the boundary element of the cell, and when all sub-element indices are in range.
-/

namespace GTMesh.Spec
variable {V : Type}

/-- Following the successor pointer of face `f` with respect to `cell` leads to `g`. -/
def Linked (m : Mesh V) (cell f g : Idx) : Prop :=
  ∃ c, m.faceConn f = .ok c ∧ c.getNextBElem cell = .ok g

/-- The faces `l` form the closed chain of `cell`: non-empty, no face twice, each linked to the next
one and the last one to the first one. -/
def ClosedChain (m : Mesh V) (cell : Idx) (l : List Idx) : Prop :=
  l ≠ [] ∧ NoRepetition l ∧
  ∀ i (h : i < l.length), Linked m cell l[i] (l[(i + 1) % l.length]'(Nat.mod_lt _ (by omega)))

/-- The direct sub-elements (dimension `d - 1`) of element `i` of dimension `d`. -/
def directSubs (m : Mesh V) (bd : Idx → List Idx) (d i : Nat) : List Idx :=
  if d = m.dim then bd i
  else if d = 1 then (m.edges[i]?.map (fun e => [e.a, e.b])).getD []
  else ((m.midElems d)[i]?.map (fun f => f.sub)).getD []

/-- A valid mesh whose cells have the boundaries `bd`. -/
structure ValidMesh (m : Mesh V) (bd : Idx → List Idx) : Prop where
  dim_ge : 2 ≤ m.dim
  chain : ∀ i c, m.cells[i]? = some c → ClosedChain m i (bd i) ∧ (bd i)[0]? = some c.bElem
  range : ∀ d i, 1 ≤ d → d ≤ m.dim → i < m.numElems d →
    ∀ s ∈ directSubs m bd d i, s < m.numElems (d - 1)

/-- All elements of dimension `t` reached from element `i` of dimension `t + k` by descending through
sub-elements, once per chain of sub-elements, in the order of a depth-first descent. -/
def descend (m : Mesh V) (bd : Idx → List Idx) (t : Nat) : Nat → Idx → List Idx
  | 0, i => [i]
  | k + 1, i => (directSubs m bd (t + k + 1) i).flatMap (descend m bd t k)

/-- Element `j` of dimension `t` is part of element `i` of dimension `t + k`. -/
inductive PartOf (m : Mesh V) (bd : Idx → List Idx) (t : Nat) : Nat → Idx → Idx → Prop where
  | refl (i : Idx) : PartOf m bd t 0 i i
  | step {k : Nat} {i s j : Idx} : s ∈ directSubs m bd (t + k + 1) i → PartOf m bd t k s j →
      PartOf m bd t (k + 1) i j

/-- Incidence of element `s` of dimension `S` and element `t` of dimension `T`: the lower-dimensional one
is part of the higher-dimensional one. -/
def Incident (m : Mesh V) (bd : Idx → List Idx) (S T : Nat) (s t : Idx) : Prop :=
  if T ≤ S then PartOf m bd T (S - T) s t else PartOf m bd S (T - S) t s

end GTMesh.Spec
