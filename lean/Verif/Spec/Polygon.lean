import Verif.Model.Mesh
import Verif.Spec.Lists
import Mathlib.Data.List.Rotate

/-! # Polygons, unordered pairs -/

namespace GTMesh.Spec

/-- The same unordered pair. -/
def SamePair (p q : Idx × Idx) : Prop := p = q ∨ (p.1 = q.2 ∧ p.2 = q.1)

instance (p q : Idx × Idx) : Decidable (SamePair p q) := inferInstanceAs (Decidable (_ ∨ _))

/-- Edge number `e` joins the vertices `u` and `v` (in either direction). -/
def Joins (edges : List Edge) (e u v : Idx) : Prop :=
  ∃ ed, edges[e]? = some ed ∧ SamePair (ed.a, ed.b) (u, v)

/-- Entry `j` of `vs`, counted cyclically. -/
def cyc (vs : List Idx) (j : Nat) : Option Idx := vs[j % vs.length]?

/-- The edges `es` join the consecutive vertices of the closed polygon `vs`, in order. -/
def EdgesOf (edges : List Edge) (es vs : List Idx) : Prop :=
  es.length = vs.length ∧
  ∀ (j : Nat), j < vs.length → ∃ e u v, es[j]? = some e ∧ cyc vs j = some u ∧ cyc vs (j + 1) = some v ∧
    Joins edges e u v

/-- The edges `subs`, in any order and of any direction, form the simple closed polygon `vs`. -/
def IsPolygon (edges : List Edge) (subs vs : List Idx) : Prop :=
  vs ≠ [] ∧ NoRepetition vs ∧ NoRepetition subs ∧ ∃ es, es.Perm subs ∧ EdgesOf edges es vs

/-- The same closed polygon: equal up to the start and the direction. -/
def SameCycle (p q : List Idx) : Prop := p ~r q ∨ p ~r q.reverse

end GTMesh.Spec
