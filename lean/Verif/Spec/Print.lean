import Verif.Model.Print
import Verif.Spec.Numeral

/-!
# Files hold printed numbers
-/

namespace GTMesh

/-- The number that is read from the text of `x`. -/
def stored (x : ℚ) : ℚ := (Numeral.value (printText x)).getD 0

/-- A number with at most six significant digits. -/
def SixDigits (x : ℚ) : Prop := ∃ n k : Int, |n| < 10 ^ 6 ∧ x = n * (10 : ℚ) ^ k

/-- The mesh with other positions of its vertices: everything else stays. -/
def Mesh.withPoints {V W : Type} (g : V → W) (m : Mesh V) : Mesh W :=
  { dim := m.dim, vertices := m.vertices.map g, edges := m.edges, mids := m.mids, cells := m.cells, bCells := m.bCells }

/-- The same outcome, with the result changed by `f`. -/
def Res.mapOk {α β : Type} (f : α → β) : Res α → Res β
  | .ok a => .ok (f a)
  | .throw e => .throw e
  | .ub => .ub
  | .diverge => .diverge

/-- The three coordinates changed by `fmt`. -/
def point3 {R S : Type} (fmt : R → S) (p : R × R × R) : S × S × S := (fmt p.1, fmt p.2.1, fmt p.2.2)

/-- The two coordinates changed by `fmt`. -/
def point2 {R S : Type} (fmt : R → S) (p : R × R) : S × S := (fmt p.1, fmt p.2)

end GTMesh
