import Verif.Model.VtkData

/-! # Data columns: which classes and files are meant -/

namespace GTMesh.Vtk
variable {R : Type}

/-- The text `p` occurs in the word `w`. -/
def Occurs (p w : String) : Prop := p.toList <:+: w.toList

/-- A class whose columns can be found again: each member is a number or an array of as many numbers as the mesh
has dimensions, the names are single words and different, and the name of an array does not contain `SCALARS`. -/
structure Exportable (dim : Nat) (cls : Class) : Prop where
  kinds : ∀ c ∈ cls, c.2 = .scalar ∨ c.2 = .vector dim
  words : ∀ c ∈ cls, ∃ w, c.1 = [w]
  different : (cls.map (·.1)).Nodup
  vectors : ∀ c ∈ cls, c.2 = .vector dim → ∀ w, c.1 = [w] → ¬ Occurs "SCALARS" w

/-- The rows are objects of the class. -/
def Shaped (cls : Class) (rows : List (Row R)) : Prop :=
  ∀ r ∈ rows, r.length = cls.length ∧ ∀ (i : Nat) c v, cls[i]? = some c → r[i]? = some v → v.length = c.2.width

/-- Whole lines in which neither key word occurs, such as the mesh of the file with a harmless title. -/
structure NoColumns (ts : List (VTok R)) : Prop where
  lines : ts = [] ∨ ∃ l, ts = l ++ [.nl]
  words : ∀ w, VTok.word w ∈ ts → ¬ Occurs "SCALARS" w ∧ ¬ Occurs "VECTORS" w

/-- The rows with all numbers printed and parsed. -/
def printed (fmt : R → R) (rows : List (Row R)) : List (Row R) := rows.map fun r => r.map fun v => v.map fmt

end GTMesh.Vtk
