import Verif.Model.Vtk3w

/-!
# Data columns of a VTK file (VTKMeshDataWriter.h, VTKMeshDataReader.h)

A traited class is the list of its members with their names and kinds; a container of such objects is a list of
rows.  A name is the list of its words (the text is the words separated by single spaces).  `fmt x` is the number
obtained by printing `x` with the precision of the stream and parsing the text.  Printing and parsing of single
numbers is not modelled further.
-/

namespace GTMesh.Vtk
open Std'
variable {R : Type}

/-- The type of a member: a number, or an array (`Vector`, `std::array`) of `d` numbers. -/
inductive Kind where
  | scalar
  | vector (d : Nat)
  deriving DecidableEq, Repr

/-- A traited class: the names and the kinds of the members. -/
abbrev Class := List (List String × Kind)

/-- The value of a member: the numbers it holds (one for a scalar). -/
abbrev Member (R : Type) := List R

/-- An object of the traited class. -/
abbrev Row (R : Type) := List (Member R)

/-- The number of numbers in a member. -/
def Kind.width : Kind → Nat
  | .scalar => 1
  | .vector d => d

/-- Key words in front of the name of an array column. VTKMeshDataWriter.h:55-58, 149-152 -/
def vectorKeyword (dim d : Nat) : List (VTok R) :=
  if d = dim then [.word "VECTORS"] else if d = dim * dim then [.word "TENZORS"] else []

/-- The lines in front of the values. `data.at(0)` throws for an array column of an empty container.
VTKMeshDataWriter.h:55-60, 108, 149-154, 176 -/
def columnHeader (dim : Nat) (name : List String) (k : Kind) (data : List (Row R)) : Res (List (VTok R)) :=
  match k with
  | .scalar => .ok ([.word "SCALARS"] ++ name.map .word ++ [.word "double", .num 1, .nl, .word "LOOKUP_TABLE", .word "default", .nl])
  | .vector d => (Res.at' data 0).bind fun _ => .ok (vectorKeyword dim d ++ name.map .word ++ [.word "double", .nl])

/-- The text of one value; in 2D a third coordinate is written after an array.
VTKMeshDataWriter.h:69-71, 116, 157-160, 180 -/
def valueTokens (fmt : R → R) (zero : R) (dim : Nat) (k : Kind) (v : Member R) : List (VTok R) :=
  match k with
  | .scalar => v.map fun x => .real (fmt x)
  | .vector _ => (v.map fun x => .real (fmt x)) ++ if dim = 2 then [.real zero] else []

/-- `writeColumn` for member number `i` and the end of the line. VTKMeshDataWriter.h:43-200. In 2D the cells are
written in order, in 3D by the `backward` map of the writer of the mesh (empty in 2D). -/
def writeColumn (fmt : R → R) (zero : R) (dim : Nat) (backward : List (Idx × Idx)) (data : List (Row R))
    (i : Nat) (name : List String) (k : Kind) : Res (List (VTok R)) :=
  (columnHeader dim name k data).bind fun h =>
  (column data (if dim = 2 then [] else backward) 0 0).bind fun rows =>
  (forEach (fun r => Res.idx r i) rows).bind fun vs =>
  .ok (h ++ vs.flatMap (valueTokens fmt zero dim k) ++ [.nl])

/-- The columns one after the other, from member number `i` on. VTKMeshDataWriter.h:272-276, 321-325 -/
def writeColumns (fmt : R → R) (zero : R) (dim : Nat) (backward : List (Idx × Idx)) (data : List (Row R)) :
    Nat → Class → Res (List (VTok R))
  | _, [] => .ok []
  | i, c :: cs =>
    (writeColumn fmt zero dim backward data i c.1 c.2).bind fun t =>
    (writeColumns fmt zero dim backward data (i + 1) cs).bind fun ts => .ok (t ++ ts)

/-- `VTKMeshDataWriter::writeToStream`, VTKMeshDataWriter.h:335-342; `n` is `writer.getNumberOfCells()`. -/
def writeData (fmt : R → R) (zero : R) (dim : Nat) (backward : List (Idx × Idx)) (n : Nat) (cls : Class)
    (data : List (Row R)) : Res (List (VTok R)) :=
  (writeColumns fmt zero dim backward data 0 cls).bind fun ts => .ok (.word "CELL_DATA" :: .num n :: .nl :: ts)

/-! ## Reader -/

/-- `std::getline`: the line and the rest of the stream. -/
def splitLine : List (VTok R) → List (VTok R) × List (VTok R)
  | [] => ([], [])
  | .nl :: ts => ([], ts)
  | t :: ts => (t :: (splitLine ts).1, (splitLine ts).2)

/-- `line.find(text) != npos` for a text without spaces: a word of the line contains it. -/
def lineHas (text : String) (line : List (VTok R)) : Bool :=
  line.any fun t => match t with
    | .word w => decide (text.toList <:+: w.toList)
    | _ => false

/-- The text of a token as the word read by `>>` (empty for a number, simplification). -/
def tokenName : VTok R → List String
  | .word w => [w]
  | _ => [""]

/-- `sstream.ignore(9, ' '); sstream >> dataName;`: at most nine characters of the first word are skipped. A line
without a further word gives the empty name (no words). VTKMeshDataReader.h:131-133 -/
def lineName : List (VTok R) → List String
  | [] => []
  | .word w :: ts =>
    if 9 < w.toList.length then [String.ofList (w.toList.drop 9)]
    else match ts with
      | [] => []
      | t :: _ => tokenName t
  | _ :: [] => []
  | _ :: t :: _ => tokenName t

theorem splitLine_length (ts : List (VTok R)) : (splitLine ts).2.length ≤ ts.length := by
  induction ts with
  | nil => simp [splitLine]
  | cons t ts ih => cases t <;> simp [splitLine] <;> omega

theorem ignoreLine_length (ts : List (VTok R)) : (ignoreLine ts).length ≤ ts.length := by
  induction ts with
  | nil => simp [ignoreLine]
  | cons t ts ih => cases t <;> simp [ignoreLine] <;> omega

theorem splitLine_length_lt (t : VTok R) (ts : List (VTok R)) : (splitLine (t :: ts)).2.length < (t :: ts).length := by
  have := splitLine_length ts
  cases t <;> simp [splitLine] <;> omega

/-- The stream after a header line: for a scalar column the next line is skipped as well. VTKMeshDataReader.h:135-137 -/
def afterHeader (line rest : List (VTok R)) : List (VTok R) := if lineHas "SCALARS" line then ignoreLine rest else rest

theorem afterHeader_length (line rest : List (VTok R)) : (afterHeader line rest).length ≤ rest.length := by
  unfold afterHeader
  split
  · exact ignoreLine_length rest
  · exact Nat.le_refl _

/-- `indexData`, VTKMeshDataReader.h:113-146: the positions of the columns; a position is what follows it in the
stream. Since `insert` keeps the first entry of a name, the first one of the list counts. -/
def indexData (ts : List (VTok R)) : List (List String × List (VTok R)) :=
  match ts with
  | [] => []
  | t :: ts' =>
    let line := (splitLine (t :: ts')).1
    let rest := (splitLine (t :: ts')).2
    if lineHas "SCALARS" line || lineHas "VECTORS" line then
      (lineName line, afterHeader line rest) :: indexData (afterHeader line rest)
    else indexData rest
termination_by ts.length
decreasing_by
  · exact Nat.lt_of_le_of_lt (afterHeader_length _ _) (splitLine_length_lt t ts')
  · exact splitLine_length_lt t ts'

/-- `dataPositions[name]`: a name that is not there has the position 0, the start of the stream. -/
def position (file : List (VTok R)) (pos : List (List String × List (VTok R))) (name : List String) : List (VTok R) :=
  match pos.find? (fun e => e.1 == name) with
  | some e => e.2
  | none => file

/-- What is left of an input stream; `none` when it has failed. -/
abbrev Stream (R : Type) := Option (List (VTok R))

/-- `ist >> x` for a number `x` (`none`: indeterminate): a failed stream and the end of the stream leave it as it is, a word makes it 0;
in these cases the stream has failed. Simplifications: a word does not begin with a number; an index read as a real number
counts as undefined behaviour. -/
def extract [Zero R] (x : Option R) (s : Stream R) : Res (Option R × Stream R) :=
  match s with
  | none => .ok (x, none)
  | some ts =>
    match skipNl ts with
    | .real y :: r => .ok (some y, some r)
    | .word _ :: _ => .ok (some 0, none)
    | [] => .ok (x, none)
    | _ => .ub

/-- `ist >> value[j]` for each `j`. -/
def extractAll [Zero R] : List (Option R) → Stream R → Res (List (Option R) × Stream R)
  | [], s => .ok ([], s)
  | x :: xs, s => (extract x s).bind fun p => (extractAll xs p.2).bind fun q => .ok (p.1 :: q.1, q.2)

/-- The numbers of one value, read into `value`; in 2D an array is followed by one more number, which is dropped.
VTKMeshDataReader.h:36-38, 61-65, 89 -/
def readValue [Zero R] (dim : Nat) (k : Kind) (value : List (Option R)) (s : Stream R) : Res (List (Option R) × Stream R) :=
  (extractAll value s).bind fun p =>
  match k with
  | .scalar => .ok p
  | .vector _ => if dim = 2 then (extract none p.2).bind fun q => .ok (p.1, q.2) else .ok p

/-- `setValue(data.at(i), value)`: an indeterminate number in `value` is undefined behaviour. -/
def determinate : List (Option R) → Res (Member R)
  | [] => .ok []
  | none :: _ => .ub
  | some x :: xs => (determinate xs).bind fun l => .ok (x :: l)

/-- The loop of `readColumn`, one value for each row, with the variable `value`. VTKMeshDataReader.h:35-40, 60-68, 88-91 -/
def readRows [Zero R] (dim : Nat) (k : Kind) (i : Nat) : List (Option R) → List (Row R) → Stream R → Res (List (Row R) × Stream R)
  | _, [], s => .ok ([], s)
  | value, r :: rs, s =>
    (readValue dim k value s).bind fun p => (determinate p.1).bind fun v =>
    (readRows dim k i p.1 rs p.2).bind fun q => .ok (r.set i v :: q.1, q.2)

/-- `readColumn`: `seekg` does nothing when the stream has failed; `value` is not initialised.
VTKMeshDataReader.h:21-93 -/
def readColumn [Zero R] (dim : Nat) (k : Kind) (i : Nat) (rows : List (Row R)) (target : List (VTok R)) (s : Stream R) :
    Res (List (Row R) × Stream R) :=
  readRows dim k i (List.replicate k.width none) rows (s.map fun _ => target)

/-- The columns one after the other. VTKMeshDataReader.h:226-230 -/
def readColumns [Zero R] (dim : Nat) (file : List (VTok R)) (pos : List (List String × List (VTok R))) :
    Nat → Class → List (Row R) → Stream R → Res (List (Row R))
  | _, [], rows, _ => .ok rows
  | i, c :: cs, rows, s =>
    (readColumn dim c.2 i rows (position file pos c.1) s).bind fun p => readColumns dim file pos (i + 1) cs p.1 p.2

/-- `VTKMeshDataReader::readFromStream`, VTKMeshDataReader.h:235-243; `indexData` ends with `ist.clear()`. -/
def readData [Zero R] (dim : Nat) (cls : Class) (file : List (VTok R)) (rows : List (Row R)) : Res (List (Row R)) :=
  readColumns dim file (indexData file) 0 cls rows (some file)

end GTMesh.Vtk
