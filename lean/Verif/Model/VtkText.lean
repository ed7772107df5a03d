import Verif.Model.FpmaText
import Verif.Model.Vtk3w

/-!
# The characters of a VTK file

VTKMeshWriter.h and VTKMeshReader.h between the mesh and the characters of the file. The two lines of the header are dropped by `ist.ignore(1024, '\n')`, each
other word is read by `>>` into a variable whose type depends on the place in the file.

Simplifications: a word that is not a number where one is expected ends the reading of the file (in C++ the number is 0 then and the stream fails: all that is
read afterwards is missing; the reader of the tokens does the same with the token of a word); so do a word with a number at its beginning only, an unsigned number
with a sign, and a number that does not fit. The value of a coordinate is that of its text. What follows the number of points in its line is not longer than 20
characters, what follows the number of cells not longer than 50 (`ist.ignore(20, '\n')`, `ist.ignore(50, '\n')`, VTKMeshReader.h:65, 82, 307, 325).
-/

namespace GTMesh.Vtk

/-- `ist.ignore(n, '\n')`: up to the end of the line, but at most `n` characters. VTKMeshReader.h:153-155, 432-434 -/
def dropLine : Nat → List Char → List Char
  | 0, s => s
  | _ + 1, [] => []
  | n + 1, c :: s => if c = '\n' then s else dropLine n s

/-- A piece of a text: a word or the end of a line. -/
inductive Lexeme where
  | word (w : List Char)
  | nl
  deriving DecidableEq, Repr

/-- The pieces of a text behind the characters `acc` of a word. -/
def lexemesFrom : List Char → List Char → List Lexeme
  | acc, [] => if acc = [] then [] else [.word acc]
  | acc, c :: s =>
    if Fpma.isSpace c then (if acc = [] then [] else [.word acc]) ++ (if c = '\n' then [.nl] else []) ++ lexemesFrom [] s
    else lexemesFrom (acc ++ [c]) s

/-- The pieces of a text. -/
def lexemes (s : List Char) : List Lexeme := lexemesFrom [] s

/-- Where the reader is: at one of `n + 1` keywords of the header, at the keyword of a section, at the number of its entries, in the rest of its first line, at
its entries. VTKMeshReader.h:60-72, 74-92, 132-140, 149-191 and 303-314, 316-336, 411-419, 428-471 -/
inductive Spot where
  | header (n : Nat)
  | points
  | numPoints
  | pointsLine (n : Nat)
  | coords (n : Nat)
  | cells
  | numCells
  | cellsLine (n : Nat)
  | cell (n : Nat)
  | vertices (n k : Nat)
  | types
  | numTypes
  | codes (n : Nat)
  | rest
  deriving DecidableEq, Repr

/-- `n` coordinates are left. -/
def Spot.coordsLeft (n : Nat) : Spot := if n = 0 then .cells else .coords n

/-- `n` cells are left. -/
def Spot.cellsLeft (n : Nat) : Spot := if n = 0 then .types else .cell n

/-- `k` vertices of a cell are left, and `n` cells behind it. -/
def Spot.verticesLeft (n k : Nat) : Spot := if k = 0 then .cellsLeft n else .vertices n k

/-- `n` codes are left. -/
def Spot.codesLeft (n : Nat) : Spot := if n = 0 then .rest else .codes n

/-- A word that is read as a string. -/
def asWord (w : List Char) : VTok ℚ := .word (String.ofList w)

/-- A word that is read as an index: the token, and where the reader is then if it was a number. -/
def asIndex (w : List Char) (next : Nat → Spot) : VTok ℚ × Option Spot :=
  match Numeral.wholeOf w with
  | some n => (.num n, some (next n))
  | none => (asWord w, none)

/-- A word that is read as a coordinate. -/
def asCoord (w : List Char) (next : Spot) : VTok ℚ × Option Spot :=
  match Numeral.value w with
  | some x => (.real x, some next)
  | none => (asWord w, none)

/-- One `>>`: the token, and where the reader is then unless the stream fails. -/
def readPiece (w : List Char) : Spot → VTok ℚ × Option Spot
  | .header n => (asWord w, some (if n = 0 then .points else .header (n - 1)))
  | .points => (asWord w, some (if w = "POINTS".toList then .numPoints else .cells))
  | .numPoints => asIndex w .pointsLine
  | .pointsLine n => (asWord w, some (.pointsLine n))
  | .coords n => asCoord w (.coordsLeft (n - 1))
  | .cells => (asWord w, some (if w = "CELLS".toList then .numCells else .types))
  | .numCells => asIndex w .cellsLine
  | .cellsLine n => ((asIndex w fun _ => .rest).1, some (.cellsLine n))
  | .cell n => asIndex w (.verticesLeft (n - 1))
  | .vertices n k => asIndex w fun _ => .verticesLeft n (k - 1)
  | .types => (asWord w, some (if w = "CELL_TYPES".toList then .numTypes else .rest))
  | .numTypes => asIndex w .codesLeft
  | .codes n => asIndex w fun _ => .codesLeft (n - 1)
  | .rest => (asWord w, some .rest)

/-- The end of a line: behind it the entries of a section begin. -/
def endOfLine : Spot → Spot
  | .pointsLine n => .coordsLeft (3 * n)
  | .cellsLine n => .cellsLeft n
  | p => p

/-- The tokens that are read from the pieces. -/
def readPieces : Spot → List Lexeme → List (VTok ℚ)
  | _, [] => []
  | p, .nl :: ps => .nl :: readPieces (endOfLine p) ps
  | p, .word w :: ps =>
    let r := readPiece w p
    r.1 :: match r.2 with
      | some q => readPieces q ps
      | none => []

/-- The tokens of a file: the two lines of the header are dropped (their ends only are kept for the reader of the tokens). -/
def scan (s : List Char) : List (VTok ℚ) := .nl :: .nl :: readPieces (.header 2) (lexemes (dropLine 1024 (dropLine 1024 s)))

/-- `VTKMeshReader<2>::loadFromStream` with the characters of the file, VTKMeshReader.h:149-191 -/
def loadText2 (s : List Char) (types : List Nat) (m : Mesh (Point2 ℚ)) : Res (Mesh (Point2 ℚ) × List Nat) := load2 (scan s) types m

/-- `VTKMeshReader<3>::loadFromStream` with the characters of the file, VTKMeshReader.h:428-471 -/
def loadText3 (res : Nat) (s : List Char) (types : List Nat) (m : Mesh (Point3 ℚ)) : Res (Mesh (Point3 ℚ) × List Nat) := load3 res (scan s) types m

/-! ## Writers -/

/-- `writeHeader`, VTKMeshWriter.h:30-33 -/
def headerText (name : List Char) : List Char :=
  "# vtk DataFile Version 2.0\n".toList ++ (name ++ "\nASCII\nDATASET UNSTRUCTURED_GRID\n".toList)

/-- `ost << vert[0] << " " << vert[1] << " 0.0\n";`, VTKMeshWriter.h:151-153 -/
def pointLine2 (p : Point2 ℚ) : List Char := printText p.1 ++ ' ' :: (printText p.2 ++ " 0.0\n".toList)

/-- `ost << vert[0] << ' ' << vert[1] << ' ' << vert[2] <<"\n";`, VTKMeshWriter.h:601-608 -/
def pointLine3 (p : Point3 ℚ) : List Char := printText p.1 ++ ' ' :: (printText p.2.1 ++ ' ' :: (printText p.2.2 ++ ['\n']))

/-- The numbers with spaces in between, VTKMeshWriter.h:162-166, 618-622 -/
def spacedText : List Idx → List Char
  | [] => []
  | [a] => decimal a
  | a :: b :: l => decimal a ++ ' ' :: spacedText (b :: l)

/-- A line of the cells section, VTKMeshWriter.h:160-168, 616-624 -/
def cellText (l : List Idx) : List Char := decimal l.length ++ ' ' :: (spacedText l ++ ['\n'])

/-- The three sections, with the lines of the points. VTKMeshWriter.h:147-175, 596-632 -/
def sectionsText (numPoints : Nat) (points : List Char) (numCells total : Nat) (cellVert : List (List Idx)) (numTypes : Nat) (cs : List Nat) : List Char :=
  "POINTS ".toList ++ (decimal numPoints ++ (" double\n".toList ++ (points ++ ('\n' ::
  ("CELLS ".toList ++ (decimal numCells ++ (' ' :: (decimal total ++ ('\n' :: (cellVert.flatMap cellText ++ ('\n' ::
  ("CELL_TYPES ".toList ++ (decimal numTypes ++ ('\n' :: ((cs.flatMap fun c => decimal c ++ ['\n']) ++ ['\n'])))))))))))))))

/-- `VTKMeshWriter<2>::writeToStream` with the characters of the file, VTKMeshWriter.h:135-176 (the index freshly built) -/
def writeText2 (m : Mesh (Point2 ℚ)) (types : List Nat) : Res (List Char) :=
  (indexMesh2 m).bind fun cellVert =>
  (codes toVtk2 types).bind fun cs =>
  .ok (sectionsText m.vertices.length (m.vertices.flatMap pointLine2) m.cells.length (totalNumbers cellVert) cellVert m.cells.length cs)

/-- `VTKMeshWriter<3>::writeToStream` with the characters of the file, VTKMeshWriter.h:582-632 -/
def writeText3 (ori : Idx → Bool) (key : Point3 ℚ → List Char) (cc fc : Idx → Point3 ℚ) (hash : Nat)
    (m : Mesh (Point3 ℚ)) (types : List Nat) (w : Writer3 (Point3 ℚ)) : Res (Writer3 (Point3 ℚ) × List Char) :=
  (if w.lastHash ≠ hash then indexMesh3 ori key cc fc m types w else .ok w).bind fun w1 =>
  (codes toVtk3 w1.cellTypes).bind fun cs =>
  .ok ({ w1 with lastHash := hash },
    sectionsText (m.vertices ++ w1.appended).length ((m.vertices ++ w1.appended).flatMap pointLine3) w1.cellVert.length w1.total w1.cellVert
      w1.cellTypes.length cs)

end GTMesh.Vtk
