import Verif.Model.Print
import Verif.Spec.Numeral

/-!
# The characters of a FPMA file

FPMAMeshWriter.h and FPMAMeshReader.h between the mesh and the characters of the file. A number is read as the operator `>>` reads it: spaces and ends of
lines are skipped, then the characters up to the next one are the number.

Simplifications: a word that is not a number stops the reading of the file (the stream fails; in C++ the number is 0 then, but every
number that is read afterwards is missing), and so does a word with a number at its beginning only, an unsigned number with a sign, or a number that does not
fit; the value of a coordinate is that of its text.
-/

namespace GTMesh.Fpma

/-- What `>>` skips. -/
def isSpace (c : Char) : Bool := c == ' ' || c == '\n' || c == '\t' || c == '\r'

/-- The words of a text behind the characters `acc` of a word. -/
def wordsFrom : List Char → List Char → List (List Char)
  | acc, [] => if acc = [] then [] else [acc]
  | acc, c :: s =>
    if isSpace c then if acc = [] then wordsFrom [] s else acc :: wordsFrom [] s else wordsFrom (acc ++ [c]) s

/-- The words of a text. -/
def words (s : List Char) : List (List Char) := wordsFrom [] s

/-- Where the reader is: at the number of vertices, with some coordinates to be read, behind them. FPMAMeshReader.h:37-52 -/
inductive Place where
  | start
  | coords (n : Nat)
  | numbers
  deriving DecidableEq, Repr

/-- The place where `n` coordinates are left. -/
def Place.left (n : Nat) : Place := if n = 0 then .numbers else .coords n

/-- One `>>`: the variable is an index (FPMAMeshReader.h:40, 61, 69, 72, 116, 125, 131) or a coordinate (FPMAMeshReader.h:45-47). -/
def readWord (p : Place) (w : List Char) : Option (Tok ℚ × Place) :=
  match p with
  | .start => (Numeral.wholeOf w).map fun n => (.num n, .left (3 * n))
  | .coords n => (Numeral.value w).map fun x => (.real x, .left (n - 1))
  | .numbers => (Numeral.wholeOf w).map fun n => (.num n, .numbers)

/-- The numbers that can be read from the words. -/
def readWords : Place → List (List Char) → List (Tok ℚ)
  | _, [] => []
  | p, w :: ws =>
    match readWord p w with
    | none => []
    | some r => r.1 :: readWords r.2 ws

/-- `loadFromStream` with the characters of the file, FPMAMeshReader.h:155-169 -/
def loadText (res : Nat) (s : List Char) (m : Mesh (Point ℚ)) : Res (Mesh (Point ℚ)) := load res (readWords .start (words s)) m

/-- `ost << l.size() << ' '; for (x : l) ost << x << ' '; ost << std::endl;`, FPMAMeshWriter.h:144-150, 154-160 -/
def lineText (l : List Idx) : List Char := decimal l.length ++ ' ' :: ((l.flatMap fun i => decimal i ++ [' ']) ++ ['\n'])

/-- `ost << vert[0] << ' ' << vert[1] << ' ' << vert[2] << "\n";`, FPMAMeshWriter.h:136-138 -/
def pointText3 (p : Point ℚ) : List Char := printText p.1 ++ ' ' :: (printText p.2.1 ++ ' ' :: (printText p.2.2 ++ ['\n']))

/-- `writeToStream` with the characters of the file, FPMAMeshWriter.h:120-162 -/
def writeText (m : Mesh (Point ℚ)) : Res (List Char) :=
  (Std'.forEach (fun f : Face => indexFace m.edges f.sub) (m.midElems 2)).bind fun faceVert =>
  (m.connectionsOrig 3 2).bind fun cellFace =>
  .ok (decimal m.vertices.length ++ '\n' :: (m.vertices.flatMap pointText3 ++ '\n' ::
    (decimal faceVert.length ++ '\n' :: (faceVert.flatMap lineText ++
    (decimal cellFace.length ++ '\n' :: (cellFace.flatMap lineText ++ ['0']))))))

end GTMesh.Fpma
