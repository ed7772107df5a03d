import Verif.Base

/-!
# Choice of the file format (UnstructuredMesh.h: load, write, checkExtension)

A path is a list of characters.  What the readers and writers do with the streams is modelled elsewhere (Fpma,
Vtk, Vtk3, Vtk3w); here they are the formats they stand for.
-/

namespace GTMesh.FileFormat

/-- The formats for which there is a reader and a writer. -/
inductive Format where
  | vtk
  | fpma
  deriving DecidableEq, Repr

/-- What happened to the file on the disk. -/
inductive Effect where
  /-- not opened -/
  | untouched
  /-- opened for writing (which empties it) and closed -/
  | emptied
  /-- written by the writer of this format -/
  | written (f : Format)
  deriving DecidableEq, Repr

/-- The texts `".vtk"` and `".fpma"` in load, write and checkExtension. -/
def Format.ext : Format → List Char
  | .vtk => ['.', 'v', 't', 'k']
  | .fpma => ['.', 'f', 'p', 'm', 'a']

/-- `path.find(text) != path.npos` -/
def contains (text path : List Char) : Bool := decide (text <:+: path)

/-- `path.find_last_of(".")` -/
def findLastDot : List Char → Option Nat
  | [] => none
  | c :: cs =>
    match findLastDot cs with
    | some n => some (n + 1)
    | none => if c = '.' then some 0 else none

/-- `checkExtension`, UnstructuredMesh.h:354-357; `substr(npos)` throws `std::out_of_range`. -/
def checkExtension (path ext : List Char) : Res Bool :=
  match findLastDot path with
  | none => .throw .outOfRange
  | some n => .ok (decide (path.drop n = ext))

/-- `load`, UnstructuredMesh.h:240-269 (3D) and 276-297 (2D): the readers that are run on the stream, in order; the
last one is returned (none: a null pointer). `opens`: the file can be opened. -/
def load (dim : Nat) (opens : Bool) (path : List Char) : Res (List Format) :=
  if opens = false then .throw .runtimeError
  else .ok ((if contains Format.vtk.ext path then [.vtk] else []) ++
    (if dim = 3 ∧ contains Format.fpma.ext path = true then [.fpma] else []))

/-- The file after the writer `f` was given to `write`: it is opened and, when the extension fits, written. `alt`
stands for `writer = write(filePath, cellTypes, dataHeader)`. UnstructuredMesh.h:405-440, 484-507 -/
def writeWith (opens : Bool) (path : List Char) (f : Format) (alt : Res (Option Format × Effect)) : Res (Option Format × Effect) :=
  if opens = false then .throw .runtimeError
  else
    (checkExtension path f.ext).bind fun b =>
    if b then .ok (some f, .written f)
    else alt.bind fun r => .ok (r.1, if r.2 = .untouched then .emptied else r.2)

/-- `write(filePath, cellTypes, dataHeader)`, UnstructuredMesh.h:365-388 (3D), 451-468 (2D): returns the writer (none: a
null pointer) and the effect. The extension was just checked, so that the inner `write` does not come back here. -/
def writeNew (dim : Nat) (opens : Bool) (path : List Char) : Res (Option Format × Effect) :=
  (checkExtension path Format.vtk.ext).bind fun v =>
  (if v then writeWith opens path .vtk .diverge else .ok (none, .untouched)).bind fun r =>
  if dim = 3 then
    (checkExtension path Format.fpma.ext).bind fun p =>
    if p then writeWith opens path .fpma .diverge else .ok r
  else .ok r

/-- `write(filePath, writer, cellTypes, dataHeader)`, UnstructuredMesh.h:399-442 (3D), 475-511 (2D) -/
def write (dim : Nat) (opens : Bool) (path : List Char) (writer : Option Format) : Res (Option Format × Effect) :=
  match writer with
  | none => writeNew dim opens path
  | some f => writeWith opens path f (writeNew dim opens path)

end GTMesh.FileFormat
