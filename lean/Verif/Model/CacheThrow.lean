import Verif.Model.Cache

/-!
# Writes that end with an exception (VTKMeshWriter.h, FPMAMeshWriter.h)

`Model/Cache.lean` drops the state of the writer and the text when `writeToStream` throws. Here both are kept. The stream
may also throw (`std::ostream::exceptions`): it takes a number of tokens and throws then.
-/

namespace GTMesh
open Std'
variable {V R P S α W T I : Type}

/-- Code that changes a state: a thrown exception leaves the state as it was at that moment. -/
inductive Ran (S : Type) where
  | ok (s : S)
  | threw (e : Exc) (s : S)
  | ub
  | diverge
  deriving DecidableEq, Repr

namespace Ran

/-- Sequential composition. -/
def bind (r : Ran S) (f : S → Ran S) : Ran S :=
  match r with
  | ok s => f s
  | threw e s => threw e s
  | ub => ub
  | diverge => diverge

/-- Code that only reads the state `s`, and what follows it. -/
def reads (r : Res α) (s : S) (f : α → Ran S) : Ran S :=
  match r with
  | .ok a => f a
  | .throw e => threw e s
  | .ub => ub
  | .diverge => diverge

/-- Code that changes the state after everything that may throw. -/
def step (f : S → α → Res S) (s : S) (a : α) : Ran S := reads (f s a) s ok

@[simp] theorem reads_ok (a : α) (s : S) (f : α → Ran S) : reads (.ok a) s f = f a := rfl
@[simp] theorem reads_throw (e : Exc) (s : S) (f : α → Ran S) : reads (.throw e) s f = threw e s := rfl
@[simp] theorem reads_ub (s : S) (f : α → Ran S) : reads (.ub) s f = ub := rfl
@[simp] theorem reads_diverge (s : S) (f : α → Ran S) : reads (.diverge) s f = diverge := rfl
@[simp] theorem bind_ok (s : S) (f : S → Ran S) : (ok s).bind f = f s := rfl
@[simp] theorem bind_threw (e : Exc) (s : S) (f : S → Ran S) : (threw e s).bind f = threw e s := rfl
@[simp] theorem bind_ub (f : S → Ran S) : (ub : Ran S).bind f = ub := rfl
@[simp] theorem bind_diverge (f : S → Ran S) : (diverge : Ran S).bind f = diverge := rfl

/-- A loop. -/
def each (f : S → α → Ran S) : S → List α → Ran S
  | s, [] => ok s
  | s, a :: as => (f s a).bind fun s' => each f s' as

end Ran

/-- How a call of `writeToStream` ends: the state of the writer and the text that is in the stream. -/
inductive Ended (W T : Type) where
  | returned (w : W) (text : List T)
  | threw (e : Exc) (w : W) (text : List T)
  | ub
  | diverge
  deriving DecidableEq, Repr

/-- Writing to a stream that takes so many tokens (`none`: all of them) and throws `std::ios_base::failure` then. -/
def toStream (limit : Option Nat) (w : W) : Ran (List T) → Ended W T
  | .ok t => match limit with
    | some k => if k < t.length then .threw .other w (t.take k) else .returned w t
    | none => .returned w t
  | .threw e t => match limit with
    | some k => if k < t.length then .threw .other w (t.take k) else .threw e w t
    | none => .threw e w t
  | .ub => .ub
  | .diverge => .diverge

/-- The common parts of the writers: the signature of the input, `lastHash`, `indexMesh` and the text that follows. -/
structure Machine (I W T : Type) where
  hash : I → Nat
  last : W → Nat
  setLast : Nat → W → W
  index : I → W → Ran W
  text : I → W → Ran (List T)

/-- `writeToStream`: `if (lastHash != curHash) indexMesh(mesh); lastHash = curHash;` and the text. VTKMeshWriter.h:135-176,
582-632; FPMAMeshWriter.h:121-163 -/
def Machine.write (M : Machine I W T) (limit : Option Nat) (i : I) (w : W) : Ended W T :=
  match (if M.last w ≠ M.hash i then M.index i w else .ok w) with
  | .ok w1 => toStream limit (M.setLast (M.hash i) w1) (M.text i w1)
  | .threw e w1 => .threw e w1 []
  | .ub => .ub
  | .diverge => .diverge

namespace Vtk

/-- `indexMesh` in 2D: `cellVert` is cleared and filled cell by cell, the total number of numbers is computed in the end.
VTKMeshWriter.h:113-133 -/
def indexRan2 (m : Mesh V) (w : Writer2) : Ran Writer2 :=
  (Ran.each (fun (w : Writer2) (c : Cell) =>
      Ran.reads (indexCell m.edges c.index c.bElem) w fun vs => .ok { w with cellVert := w.cellVert ++ [vs] })
    { w with cellVert := [] } m.cells).bind fun w => .ok { w with total := totalNumbers w.cellVert }

/-- The types of the cells, in front of the last line: `TypeConversionTable.at(type)` throws for an unknown type.
VTKMeshWriter.h:171-175, 627-631 -/
def typesRan (conv : Nat → Option Nat) (types : List Nat) (text : List (VTok R)) : Ran (List (VTok R)) :=
  Ran.each (fun t type => match conv type with | some c => .ok (t ++ [.num c, .nl]) | none => .threw .outOfRange t) text types

/-- The text of `writeToStream` in 2D, VTKMeshWriter.h:147-175 -/
def textRan2 (zero : R) (m : Mesh (Point2 R)) (types : List Nat) (w : Writer2) : Ran (List (VTok R)) :=
  (typesRan toVtk2 types (pointsSection (m.vertices.map fun p => (p.1, p.2, zero)) ++
    (.word "CELLS" :: .num m.cells.length :: .num w.total :: .nl :: w.cellVert.flatMap cellLine ++ [.nl]) ++
    [.word "CELL_TYPES", .num m.cells.length, .nl])).bind fun t => .ok (t ++ [.nl])

/-- One face of the `do … while` loop of the `default` branch after the other, VTKMeshWriter.h:528-557, with fuel -/
def tessLoop (key : P → List Char) (fc : Idx → P) (m : Mesh V) (c : Cell) (cc : Idx) :
    Nat → Idx → IndexState P → Ran (IndexState P)
  | 0, _, _ => .diverge
  | n + 1, tmp, s =>
    Ran.reads (Res.at' (m.midElems 2) tmp) s fun f =>
    (Ran.each (Ran.step (tessEdge key m.vertices.length m.edges c.index cc (fc f.index))) s f.sub).bind fun s1 =>
    Ran.reads (m.nextFace c.index tmp) s1 fun nxt =>
    if nxt = c.bElem then .ok s1 else tessLoop key fc m c cc n nxt s1

/-- Body of the loop of `indexMesh` over the cells, VTKMeshWriter.h:429-561: the vertices of a solid are collected in a local
vector; the tetrahedra of other cells are appended one by one. -/
def indexCellRan3 (ori : Idx → Bool) (key : P → List Char) (cc fc : Idx → P) (m : Mesh V) (types : List Nat)
    (s : IndexState P) (c : Cell) : Ran (IndexState P) :=
  Ran.reads (Res.at' types c.index) s fun t =>
  if t = 300 ∨ t = 301 ∨ t = 302 ∨ t = 303 then Ran.step (indexCell3 ori key cc fc m types) s c
  else
    let r := s.point key m.vertices.length (cc c.index)
    tessLoop key fc m c r.1 (m.numFaces + 1) c.bElem r.2

/-- `indexMesh` in 3D, VTKMeshWriter.h:407-570: the members are cleared, the connections and the orientation of the edges
(`ori`) are computed, the cells are appended, and `totalNumberOfWrittenElements` is computed in the end. -/
def indexRan3 (ori : Res (Idx → Bool)) (key : P → List Char) (cc fc : Idx → P) (m : Mesh V) (types : List Nat)
    (w : Writer3 P) : Ran (Writer3 P) :=
  let w0 : Writer3 P := { lastHash := w.lastHash, total := w.total }
  Ran.reads (m.connectionsAsc 3 0) w0 fun _ =>
  Ran.reads ori w0 fun o =>
  match Ran.each (indexCellRan3 o key cc fc m types) { w := w0 } m.cells with
  | .ok s => .ok { s.w with total := totalInt s.w.cellVert }
  | .threw e s => .threw e s.w
  | .ub => .ub
  | .diverge => .diverge

/-- The text of `writeToStream` in 3D, VTKMeshWriter.h:596-631 -/
def textRan3 (m : Mesh (Point3 R)) (w : Writer3 (Point3 R)) : Ran (List (VTok R)) :=
  (typesRan toVtk3 w.cellTypes (pointsSection (m.vertices ++ w.appended) ++
    (.word "CELLS" :: .num w.cellVert.length :: .num w.total :: .nl :: w.cellVert.flatMap cellLine ++ [.nl]) ++
    [.word "CELL_TYPES", .num w.cellTypes.length, .nl])).bind fun t => .ok (t ++ [.nl])

end Vtk

namespace Fpma

/-- The `while` loop of `indexFace`, FPMAMeshWriter.h:60-76, with fuel -/
def traceRan (edges : List Edge) (subs : List Idx) (start : Idx) : Nat → TraceState → Ran TraceState
  | 0, _ => .diverge
  | n + 1, s => if start ≠ s.next then (Ran.each (Ran.step (traceStep edges)) s subs).bind (traceRan edges subs start n) else .ok s

/-- `indexFace(mesh, face, faceVert.at(face))` for the face at the position `i`: the vertices are appended to the entry of the
face. FPMAMeshWriter.h:42-79. Simplification: the faces are numbered by their positions. -/
def indexFaceRan (edges : List Edge) (w : FWriter) (i : Nat) (subs : List Idx) : Ran FWriter :=
  match Res.idx subs 0 with
  | .ok e0 =>
    Ran.reads (Res.at' edges e0) w fun e =>
    match traceRan edges subs e.b (2 * subs.length + 2) { last := e0, next := e.a, out := [e.b] } with
    | .ok s => .ok { w with faceVert := w.faceVert.set i s.out }
    | .threw x s => .threw x { w with faceVert := w.faceVert.set i s.out }
    | .ub => .ub
    | .diverge => .diverge
  | _ => .ub

/-- The loop of `indexMesh` over the faces from the position `i` on. FPMAMeshWriter.h:103-105 -/
def indexFacesRan (edges : List Edge) : Nat → List Face → FWriter → Ran FWriter
  | _, [], w => .ok w
  | i, f :: fs, w => (indexFaceRan edges w i f.sub).bind (indexFacesRan edges (i + 1) fs)

/-- `indexMesh`, FPMAMeshWriter.h:94-109: an empty list for every face, the faces one by one, the faces of the cells in the end -/
def indexRanF (m : Mesh V) (w : FWriter) : Ran FWriter :=
  (indexFacesRan m.edges 0 (m.midElems 2) { w with faceVert := (m.midElems 2).map fun _ => [] }).bind fun w1 =>
  Ran.reads (m.connectionsOrig 3 2) w1 fun cf => .ok { w1 with cellFace := cf }

/-- Lines of the entries `0`, `1`, … of an index; `at` throws when there are not as many. FPMAMeshWriter.h:143-149, 153-159 -/
def linesRan (index : List (List Idx)) (n : Nat) (text : List (Tok R)) : Ran (List (Tok R)) :=
  Ran.each (fun t i => Ran.reads (Res.at' index i) t fun l => .ok (t ++ line l)) text (List.range n)

/-- The text of `writeToStream`, FPMAMeshWriter.h:133-161 -/
def textRanF (m : Mesh (Point R)) (w : FWriter) : Ran (List (Tok R)) :=
  (linesRan w.faceVert (m.midElems 2).length
    (.num m.vertices.length :: (m.vertices.flatMap fun p => [.real p.1, .real p.2.1, .real p.2.2]) ++
      [.num (m.midElems 2).length])).bind fun t =>
  (linesRan w.cellFace m.cells.length (t ++ [.num m.cells.length])).bind fun t => .ok (t ++ [.num 0])

end Fpma
end GTMesh
