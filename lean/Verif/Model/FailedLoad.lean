import Verif.Model.Fpma
import Verif.Model.Vtk3

/-!
# What a reader leaves in the mesh when it throws an exception

The readers of Model/Fpma.lean, Model/Vtk.lean and Model/Vtk3.lean again, with the content of the mesh at the time of the exception
(`Proofs/FailedLoad.lean` shows that they are the same functions otherwise). The readers change the mesh in place and catch nothing but to throw
again (FPMAMeshReader.h:97-107).

Simplification: as in those models, all numbers of a face or a cell are read before they are used.
-/

namespace GTMesh

/-- The result of a function that changes an object in place: it returns, or throws with the object as it is then. -/
inductive Run (S α : Type) where
  | ok (a : α)
  | throw (e : Exc) (s : S)
  | ub
  | diverge

namespace Run
variable {S T α β : Type}

/-- The result without the object. -/
def res : Run S α → Res α
  | ok a => .ok a
  | throw e _ => .throw e
  | ub => .ub
  | diverge => .diverge

/-- The object when an exception is thrown. -/
def left : Run S α → Option S
  | throw _ s => some s
  | _ => none

def bind (x : Run S α) (f : α → Run S β) : Run S β :=
  match x with
  | ok a => f a
  | throw e s => throw e s
  | ub => ub
  | diverge => diverge

/-- The object seen as a part of another one. -/
def within (f : S → T) (x : Run S α) : Run T α :=
  match x with
  | ok a => ok a
  | throw e s => throw e (f s)
  | ub => ub
  | diverge => diverge

/-- A function that leaves the object as it is, `s`, when it throws. -/
def lift (s : S) : Res α → Run S α
  | .ok a => ok a
  | .throw e => throw e s
  | .ub => ub
  | .diverge => diverge

end Run

namespace Fpma
variable {R : Type}

/-- FPMAMeshReader.h:76-107: the new edge is in the mesh when `addSubelement` throws. -/
def addFaceEdgesRun (res : Nat) : Face → Dict → List Edge → List (Idx × Idx) → Run (Face × List Edge) (Face × Dict × List Edge)
  | f, d, es, [] => .ok (f, d, es)
  | f, d, es, (iA, iB) :: ps =>
    let r := findOrAddEdge d es iA iB
    if 0 < res ∧ res ≤ f.sub.length then .throw .runtimeError (f, r.2.1)
    else addFaceEdgesRun res { f with sub := f.sub ++ [r.2.2.1] } r.1 r.2.1 ps

/-- FPMAMeshReader.h:66-109 -/
def loadFaceListRun (res : Nat) :
    List Face → Nat → Dict → List Edge → List (Tok R) → Run (List Face × List Edge) (List Face × List Edge × List (Tok R))
  | [], _, _, es, ts => .ok ([], es, ts)
  | f :: fs, i, d, es, ts =>
    (Run.lift ({ f with index := i } :: fs, es) (readNum ts)).bind fun p => (Run.lift ({ f with index := i } :: fs, es) (readNumsZ p.1 p.2)).bind fun q =>
    ((addFaceEdgesRun res { f with index := i } d es (consecutive q.1)).within fun s => (s.1 :: fs, s.2)).bind fun r =>
    ((loadFaceListRun res fs (i + 1) r.2.1 r.2.2 q.2).within fun s => (r.1 :: s.1, s.2)).bind fun s => .ok (r.1 :: s.1, s.2)

/-- `loadFaces`, FPMAMeshReader.h:55-110 -/
def loadFacesRun (res : Nat) (ts : List (Tok R)) (m : Mesh (Point R)) : Run (Mesh (Point R)) (Mesh (Point R) × List (Tok R)) :=
  (Run.lift m (readNum ts)).bind fun p =>
  ((loadFaceListRun res (resize (m.midElems 2) p.1 {}) 0 [] m.edges p.2).within fun s => { m with mids := [s.1], edges := s.2 }).bind fun q =>
  .ok ({ m with mids := [q.1], edges := q.2.1 }, q.2.2)

/-- FPMAMeshReader.h:129-147 -/
def linkFacesRun (cell first : Idx) : Idx → List Idx → List Face → Run (List Face) (List Face)
  | _, [], fs => .ok fs
  | prev, f :: rest, fs =>
    (Run.lift fs (if prev ≠ INVALID then setNextAt fs prev f cell else .ok fs)).bind fun fs1 =>
    (Run.lift fs1 (if rest = [] then setNextAt fs1 f first cell else .ok fs1)).bind fun fs2 =>
    linkFacesRun cell first f rest fs2

/-- FPMAMeshReader.h:120-149: the cell has its index and its boundary element when an exception is thrown. -/
def loadCellListRun : List Cell → Nat → List Face → List (Tok R) → Run (List Cell × List Face) (List Cell × List Face × List (Tok R))
  | [], _, fs, ts => .ok ([], fs, ts)
  | c :: cs, i, fs, ts =>
    (Run.lift ({ c with index := i } :: cs, fs) (readNum ts)).bind fun p => (Run.lift ({ c with index := i } :: cs, fs) (readNums p.1 p.2)).bind fun q =>
    let c' : Cell := { index := i, bElem := q.1.head?.getD c.bElem }
    ((linkFacesRun i c'.bElem INVALID q.1 fs).within fun s => (c' :: cs, s)).bind fun fs1 =>
    ((loadCellListRun cs (i + 1) fs1 q.2).within fun s => (c' :: s.1, s.2)).bind fun r => .ok (c' :: r.1, r.2)

/-- `loadCells`, FPMAMeshReader.h:113-151 -/
def loadCellsRun (ts : List (Tok R)) (m : Mesh (Point R)) : Run (Mesh (Point R)) (Mesh (Point R) × List (Tok R)) :=
  (Run.lift m (readNum ts)).bind fun p =>
  ((loadCellListRun (resize m.cells p.1 {}) 0 (m.midElems 2) p.2).within fun s => { m with cells := s.1, mids := [s.2] }).bind fun q =>
  .ok ({ m with cells := q.1, mids := [q.2.1] }, q.2.2)

/-- `loadFromStream(ist, mesh)`, FPMAMeshReader.h:155-169; reading the vertices throws nothing. -/
def loadRun (res : Nat) (ts : List (Tok R)) (m : Mesh (Point R)) : Run (Mesh (Point R)) (Mesh (Point R)) :=
  (Run.lift m (loadVertices ts m)).bind fun p => (loadFacesRun res p.2 p.1).bind fun q =>
  (loadCellsRun q.2 q.1).bind fun r => .ok r.1

end Fpma

namespace Vtk
variable {R : Type}

/-- `storeTypes` leaves the mesh as it is; VTKMeshReader.h:132-147, 411-426. The rest is `loadFromStream`, VTKMeshReader.h:149-191, 428-471: the mesh is
cleared behind the keywords. -/
def loadFromStreamRun {V : Type} (conv : Nat → Option Nat) (loadV : List (VTok R) → Mesh V → Res (Mesh V × List (VTok R)))
    (loadC : List (VTok R) → Mesh V → Run (Mesh V) (Mesh V × List (VTok R)))
    (ts : List (VTok R)) (types : List Nat) (m : Mesh V) : Run (Mesh V) (Mesh V × List Nat) :=
  let ts := ignoreLine (ignoreLine ts)
  let w1 := readWord "" ts
  if w1.1 ≠ "ASCII" then .throw .runtimeError m
  else
    let w2 := readWord w1.1 w1.2
    if w2.1 ≠ "DATASET" then .throw .runtimeError m
    else
      let w3 := readWord w2.1 w2.2
      if w3.1 ≠ "UNSTRUCTURED_GRID" then .throw .runtimeError m
      else
        let w4 := readWord w3.1 w3.2
        (Run.lift m.clear (if w4.1 = "POINTS" then loadV w4.2 m.clear else .ok (m.clear, w4.2))).bind fun p =>
        let w5 := readWord w4.1 p.2
        (if w5.1 = "CELLS" then loadC w5.2 p.1 else .ok (p.1, w5.2)).bind fun q =>
        let w6 := readWord w5.1 q.2
        (Run.lift q.1 (if w6.1 = "CELL_TYPES" then loadCellTypes conv q.1.cells.length types w6.2
         else .ok (types, w6.2))).bind fun t =>
        .ok (q.1, t.1)

/-- `VTKMeshReader<2>::loadFromStream`, VTKMeshReader.h:149-191. `loadCells` throws nothing in 2D: every entry it uses exists
(`Proofs/FailedLoad.lean` shows it for its model). -/
def load2Run [Zero R] (ts : List (VTok R)) (types : List Nat) (m : Mesh (Point2 R)) : Run (Mesh (Point2 R)) (Mesh (Point2 R) × List Nat) :=
  loadFromStreamRun fromVtk2 (loadVertices fun p => (p.1, p.2.1)) (fun ts m => Run.lift m (loadCells2 ts m)) ts types m

/-- `templateEdges` with the edges when an exception is thrown. VTKMeshReader.h:342-362 -/
def templateEdgesRun (vs : List Idx) : Dict → List Edge → List (Nat × Nat) → Run (List Edge) (List Idx × Dict × List Edge)
  | d, es, [] => .ok ([], d, es)
  | d, es, (a, b) :: ps =>
    (Run.lift es (Res.at' vs a)).bind fun iA => (Run.lift es (Res.at' vs b)).bind fun iB =>
    let r := findOrAddEdge d es iA iB
    (templateEdgesRun vs r.1 r.2.1 ps).bind fun q => .ok (r.2.2.1 :: q.1, q.2)

/-- VTKMeshReader.h:380-394: the new face has as many edges as it can hold when `addSubelement` throws, and no number yet. -/
def findOrAddFaceRun (res : Nat) (d : Dict) (fs : List Face) (sub : List Idx) : Run (List Face) (List Face × Idx × Bool) :=
  match d.find (faceKey sub) with
  | none =>
    if res ≠ 0 ∧ res < sub.length then .throw .runtimeError (fs ++ [{ sub := sub.take res }])
    else .ok (fs ++ [{ index := fs.length, sub := sub }], fs.length, true)
  | some i => .ok (fs, i, false)

/-- VTKMeshReader.h:364-407; the number of the first face is the boundary element of the cell. -/
def addCellFacesRun (res : Nat) (cell : Idx) (eidx : List Idx) : Idx → Option Idx → Dict → List Face → List (List Nat) →
    Run (Option Idx × List Face) (Option Idx × Dict × List Face)
  | _, first, d, fs, [] => .ok (first, d, fs)
  | prev, first, d, fs, f :: rest =>
    (Run.lift (first, fs) (Std'.forEach (Res.at' eidx) f)).bind fun sub =>
    ((findOrAddFaceRun res d fs sub).within fun s => (first, s)).bind fun r =>
    let e := r.2.1
    (Run.lift (first, r.1) (linkFacet faceConnW cell prev (first.getD e) e r.2.2 (decide (rest = [])) r.1)).bind fun fs1 =>
    addCellFacesRun res cell eidx e (some (first.getD e)) (d.put (faceKey sub) e) fs1 rest

/-- VTKMeshReader.h:327-408: the cell has its index, and the edges of its template, when an exception is thrown. -/
def loadCellList3Run (res : Nat) : List Cell → Nat → Dict → Dict → List Edge → List Face → List (VTok R) →
    Run (List Cell × List Edge × List Face) (List Cell × List Edge × List Face × List (VTok R))
  | [], _, _, _, es, fs, ts => .ok ([], es, fs, ts)
  | c :: cs, i, de, df, es, fs, ts =>
    (Run.lift ({ c with index := i } :: cs, es, fs) (readNum ts)).bind fun p =>
    (Run.lift ({ c with index := i } :: cs, es, fs) (readNums p.1 p.2)).bind fun q =>
    match template p.1 with
    | none => .throw .outOfRange ({ c with index := i } :: cs, es, fs)
    | some T =>
      ((templateEdgesRun q.1 de es T.edges).within fun s => ({ c with index := i } :: cs, s, fs)).bind fun r =>
      ((addCellFacesRun res i r.1 INVALID none df fs T.faces).within fun s =>
        ({ index := i, bElem := s.1.getD c.bElem } :: cs, r.2.2, s.2)).bind fun s =>
      let c' : Cell := { index := i, bElem := s.1.getD c.bElem }
      ((loadCellList3Run res cs (i + 1) r.2.1 s.2.1 r.2.2 s.2.2 q.2).within fun u => (c' :: u.1, u.2)).bind fun u =>
      .ok (c' :: u.1, u.2)

/-- `VTKMeshReader<3>::loadCells`, VTKMeshReader.h:316-409 -/
def loadCells3Run {V : Type} (res : Nat) (ts : List (VTok R)) (m : Mesh V) : Run (Mesh V) (Mesh V × List (VTok R)) :=
  (Run.lift m (readNum ts)).bind fun p =>
  ((loadCellList3Run res (resize m.cells p.1 {}) 0 [] [] m.edges (m.midElems 2) (ignoreLine p.2)).within fun s =>
    { m with cells := s.1, edges := s.2.1, mids := [s.2.2] }).bind fun q =>
  .ok ({ m with cells := q.1, edges := q.2.1, mids := [q.2.2.1] }, q.2.2.2)

/-- `VTKMeshReader<3>::loadFromStream`, VTKMeshReader.h:428-471 -/
def load3Run [Zero R] (res : Nat) (ts : List (VTok R)) (types : List Nat) (m : Mesh (Point3 R)) : Run (Mesh (Point3 R)) (Mesh (Point3 R) × List Nat) :=
  loadFromStreamRun fromVtk3 (loadVertices id) (loadCells3Run res) ts types m

end Vtk
end GTMesh
