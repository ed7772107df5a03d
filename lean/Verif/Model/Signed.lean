import Verif.Model.FailedLoad
import Verif.Model.Cache

/-!
# The signature that is stored in a mesh (MeshElements.h)

`signature` of Model/Cache.lean is the value that is calculated; here is the member that keeps it, and who changes it. Simplifications: those of
Model/Cache.lean (the hash functions see the records of the elements, without centers and flags) and of Model/FailedLoad.lean.
-/

namespace GTMesh
variable {V R : Type}

/-- A mesh with its member `meshSignature`, MeshElements.h:65; no constructor initialises the member (`none`). -/
structure SMesh (V : Type) where
  mesh : Mesh V
  sig : Option Nat := none

namespace SMesh

/-- `updateSignature()`, MeshElements.h:316-322 -/
def updateSignature (H : Hasher V) (reserves : List Nat) (m : SMesh V) : SMesh V :=
  { m with sig := some (signature H reserves m.mesh) }

/-- `getSignature()`, MeshElements.h:324-326: the value of a member that is not initialised is undefined. -/
def getSignature (m : SMesh V) : Res Nat :=
  match m.sig with
  | some h => .ok h
  | none => .ub

/-- A function that changes the elements and not the signature, such as `clear`, MeshElements.h:158-160, `setupBoundaryCells`, MeshElements.h:169-183, or a
change through `getVertices`, `getEdges`, `getFaces`, `getCells`, MeshElements.h:92-108. -/
def edit (f : Mesh V → Mesh V) (m : SMesh V) : SMesh V := { m with mesh := f m.mesh }

end SMesh

/-- `FPMAMeshReader<3>::loadFromStream`, FPMAMeshReader.h:155-169: the signature is updated (line 167) when everything is read. -/
def Fpma.loadSigned (H : Hasher (Vtk.Point3 R)) (reserves : List Nat) (ts : List (Tok R)) (m : SMesh (Vtk.Point3 R)) : Run (SMesh (Vtk.Point3 R)) (SMesh (Vtk.Point3 R)) :=
  ((Fpma.loadRun (reserveOf 3 reserves 2) ts m.mesh).within fun s => { m with mesh := s }).bind fun r =>
  .ok ({ m with mesh := r }.updateSignature H reserves)

namespace Vtk
variable [Zero R]

/-- `VTKMeshReader<3>::loadFromStream`, VTKMeshReader.h:428-471: the signature is updated (line 470) when everything is read. -/
def load3Signed (H : Hasher (Vtk.Point3 R)) (reserves : List Nat) (ts : List (VTok R)) (types : List Nat) (m : SMesh (Vtk.Point3 R)) :
    Run (SMesh (Vtk.Point3 R)) (SMesh (Vtk.Point3 R)) :=
  ((load3Run (reserveOf 3 reserves 2) ts types m.mesh).within fun s => { m with mesh := s }).bind fun r =>
  .ok ({ m with mesh := r.1 }.updateSignature H reserves)

/-- `VTKMeshReader<2>::loadFromStream`, VTKMeshReader.h:149-191: the signature stays as it is. -/
def load2Signed (ts : List (VTok R)) (types : List Nat) (m : SMesh (Point2 R)) : Run (SMesh (Point2 R)) (SMesh (Point2 R)) :=
  ((load2Run ts types m.mesh).within fun s => { m with mesh := s }).bind fun r => .ok { m with mesh := r.1 }

/-- What `writeToStream` of the 2D writer does to the mesh, returning or not: `computeHash` (VTKMeshWriter.h:140, MeshWriter.h:52-74) updates the signature;
the rest of it changes the stream and the writer. -/
def write2Signed (zero : R) (H : Hasher (Point2 R)) (types : List Nat) (w : Writer2) (m : SMesh (Point2 R)) :
    Run (SMesh (Point2 R)) (SMesh (Point2 R) × Writer2 × List (VTok R)) :=
  let m' := m.updateSignature H []
  (Run.lift m' (m'.getSignature.bind fun h => writeCached2 zero h m'.mesh types w)).bind fun p => .ok (m', p.1, p.2)

/-- What `writeToStream` of the 3D writer does to the mesh, returning or not: `computeHash` (VTKMeshWriter.h:587, MeshWriter.h:52-74) updates the signature. -/
def write3Signed (H : Hasher (Point3 R)) (reserves : List Nat) (ori : Idx → Bool) (key : Point3 R → List Char) (cc fc : Idx → Point3 R) (types : List Nat)
    (w : Writer3 (Point3 R)) (m : SMesh (Point3 R)) : Run (SMesh (Point3 R)) (SMesh (Point3 R) × Writer3 (Point3 R) × List (VTok R)) :=
  let m' := m.updateSignature H reserves
  (Run.lift m' (m'.getSignature.bind fun h => writeToStream3 ori key cc fc h m'.mesh types w)).bind fun p => .ok (m', p.1, p.2)

end Vtk

/-- What `writeToStream` of the FPMA writer does to the mesh, returning or not: `computeHash` (FPMAMeshWriter.h:124, MeshWriter.h:52-74) updates the signature. -/
def Fpma.writeSigned (H : Hasher (Vtk.Point3 R)) (reserves : List Nat) (w : Fpma.FWriter) (m : SMesh (Vtk.Point3 R)) :
    Run (SMesh (Vtk.Point3 R)) (SMesh (Vtk.Point3 R) × Fpma.FWriter × List (Tok R)) :=
  let m' := m.updateSignature H reserves
  (Run.lift m' (m'.getSignature.bind fun h => Fpma.writeCached h m'.mesh w)).bind fun p => .ok (m', p.1, p.2)

end GTMesh
