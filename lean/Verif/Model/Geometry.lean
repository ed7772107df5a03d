import Verif.Model.Apply
import Verif.Model.Vector

/-!
# Geometry of the mesh (ComputeCenters.h, ComputeMeasures.h, ComputeNormals.h, CellsDistance.h,
ComputeCellsCenterDifference.h, EdgesOrientation.h, GetCenters.h)

The arithmetic is that of the type of the coordinates (see `Model/Vector.lean`); it is exact for the real numbers and for a field.
Simplifications: the result of an element is returned at its position, where the code uses
`element.getIndex()` (the two agree in every mesh made by the readers); the functor of `MeshApply` is run after the whole
iteration, not during it, which changes only what is reported first when both fail.
-/

namespace GTMesh
open Std' Vec

/-- A mesh with the centers that its faces, cells and boundary cells hold (`ComputationallySignificantElement::center`,
ComputationalySignificantElement.h:6-27). `n` is the dimension of the space, equal to the dimension of the mesh. -/
structure GMesh (n : Nat) (F : Type) where
  mesh : Mesh (Vec n F)
  faceCenter : Idx → Vec n F
  cellCenter : Idx → Vec n F
  bCellCenter : Idx → Vec n F

namespace Geo
variable {n : Nat} {F : Type}

/-- The positions of the ends of edge `e`: `mesh.getVertices().at(mesh.getEdges().at(e).getVertexAIndex())` and the same for
`B`. -/
def edgeEnds (m : Mesh (Vec n F)) (e : Idx) : Res (Vec n F × Vec n F) :=
  (Res.at' m.edges e).bind fun ed =>
  (Res.at' m.vertices ed.a).bind fun A =>
  (Res.at' m.vertices ed.b).bind fun B => .ok (A, B)

/-! ## Centers -/

/-- Body of the loop over the edges, ComputeCenters.h:87-92 -/
def edgeCenter [Add F] [Mul F] [Zero F] [One F] [Div F] [NatCast F] (m : Mesh (Vec n F)) (e : Idx) : Res (Vec n F) :=
  (edgeEnds m e).bind fun p => .ok (smul (add p.1 p.2) (1 / 2))

/-- `elemCenters.at(elementIndex) += subElemCenters.at(subelementIndex)` for each sub-element, ComputeCenters.h:31-34 and 65-69 -/
def sumAt [Add F] (prev : List (Vec n F)) : List Idx → Vec n F → Res (Vec n F)
  | [], acc => .ok acc
  | s :: ss, acc => (Res.at' prev s).bind fun c => sumAt prev ss (addAssign acc (.other c))

/-- Body of the loop over the elements of dimension `d`; the container has been filled with zeros (value-initialized by
`std::vector::resize`). ComputeCenters.h:25-38 and 59-73 -/
def elemCenter [Add F] [Mul F] [Zero F] [One F] [Div F] [NatCast F] (m : Mesh (Vec n F)) (d : Nat) (prev : List (Vec n F)) (i : Idx) : Res (Vec n F) :=
  (m.applyOne d (d - 1) i).bind fun subs =>
  (sumAt prev subs 0).bind fun s => .ok (divAssign s (.value (subs.length : F)))

/-- The recursion over the dimensions: the centers of the elements of the dimensions `d, d + 1, …, d + k - 1`, when
`prev` are those of the dimension `d - 1`. ComputeCenters.h:14-42, 49-76 -/
def centersFrom [Add F] [Mul F] [Zero F] [One F] [Div F] [NatCast F] (m : Mesh (Vec n F)) (d : Nat) (prev : List (Vec n F)) :
    Nat → Res (List (List (Vec n F)))
  | 0 => .ok []
  | k + 1 =>
    (forEach (elemCenter m d prev) (List.range (m.numElems d))).bind fun cur =>
    (centersFrom m (d + 1) cur k).bind fun rest => .ok (cur :: rest)

/-- `computeCenters<METHOD_DEFAULT>(mesh)`, ComputeCenters.h:78-96 and 157-166: position `d - 1` of the result holds the
centers of the elements of dimension `d = 1, …, Dimension`. -/
def computeCenters [Add F] [Mul F] [Zero F] [One F] [Div F] [NatCast F] (m : Mesh (Vec n F)) : Res (List (List (Vec n F))) :=
  (forEach (edgeCenter m) (List.range m.edges.length)).bind fun es =>
  (centersFrom m 2 es (m.dim - 1)).bind fun rest => .ok (es :: rest)

/-- The values of `surf` and `subElemCenters.at(edgeIndex)` in the second loop over the edges of a face with the preliminary
center `c`. ComputeCenters.h:129-140 -/
def tessTerm [Add F] [Sub F] [Mul F] [Zero F] [One F] [Div F] [NatCast F] [HasSqrt F]
    (m : Mesh (Vec 3 F)) (edgeCenters : List (Vec 3 F)) (c : Vec 3 F) (e : Idx) : Res (F × Vec 3 F) :=
  (edgeEnds m e).bind fun p =>
  (gramSchmidtN [sub c p.1, sub c p.2]).bind fun r =>
  (Res.at' r.2 0).bind fun n0 =>
  (Res.at' r.2 1).bind fun n1 =>
  (Res.at' edgeCenters e).bind fun ec => .ok (n0 * (1 / 2) * n1, ec)

/-- The center of a face by the tessellation, ComputeCenters.h:115-144 -/
def tessCenter [Add F] [Sub F] [Mul F] [Zero F] [One F] [Div F] [NatCast F] [HasSqrt F]
    (m : Mesh (Vec 3 F)) (edgeCenters : List (Vec 3 F)) (i : Idx) : Res (Vec 3 F) :=
  (elemCenter m 2 edgeCenters i).bind fun c =>
  (m.applyOne 2 1 i).bind fun es =>
  (forEach (tessTerm m edgeCenters c) es).bind fun ts =>
  let tempVert := ts.foldl (fun acc t => addAssign acc (.other (smul t.2 (t.1 * (2 / 3))))) 0
  let surfTotal := ts.foldl (fun acc t => acc + t.1) 0
  .ok (add (div c 3) (div tempVert surfTotal))

/-- `computeCenters<METHOD_TESSELLATED>(mesh)` in 3D, ComputeCenters.h:78-96, 105-148, 49-76 -/
def computeCentersTess [Add F] [Sub F] [Mul F] [Zero F] [One F] [Div F] [NatCast F] [HasSqrt F]
    (m : Mesh (Vec 3 F)) : Res (List (List (Vec 3 F))) :=
  (forEach (edgeCenter m) (List.range m.edges.length)).bind fun es =>
  (forEach (tessCenter m es) (List.range (m.numElems 2))).bind fun fs =>
  (forEach (elemCenter m 3 fs) (List.range (m.numElems 3))).bind fun cs => .ok [es, fs, cs]

/-- `initializeCenters()`, UnstructuredMesh.h:36-47, from the computed centers; the boundary cells keep their centers. -/
def setCenters [Zero F] (g : GMesh n F) (cs : List (List (Vec n F))) : GMesh n F :=
  { g with faceCenter := fun i => ((cs[g.mesh.dim - 2]?.getD [])[i]?).getD 0,
           cellCenter := fun i => ((cs[g.mesh.dim - 1]?.getD [])[i]?).getD 0 }

/-- `setupBoundaryCellsCenters()`, MeshElements.h:186-190 -/
def setupBoundaryCellsCenters [Zero F] (g : GMesh n F) : GMesh n F :=
  { g with bCellCenter := fun i => ((g.mesh.bCells[i]?).map fun c => g.faceCenter c.bElem).getD 0 }

/-! ## Measures -/

/-- A sum accumulated in the order of the list. -/
def total [Add F] [Zero F] (l : List F) : F := l.foldl (· + ·) 0

/-- Body of the loop over the edges, ComputeMeasures.h:108-112 -/
def edgeMeasure [Add F] [Sub F] [Mul F] [Zero F] [HasSqrt F]
    (m : Mesh (Vec n F)) (e : Idx) : Res F :=
  (edgeEnds m e).bind fun p => .ok (Vec.norm (sub p.1 p.2))

/-- The lengths of the edges. ComputeMeasures.h:104-112 -/
def edgeMeasures [Add F] [Sub F] [Mul F] [Zero F] [HasSqrt F]
    (m : Mesh (Vec n F)) : Res (List F) := forEach (edgeMeasure m) (List.range m.edges.length)

/-- What one edge adds to the area of a 2D cell. ComputeMeasures.h:190-194 -/
def triangle2 [Add F] [Sub F] [Mul F] [Zero F] [One F] [Div F] [NatCast F] [HasAbs F]
    (c a b : Vec 2 F) : F := 1 / 2 * HasAbs.abs ((c 0 - a 0) * (b 1 - a 1) - (c 1 - a 1) * (b 0 - a 0))

/-- Body of the loop over the cells in 2D, ComputeMeasures.h:185-199 -/
def cellMeasure2 [Add F] [Sub F] [Mul F] [Zero F] [One F] [Div F] [NatCast F] [HasAbs F]
    (g : GMesh 2 F) (i : Idx) : Res F :=
  (Res.at' g.mesh.cells i).bind fun c =>
  (g.mesh.cellLoop (fun e => (edgeEnds g.mesh e).bind fun p => .ok [triangle2 (g.cellCenter i) p.1 p.2]) i c.bElem
    (g.mesh.numFaces + 1) c.bElem).bind fun ts => .ok (total ts)

/-- `computeMeasures(mesh)` in 2D: the lengths of the edges and the areas of the cells. ComputeMeasures.h:104-115, 177-202, 293-299 -/
def computeMeasures2 [Add F] [Sub F] [Mul F] [Zero F] [One F] [Div F] [NatCast F] [HasSqrt F] [HasAbs F]
    (g : GMesh 2 F) : Res (List F × List F) :=
  (edgeMeasures g.mesh).bind fun ls =>
  (forEach (cellMeasure2 g) (List.range g.mesh.cells.length)).bind fun cs => .ok (ls, cs)

/-- What one edge adds to the area of a face with the center `fc`. ComputeMeasures.h:219-228 -/
def faceTerm [Add F] [Sub F] [Mul F] [Zero F] [One F] [Div F] [NatCast F] [HasSqrt F]
    (g : GMesh 3 F) (lens : List F) (fc : Vec 3 F) (e : Idx) : Res F :=
  (edgeEnds g.mesh e).bind fun p =>
  (gramSchmidtN [sub p.2 p.1, sub fc p.1]).bind fun r =>
  (Res.idx r.2 1).bind fun h =>
  (Res.at' lens e).bind fun len => .ok (1 / 2 * h * len)

/-- Body of the loop over the faces in 3D, ComputeMeasures.h:213-231 -/
def faceMeasure3 [Add F] [Sub F] [Mul F] [Zero F] [One F] [Div F] [NatCast F] [HasSqrt F]
    (g : GMesh 3 F) (lens : List F) (i : Idx) : Res F :=
  (Res.at' (g.mesh.midElems 2) i).bind fun f =>
  (forEach (faceTerm g lens (g.faceCenter i)) f.sub).bind fun ts => .ok (total ts)

/-- The ends of the first edge of face `f`. ComputeMeasures.h:152-156, ComputeNormals.h:95-99 -/
def firstEdge (m : Mesh (Vec n F)) (f : Idx) : Res (Vec n F × Vec n F) :=
  (Res.at' (m.midElems 2) f).bind fun fa =>
  (Res.idx fa.sub 0).bind fun e => edgeEnds m e

/-- What one face adds to the volume of a cell with the center `cc`. ComputeMeasures.h:152-167 -/
def cellTerm3 [Add F] [Sub F] [Mul F] [Zero F] [One F] [Div F] [NatCast F] [HasSqrt F]
    (g : GMesh 3 F) (areas : List F) (cc : Vec 3 F) (f : Idx) : Res (List F) :=
  (firstEdge g.mesh f).bind fun p =>
  (gramSchmidtN [sub p.1 p.2, sub p.1 (g.faceCenter f), sub p.1 cc]).bind fun r =>
  (Res.idx r.2 2).bind fun distance =>
  (Res.at' areas f).bind fun area => .ok [distance * area / 3]

/-- Body of the loop over the cells in 3D, ComputeMeasures.h:143-173 -/
def cellMeasure3 [Add F] [Sub F] [Mul F] [Zero F] [One F] [Div F] [NatCast F] [HasSqrt F]
    (g : GMesh 3 F) (areas : List F) (i : Idx) : Res F :=
  (Res.at' g.mesh.cells i).bind fun c =>
  (g.mesh.cellLoop (cellTerm3 g areas (g.cellCenter i)) i c.bElem (g.mesh.numFaces + 1) c.bElem).bind fun ts =>
  .ok (total ts)

/-- `computeMeasures(mesh)` in 3D: lengths, areas, volumes; ComputeMeasures.h:104-115, 206-234, 136-175, 293-299. (The template
parameter `Method` is not passed on by lines 114 and 232, so `METHOD_TESSELLATED` computes the same.) -/
def computeMeasures3 [Add F] [Sub F] [Mul F] [Zero F] [One F] [Div F] [NatCast F] [HasSqrt F]
    (g : GMesh 3 F) : Res (List F × List F × List F) :=
  (edgeMeasures g.mesh).bind fun ls =>
  (forEach (faceMeasure3 g ls) (List.range (g.mesh.midElems 2).length)).bind fun fs =>
  (forEach (cellMeasure3 g fs) (List.range g.mesh.cells.length)).bind fun cs => .ok (ls, fs, cs)

/-! ## Centers that span an element (GetCenters.h), measures in higher dimensions -/

/-- `getCenters<d>(centers, mesh, i)` for `d < MeshDimension`: the center of the element, of its first sub-element, and so on
down to dimension 2, then the ends of the edge; unchecked accesses. `centers` is indexed as in `computeCenters`.
GetCenters.h:11-46, 68-75. (`d = 0` does not compile.) -/
def getCenters (centers : List (List (Vec n F))) (m : Mesh (Vec n F)) : Nat → Idx → Res (List (Vec n F))
  | 0, _ => .ok []
  | 1, i =>
    (Res.idx m.edges i).bind fun e =>
    (Res.idx m.vertices e.a).bind fun A =>
    (Res.idx m.vertices e.b).bind fun B => .ok [A, B]
  | d + 2, i =>
    (Res.idx (centers[d + 1]?.getD []) i).bind fun c =>
    (Res.idx (m.midElems (d + 2)) i).bind fun f =>
    (Res.idx f.sub 0).bind fun s =>
    (getCenters centers m (d + 1) s).bind fun r => .ok (c :: r)

/-- The vectors `res[i] - res[0]`, `i ≥ 1`, followed by `p - res[0]`. ComputeMeasures.h:42-46, 81-85, ComputeNormals.h:40-44 -/
def spanVectors [Sub F] [Zero F] (res : List (Vec n F)) (p : Vec n F) : List (Vec n F) :=
  match res with
  | [] => []
  | r0 :: rs => (rs.map fun r => sub r r0) ++ [sub p r0]

/-- What the sub-element `s` adds to the measure of an element of dimension `d` with the center `c`.
ComputeMeasures.h:39-51, 79-90 -/
def highTerm [Add F] [Sub F] [Mul F] [Zero F] [One F] [Div F] [NatCast F] [HasSqrt F]
    (centers : List (List (Vec n F))) (m : Mesh (Vec n F)) (prev : List F) (d : Nat) (c : Vec n F) (s : Idx) :
    Res F :=
  (getCenters centers m (d - 1) s).bind fun res =>
  (gramSchmidtN (spanVectors res c)).bind fun r =>
  (Res.idx r.2 (d - 1)).bind fun h =>
  (Res.idx prev s).bind fun ms => .ok (h * ms)

/-- Body of the loop over the elements of dimension `d`. ComputeMeasures.h:34-58, 74-97 -/
def highMeasure [Add F] [Sub F] [Mul F] [Zero F] [One F] [Div F] [NatCast F] [HasSqrt F]
    (centers : List (List (Vec n F))) (m : Mesh (Vec n F)) (prev : List F) (d : Nat) (i : Idx) : Res F :=
  (Res.idx (centers[d - 1]?.getD []) i).bind fun c =>
  (m.applyOne d (d - 1) i).bind fun subs =>
  (forEach (highTerm centers m prev d c) subs).bind fun ts => .ok (1 / (d : F) * total ts)

/-- The recursion over the dimensions `d, …, d + k - 1`. ComputeMeasures.h:29-60, 69-98 -/
def measuresFrom [Add F] [Sub F] [Mul F] [Zero F] [One F] [Div F] [NatCast F] [HasSqrt F]
    (centers : List (List (Vec n F))) (m : Mesh (Vec n F)) (d : Nat) (prev : List F) : Nat → Res (List (List F))
  | 0 => .ok []
  | k + 1 =>
    (forEach (highMeasure centers m prev d) (List.range (m.numElems d))).bind fun cur =>
    (measuresFrom centers m (d + 1) cur k).bind fun rest => .ok (cur :: rest)

/-- `computeMeasures(centers, mesh)`, which compiles for meshes of dimension 4 and more. ComputeMeasures.h:118-132, 307-316 -/
def computeMeasuresHigh [Add F] [Sub F] [Mul F] [Zero F] [One F] [Div F] [NatCast F] [HasSqrt F]
    (centers : List (List (Vec n F))) (m : Mesh (Vec n F)) : Res (List (List F)) :=
  (edgeMeasures m).bind fun ls =>
  (measuresFrom centers m 2 ls (m.dim - 1)).bind fun rest => .ok (ls :: rest)

/-! ## Normals -/

/-- Body of the loop in 2D, ComputeNormals.h:63-70 -/
def normal2 [Add F] [Sub F] [Mul F] [Zero F] [One F] [Div F] [Neg F] [NatCast F] [HasSqrt F] (m : Mesh (Vec 2 F)) (e : Idx) : Res (Vec 2 F) :=
  (edgeEnds m e).bind fun p =>
  let dif := sub p.2 p.1
  let v := store (store raw 0 (dif 1)) 1 (-(dif 0))
  .ok (divAssign v (.value (Vec.norm dif)))

/-- `computeFaceNormals(mesh)` in 2D, ComputeNormals.h:58-72, 166-173 -/
def computeFaceNormals2 [Add F] [Sub F] [Mul F] [Zero F] [One F] [Div F] [Neg F] [NatCast F] [HasSqrt F] (m : Mesh (Vec 2 F)) : Res (List (Vec 2 F)) :=
  forEach (normal2 m) (List.range m.edges.length)

/-- The cell used for the direction, and the sign: the left cell, or the right one when the left one is missing or is a boundary
cell. ComputeNormals.h:29-34, 85-90, 121-126 -/
def directionCell (F : Type) [One F] [Neg F] (c : Conn) : F × Idx :=
  if isInvalidIndex c.left || isBoundaryIndex c.left then (-1, c.right) else (1, c.left)

/-- Body of the loop in 3D, ComputeNormals.h:83-108 -/
def normal3 [Add F] [Sub F] [Mul F] [Zero F] [One F] [Div F] [Neg F] [NatCast F] [HasSqrt F] (g : GMesh 3 F) (i : Idx) : Res (Vec 3 F) :=
  (Res.at' (g.mesh.midElems 2) i).bind fun f =>
  (Res.at' g.mesh.cells (directionCell F f.conn).2).bind fun _ =>
  (firstEdge g.mesh i).bind fun p =>
  let c := g.faceCenter i
  (gramSchmidtN [sub c p.1, sub c p.2, sub c (g.cellCenter (directionCell F f.conn).2)]).bind fun r =>
  (Res.idx r.1 2).bind fun u => .ok (smul u (directionCell F f.conn).1)

/-- `computeFaceNormals<METHOD_DEFAULT>(mesh)` in 3D, ComputeNormals.h:78-110, 166-173 -/
def computeFaceNormals3 [Add F] [Sub F] [Mul F] [Zero F] [One F] [Div F] [Neg F] [NatCast F] [HasSqrt F] (g : GMesh 3 F) : Res (List (Vec 3 F)) :=
  forEach (normal3 g) (List.range (g.mesh.midElems 2).length)

/-- One edge in the tessellated version: half of the product of the first two norms, and the third vector.
ComputeNormals.h:135-148 -/
def tessNormalTerm [Add F] [Sub F] [Mul F] [Zero F] [One F] [Div F] [Neg F] [NatCast F] [HasSqrt F] (g : GMesh 3 F) (fc cc : Vec 3 F) (e : Idx) : Res (F × Vec 3 F) :=
  (edgeEnds g.mesh e).bind fun p =>
  (gramSchmidtN [sub fc p.1, sub fc p.2, sub fc cc]).bind fun r =>
  (Res.idx r.1 2).bind fun u =>
  (Res.idx r.2 0).bind fun n0 =>
  (Res.idx r.2 1).bind fun n1 => .ok (1 / 2 * n0 * n1, smul (smul (smul u (1 / 2)) n0) n1)

/-- Body of the loop of the tessellated version, ComputeNormals.h:118-156 -/
def normal3Tess [Add F] [Sub F] [Mul F] [Zero F] [One F] [Div F] [Neg F] [NatCast F] [HasSqrt F] [DecidableEq F] (g : GMesh 3 F) (i : Idx) : Res (Vec 3 F) :=
  (Res.at' (g.mesh.midElems 2) i).bind fun f =>
  (Res.at' g.mesh.cells (directionCell F f.conn).2).bind fun _ =>
  (g.mesh.applyOne 2 1 i).bind fun es =>
  (forEach (tessNormalTerm g (g.faceCenter i) (g.cellCenter (directionCell F f.conn).2)) es).bind fun ts =>
  let faceNormal := ts.foldl (fun acc t => addAssign acc (.other t.2)) 0
  let surfTotal := ts.foldl (fun acc t => acc + t.1) 0
  let faceNormal := divAssign faceNormal (.value surfTotal)
  .ok (if (directionCell F f.conn).1 = -1 then smulAssign faceNormal (.value (-1)) else faceNormal)

/-- Body of the loop in dimension `n ≥ 4`, ComputeNormals.h:27-49. Note `cellCenter - res[0]`, where the 3D version has
`c - cellCenter`. -/
def normalHigh [Add F] [Sub F] [Mul F] [Zero F] [One F] [Div F] [Neg F] [NatCast F] [HasSqrt F] (centers : List (List (Vec n F))) (m : Mesh (Vec n F)) (i : Idx) : Res (Vec n F) :=
  (Res.at' (m.midElems (m.dim - 1)) i).bind fun f =>
  (Res.at' (centers[m.dim - 1]?.getD []) (directionCell F f.conn).2).bind fun cc =>
  (getCenters centers m (m.dim - 1) i).bind fun res =>
  (gramSchmidtN (spanVectors res cc)).bind fun r =>
  (Res.idx r.1 (m.dim - 1)).bind fun u => .ok (smul u (directionCell F f.conn).1)

/-! ## Distances of cells -/

/-- `&` with `BOUNDARY_INDEX` selects the boundary cells; otherwise the cells. CellsDistance.h:41-50,
ComputeCellsCenterDifference.h:33-38 -/
def sideCenter (g : GMesh n F) (c : Idx) : Res (Vec n F) :=
  if isBoundaryIndex c then
    (Res.at' g.mesh.bCells (extractBoundaryIndex c)).bind fun _ => .ok (g.bCellCenter (extractBoundaryIndex c))
  else (Res.at' g.mesh.cells c).bind fun _ => .ok (g.cellCenter c)

/-- `mesh.getCells().at(c).getCenter()` -/
def innerCenter (g : GMesh n F) (c : Idx) : Res (Vec n F) :=
  (Res.at' g.mesh.cells c).bind fun _ => .ok (g.cellCenter c)

/-- The value for face `i` with the connection `c`; 0 is the value of a fresh container. CellsDistance.h:17-54 -/
def cellsDistance [Add F] [Sub F] [Mul F] [Zero F] [HasSqrt F]
    (g : GMesh n F) (i : Idx) (c : Conn) : Res F :=
  if g.mesh.bCells.isEmpty then
    if c.left ≠ INVALID ∧ c.right ≠ INVALID then
      (innerCenter g c.left).bind fun L => (innerCenter g c.right).bind fun R => .ok (Vec.norm (sub L R))
    else if c.left ≠ INVALID ∧ c.right = INVALID then
      (innerCenter g c.left).bind fun L => .ok (Vec.norm (sub L (g.faceCenter i)))
    else if c.left = INVALID ∧ c.right ≠ INVALID then
      (innerCenter g c.right).bind fun R => .ok (Vec.norm (sub R (g.faceCenter i)))
    else .ok 0
  else (sideCenter g c.left).bind fun L => (sideCenter g c.right).bind fun R => .ok (Vec.norm (sub L R))

/-- The value for face `i` with the connection `c`. ComputeCellsCenterDifference.h:17-42 -/
def centerDifference [Sub F] [Zero F] (g : GMesh n F) (i : Idx) (c : Conn) : Res (Vec n F) :=
  if g.mesh.bCells.isEmpty then
    if !isInvalidIndex c.left && !isInvalidIndex c.right then
      (innerCenter g c.right).bind fun R => (innerCenter g c.left).bind fun L => .ok (sub R L)
    else if !isInvalidIndex c.left && isInvalidIndex c.right then
      (innerCenter g c.left).bind fun L => .ok (sub (g.faceCenter i) L)
    else if isInvalidIndex c.left && !isInvalidIndex c.right then
      (innerCenter g c.right).bind fun R => .ok (sub (g.faceCenter i) R)
    else .ok 0
  else (sideCenter g c.left).bind fun L => (sideCenter g c.right).bind fun R => .ok (sub R L)

/-- `computeCellsDistance(mesh)`, CellsDistance.h:11-57 -/
def computeCellsDistance [Add F] [Sub F] [Mul F] [Zero F] [HasSqrt F]
    (g : GMesh n F) : Res (List F) :=
  forEach (fun i => (g.mesh.faceConn i).bind fun c => cellsDistance g i c) (List.range g.mesh.numFaces)

/-- `computeCellsCenterDifference(mesh)`, ComputeCellsCenterDifference.h:11-45 -/
def computeCellsCenterDifference [Sub F] [Zero F] (g : GMesh n F) : Res (List (Vec n F)) :=
  forEach (fun i => (g.mesh.faceConn i).bind fun c => centerDifference g i c) (List.range g.mesh.numFaces)

/-! ## Orientation of edges -/

/-- `edgeIsLeft(mesh, face, edge)` in 2D, EdgesOrientation.h:13-28; `C` is the center of the cell. -/
def edgeIsLeft2 [Field F] [LinearOrder F] (C A B : Vec 2 F) : Bool :=
  let AminC := sub A C
  let BminC := sub B C
  decide (0 < AminC 0 * BminC 1 - BminC 0 * AminC 1)

/-- `edgeIsLeft(mesh, face, edge, faceNormal)` in 3D, EdgesOrientation.h:30-49 -/
def edgeIsLeft3 [Field F] [LinearOrder F] (C A B faceNormal : Vec 3 F) : Bool :=
  let AminC := sub A C
  let BminC := sub B C
  let res := (List.finRange 3).foldl (fun res i =>
    res + (AminC i * BminC (i + 1) * faceNormal (i + 2) - AminC (i + 2) * BminC (i + 1) * faceNormal i)) 0
  decide (0 < res)

/-- `edgeIsLeft(mesh, faceIndex, edgeIndex)` in 2D, EdgesOrientation.h:51-59 -/
def edgeIsLeft2At [Field F] [LinearOrder F] (g : GMesh 2 F) (cell edge : Idx) : Res Bool :=
  (Res.at' g.mesh.edges edge).bind fun _ =>
  (Res.at' g.mesh.cells cell).bind fun _ =>
  (edgeEnds g.mesh edge).bind fun p => .ok (edgeIsLeft2 (g.cellCenter cell) p.1 p.2)

/-- Body of the loop of `edgesOrientation` over the faces, EdgesOrientation.h:79-86, with the normal of the face. -/
def faceOrientations [Field F] [LinearOrder F] (g : GMesh 3 F) (i : Idx) (normal : Vec 3 F) : Res (List Bool) :=
  (Res.at' (g.mesh.midElems 2) i).bind fun f =>
  forEach (fun e => (edgeEnds g.mesh e).bind fun p => .ok (edgeIsLeft3 (g.faceCenter i) p.1 p.2 normal)) f.sub

/-- `edgesOrientation(mesh)`, EdgesOrientation.h:73-88 -/
noncomputable def edgesOrientation (g : GMesh 3 ℝ) : Res (List (List Bool)) :=
  (computeFaceNormals3 g).bind fun ns =>
  forEach (fun i => (Res.idx ns i).bind fun nf => faceOrientations g i nf) (List.range (g.mesh.midElems 2).length)

end Geo
end GTMesh
