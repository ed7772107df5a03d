import Verif.Model.Connections

/-!
# Coloring (MeshColoring.h)

`std::valarray<bool>` is a `List Bool`; `unsigned int` counters are unbounded (overflow would need more
than 2^31 colors).  A failed bounds check ends the program (`DBGTRY`, Debug.h:41-45) or throws
(Debug.h:76); both are `throw` here.
-/

namespace GTMesh
open Std'

/-- `freeColors &= !attached`; operands of different length are undefined behaviour. MeshColoring.h:33, 87 -/
def maskColors (free att : List Bool) : Res (List Bool) :=
  if free.length = att.length then .ok (List.zipWith (fun f a => f && !a) free att) else .ub

/-- Masking with the colors attached to each of the connecting elements `cs`.
MeshColoring.h:30-35, 84-88, 151-156 -/
def freeColors (attached : List (List Bool)) : List Idx → List Bool → Res (List Bool)
  | [], free => .ok free
  | c :: cs, free =>
    (Res.at' attached c).bind fun a => (maskColors free a).bind fun f => freeColors attached cs f

/-- `while (!freeColors[selectedColor]) { selectedColor++; if (selectedColor == freeColors.size()) {grow; break;} }`
The result is the color and whether the palette has to grow; the last argument is fuel.
MeshColoring.h:38-55, 91-105 -/
def selectColor (free : List Bool) : Nat → Nat → Res (Nat × Bool)
  | 0, _ => .diverge
  | n + 1, sel =>
    (Res.idx free sel).bind fun b =>
    if b then .ok (sel, false)
    else if sel + 1 = free.length then .ok (sel + 1, true)
    else selectColor free n (sel + 1)

/-- Enlarging one color set: `newAttColor(false, reserve)` and copying. MeshColoring.h:47-51, 97-101 -/
def enlarge (reserve : Nat) (a : List Bool) : List Bool := a ++ List.replicate (reserve - a.length) false

/-- `attachedColors.at(element)[selectedColor] = value` for each connecting element.
MeshColoring.h:59-61, 107-110, 181-184 -/
def attachAll (color : Nat) : List Idx → List (List Bool) → Res (List (List Bool))
  | [], att => .ok att
  | c :: cs, att =>
    (Res.at' att c).bind fun a =>
    if color < a.length then attachAll color cs (att.set c (a.set color true)) else .ub

/-- State of the greedy loop: colors assigned so far (the container is filled in index order, modelled by
appending), the size of the palette and the colors attached to each connecting element. -/
structure ColorState where
  colors : List Nat
  reserve : Nat
  attached : List (List Bool)

/-- One iteration of the greedy loop; `cs` are the connecting elements of the current element.
MeshColoring.h:29-62, 83-111 -/
def greedyStep (st : ColorState) (cs : List Idx) : Res ColorState :=
  (freeColors st.attached cs (List.replicate st.reserve true)).bind fun free =>
  (selectColor free free.length 0).bind fun (sel, grow) =>
  let reserve := if grow then st.reserve * 2 else st.reserve
  let att := if grow then st.attached.map (enlarge reserve) else st.attached
  (attachAll sel cs att).bind fun att' =>
  .ok { colors := st.colors ++ [sel], reserve := reserve, attached := att' }

/-- The greedy loop over the elements, given by their connecting elements. -/
def greedyLoop (visit : Idx → Res (List Idx)) : List Idx → ColorState → Res ColorState
  | [], st => .ok st
  | i :: is, st => (visit i).bind fun cs => (greedyStep st cs).bind fun st' => greedyLoop visit is st'

/-- Greedy coloring: initial palette of 16 colors. MeshColoring.h:17-63, 72-115 -/
def greedyColor (n nConn : Nat) (visit : Idx → Res (List Idx)) : Res (List Nat) :=
  (greedyLoop visit (List.range n)
    { colors := [], reserve := 16, attached := List.replicate nConn (List.replicate 16 false) }).bind
  fun st => .ok st.colors

/-- `while (rnd != 0 || !freeColors[sel]) { if (freeColors[sel]) rnd--; sel++; }` (last argument: fuel)
MeshColoring.h:172-177 -/
def pickRandom (free : List Bool) : Nat → Nat → Nat → Res Nat
  | 0, _, _ => .diverge
  | n + 1, rnd, sel =>
    (Res.idx free sel).bind fun b =>
    if rnd = 0 ∧ b = true then .ok sel
    else pickRandom free n (if b then rnd - 1 else rnd) (sel + 1)

/-- `attached.at(element)[result[i]] = false; attached.at(element)[selected] = true;` where `result[i]` has
already been overwritten by `selected`. MeshColoring.h:179-184 -/
def reattachAll (color : Nat) : List Idx → List (List Bool) → Res (List (List Bool))
  | [], att => .ok att
  | c :: cs, att =>
    (Res.at' att c).bind fun a =>
    if color < a.length then reattachAll color cs (att.set c ((a.set color false).set color true))
    else .ub

/-- Marking the greedy colors as attached. MeshColoring.h:142-147 -/
def markLoop (conn : List (List Idx)) (colors : List Nat) : List Idx → List (List Bool) → Res (List (List Bool))
  | [], att => .ok att
  | i :: is, att =>
    (Res.at' conn i).bind fun cs =>
    (Res.idx colors i).bind fun col =>
    (attachAll col cs att).bind fun att' => markLoop conn colors is att'

/-- The recoloring loop. `draw i n` is the number delivered by `uniform_int_distribution(0, n)` when
element `i` is treated. MeshColoring.h:149-187 -/
def recolorLoop (draw : Nat → Nat → Nat) (reserve : Nat) (conn : List (List Idx)) :
    List Idx → List Nat → List (List Bool) → Res (List Nat)
  | [], colors, _ => .ok colors
  | i :: is, colors, att =>
    (Res.at' conn i).bind fun cs =>
    (freeColors att cs (List.replicate reserve true)).bind fun free =>
    let n := free.count true
    if 0 < n then
      let rnd := draw i n
      if rnd = n then recolorLoop draw reserve conn is colors att
      else
        (pickRandom free (free.length + 1) rnd 0).bind fun sel =>
        if i < colors.length then
          (reattachAll sel cs att).bind fun att' =>
          recolorLoop draw reserve conn is (colors.set i sel) att'
        else .throw .outOfRange
    else recolorLoop draw reserve conn is colors att

namespace Mesh
variable {V : Type}

/-- `MeshColoring<S, C, METHOD_GREEDY>::color(mesh)`: by iteration when `S > C`, by connections otherwise.
MeshColoring.h:14-63, 70-116 -/
def colorGreedy (m : Mesh V) (S C : Nat) : Res (List Nat) :=
  if C < S then greedyColor (m.numElems S) (m.numElems C) (m.applyOne S C)
  else (m.connectionsAsc S C).bind fun conn =>
    greedyColor (m.numElems S) (m.numElems C) (Res.at' conn)

/-- `MeshColoring<S, C, METHOD_RANDOM>::color(mesh, seed)`, MeshColoring.h:120-189. Dereferencing
`std::max_element` of an empty container is undefined behaviour. -/
def colorRandom (m : Mesh V) (S C : Nat) (draw : Nat → Nat → Nat) : Res (List Nat) :=
  (m.colorGreedy S C).bind fun colors =>
  match colors.max? with
  | none => .ub
  | some mx =>
    (m.connectionsAsc S C).bind fun conn =>
    (markLoop conn colors (List.range (m.numElems S))
      (List.replicate (m.numElems C) (List.replicate (mx + 1) false))).bind fun att =>
    recolorLoop draw (mx + 1) conn (List.range (m.numElems S)) colors att

end Mesh
end GTMesh
