import Verif.Model.Coloring

/-!
# A parallel loop over the elements of one color

The colors of MeshColoring.h are used to process elements at the same time: all elements of one color, then all of the next one.  The loop
itself is code of the user: its body is any program that reads and writes entries of a data container (MeshDataContainer.h:373-412) that
belong to the elements connected with the processed one, as given by MeshConnections.h:40-105.

Simplifications: a step (a read or a write of one entry, a computation) is indivisible and seen at once, as it may be for programs without
data races; the entries are a function of their index.
-/

namespace GTMesh.ColorLoop

/-- One step of the processing of an element with local variables `L` and entries `D`; the local variables after the step are given. -/
inductive Instr (L D : Type) where
  /-- read the entry `c` -/
  | read (c : Nat) (f : D → L)
  /-- write `v` to the entry `c` -/
  | write (c : Nat) (v : D) (l : L)
  | compute (l : L)

/-- The body of the loop for each element: the next step, `none` at the end. -/
abbrev Body (L D : Type) := Nat → L → Option (Instr L D)

/-- The entries of the container and the local variables of the processing of each element. -/
@[ext] structure State (L D : Type) where
  data : Nat → D
  loc : Nat → L

/-- Assignment. -/
def update {α : Type} (f : Nat → α) (i : Nat) (v : α) : Nat → α := fun j => if j = i then v else f j

variable {L D : Type}

/-- Element `i` makes its next step (nothing, if it has finished). -/
def step (P : Body L D) (i : Nat) (s : State L D) : State L D :=
  match P i (s.loc i) with
  | none => s
  | some (.read c f) => { s with loc := update s.loc i (f (s.data c)) }
  | some (.write c v l) => { data := update s.data c v, loc := update s.loc i l }
  | some (.compute l) => { s with loc := update s.loc i l }

/-- A schedule: whose turn it is. -/
def run (P : Body L D) (sch : List Nat) (s : State L D) : State L D := sch.foldl (fun s i => step P i s) s

/-- One schedule after the other, a barrier between them. -/
def runPhases (P : Body L D) (schs : List (List Nat)) (s : State L D) : State L D := schs.foldl (fun s sch => run P sch s) s

/-- The processing of `i` is finished. -/
def Done (P : Body L D) (i : Nat) (s : State L D) : Prop := P i (s.loc i) = none

/-- The body that adds `w i c` to the entry of each connected element, `for (c : conn[i]) data[c] += w(i, c);`: the entry is read, then the
sum is written. The local variables are the position in `conn[i]` and the entry that was read. -/
def addBody [Add D] (conn : Nat → List Nat) (w : Nat → Nat → D) : Body (Nat × Option D) D := fun i l =>
  match (conn i)[l.1]? with
  | none => none
  | some c =>
    match l.2 with
    | none => some (.read c fun d => (l.1, some d))
    | some d => some (.write c (d + w i c) (l.1 + 1, none))

end GTMesh.ColorLoop
