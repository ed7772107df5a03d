import Verif.Model.Coloring
import Verif.Props.Mesh

/-!
# Meshes that differ in their boundary cells only
-/

namespace GTMesh
open Std'

/-- `m'` has the elements of `m`, and the boundary of a cell is followed in the same way. -/
structure SameMesh {V : Type} (m m' : Mesh V) : Prop where
  dim : m'.dim = m.dim
  vertices : m'.vertices = m.vertices
  cells : m'.cells = m.cells
  edges : m'.edges.map (fun e => (e.a, e.b)) = m.edges.map (fun e => (e.a, e.b))
  mids : ∀ d, 2 ≤ d → (m'.midElems d).map (·.sub) = (m.midElems d).map (·.sub)
  next : ∀ cell, cell < m.cells.length → ∀ f, m'.nextFace cell f = m.nextFace cell f

variable {V : Type} {α β γ : Type}

theorem at_map (l : List α) (g : α → β) (i : Nat) (h : β → Res γ) :
    (Res.at' (l.map g) i).bind h = (Res.at' l i).bind fun x => h (g x) := by
  unfold Res.at'
  rw [List.getElem?_map]
  cases l[i]? <;> rfl

theorem idx_map (l : List α) (g : α → β) (i : Nat) (h : β → Res γ) :
    (Res.idx (l.map g) i).bind h = (Res.idx l i).bind fun x => h (g x) := by
  unfold Res.idx
  rw [List.getElem?_map]
  cases l[i]? <;> rfl

theorem forEach_congr' {f g : α → Res β} {l : List α} (h : ∀ x ∈ l, f x = g x) : forEach f l = forEach g l := by
  induction l with
  | nil => rfl
  | cons x xs ih =>
    rw [forEach, forEach, h x (by simp), ih fun y hy => h y (by simp [hy])]

namespace SameMesh
variable {m m' : Mesh V} (s : SameMesh m m')
include s

theorem edges_length : m'.edges.length = m.edges.length := by simpa using congrArg List.length s.edges

theorem mids_length (d : Nat) (h : 2 ≤ d) : (m'.midElems d).length = (m.midElems d).length := by
  simpa using congrArg List.length (s.mids d h)

theorem numElems (d : Nat) : m'.numElems d = m.numElems d := by
  unfold Mesh.numElems
  rw [s.dim, s.vertices, s.cells, s.edges_length]
  split
  · rfl
  split
  · rfl
  split
  · rfl
  rw [s.mids_length d (by omega)]

theorem numFaces : m'.numFaces = m.numFaces := by unfold Mesh.numFaces; rw [s.dim, s.numElems]

theorem at_edge (i : Nat) (h : Idx → Idx → Res γ) :
    ((Res.at' m'.edges i).bind fun e => h e.a e.b) = (Res.at' m.edges i).bind fun e => h e.a e.b := by
  rw [← at_map m'.edges (fun e => (e.a, e.b)) i fun p => h p.1 p.2, s.edges, at_map]

theorem idx_edge (i : Nat) (h : Idx → Idx → Res γ) :
    ((Res.idx m'.edges i).bind fun e => h e.a e.b) = (Res.idx m.edges i).bind fun e => h e.a e.b := by
  rw [← idx_map m'.edges (fun e => (e.a, e.b)) i fun p => h p.1 p.2, s.edges, idx_map]

theorem at_mid (d i : Nat) (hd : 2 ≤ d) (h : List Idx → Res γ) :
    ((Res.at' (m'.midElems d) i).bind fun f => h f.sub) = (Res.at' (m.midElems d) i).bind fun f => h f.sub := by
  rw [← at_map (m'.midElems d) (·.sub) i h, s.mids d hd, at_map]

theorem idx_mid (d i : Nat) (hd : 2 ≤ d) (h : List Idx → Res γ) :
    ((Res.idx (m'.midElems d) i).bind fun f => h f.sub) = (Res.idx (m.midElems d) i).bind fun f => h f.sub := by
  rw [← idx_map (m'.midElems d) (·.sub) i h, s.mids d hd, idx_map]

theorem cellLoop {body body' : Idx → Res (List β)} (hb : ∀ i, body' i = body i) (cell start : Idx) (hc : cell < m.cells.length) :
    ∀ n tmp, m'.cellLoop body' cell start n tmp = m.cellLoop body cell start n tmp := by
  intro n
  induction n with
  | zero => intro tmp; rfl
  | succ n ih =>
    intro tmp
    simp only [Mesh.cellLoop, s.next cell hc, hb, ih]

/-- The loop over the boundary of a cell. -/
theorem cellWalk {body body' : Idx → Res (List β)} (hb : ∀ i, body' i = body i) (i : Idx) :
    ((Res.at' m'.cells i).bind fun c => m'.cellLoop body' i c.bElem (m'.numFaces + 1) c.bElem) =
    (Res.at' m.cells i).bind fun c => m.cellLoop body i c.bElem (m.numFaces + 1) c.bElem := by
  rw [s.cells, s.numFaces]
  cases h : m.cells[i]? with
  | none => simp [Res.at', h]
  | some c => simp [Res.at', h, s.cellLoop hb i c.bElem (List.getElem?_eq_some_iff.mp h).1]

theorem meshRun (t : Nat) : ∀ k i, m'.meshRun t k i = m.meshRun t k i := by
  intro k
  induction k with
  | zero => intro i; rfl
  | succ k ih =>
    intro i
    unfold Mesh.meshRun
    rw [s.dim]
    split
    · exact s.cellWalk ih i
    split
    · rw [show Mesh.meshRun m' t k = Mesh.meshRun m t k from funext ih]
      exact s.at_edge i fun a b => (m.meshRun t k a).bind fun ra => (m.meshRun t k b).bind fun rb => .ok (ra ++ rb)
    · rw [show Mesh.meshRun m' t k = Mesh.meshRun m t k from funext ih]
      exact s.at_mid _ i (by omega) fun l => forAll (m.meshRun t k) l

theorem apply (S T : Nat) : m'.apply S T = m.apply S T := by
  unfold Mesh.apply
  rw [s.numElems]
  simp only [s.meshRun]

theorem applyOne (S T i : Nat) : m'.applyOne S T i = m.applyOne S T i := s.meshRun T (S - T) i

theorem connectionsAsc (S T : Nat) : m'.connectionsAsc S T = m.connectionsAsc S T := by
  unfold Mesh.connectionsAsc
  simp only [s.apply, s.applyOne, s.numElems]

theorem connectionsOrig (S T : Nat) : m'.connectionsOrig S T = m.connectionsOrig S T := by
  unfold Mesh.connectionsOrig
  simp only [s.apply, s.numElems]

theorem neighborsAsc (S C T : Nat) : m'.neighborsAsc S C T = m.neighborsAsc S C T := by
  unfold Mesh.neighborsAsc
  simp only [s.connectionsAsc, s.numElems]

theorem neighborsOrig (S C T : Nat) : m'.neighborsOrig S C T = m.neighborsOrig S C T := by
  unfold Mesh.neighborsOrig
  simp only [s.connectionsOrig, s.numElems]

theorem colorGreedy (S C : Nat) : m'.colorGreedy S C = m.colorGreedy S C := by
  unfold Mesh.colorGreedy
  rw [show m'.applyOne S C = m.applyOne S C from funext (s.applyOne S C)]
  simp only [s.connectionsAsc, s.numElems]

theorem colorRandom (S C : Nat) (draw : Nat → Nat → Nat) : m'.colorRandom S C draw = m.colorRandom S C draw := by
  unfold Mesh.colorRandom
  simp only [s.colorGreedy, s.connectionsAsc, s.numElems]

end SameMesh
end GTMesh
