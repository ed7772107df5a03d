import Verif.Spec.Print
import Verif.Model.Vtk3

/-! # The readers do not look at the coordinates -/

namespace GTMesh

theorem bind_mapOk {α β γ δ : Type} {f : α → β} {g : γ → δ} {x : Res α} {x' : Res β} {k : α → Res γ} {k' : β → Res δ}
    (hx : x' = x.mapOk f) (hk : ∀ a, k' (f a) = (k a).mapOk g) : x'.bind k' = (x.bind k).mapOk g := by
  subst hx
  cases x with
  | ok a => exact hk a
  | throw _ => rfl
  | ub => rfl
  | diverge => rfl

theorem bind_mapOk_id {α γ δ : Type} {g : γ → δ} {x : Res α} {k : α → Res γ} {k' : α → Res δ}
    (hk : ∀ a, k' a = (k a).mapOk g) : x.bind k' = (x.bind k).mapOk g :=
  bind_mapOk (f := id) (by cases x <;> rfl) hk

namespace Fpma
variable {R S : Type} (fmt : R → S)

/-- The rest of the file is printed too. -/
abbrev rest {α β : Type} (f : α → β) (p : α × List (Tok R)) : β × List (Tok S) := (f p.1, p.2.map (Tok.printed fmt))

theorem readNum_nat (ts : List (Tok R)) : readNum (ts.map (Tok.printed fmt)) = (readNum ts).mapOk (rest fmt id) := by
  cases ts with
  | nil => rfl
  | cons t ts => cases t <;> rfl

theorem readReal_nat (ts : List (Tok R)) : readReal (ts.map (Tok.printed fmt)) = (readReal ts).mapOk (rest fmt fmt) := by
  cases ts with
  | nil => rfl
  | cons t ts => cases t <;> rfl

theorem readNumZ_nat (ts : List (Tok R)) : readNumZ (ts.map (Tok.printed fmt)) = (readNumZ ts).mapOk (rest fmt id) := by
  cases ts with
  | nil => rfl
  | cons t ts => cases t <;> rfl

theorem readNums_nat (n : Nat) (ts : List (Tok R)) : readNums n (ts.map (Tok.printed fmt)) = (readNums n ts).mapOk (rest fmt id) := by
  induction n generalizing ts with
  | zero => rfl
  | succ n ih =>
    exact bind_mapOk (readNum_nat fmt ts) fun p => bind_mapOk (ih p.2) fun _ => rfl

theorem readNumsZ_nat (n : Nat) (ts : List (Tok R)) : readNumsZ n (ts.map (Tok.printed fmt)) = (readNumsZ n ts).mapOk (rest fmt id) := by
  induction n generalizing ts with
  | zero => rfl
  | succ n ih =>
    exact bind_mapOk (readNumZ_nat fmt ts) fun p => bind_mapOk (ih p.2) fun _ => rfl

theorem readPoints_nat (n : Nat) (ts : List (Tok R)) :
    readPoints n (ts.map (Tok.printed fmt)) = (readPoints n ts).mapOk (rest fmt (List.map (point3 fmt))) := by
  induction n generalizing ts with
  | zero => rfl
  | succ n ih =>
    exact bind_mapOk (readReal_nat fmt ts) fun x => bind_mapOk (readReal_nat fmt x.2) fun y =>
      bind_mapOk (readReal_nat fmt y.2) fun z => bind_mapOk (ih z.2) fun _ => rfl

theorem loadVertices_nat (ts : List (Tok R)) (m : Mesh (Point R)) :
    loadVertices (ts.map (Tok.printed fmt)) (m.withPoints (point3 fmt)) = (loadVertices ts m).mapOk (rest fmt (Mesh.withPoints (point3 fmt))) :=
  bind_mapOk (readNum_nat fmt ts) fun p => bind_mapOk (readPoints_nat fmt p.1 p.2) fun _ => rfl

theorem loadFaceList_nat (res : Nat) (fs : List Face) (i : Nat) (d : Dict) (es : List Edge) (ts : List (Tok R)) :
    loadFaceList res fs i d es (ts.map (Tok.printed fmt)) =
      (loadFaceList res fs i d es ts).mapOk fun r => (r.1, r.2.1, r.2.2.map (Tok.printed fmt)) := by
  induction fs generalizing i d es ts with
  | nil => rfl
  | cons f fs ih =>
    exact bind_mapOk (readNum_nat fmt ts) fun p => bind_mapOk (readNumsZ_nat fmt p.1 p.2) fun q =>
      bind_mapOk_id fun r => bind_mapOk (ih (i + 1) r.2.1 r.2.2 q.2) fun _ => rfl

theorem loadFaces_nat (res : Nat) (ts : List (Tok R)) (m : Mesh (Point R)) :
    loadFaces res (ts.map (Tok.printed fmt)) (m.withPoints (point3 fmt)) = (loadFaces res ts m).mapOk (rest fmt (Mesh.withPoints (point3 fmt))) :=
  bind_mapOk (readNum_nat fmt ts) fun p => bind_mapOk (loadFaceList_nat fmt res _ 0 [] m.edges p.2) fun _ => rfl

theorem loadCellList_nat (cs : List Cell) (i : Nat) (fs : List Face) (ts : List (Tok R)) :
    loadCellList cs i fs (ts.map (Tok.printed fmt)) = (loadCellList cs i fs ts).mapOk fun r => (r.1, r.2.1, r.2.2.map (Tok.printed fmt)) := by
  induction cs generalizing i fs ts with
  | nil => rfl
  | cons c cs ih =>
    exact bind_mapOk (readNum_nat fmt ts) fun p => bind_mapOk (readNums_nat fmt p.1 p.2) fun q =>
      bind_mapOk_id fun r => bind_mapOk (ih (i + 1) r q.2) fun _ => rfl

theorem loadCells_nat (ts : List (Tok R)) (m : Mesh (Point R)) :
    loadCells (ts.map (Tok.printed fmt)) (m.withPoints (point3 fmt)) = (loadCells ts m).mapOk (rest fmt (Mesh.withPoints (point3 fmt))) :=
  bind_mapOk (readNum_nat fmt ts) fun p => bind_mapOk (loadCellList_nat fmt _ 0 _ p.2) fun _ => rfl

theorem load_nat (res : Nat) (ts : List (Tok R)) (m : Mesh (Point R)) :
    load res (ts.map (Tok.printed fmt)) (m.withPoints (point3 fmt)) = (load res ts m).mapOk (Mesh.withPoints (point3 fmt)) :=
  bind_mapOk (loadVertices_nat fmt ts m) fun p => bind_mapOk (loadFaces_nat fmt res p.2 p.1) fun q =>
    bind_mapOk (loadCells_nat fmt q.2 q.1) fun _ => rfl

end Fpma

namespace Vtk
variable {R S : Type} (fmt : R → S)

/-- The rest of the file is printed too. -/
abbrev rest {α β : Type} (f : α → β) (p : α × List (VTok R)) : β × List (VTok S) := (f p.1, p.2.map (VTok.printed fmt))

theorem skipNl_nat (ts : List (VTok R)) : skipNl (ts.map (VTok.printed fmt)) = (skipNl ts).map (VTok.printed fmt) := by
  induction ts with
  | nil => rfl
  | cons t ts ih => cases t <;> first | rfl | exact ih

theorem ignoreLine_nat (ts : List (VTok R)) : ignoreLine (ts.map (VTok.printed fmt)) = (ignoreLine ts).map (VTok.printed fmt) := by
  induction ts with
  | nil => rfl
  | cons t ts ih => cases t <;> first | rfl | exact ih

theorem readNumInto_nat (prev : Option Nat) (ts : List (VTok R)) :
    readNumInto prev (ts.map (VTok.printed fmt)) = (readNumInto prev ts).mapOk (rest fmt id) := by
  unfold readNumInto
  rw [skipNl_nat]
  cases skipNl ts with
  | nil => cases prev <;> rfl
  | cons t ts => cases t <;> rfl

theorem readNum_nat (ts : List (VTok R)) : readNum (ts.map (VTok.printed fmt)) = (readNum ts).mapOk (rest fmt id) := readNumInto_nat fmt none ts

theorem readReal_nat [Zero R] [Zero S] (h0 : fmt 0 = 0) (ts : List (VTok R)) :
    readReal (ts.map (VTok.printed fmt)) = (readReal ts).mapOk (rest fmt fmt) := by
  unfold readReal
  rw [skipNl_nat]
  cases skipNl ts with
  | nil => simp [Res.mapOk, h0]
  | cons t ts => cases t <;> simp [Res.mapOk, VTok.printed, h0]

theorem readWord_nat (prev : String) (ts : List (VTok R)) :
    readWord prev (ts.map (VTok.printed fmt)) = rest fmt id (readWord prev ts) := by
  unfold readWord
  rw [skipNl_nat]
  cases skipNl ts with
  | nil => rfl
  | cons t ts => cases t <;> rfl

theorem readNums_nat (n : Nat) (ts : List (VTok R)) : readNums n (ts.map (VTok.printed fmt)) = (readNums n ts).mapOk (rest fmt id) := by
  induction n generalizing ts with
  | zero => rfl
  | succ n ih =>
    exact bind_mapOk (readNumInto_nat fmt (some 0) ts) fun p => bind_mapOk (ih p.2) fun _ => rfl

theorem readPoints_nat [Zero R] [Zero S] (h0 : fmt 0 = 0) (n : Nat) (ts : List (VTok R)) :
    readPoints n (ts.map (VTok.printed fmt)) = (readPoints n ts).mapOk (rest fmt (List.map (point3 fmt))) := by
  induction n generalizing ts with
  | zero => rfl
  | succ n ih =>
    exact bind_mapOk (readReal_nat fmt h0 ts) fun x => bind_mapOk (readReal_nat fmt h0 x.2) fun y =>
      bind_mapOk (readReal_nat fmt h0 y.2) fun z => bind_mapOk (ih z.2) fun _ => rfl

theorem loadVertices_nat [Zero R] [Zero S] (h0 : fmt 0 = 0) {V W : Type} (proj : R × R × R → V) (proj' : S × S × S → W) (g : V → W)
    (hp : ∀ p, proj' (point3 fmt p) = g (proj p)) (ts : List (VTok R)) (m : Mesh V) :
    loadVertices proj' (ts.map (VTok.printed fmt)) (m.withPoints g) = (loadVertices proj ts m).mapOk (rest fmt (Mesh.withPoints g)) := by
  refine bind_mapOk (readNum_nat fmt ts) fun p => ?_
  have := readPoints_nat fmt h0 p.1 (ignoreLine p.2)
  rw [← ignoreLine_nat] at this
  refine bind_mapOk this fun q => ?_
  simp [Res.mapOk, Mesh.withPoints, rest, Function.comp_def, hp]

theorem loadCellTypes_nat (conv : Nat → Option Nat) (n : Nat) (types : List Nat) (ts : List (VTok R)) :
    loadCellTypes conv n types (ts.map (VTok.printed fmt)) = (loadCellTypes conv n types ts).mapOk (rest fmt id) :=
  bind_mapOk (readNum_nat fmt ts) fun p => bind_mapOk (readNums_nat fmt p.1 p.2) fun q => bind_mapOk_id fun _ => rfl

theorem loadFromStream_nat {V W : Type} (g : V → W) (conv : Nat → Option Nat)
    (loadV loadC : List (VTok R) → Mesh V → Res (Mesh V × List (VTok R))) (loadV' loadC' : List (VTok S) → Mesh W → Res (Mesh W × List (VTok S)))
    (hV : ∀ ts m, loadV' (ts.map (VTok.printed fmt)) (m.withPoints g) = (loadV ts m).mapOk (rest fmt (Mesh.withPoints g)))
    (hC : ∀ ts m, loadC' (ts.map (VTok.printed fmt)) (m.withPoints g) = (loadC ts m).mapOk (rest fmt (Mesh.withPoints g)))
    (ts : List (VTok R)) (types : List Nat) (m : Mesh V) :
    loadFromStream conv loadV' loadC' (ts.map (VTok.printed fmt)) types (m.withPoints g) =
      (loadFromStream conv loadV loadC ts types m).mapOk fun r => (r.1.withPoints g, r.2) := by
  have hclear : (m.withPoints g).clear = m.clear.withPoints g := rfl
  unfold loadFromStream
  simp only [ignoreLine_nat, readWord_nat, rest, id, hclear]
  split
  · rfl
  split
  · rfl
  split
  · rfl
  refine bind_mapOk (f := rest fmt (Mesh.withPoints g)) ?_ fun p => ?_
  · split
    · exact hV _ _
    · rfl
  simp only [readWord_nat, rest, id]
  refine bind_mapOk (f := rest fmt (Mesh.withPoints g)) ?_ fun q => ?_
  · split
    · exact hC _ _
    · rfl
  simp only [readWord_nat, rest, id]
  refine bind_mapOk (f := rest fmt id) ?_ fun _ => rfl
  split
  · exact loadCellTypes_nat fmt _ _ _ _
  · rfl

theorem loadCellList2_nat (cs : List Cell) (i : Nat) (d : Dict) (es : List Edge) (ts : List (VTok R)) :
    loadCellList2 cs i d es (ts.map (VTok.printed fmt)) = (loadCellList2 cs i d es ts).mapOk fun r => (r.1, r.2.1, r.2.2.map (VTok.printed fmt)) := by
  induction cs generalizing i d es ts with
  | nil => rfl
  | cons c cs ih =>
    exact bind_mapOk (readNum_nat fmt ts) fun p => bind_mapOk (readNums_nat fmt p.1 p.2) fun q =>
      bind_mapOk_id fun r => bind_mapOk (ih (i + 1) r.2.1 r.2.2 q.2) fun _ => rfl

theorem loadCells2_nat {V W : Type} (g : V → W) (ts : List (VTok R)) (m : Mesh V) :
    loadCells2 (ts.map (VTok.printed fmt)) (m.withPoints g) = (loadCells2 ts m).mapOk (rest fmt (Mesh.withPoints g)) := by
  refine bind_mapOk (readNum_nat fmt ts) fun p => ?_
  have := loadCellList2_nat fmt (resize m.cells p.1 {}) 0 [] m.edges (ignoreLine p.2)
  rw [← ignoreLine_nat] at this
  exact bind_mapOk this fun _ => rfl

theorem loadCellList3_nat (res : Nat) (cs : List Cell) (i : Nat) (de df : Dict) (es : List Edge) (fs : List Face) (ts : List (VTok R)) :
    loadCellList3 res cs i de df es fs (ts.map (VTok.printed fmt)) =
      (loadCellList3 res cs i de df es fs ts).mapOk fun r => (r.1, r.2.1, r.2.2.1, r.2.2.2.map (VTok.printed fmt)) := by
  induction cs generalizing i de df es fs ts with
  | nil => rfl
  | cons c cs ih =>
    refine bind_mapOk (readNum_nat fmt ts) fun p => bind_mapOk (readNums_nat fmt p.1 p.2) fun q => ?_
    simp only [rest, id]
    cases template p.1 with
    | none => rfl
    | some T => exact bind_mapOk_id fun r => bind_mapOk_id fun s => bind_mapOk (ih (i + 1) _ _ _ _ q.2) fun u => rfl

theorem loadCells3_nat (res : Nat) {V W : Type} (g : V → W) (ts : List (VTok R)) (m : Mesh V) :
    loadCells3 res (ts.map (VTok.printed fmt)) (m.withPoints g) = (loadCells3 res ts m).mapOk (rest fmt (Mesh.withPoints g)) := by
  refine bind_mapOk (readNum_nat fmt ts) fun p => ?_
  have := loadCellList3_nat fmt res (resize m.cells p.1 {}) 0 [] [] m.edges (m.midElems 2) (ignoreLine p.2)
  rw [← ignoreLine_nat] at this
  exact bind_mapOk this fun _ => rfl

theorem load2_nat [Zero R] [Zero S] (h0 : fmt 0 = 0) (ts : List (VTok R)) (types : List Nat) (m : Mesh (Point2 R)) :
    load2 (ts.map (VTok.printed fmt)) types (m.withPoints (point2 fmt)) =
      (load2 ts types m).mapOk fun r => (r.1.withPoints (point2 fmt), r.2) :=
  loadFromStream_nat fmt (point2 fmt) fromVtk2 _ _ _ _ (loadVertices_nat fmt h0 _ _ _ fun _ => rfl) (loadCells2_nat fmt _) ts types m

theorem load3_nat [Zero R] [Zero S] (h0 : fmt 0 = 0) (res : Nat) (ts : List (VTok R)) (types : List Nat) (m : Mesh (Point3 R)) :
    load3 res (ts.map (VTok.printed fmt)) types (m.withPoints (point3 fmt)) =
      (load3 res ts types m).mapOk fun r => (r.1.withPoints (point3 fmt), r.2) :=
  loadFromStream_nat fmt (point3 fmt) fromVtk3 _ _ _ _ (loadVertices_nat fmt h0 _ _ _ fun _ => rfl) (loadCells3_nat fmt res _) ts types m

end Vtk
end GTMesh
