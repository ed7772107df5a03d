import Verif.Proofs.VtkData
import Verif.Props.Vtk3w

/-! # C48: data columns -/

namespace GTMesh.Vtk
open Std' Spec
variable {R P V : Type}

/-- The file: harmless lines, then the data of `data` written with one value for each row of `out`; reading it into a
container with as many rows gives `out`, with the numbers printed and parsed. -/
theorem file_round_trip [Zero R] (fmt : R → R) (zero : R) {dim : Nat} (backward : List (Idx × Idx)) (n : Nat) (cls : Class) (data out dst : List (Row R))
    (pre : List (VTok R)) (hpre : NoColumns pre) (he : Exportable dim cls) (hne : data = [] → ∀ c ∈ cls, c.2 = .scalar)
    (hc : column data (if dim = 2 then [] else backward) 0 0 = .ok out) (ho : Shaped cls out) (hd : Shaped cls dst)
    (hl : dst.length = out.length) :
    ∃ ts, writeData fmt zero dim backward n cls data = .ok ts ∧ readData dim cls (pre ++ ts) dst = .ok (printed fmt out) := by
  obtain ⟨ts, h1, h2⟩ := writeColumns_index fmt zero backward data out cls.length hc (fun o h => (ho o h).1) cls 0 (by omega) he hne
  refine ⟨.word "CELL_DATA" :: .num n :: .nl :: ts, by simp only [writeData, h1, Res.bind], ?_⟩
  have hno : NoColumns ([.word "CELL_DATA", .num n, .nl] : List (VTok R)) :=
    ⟨.inr ⟨[.word "CELL_DATA", .num n], rfl⟩, fun w hw => by
      simp only [List.mem_cons, VTok.word.injEq, reduceCtorEq, List.not_mem_nil, or_false] at hw
      subst hw
      constructor <;> (show ¬ (_ <:+: _)) <;> decide⟩
  have hix : indexData (pre ++ .word "CELL_DATA" :: .num n :: .nl :: ts) = indexData ts := by
    have := indexData_skip _ _ ts le_rfl (hpre.append hno)
    simpa [List.append_assoc] using this
  obtain ⟨h3, _, h4⟩ := h2 []
  simp only [List.append_nil] at h3 h4
  rw [indexData, List.length_nil, Nat.add_zero] at h3
  have hnames : (indexData ts).map (·.1) = cls.map (·.1) := by
    apply List.ext_getElem (by simp [h3])
    intro j g1 g2
    simp only [List.length_map] at g2
    obtain ⟨more, hm⟩ := h4 j cls[j] (by simp [g2])
    obtain ⟨g3, g4⟩ := List.getElem?_eq_some_iff.mp hm
    simp [g4]
  have key := readColumns_spec fmt zero dim (pre ++ .word "CELL_DATA" :: .num n :: .nl :: ts) (indexData ts) out dst cls.length
    hl.symm (fun o h => (ho o h).1) (fun r h => (hd r h).1) cls 0 (by omega) (fun j c hj => by
      obtain ⟨more, hm⟩ := h4 j c hj
      refine ⟨more, ?_⟩
      rw [position, find_nodup _ _ he.different hnames j _ hm])
    (fun j c hj o h v hv => (ho o h).2 j c v hj (by simpa using hv))
  rw [mixed_zero _ _ (by simp [printed, hl]),
    mixed_all cls.length _ _ (by simp [printed, hl]) (fun o h => by
      obtain ⟨x, hx, rfl⟩ := List.mem_map.mp h
      simpa using (ho x hx).1) (fun r h => (hd r h).1)] at key
  rw [readData, hix, key]

theorem column_plain {T : Type} (data : List T) : column data [] 0 0 = .ok data := by
  have : ∀ (l pre : List T), data = pre ++ l → ∀ k, column data [] pre.length k = .ok l := by
    intro l
    induction l with
    | nil => intro pre h k; subst h; simp [column, forEach]
    | cons x l ih =>
      intro pre h k
      refine column_skip data [] pre.length k (by simp [h]) x (by simp [h]) l (by simp) ?_
      have := ih (pre ++ [x]) (by simp [h]) (k + 1)
      simpa using this
  exact this data [] rfl 0

/-! ## The text of a mesh -/

/-- Words of a title in which no key word occurs. -/
def Harmless (title : List String) : Prop := ∀ w ∈ title, ¬ Occurs "SCALARS" w ∧ ¬ Occurs "VECTORS" w

theorem noColumns_of_words {ts : List (VTok R)} (l : List (VTok R)) (hl : ts = l ++ [.nl]) (ws : List String)
    (h : ∀ w, VTok.word w ∈ l → w ∈ ws) (hw : ∀ w ∈ ws, ¬ Occurs "SCALARS" w ∧ ¬ Occurs "VECTORS" w) : NoColumns ts where
  lines := .inr ⟨l, hl⟩
  words := fun w hm => by
    rw [hl] at hm
    simp only [List.mem_append, List.mem_singleton, reduceCtorEq, or_false] at hm
    exact hw w (h w hm)

theorem noColumns_header (title : List String) (ht : Harmless title) : NoColumns (header title : List (VTok R)) := by
  refine noColumns_of_words (([.word "#", .word "vtk", .word "DataFile", .word "Version", .word "2.0", .nl] ++ title.map .word ++
    [.nl, .word "ASCII", .nl, .word "DATASET", .word "UNSTRUCTURED_GRID"])) (by simp [header])
    (["#", "vtk", "DataFile", "Version", "2.0", "ASCII", "DATASET", "UNSTRUCTURED_GRID"] ++ title) (fun w hw => ?_) (fun w hw => ?_)
  · simp only [List.mem_append, List.mem_cons, VTok.word.injEq, reduceCtorEq, List.not_mem_nil, or_false, false_or, List.mem_map] at hw ⊢
    rcases hw with (h | ⟨x, hx, rfl⟩) | h
    · tauto
    · exact .inr hx
    · tauto
  · rcases List.mem_append.mp hw with h | h
    · simp only [List.mem_cons, List.not_mem_nil, or_false] at h
      rcases h with rfl | rfl | rfl | rfl | rfl | rfl | rfl | rfl <;> constructor <;> (show ¬ (_ <:+: _)) <;> decide
    · exact ht w h

theorem noColumns_points (pts : List (R × R × R)) : NoColumns (pointsSection pts) := by
  refine noColumns_of_words _ rfl ["POINTS", "double"] (fun w hw => ?_) (fun w hw => ?_)
  · simp only [List.mem_cons, VTok.word.injEq, reduceCtorEq, List.mem_flatMap, List.not_mem_nil, or_false, false_or, and_false,
      exists_false] at hw ⊢
    exact hw
  · simp only [List.mem_cons, List.not_mem_nil, or_false] at hw
    rcases hw with rfl | rfl <;> constructor <;> (show ¬ (_ <:+: _)) <;> decide

theorem noColumns_cells (n k : Nat) (cv : List (List Idx)) :
    NoColumns ((.word "CELLS" :: .num n :: .num k :: .nl :: cv.flatMap cellLine ++ [.nl]) : List (VTok R)) := by
  refine noColumns_of_words _ rfl ["CELLS"] (fun w hw => ?_) (fun w hw => ?_)
  · simp only [List.mem_cons, VTok.word.injEq, reduceCtorEq, List.mem_flatMap, cellLine, List.mem_append, List.mem_map,
      List.not_mem_nil, or_false, and_false, exists_false] at hw ⊢
    exact hw
  · simp only [List.mem_cons, List.not_mem_nil, or_false] at hw
    subst hw
    constructor <;> (show ¬ (_ <:+: _)) <;> decide

theorem noColumns_types (n : Nat) (cs : List Nat) : NoColumns (typesSection n cs : List (VTok R)) := by
  refine noColumns_of_words _ rfl ["CELL_TYPES"] (fun w hw => ?_) (fun w hw => ?_)
  · simp only [List.mem_cons, VTok.word.injEq, reduceCtorEq, List.mem_flatMap,
      List.not_mem_nil, or_false, and_false, exists_false] at hw ⊢
    exact hw
  · simp only [List.mem_cons, List.not_mem_nil, or_false] at hw
    subst hw
    constructor <;> (show ¬ (_ <:+: _)) <;> decide

/-! ## C48 -/

/-- C48 in the plane. A file with a harmless title, the mesh and the data of all cells: reading the columns into a
container with one object for each cell, whatever it held, gives the data (each number printed and parsed). -/
theorem C48_2d [Zero R] (fmt : R → R) (zero : R) (m : Mesh (Point2 R)) (types : List Nat) (title : List String) (ht : Harmless title)
    (mesh : List (VTok R)) (hm : writeToStream2 zero m types = .ok mesh)
    (cls : Class) (he : Exportable 2 cls) (data dst : List (Row R)) (hne : data ≠ [])
    (hdata : Shaped cls data) (hdst : Shaped cls dst) (hl : dst.length = data.length) :
    ∃ ts, writeData fmt zero 2 [] m.cells.length cls data = .ok ts ∧
      readData 2 cls (header title ++ mesh ++ ts) dst = .ok (printed fmt data) := by
  refine file_round_trip fmt zero [] _ cls data data dst _ ((noColumns_header title ht).append ?_) he (fun h => absurd h hne)
    (column_plain data) hdata hdst hl
  unfold writeToStream2 at hm
  cases h1 : indexMesh2 m <;> rw [h1] at hm <;> simp only [Res.bind, reduceCtorEq] at hm
  cases h2 : codes toVtk2 types <;> rw [h2] at hm <;> simp only [reduceCtorEq, Res.ok.injEq] at hm
  rw [← hm]
  exact ((noColumns_points _).append (noColumns_cells _ _ _)).append (noColumns_types _ _)

/-- C48 in space, with any mixture of split and plain cells. The mesh is exported by a writer that indexes it, the data
of all cells after it. Reading the columns into a container with one object for each exported cell gives for each
exported cell the data of the cell from which it comes. -/
theorem C48_3d [Zero R] (fmt : R → R) (zero : R) (ori : Idx → Bool) (key : Point3 R → List Char) (cc fc : Idx → Point3 R) (hash : Nat)
    (m : Mesh (Point3 R)) (bd : Idx → List Idx) (types : List Nat) (w0 w : Writer3 (Point3 R)) (mesh : List (VTok R))
    (hd : m.dim = 3) (hv : ValidMesh m bd) (hn : Numbered m) (hf : ∀ f, f < (m.midElems 2).length → edgesOfFace m f ≠ [])
    (hw0 : w0.lastHash ≠ hash) (hm : writeToStream3 ori key cc fc hash m types w0 = .ok (w, mesh))
    (title : List String) (ht : Harmless title) (cls : Class) (he : Exportable 3 cls) (data dst : List (Row R))
    (hc : data.length = m.cells.length) (hne : data ≠ []) (hdata : Shaped cls data) (hdst : Shaped cls dst)
    (hl : dst.length = w.cellVert.length) :
    ∃ ts rows, writeData fmt zero 3 w.backward w.cellVert.length cls data = .ok ts ∧
      readData 3 cls (header title ++ mesh ++ ts) dst = .ok rows ∧ rows.length = w.cellVert.length ∧
      (origins (pieces m bd types) m.cells.length).length = w.cellVert.length ∧
      ∀ (k : Nat) o, (origins (pieces m bd types) m.cells.length)[k]? = some o → rows[k]? = (printed fmt data)[o]? := by
  unfold writeToStream3 at hm
  rw [if_pos hw0] at hm
  cases h1 : indexMesh3 ori key cc fc m types w0 <;> rw [h1] at hm <;> simp only [Res.bind, reduceCtorEq] at hm
  rename_i w1
  cases h2 : codes toVtk3 w1.cellTypes <;> rw [h2] at hm <;> simp only [reduceCtorEq, Res.ok.injEq, Prod.mk.injEq] at hm
  obtain ⟨g1, g2⟩ := hm
  obtain ⟨col, k1, k2, k3, k4⟩ := C27_column ori key cc fc m bd types w0 w1 hd hv hn hf h1 data hc
  have e1 : w.backward = w1.backward := by rw [← g1]
  have e2 : w.cellVert = w1.cellVert := by rw [← g1]
  rw [e2] at hl ⊢
  rw [e1]
  have hmem : ∀ r ∈ col, r ∈ data := by
    intro r hr
    obtain ⟨k, hk, rfl⟩ := List.mem_iff_getElem.mp hr
    have hk' : k < (origins (pieces m bd types) m.cells.length).length := by omega
    have := k4 k _ (List.getElem?_eq_getElem hk')
    rw [List.getElem?_eq_getElem hk] at this
    exact List.mem_of_getElem? this.symm
  obtain ⟨ts, a1, a2⟩ := file_round_trip fmt zero w1.backward w1.cellVert.length cls data col dst (header title ++ mesh)
    ((noColumns_header title ht).append (by
      rw [← g2]
      exact ((noColumns_points _).append (noColumns_cells _ _ _)).append (noColumns_types _ _))) he (fun h => absurd h hne)
    (by simpa using k1) (fun r hr => hdata r (hmem r hr)) hdst (by omega)
  refine ⟨ts, _, a1, a2, by simp [printed, k2], k3, fun k o ho => ?_⟩
  have := k4 k o ho
  simp only [printed, List.getElem?_map, this]

/-- An empty container with an array member cannot be written. -/
theorem C48_empty_throws (fmt : R → R) (zero : R) (dim d n : Nat) (backward : List (Idx × Idx)) (name : List String) (cls : Class) :
    writeData fmt zero dim backward n ((name, .vector d) :: cls) [] = .throw .outOfRange := by
  simp [writeData, writeColumns, writeColumn, columnHeader, Res.at']

/-- The property fails for arrays of another size: the key word is not one the reader looks for, the
reader goes to the start of the file and finds no number, so that the second number of the array is never initialised. -/
theorem C48_other_sizes_violated [Zero R] (fmt : R → R) (zero : R) (dim d n : Nat) (hd : d ≠ dim) (h0 : 2 ≤ d) (w : String)
    (hw : ¬ Occurs "SCALARS" w ∧ ¬ Occurs "VECTORS" w) (data : List (Row R)) (hs : Shaped [([w], .vector d)] data) (hne : data ≠ [])
    (title : List String) (ht : Harmless title) (dst : List (Row R)) (hdst : dst ≠ []) :
    ∃ ts, writeData fmt zero dim [] n [([w], .vector d)] data = .ok ts ∧
      readData dim [([w], .vector d)] (header title ++ ts) dst = .ub := by
  have hc : column data (if dim = 2 then [] else []) 0 0 = .ok data := by simpa using column_plain data
  have hvs : forEach (fun r : Row R => Res.idx r 0) data = .ok (data.map fun o => o.getD 0 []) :=
    forEach_ok fun o ho => by
      have := (hs o ho).1
      simp only [List.length_cons, List.length_nil] at this
      rw [Res.idx_eq_ok, List.getD_eq_getElem?_getD, List.getElem?_eq_getElem (by omega)]
      rfl
  have hat : ∃ x, Res.at' data 0 = .ok x := by
    obtain ⟨a, l, rfl⟩ := List.exists_cons_of_ne_nil hne
    exact ⟨a, rfl⟩
  obtain ⟨x, hx⟩ := hat
  refine ⟨_, by simp only [writeData, writeColumns, writeColumn, columnHeader, hx, hc, hvs, Res.bind]; rfl, ?_⟩
  have hno : NoColumns ((VTok.word "CELL_DATA" :: .num n :: .nl :: ((vectorKeyword dim d ++ ([w].map .word) ++ [.word "double", .nl] ++
      (data.map fun o => o.getD 0 []).flatMap (valueTokens fmt zero dim (.vector d)) ++ [.nl]) ++ [])) : List (VTok R)) := by
    have k1 : NoColumns ((.word "CELL_DATA" :: .num n :: .nl :: vectorKeyword dim d ++ ([w].map .word) ++ [.word "double", .nl]) : List (VTok R)) := by
      refine noColumns_of_words (.word "CELL_DATA" :: .num n :: .nl :: vectorKeyword dim d ++ ([w].map .word) ++ [.word "double"]) (by simp)
        ["CELL_DATA", "TENZORS", "double", w] (fun u hu => ?_) (fun u hu => ?_)
      · simp only [vectorKeyword, if_neg hd] at hu
        simp only [List.cons_append, List.mem_cons, VTok.word.injEq, reduceCtorEq, List.map_cons, List.map_nil, List.mem_append,
          List.not_mem_nil, or_false, false_or] at hu ⊢
        rcases hu with h | (h | h) | h
        · tauto
        · split at h
          · simp at h; tauto
          · simp at h
        · tauto
        · tauto
      · simp only [List.mem_cons, List.not_mem_nil, or_false] at hu
        rcases hu with rfl | rfl | rfl | rfl
        · constructor <;> (show ¬ (_ <:+: _)) <;> decide
        · constructor <;> (show ¬ (_ <:+: _)) <;> decide
        · constructor <;> (show ¬ (_ <:+: _)) <;> decide
        · exact hw
    have := k1.append (noColumns_values fmt zero dim (.vector d) (data.map fun o => o.getD 0 []))
    simpa [List.append_assoc] using this
  have hix := indexData_skip _ _ [] le_rfl ((noColumns_header (R := R) title ht).append hno)
  rw [List.append_nil] at hix
  obtain ⟨r, rs, rfl⟩ := List.exists_cons_of_ne_nil hdst
  obtain ⟨d', rfl⟩ := Nat.exists_eq_add_of_le' h0
  rw [readData, hix, indexData]
  have hfail : ∀ l : List (Option R), extractAll l none = .ok (l, none) := by
    intro l
    induction l with
    | nil => rfl
    | cons x l ih => simp [extractAll, extract, ih]
  by_cases h2 : dim = 2
  · simp [readColumns, position, readColumn, readRows, readValue, header, extractAll, extract, skipNl, Kind.width, List.replicate_succ, hfail,
      h2, determinate]
  · simp [readColumns, position, readColumn, readRows, readValue, header, extractAll, extract, skipNl, Kind.width, List.replicate_succ, hfail,
      h2, determinate]

/-- The property fails when the title mentions a column: the line of the title counts as its header, no number follows
it and 0 is read. -/
theorem C48_title_violated : ∃ (title : List String) (cls : Class) (data : List (Row Int)) (ts : List (VTok Int)), Exportable 3 cls ∧
    Shaped cls data ∧ writeData id 0 3 [] 1 cls data = .ok ts ∧ readData 3 cls (header title ++ ts) data = .ok [[[0]]] ∧ data = [[[5]]] := by
  refine ⟨["SCALARS", "p"], [(["p"], .scalar)], [[[5]]], _, ⟨by simp, by simp, by simp, by simp⟩, ?_, rfl, ?_, rfl⟩
  · intro r hr
    simp only [List.mem_cons, List.not_mem_nil, or_false] at hr
    subst hr
    refine ⟨rfl, fun i c v hc hv => ?_⟩
    match i with
    | 0 => simp at hc hv; subst hc hv; rfl
    | _ + 1 => simp at hc
  · decide +kernel

/-! ## Examples -/

/-- A class with a number and an array of two numbers, and three objects. -/
def exampleClass : Class := [(["p"], .scalar), (["u"], .vector 2)]
def exampleData : List (Row Int) := [[[5], [1, 2]], [[6], [3, 4]], [[7], [8, 9]]]

theorem exampleClass_exportable : Exportable 2 exampleClass where
  kinds := by decide
  words := by
    intro c hc
    simp only [exampleClass, List.mem_cons, List.not_mem_nil, or_false] at hc
    rcases hc with rfl | rfl
    · exact ⟨_, rfl⟩
    · exact ⟨_, rfl⟩
  different := by decide
  vectors := by
    intro c hc _ w hw
    simp only [exampleClass, List.mem_cons, List.not_mem_nil, or_false] at hc
    rcases hc with rfl | rfl
    · simp at hw; subst hw; show ¬ (_ <:+: _); decide
    · simp at hw; subst hw; show ¬ (_ <:+: _); decide

/-- Check of `Shaped` by evaluation. -/
def shapedB (cls : Class) (rows : List (Row Int)) : Bool :=
  rows.all fun r => r.map List.length == cls.map fun c => c.2.width

theorem shapedB_sound {cls : Class} {rows : List (Row Int)} (h : shapedB cls rows = true) : Shaped cls rows := by
  intro r hr
  have h1 := List.all_eq_true.mp h r hr
  have h2 : r.map List.length = cls.map fun c => c.2.width := by simpa using h1
  refine ⟨by simpa using congrArg List.length h2, fun i c v hc hv => ?_⟩
  have h3 : (r.map List.length)[i]? = (cls.map fun c => c.2.width)[i]? := by rw [h2]
  simpa [hc, hv] using h3

/-- The mesh of C22 with three cells and their data, read into a container that holds other data. -/
example : ∃ m t mesh ts, load2 exampleFile.tokens [] { dim := 2 } = .ok (m, t) ∧ writeToStream2 0 m t = .ok mesh ∧
    writeData id 0 2 [] 3 exampleClass exampleData = .ok ts ∧
    readData 2 exampleClass (header ["three", "cells"] ++ mesh ++ ts) (List.replicate 3 [[0], [1, 1]]) = .ok exampleData := by
  obtain ⟨m, t, mesh, h1, h2, h3⟩ : ∃ m t mesh, load2 exampleFile.tokens [] { dim := 2 } = .ok (m, t) ∧
    writeToStream2 0 m t = .ok mesh ∧ m.cells.length = 3 := ⟨_, _, _, rfl, rfl, rfl⟩
  obtain ⟨ts, h4, h5⟩ := C48_2d (R := Int) id 0 m t ["three", "cells"] (fun w hw => by
      simp only [List.mem_cons, List.not_mem_nil, or_false] at hw
      rcases hw with rfl | rfl <;> constructor <;> (show ¬ (_ <:+: _)) <;> decide) mesh h2 exampleClass exampleClass_exportable exampleData
    (List.replicate 3 [[0], [1, 1]]) (by decide) (shapedB_sound (by decide)) (shapedB_sound (by decide)) rfl
  exact ⟨m, t, mesh, ts, h1, h2, by rw [← h3]; exact h4, h5⟩

/-- A hexahedron and a split pyramid: the data of the 17 exported cells. -/
example : ∃ w mesh ts rows, writeToStream3 (fun _ => false) exampleKey (fun i => (5, i, i)) (fun i => (7, i, i)) 1 exampleMesh3 [301, 304] {}
      = .ok (w, mesh) ∧
    writeData id 0 3 w.backward w.cellVert.length [(["p"], .scalar)] [[[5]], [[6]]] = .ok ts ∧
    readData 3 [(["p"], .scalar)] (header [] ++ mesh ++ ts) (List.replicate 17 [[0]]) = .ok rows ∧ rows[0]? = some [[5]] ∧ rows[16]? = some [[6]] := by
  obtain ⟨w, mesh, h1, h2⟩ : ∃ w mesh, writeToStream3 (fun _ => false) exampleKey (fun i => (5, i, i)) (fun i => (7, i, i)) 1 exampleMesh3 [301, 304] {}
      = .ok (w, mesh) ∧ w.cellVert.length = 17 := by
    have hb : ((writeToStream3 (fun _ => false) exampleKey (fun i => (5, i, i)) (fun i => (7, i, i)) 1 exampleMesh3 [301, 304] {}).bind
        fun p => Res.ok p.1.cellVert.length) = .ok 17 := by decide +kernel
    cases h : writeToStream3 (fun _ => false) exampleKey (fun i => (5, i, i)) (fun i => (7, i, i)) 1 exampleMesh3 [301, 304] {} <;>
      rw [h] at hb <;> simp only [Res.bind, reduceCtorEq, Res.ok.injEq] at hb
    exact ⟨_, _, rfl, hb⟩
  obtain ⟨ts, rows, h3, h4, _, _, h5⟩ := C48_3d (R := Int) id 0 _ _ _ _ 1 exampleMesh3 exampleBd3 _ {} w mesh rfl exampleMesh3_valid exampleMesh3_numbered
    (by decide +kernel) (by decide) h1 [] (fun w hw => by simp at hw) [(["p"], .scalar)]
    ⟨by simp, by simp, by simp, by simp⟩ [[[5]], [[6]]] (List.replicate 17 [[0]]) (by decide +kernel) (by simp) (shapedB_sound (by decide))
    (shapedB_sound (by decide)) (by simp [h2])
  refine ⟨w, mesh, ts, rows, h1, h3, h4, ?_, ?_⟩
  · rw [h5 0 0 (by decide +kernel)]; rfl
  · rw [h5 16 1 (by decide +kernel)]; rfl

end GTMesh.Vtk
