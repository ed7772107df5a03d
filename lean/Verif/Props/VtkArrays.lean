import Verif.Model.VtkArrays
import Verif.Props.VtkData

/-! # C76: data of several arrays in a file -/

namespace GTMesh.Vtk
open Std' Spec
variable {R P V : Type}

/-- The names of the columns of the arrays. -/
def columnNames (arrays : Arrays R) : List (List String) := arrays.flatMap fun a => (a.1.getD []).map (·.1)

theorem writeArrays_index (fmt : R → R) (zero : R) {dim : Nat} (backward : List (Idx × Idx)) : ∀ arrays : Arrays R,
    (∀ a ∈ arrays, ∀ cls, a.1 = some cls → Exportable dim cls ∧ (a.2 = [] → ∀ c ∈ cls, c.2 = .scalar) ∧
      ∃ out, column a.2 (if dim = 2 then [] else backward) 0 0 = .ok out ∧ Shaped cls out) →
    ∃ ts, writeArrays fmt zero dim backward arrays = .ok ts ∧ ∀ rest, ∃ P, indexData (ts ++ rest) = P ++ indexData rest ∧
      P.map (·.1) = columnNames arrays := by
  intro arrays
  induction arrays with
  | nil => intro _; exact ⟨[], rfl, fun rest => ⟨[], rfl, rfl⟩⟩
  | cons a r ih =>
    intro h
    obtain ⟨ts, h1, h2⟩ := ih fun b hb => h b (by simp [hb])
    obtain ⟨o, data⟩ := a
    cases o with
    | none =>
      refine ⟨ts, h1, fun rest => ?_⟩
      obtain ⟨P, p1, p2⟩ := h2 rest
      exact ⟨P, p1, by rw [p2]; simp [columnNames]⟩
    | some cls =>
      obtain ⟨he, hne, out, hc, ho⟩ := h _ List.mem_cons_self cls rfl
      obtain ⟨t, g1, g2⟩ := writeColumns_index fmt zero backward data out cls.length hc (fun o h => (ho o h).1) cls 0 (by omega) he hne
      refine ⟨t ++ ts, by simp only [writeArrays, g1, h1, Res.bind], fun rest => ?_⟩
      obtain ⟨P, p1, p2⟩ := h2 rest
      obtain ⟨g3, g4, g5⟩ := g2 (ts ++ rest)
      refine ⟨(indexData (t ++ (ts ++ rest))).take cls.length ++ P, ?_, ?_⟩
      · rw [List.append_assoc, List.append_assoc, ← p1, ← g4, List.take_append_drop]
      · rw [List.map_append, p2]
        have : ((indexData (t ++ (ts ++ rest))).take cls.length).map (·.1) = cls.map (·.1) := by
          apply List.ext_getElem (by simp [g3])
          intro j k1 k2
          simp only [List.length_map] at k2
          obtain ⟨more, hm⟩ := g5 j cls[j] (by simp [k2])
          obtain ⟨_, k4⟩ := List.getElem?_eq_some_iff.mp hm
          simp [k4]
        rw [this]
        simp [columnNames]

theorem writeArrays_append (fmt : R → R) (zero : R) {dim : Nat} (backward : List (Idx × Idx)) (l : Arrays R) : ∀ k : Arrays R,
    writeArrays fmt zero dim backward (k ++ l) =
      (writeArrays fmt zero dim backward k).bind fun t => (writeArrays fmt zero dim backward l).bind fun ts => .ok (t ++ ts) := by
  intro k
  induction k with
  | nil =>
    simp only [List.nil_append, writeArrays, Res.bind]
    cases writeArrays fmt zero dim backward l <;> rfl
  | cons a r ih =>
    obtain ⟨o, data⟩ := a
    cases o with
    | none => simpa only [List.cons_append, writeArrays] using ih
    | some cls =>
      simp only [List.cons_append, writeArrays, ih, Res.bind]
      cases writeColumns fmt zero dim backward data 0 cls <;> simp only
      cases writeArrays fmt zero dim backward r <;> simp only
      cases writeArrays fmt zero dim backward l <;> simp

/-- The first entry with a name is in the second part, if the first part does not have the name. -/
theorem find_second {α : Type} (A B C : List (List String × α)) (hB : (B.map (·.1)).Nodup) (j : Nat) (e : List String × α)
    (hj : B[j]? = some e) (hA : e.1 ∉ A.map (·.1)) : (A ++ (B ++ C)).find? (fun x => x.1 == e.1) = some e := by
  have h1 : A.find? (fun x => x.1 == e.1) = none := by
    rw [List.find?_eq_none]
    intro x hx h
    exact hA (List.mem_map.mpr ⟨x, hx, by simpa using h⟩)
  rw [List.find?_append, h1, Option.none_or, List.find?_append, find_nodup B _ hB rfl j e hj]
  rfl

/-- The file: harmless lines, then the data of the arrays. An array is read back if no array in front of it has one of its columns. -/
theorem arrays_round_trip [Zero R] (fmt : R → R) (zero : R) {dim : Nat} (backward : List (Idx × Idx)) (n : Nat) (front back : Arrays R)
    (cls : Class) (data out dst : List (Row R)) (pre : List (VTok R)) (hpre : NoColumns pre)
    (hall : ∀ a ∈ front ++ (some cls, data) :: back, ∀ cls, a.1 = some cls → Exportable dim cls ∧ (a.2 = [] → ∀ c ∈ cls, c.2 = .scalar) ∧
      ∃ out, column a.2 (if dim = 2 then [] else backward) 0 0 = .ok out ∧ Shaped cls out)
    (hc : column data (if dim = 2 then [] else backward) 0 0 = .ok out) (hd : Shaped cls dst)
    (hl : dst.length = out.length) (hfront : ∀ c ∈ cls, c.1 ∉ columnNames front) :
    ∃ ts, writeDataAll fmt zero dim backward n (front ++ (some cls, data) :: back) = .ok ts ∧ readData dim cls (pre ++ ts) dst = .ok (printed fmt out) := by
  obtain ⟨he, hne, out', hc', ho⟩ := hall (some cls, data) (by simp) cls rfl
  rw [hc] at hc'
  cases hc'
  obtain ⟨t1, a1, a2⟩ := writeArrays_index fmt zero backward front fun a ha => hall a (by simp [ha])
  obtain ⟨t3, c1, c2⟩ := writeArrays_index fmt zero backward back fun a ha => hall a (by simp [ha])
  obtain ⟨t2, b1, b2⟩ := writeColumns_index fmt zero backward data out cls.length hc (fun o h => (ho o h).1) cls 0 (by omega) he hne
  have hw : writeArrays fmt zero dim backward (front ++ (some cls, data) :: back) = .ok (t1 ++ (t2 ++ t3)) := by
    rw [writeArrays_append]
    simp only [writeArrays, a1, b1, c1, Res.bind]
  refine ⟨.word "CELL_DATA" :: .num n :: .nl :: (t1 ++ (t2 ++ t3)), by simp only [writeDataAll, hw, Res.bind], ?_⟩
  have hno : NoColumns ([.word "CELL_DATA", .num n, .nl] : List (VTok R)) :=
    ⟨.inr ⟨[.word "CELL_DATA", .num n], rfl⟩, fun w hw => by
      simp only [List.mem_cons, VTok.word.injEq, reduceCtorEq, List.not_mem_nil, or_false] at hw
      subst hw
      constructor <;> (show ¬ (_ <:+: _)) <;> decide⟩
  generalize hts : t1 ++ (t2 ++ t3) = ts at *
  have hix : indexData (pre ++ .word "CELL_DATA" :: .num n :: .nl :: ts) = indexData ts := by
    have := indexData_skip _ _ ts le_rfl (hpre.append hno)
    simpa [List.append_assoc] using this
  obtain ⟨P, p1, p2⟩ := a2 (t2 ++ t3)
  rw [hts] at p1
  obtain ⟨h3, h5, h4⟩ := b2 t3
  have hsplit : indexData (t2 ++ t3) = (indexData (t2 ++ t3)).take cls.length ++ indexData t3 := by
    rw [← h5, List.take_append_drop]
  have hnames : ((indexData (t2 ++ t3)).take cls.length).map (·.1) = cls.map (·.1) := by
    apply List.ext_getElem (by simp [h3])
    intro j k1 k2
    simp only [List.length_map] at k2
    obtain ⟨more, hm⟩ := h4 j cls[j] (by simp [k2])
    obtain ⟨_, k4⟩ := List.getElem?_eq_some_iff.mp hm
    simp [k4]
  have key := readColumns_spec fmt zero dim (pre ++ .word "CELL_DATA" :: .num n :: .nl :: ts) (indexData ts) out dst cls.length
    hl.symm (fun o h => (ho o h).1) (fun r h => (hd r h).1) cls 0 (by omega) (fun j c hj => by
      obtain ⟨more, hm⟩ := h4 j c hj
      refine ⟨more, ?_⟩
      have hjl := (List.getElem?_eq_some_iff.mp hj).1
      have hm' : ((indexData (t2 ++ t3)).take cls.length)[j]? = some (c.1, columnText fmt zero dim out (0 + j) c.2 ++ more) := by
        rw [List.getElem?_take_of_lt hjl]; exact hm
      rw [position, p1, hsplit, find_second P _ _ (by rw [hnames]; exact he.different) j _ hm' (by
        rw [p2]; exact hfront c (List.mem_of_getElem? hj))])
    (fun j c hj o h v hv => (ho o h).2 j c v hj (by simpa using hv))
  rw [mixed_zero _ _ (by simp [printed, hl]),
    mixed_all cls.length _ _ (by simp [printed, hl]) (fun o h => by
      obtain ⟨x, hx, rfl⟩ := List.mem_map.mp h
      simpa using (ho x hx).1) (fun r h => (hd r h).1)] at key
  rw [readData, hix, key]

theorem noColumns_mesh2 (zero : R) (m : Mesh (Point2 R)) (types : List Nat) (title : List String) (ht : Harmless title)
    (mesh : List (VTok R)) (hm : writeToStream2 zero m types = .ok mesh) : NoColumns (header title ++ mesh) := by
  refine (noColumns_header title ht).append ?_
  unfold writeToStream2 at hm
  cases h1 : indexMesh2 m <;> rw [h1] at hm <;> simp only [Res.bind, reduceCtorEq] at hm
  cases h2 : codes toVtk2 types <;> rw [h2] at hm <;> simp only [reduceCtorEq, Res.ok.injEq] at hm
  rw [← hm]
  exact ((noColumns_points _).append (noColumns_cells _ _ _)).append (noColumns_types _ _)

/-- C76 in the plane. A file with a harmless title, the mesh and the data of several arrays of the cells. Every array whose columns have
other names than those of the arrays in front of it is read back, into a container with one object for each cell, whatever it held. -/
theorem C76_2d_partial [Zero R] (fmt : R → R) (zero : R) (m : Mesh (Point2 R)) (types : List Nat) (title : List String) (ht : Harmless title)
    (mesh : List (VTok R)) (hm : writeToStream2 zero m types = .ok mesh) (arrays : Arrays R)
    (hall : ∀ a ∈ arrays, ∀ cls, a.1 = some cls → Exportable 2 cls ∧ a.2 ≠ [] ∧ Shaped cls a.2)
    (front back : Arrays R) (cls : Class) (data dst : List (Row R)) (hsplit : arrays = front ++ (some cls, data) :: back)
    (hfront : ∀ c ∈ cls, c.1 ∉ columnNames front) (hdst : Shaped cls dst) (hl : dst.length = data.length) :
    ∃ ts, writeDataAll fmt zero 2 [] m.cells.length arrays = .ok ts ∧
      readData 2 cls (header title ++ mesh ++ ts) dst = .ok (printed fmt data) := by
  subst hsplit
  exact arrays_round_trip fmt zero [] _ front back cls data data dst _ (noColumns_mesh2 zero m types title ht mesh hm) (fun a ha k hk => by
    obtain ⟨h1, h2, h3⟩ := hall a ha k hk
    exact ⟨h1, fun h => absurd h h2, a.2, column_plain _, h3⟩) (column_plain _) hdst hl hfront

/-- C76 is violated: of two arrays of the same class (or with a common column) only the first one can be read; the second one is read with
the data of the first one, without an error. -/
theorem C76_same_name_violated [Zero R] (fmt : R → R) (zero : R) (m : Mesh (Point2 R)) (types : List Nat) (title : List String)
    (ht : Harmless title) (mesh : List (VTok R)) (hm : writeToStream2 zero m types = .ok mesh) (cls : Class) (he : Exportable 2 cls)
    (data data2 dst : List (Row R)) (h1 : data ≠ [] ∧ Shaped cls data) (h2 : data2 ≠ [] ∧ Shaped cls data2) (hdst : Shaped cls dst)
    (hl : dst.length = data.length) (hdiff : printed fmt data ≠ printed fmt data2) :
    ∃ ts, writeDataAll fmt zero 2 [] m.cells.length [(some cls, data), (some cls, data2)] = .ok ts ∧
      readData 2 cls (header title ++ mesh ++ ts) dst = .ok (printed fmt data) ∧
      readData 2 cls (header title ++ mesh ++ ts) dst ≠ .ok (printed fmt data2) := by
  obtain ⟨ts, g1, g2⟩ := C76_2d_partial fmt zero m types title ht mesh hm [(some cls, data), (some cls, data2)] (by
    intro a ha k hk
    simp only [List.mem_cons, List.not_mem_nil, or_false] at ha
    rcases ha with rfl | rfl
    · cases hk; exact ⟨he, h1.1, h1.2⟩
    · cases hk; exact ⟨he, h2.1, h2.2⟩) [] [(some cls, data2)] cls data dst rfl (by simp [columnNames]) hdst hl
  refine ⟨ts, g1, g2, ?_⟩
  rw [g2]
  simpa using hdiff

/-- Writing several arrays is possible, reading them into such a container is not (it does not compile) unless only the first array has traits. -/
theorem C76_reader_violated [Zero R] (dim : Nat) (file : List (VTok R)) (cls cls2 : Class) (data data2 : List (Row R)) (front back : Arrays R) :
    readDataAll dim file (front ++ (some cls, data) :: (some cls2, data2) :: back) = none := by
  cases front with
  | nil => simp [readDataAll]
  | cons a r =>
    obtain ⟨o, d⟩ := a
    cases o <;> simp [readDataAll]

/-- With one array with traits the container is read as in C48. -/
theorem C76_reader [Zero R] (dim : Nat) (file : List (VTok R)) (cls : Class) (data : List (Row R)) (back : Arrays R) (h : ∀ a ∈ back, a.1 = none) :
    readDataAll dim file ((some cls, data) :: back) = some ((readData dim cls file data).bind fun rows => .ok ((some cls, rows) :: back)) := by
  rw [readDataAll, if_pos]
  rw [List.all_eq_true]
  intro a ha
  rw [h a ha]; rfl

/-- C76 in space, with any mixture of split and plain cells: all exported cells get the data of their cells. -/
theorem C76_3d_partial [Zero R] (fmt : R → R) (zero : R) (ori : Idx → Bool) (key : Point3 R → List Char) (cc fc : Idx → Point3 R) (hash : Nat)
    (m : Mesh (Point3 R)) (bd : Idx → List Idx) (types : List Nat) (w0 w : Writer3 (Point3 R)) (mesh : List (VTok R))
    (hd : m.dim = 3) (hv : ValidMesh m bd) (hn : Numbered m) (hf : ∀ f, f < (m.midElems 2).length → edgesOfFace m f ≠ [])
    (hw0 : w0.lastHash ≠ hash) (hm : writeToStream3 ori key cc fc hash m types w0 = .ok (w, mesh))
    (title : List String) (ht : Harmless title) (arrays : Arrays R)
    (hall : ∀ a ∈ arrays, ∀ cls, a.1 = some cls → Exportable 3 cls ∧ a.2.length = m.cells.length ∧ a.2 ≠ [] ∧ Shaped cls a.2)
    (front back : Arrays R) (cls : Class) (data dst : List (Row R)) (hsplit : arrays = front ++ (some cls, data) :: back)
    (hfront : ∀ c ∈ cls, c.1 ∉ columnNames front) (hdst : Shaped cls dst) (hl : dst.length = w.cellVert.length) :
    ∃ ts rows, writeDataAll fmt zero 3 w.backward w.cellVert.length arrays = .ok ts ∧
      readData 3 cls (header title ++ mesh ++ ts) dst = .ok rows ∧ rows.length = w.cellVert.length ∧
      (origins (pieces m bd types) m.cells.length).length = w.cellVert.length ∧
      ∀ (k : Nat) o, (origins (pieces m bd types) m.cells.length)[k]? = some o → rows[k]? = (printed fmt data)[o]? := by
  subst hsplit
  unfold writeToStream3 at hm
  rw [if_pos hw0] at hm
  cases h1 : indexMesh3 ori key cc fc m types w0 <;> rw [h1] at hm <;> simp only [Res.bind, reduceCtorEq] at hm
  rename_i w1
  cases h2 : codes toVtk3 w1.cellTypes <;> rw [h2] at hm <;> simp only [reduceCtorEq, Res.ok.injEq, Prod.mk.injEq] at hm
  obtain ⟨g1, g2⟩ := hm
  have e1 : w.backward = w1.backward := by rw [← g1]
  have e2 : w.cellVert = w1.cellVert := by rw [← g1]
  rw [e2] at hl ⊢
  rw [e1]
  have hmem : ∀ (data col : List (Row R)), (∀ (k : Nat) o, (origins (pieces m bd types) m.cells.length)[k]? = some o → col[k]? = data[o]?) →
      col.length = (origins (pieces m bd types) m.cells.length).length → ∀ r ∈ col, r ∈ data := by
    intro data col k4 k5 r hr
    obtain ⟨k, hk, rfl⟩ := List.mem_iff_getElem.mp hr
    have hk' : k < (origins (pieces m bd types) m.cells.length).length := by omega
    have := k4 k _ (List.getElem?_eq_getElem hk')
    rw [List.getElem?_eq_getElem hk] at this
    exact List.mem_of_getElem? this.symm
  obtain ⟨_, hc, _, _⟩ := hall (some cls, data) (by simp) cls rfl
  obtain ⟨col, k1, k2, k3, k4⟩ := C27_column ori key cc fc m bd types w0 w1 hd hv hn hf h1 data hc
  obtain ⟨ts, a1, a2⟩ := arrays_round_trip (dim := 3) fmt zero w1.backward w1.cellVert.length front back cls data col dst (header title ++ mesh)
    ((noColumns_header title ht).append (by
      rw [← g2]
      exact ((noColumns_points _).append (noColumns_cells _ _ _)).append (noColumns_types _ _))) (by
      intro a ha k hk
      obtain ⟨f1, f2, f3, f4⟩ := hall a ha k hk
      obtain ⟨col', k1', k2', k3', k4'⟩ := C27_column ori key cc fc m bd types w0 w1 hd hv hn hf h1 a.2 f2
      exact ⟨f1, fun h => absurd h f3, col', by simpa using k1', fun r hr => f4 r (hmem _ _ k4' (by omega) r hr)⟩)
    (by simpa using k1) hdst (by omega) hfront
  refine ⟨ts, _, a1, a2, by simp [printed, k2], k3, fun k o ho => ?_⟩
  have := k4 k o ho
  simp only [printed, List.getElem?_map, this]

/-! ## Examples -/

/-- Two arrays for the three cells of the mesh of C22, an array without traits between them; both are read. -/
example : ∃ m t mesh ts, load2 exampleFile.tokens [] { dim := 2 } = .ok (m, t) ∧ writeToStream2 0 m t = .ok mesh ∧
    writeDataAll id 0 2 [] 3 [(some exampleClass, exampleData), (none, []), (some [(["q"], .scalar)], [[[1]], [[2]], [[3]]])] = .ok ts ∧
    readData 2 exampleClass (header ["three", "cells"] ++ mesh ++ ts) (List.replicate 3 [[0], [1, 1]]) = .ok exampleData ∧
    readData 2 [(["q"], .scalar)] (header ["three", "cells"] ++ mesh ++ ts) (List.replicate 3 [[0]]) = .ok [[[1]], [[2]], [[3]]] := by
  obtain ⟨m, t, mesh, h1, h2, h3⟩ : ∃ m t mesh, load2 exampleFile.tokens [] { dim := 2 } = .ok (m, t) ∧
    writeToStream2 0 m t = .ok mesh ∧ m.cells.length = 3 := ⟨_, _, _, rfl, rfl, rfl⟩
  have ht : Harmless ["three", "cells"] := fun w hw => by
    simp only [List.mem_cons, List.not_mem_nil, or_false] at hw
    rcases hw with rfl | rfl <;> constructor <;> (show ¬ (_ <:+: _)) <;> decide
  have hall : ∀ a ∈ ([(some exampleClass, exampleData), (none, []), (some [(["q"], .scalar)], [[[1]], [[2]], [[3]]])] : Arrays Int),
      ∀ cls, a.1 = some cls → Exportable 2 cls ∧ a.2 ≠ [] ∧ Shaped cls a.2 := by
    intro a ha cls hc
    simp only [List.mem_cons, List.not_mem_nil, or_false] at ha
    rcases ha with rfl | rfl | rfl
    · cases hc; exact ⟨exampleClass_exportable, by decide, shapedB_sound (by decide)⟩
    · cases hc
    · cases hc; exact ⟨⟨by simp, by simp, by simp, by simp⟩, by decide, shapedB_sound (by decide)⟩
  obtain ⟨ts, a1, a2⟩ := C76_2d_partial id 0 m t _ ht mesh h2 _ hall [] [(none, []), (some [(["q"], .scalar)], [[[1]], [[2]], [[3]]])]
    exampleClass exampleData (List.replicate 3 [[0], [1, 1]]) rfl (by simp [columnNames]) (shapedB_sound (by decide)) rfl
  obtain ⟨ts', b1, b2⟩ := C76_2d_partial id 0 m t _ ht mesh h2 _ hall [(some exampleClass, exampleData), (none, [])] []
    [(["q"], .scalar)] [[[1]], [[2]], [[3]]] (List.replicate 3 [[0]]) rfl (by decide) (shapedB_sound (by decide)) rfl
  rw [a1] at b1
  cases b1
  exact ⟨m, t, mesh, ts, h1, h2, by rw [← h3]; exact a1, a2, b2⟩

/-- Two arrays of the same class: the second one is lost. -/
example : ∃ m t mesh ts, load2 exampleFile.tokens [] { dim := 2 } = .ok (m, t) ∧ writeToStream2 0 m t = .ok mesh ∧
    writeDataAll id 0 2 [] 3 [(some [(["p"], .scalar)], [[[1]], [[2]], [[3]]]), (some [(["p"], .scalar)], [[[4]], [[5]], [[6]]])] = .ok ts ∧
    readData 2 [(["p"], .scalar)] (header [] ++ mesh ++ ts) [[[4]], [[5]], [[6]]] = .ok [[[1]], [[2]], [[3]]] := by
  obtain ⟨m, t, mesh, h1, h2, h3⟩ : ∃ m t mesh, load2 exampleFile.tokens [] { dim := 2 } = .ok (m, t) ∧
    writeToStream2 0 m t = .ok mesh ∧ m.cells.length = 3 := ⟨_, _, _, rfl, rfl, rfl⟩
  obtain ⟨ts, a1, a2, _⟩ := C76_same_name_violated (R := Int) id 0 m t [] (fun w hw => by simp at hw) mesh h2 [(["p"], .scalar)]
    ⟨by simp, by simp, by simp, by simp⟩ [[[1]], [[2]], [[3]]] [[[4]], [[5]], [[6]]] [[[4]], [[5]], [[6]]]
    ⟨by decide, shapedB_sound (by decide)⟩ ⟨by decide, shapedB_sound (by decide)⟩ (shapedB_sound (by decide)) rfl (by decide)
  exact ⟨m, t, mesh, ts, h1, h2, by rw [← h3]; exact a1, a2⟩

/-- A hexahedron and a split pyramid with two arrays: the data of the 17 exported cells. -/
example : ∃ w mesh ts rows, writeToStream3 (fun _ => false) exampleKey (fun i => (5, i, i)) (fun i => (7, i, i)) 1 exampleMesh3 [301, 304] {}
      = .ok (w, mesh) ∧
    writeDataAll id 0 3 w.backward w.cellVert.length [(some [(["p"], .scalar)], [[[5]], [[6]]]), (some [(["q"], .scalar)], [[[8]], [[9]]])] = .ok ts ∧
    readData 3 [(["q"], .scalar)] (header [] ++ mesh ++ ts) (List.replicate 17 [[0]]) = .ok rows ∧ rows[0]? = some [[8]] ∧ rows[16]? = some [[9]] := by
  obtain ⟨w, mesh, h1, h2⟩ : ∃ w mesh, writeToStream3 (fun _ => false) exampleKey (fun i => (5, i, i)) (fun i => (7, i, i)) 1 exampleMesh3 [301, 304] {}
      = .ok (w, mesh) ∧ w.cellVert.length = 17 := by
    have hb : ((writeToStream3 (fun _ => false) exampleKey (fun i => (5, i, i)) (fun i => (7, i, i)) 1 exampleMesh3 [301, 304] {}).bind
        fun p => Res.ok p.1.cellVert.length) = .ok 17 := by decide +kernel
    cases h : writeToStream3 (fun _ => false) exampleKey (fun i => (5, i, i)) (fun i => (7, i, i)) 1 exampleMesh3 [301, 304] {} <;>
      rw [h] at hb <;> simp only [Res.bind, reduceCtorEq, Res.ok.injEq] at hb
    exact ⟨_, _, rfl, hb⟩
  obtain ⟨ts, rows, h3, h4, _, _, h5⟩ := C76_3d_partial (R := Int) id 0 _ _ _ _ 1 exampleMesh3 exampleBd3 _ {} w mesh rfl exampleMesh3_valid
    exampleMesh3_numbered (by decide +kernel) (by decide) h1 [] (fun w hw => by simp at hw)
    [(some [(["p"], .scalar)], [[[5]], [[6]]]), (some [(["q"], .scalar)], [[[8]], [[9]]])] (by
      intro a ha k hk
      simp only [List.mem_cons, List.not_mem_nil, or_false] at ha
      rcases ha with rfl | rfl
      · cases hk; exact ⟨⟨by simp, by simp, by simp, by simp⟩, by decide +kernel, by decide, shapedB_sound (by decide)⟩
      · cases hk; exact ⟨⟨by simp, by simp, by simp, by simp⟩, by decide +kernel, by decide, shapedB_sound (by decide)⟩)
    [(some [(["p"], .scalar)], [[[5]], [[6]]])] [] [(["q"], .scalar)] [[[8]], [[9]]] (List.replicate 17 [[0]]) rfl (by decide)
    (shapedB_sound (by decide)) (by simp [h2])
  refine ⟨w, mesh, ts, rows, h1, h3, h4, ?_, ?_⟩
  · rw [h5 0 0 (by decide +kernel)]; rfl
  · rw [h5 16 1 (by decide +kernel)]; rfl

end GTMesh.Vtk
