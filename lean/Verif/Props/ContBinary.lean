import Verif.Model.ContBinary
import Verif.Props.DataContainer
import Verif.Props.Serializer

/-! # C90: a mesh data container in a serializer -/

namespace GTMesh.Ser
open DataCont GTMesh.Props
variable {V : Type}

/-- What is behind the values does not matter, and the new content is the one written; the dimensions are those of the container that is read into. -/
theorem readCont_spec (lt : Order) (t : Ty) : ∀ (c dst : DataCont t.den) (rest : Bytes), (∀ a ∈ c, Ok lt (.vec t) a.2) → (∀ a ∈ dst, NoStale (.vec t) a.2) →
    dst.length = c.length → readCont lt t dst (writeCont t c ++ rest) = .ok (List.zipWith (fun d a => (d.1, a.2)) dst c, rest)
  | [], [], rest, _, _, _ => rfl
  | (d, a) :: c, (e, b) :: dst, rest, hc, hd, hl => by
    have h1 := C30_round_trip lt (.vec t) b a (writeCont t c ++ rest) (hd (e, b) (by simp)) (hc (d, a) (by simp))
    have h2 := readCont_spec lt t c dst rest (fun x hx => hc x (List.mem_cons_of_mem _ hx)) (fun x hx => hd x (List.mem_cons_of_mem _ hx)) (by simpa using hl)
    simp only [writeCont, readCont, List.append_assoc]
    rw [h1]
    simp only [Res.bind]
    rw [h2]
    rfl
  | [], _ :: _, _, _, _, h => by simp at h
  | _ :: _, [], _, _, _, h => by simp at h

/-- C90: a container of the same type is read back with the same arrays, whatever it held before and whatever its sizes were. -/
theorem C90_round_trip_partial (lt : Order) (t : Ty) (c dst : DataCont t.den) (rest : Bytes) (hc : ∀ a ∈ c, Ok lt (.vec t) a.2) (hs : ∀ a ∈ dst, NoStale (.vec t) a.2)
    (hd : dst.dims = c.dims) : readCont lt t dst (writeCont t c ++ rest) = .ok (c, rest) := by
  have hl : dst.length = c.length := by simpa [dims] using congrArg List.length hd
  rw [readCont_spec lt t c dst rest hc hs hl]
  congr 2
  apply List.ext_getElem (by simp [hl])
  intro i h1 h2
  have hi : i < dst.length := by omega
  have : dst[i].1 = c[i].1 := by
    have := List.getElem_of_eq hd (i := i) (by simpa [dims] using hi)
    simpa [dims] using this
  simp [this]

/-- C90: data written for a mesh and read into a container of the same type for another mesh with as many elements has one entry for each element of it, the one
that was written. -/
theorem C90_same_sizes_partial (lt : Order) (t : Ty) (m m' : Mesh V) (c dst : DataCont t.den) (init init' : t.den) (rest : Bytes) (hd : dst.dims = c.dims)
    (hsize : ∀ d ∈ c.dims, m.numElems d = m'.numElems d) (hc : ∀ a ∈ c.allocateData m init, Ok lt (.vec t) a.2)
    (hs : ∀ a ∈ dst.allocateData m' init', NoStale (.vec t) a.2) :
    ∃ r, readCont lt t (dst.allocateData m' init') (writeCont t (c.allocateData m init) ++ rest) = .ok (r, rest) ∧
      ∀ d ∈ c.dims, ∃ a, r.byDim d = some a ∧ a.length = m'.numElems d ∧
        ∀ i < m'.numElems d, ∃ v, r.atElem d i = some (.ok v) ∧ (c.allocateData m init).atElem d i = some (.ok v) := by
  have h1 := (C17_allocate dst m' init').1
  have h2 := (C17_allocate c m init).1
  refine ⟨_, C90_round_trip_partial lt t _ _ rest hc hs (by rw [h1, h2, hd]), fun d hmem => ?_⟩
  obtain ⟨p, hp1, hp2⟩ : ∃ p : Nat, c.dims[p]? = some d ∧ ∀ q : Nat, q < p → c.dims[q]? ≠ some d := by
    classical
    have hex : ∃ p, c.dims[p]? = some d := List.getElem?_of_mem hmem
    exact ⟨Nat.find hex, Nat.find_spec hex, fun q hq => Nat.find_min hex hq⟩
  obtain ⟨⟨d', old⟩, h3, h4⟩ : ∃ x, c[p]? = some x ∧ x.1 = d := by
    simpa [dims, List.getElem?_map, Option.map_eq_some_iff] using hp1
  simp only at h4
  subst h4
  obtain ⟨new, h5, h6, _⟩ := (C17_allocate c m init).2 p d' old h3
  have hby : (c.allocateData m init).byDim d' = some new := by
    rw [C17_by_dim]
    refine ⟨p, h5, fun q hq b hb => hp2 q hq ?_⟩
    rw [← h2]
    simp [dims, hb]
  refine ⟨new, hby, by rw [h6, hsize d' hmem], fun i hi => ?_⟩
  rw [← hsize d' hmem, ← h6] at hi
  have := (C17_element_access (c.allocateData m init) d' i new hby).1 new[i] (by simp [hi])
  exact ⟨new[i], this.1, this.1⟩

/-- C90, false of the code: reading takes the sizes from the data. In a container for a mesh with more elements every element behind the stored ones has no entry any more:
`at` throws, and `operator[]`, the access used by the functions of the mesh, is undefined behaviour. -/
theorem C90_other_mesh_violated (lt : Order) (t : Ty) (m m' : Mesh V) (d : Nat) (init init' : t.den) (rest : Bytes) (hsize : m.numElems d < m'.numElems d)
    (hc : Ok lt (.vec t) (List.replicate (m.numElems d) init)) (hs : NoStale t init') (i : Nat) (h1 : m.numElems d ≤ i) (_ : i < m'.numElems d) :
    (∃ v, (DataCont.allocateData [(d, [])] m' init').idxElem d i = some (.ok v)) ∧
    ∃ r, readCont lt t (DataCont.allocateData [(d, [])] m' init') (writeCont t (DataCont.allocateData [(d, [])] m init) ++ rest) = .ok (r, rest) ∧
      r.idxElem d i = some .ub ∧ r.atElem d i = some (.throw .outOfRange) := by
  have ha : ∀ (x : Mesh V) (v : t.den), DataCont.allocateData [(d, [])] x v = [(d, List.replicate (x.numElems d) v)] := by
    intro x v; simp [allocateData, allocateMemory, resize]
  have hby : ∀ a : List t.den, DataCont.byDim [(d, a)] d = some a := fun a => by
    rw [C17_by_dim]
    exact ⟨0, rfl, fun q hq => by omega⟩
  constructor
  · exact ⟨init', by rw [ha]; exact ((C17_element_access _ d i _ (hby _)).1 init' (by rw [List.getElem?_replicate, if_pos (by assumption)])).2⟩
  · refine ⟨_, C90_round_trip_partial lt t _ _ rest ?_ ?_ (by rw [ha, ha]; rfl), ?_⟩
    · rw [ha]; simpa using hc
    · rw [ha]
      intro a hm
      simp only [List.mem_singleton] at hm
      subst hm
      intro x hx
      rw [List.eq_of_mem_replicate hx]
      exact hs
    · rw [ha]
      have := (C17_element_access _ d i _ (hby (List.replicate (m.numElems d) init))).2 (by simpa using h1)
      exact ⟨this.2, this.1⟩

/-- C90, false of the code: the dimensions are not stored. A container with as many arrays for other elements takes the arrays in their order without an error. -/
theorem C90_other_dimensions_violated (lt : Order) (t : Ty) (d e : Nat) (a b oldA oldB : List t.den) (rest : Bytes) (ha : Ok lt (.vec t) a) (hb : Ok lt (.vec t) b)
    (h1 : NoStale (.vec t) oldA) (h2 : NoStale (.vec t) oldB) (hde : d ≠ e) :
    ∃ r, readCont lt t [(e, oldA), (d, oldB)] (writeCont t [(d, a), (e, b)] ++ rest) = .ok (r, rest) ∧ r.byDim e = some a ∧ r.byDim d = some b := by
  refine ⟨[(e, a), (d, b)], ?_, ?_, ?_⟩
  · exact readCont_spec lt t [(d, a), (e, b)] [(e, oldA), (d, oldB)] rest
      (fun x hx => by simp only [List.mem_cons, List.not_mem_nil, or_false] at hx; rcases hx with rfl | rfl <;> assumption)
      (fun x hx => by simp only [List.mem_cons, List.not_mem_nil, or_false] at hx; rcases hx with rfl | rfl <;> assumption) rfl
  · rw [C17_by_dim]; exact ⟨0, rfl, fun q hq => by omega⟩
  · rw [C17_by_dim]
    refine ⟨1, rfl, fun q hq x hx => ?_⟩
    obtain rfl : q = 0 := by omega
    simp only [List.getElem?_cons_zero, Option.some.injEq, Prod.mk.injEq] at hx
    exact hde hx.1.symm

/-! ## Arrays of different types -/

/-- C90 for containers with a type for each array: a container of the same type is read back with the same arrays, whatever it held before. -/
theorem C90_tuple_partial (lt : Order) : ∀ (c dst : TupleCont) (rest : Bytes), (∀ a ∈ c, Ok lt (.vec a.2.1) a.2.2) → (∀ a ∈ dst, NoStale (.vec a.2.1) a.2.2) →
    dst.shape = c.shape → readTuple lt dst (writeTuple c ++ rest) = .ok (c, rest)
  | [], [], rest, _, _, _ => rfl
  | (d, ⟨t, a⟩) :: c, (e, ⟨u, b⟩) :: dst, rest, hc, hs, hd => by
    simp only [TupleCont.shape, List.map_cons, List.cons.injEq, Prod.mk.injEq] at hd
    obtain ⟨⟨rfl, rfl⟩, hd⟩ := hd
    have h1 := C30_round_trip lt (.vec u) b a (writeTuple c ++ rest) (hs (e, ⟨u, b⟩) (by simp)) (hc (e, ⟨u, a⟩) (by simp))
    have h2 := C90_tuple_partial lt c dst rest (fun x hx => hc x (List.mem_cons_of_mem _ hx)) (fun x hx => hs x (List.mem_cons_of_mem _ hx)) hd
    simp only [writeTuple, readTuple, List.append_assoc]
    rw [h1]
    simp only [Res.bind]
    rw [h2]
  | [], _ :: _, _, _, _, h => by simp [TupleCont.shape] at h
  | _ :: _, [], _, _, _, h => by simp [TupleCont.shape] at h

/-- C90: a container with one type and one with a type for each array that are all the same have the same bytes, and one may be read from those of the other. -/
theorem C90_one_type_partial (lt : Order) (t : Ty) (c : DataCont t.den) (dst : TupleCont) (rest : Bytes) (hc : ∀ a ∈ c, Ok lt (.vec t) a.2)
    (hs : ∀ a ∈ dst, NoStale (.vec a.2.1) a.2.2) (hd : dst.shape = c.dims.map fun d => (d, t)) :
    writeTuple (c.map fun x => (x.1, ⟨t, x.2⟩)) = writeCont t c ∧
    readTuple lt dst (writeCont t c ++ rest) = .ok (c.map fun x => (x.1, ⟨t, x.2⟩), rest) := by
  have h : ∀ c : DataCont t.den, writeTuple (c.map fun x => (x.1, ⟨t, x.2⟩)) = writeCont t c := by
    intro c
    induction c with
    | nil => rfl
    | cons x c ih => simp only [List.map_cons, writeTuple, writeCont]; rw [ih]
  refine ⟨h c, ?_⟩
  rw [← h c]
  refine C90_tuple_partial lt _ dst rest (fun a ha => ?_) hs ?_
  · obtain ⟨x, hx, rfl⟩ := List.mem_map.mp ha
    exact hc x hx
  · rw [hd]; simp [TupleCont.shape, dims]

/-- A number of one byte. -/
def byteVal (b : UInt8) : (Ty.simple 1).den := (⟨[b], rfl⟩ : { l : Bytes // l.length = 1 })

example : readCont exOrder (.simple 1) [(0, []), (2, [byteVal 1, byteVal 2, byteVal 3])]
    (writeCont (.simple 1) [(0, [byteVal 7, byteVal 8]), (2, [byteVal 9])] ++ [5]) = .ok ([(0, [byteVal 7, byteVal 8]), (2, [byteVal 9])], [5]) :=
  C90_round_trip_partial _ _ _ _ _ (by
      intro a ha
      simp only [List.mem_cons, List.not_mem_nil, or_false] at ha
      rcases ha with rfl | rfl <;> simp [Ok]) (by
      intro a ha
      simp only [List.mem_cons, List.not_mem_nil, or_false] at ha
      rcases ha with rfl | rfl <;> simp [NoStale]) rfl

/-- Numbers of one byte for the vertices, and vectors of such numbers for the cells. -/
example : readTuple exOrder [(0, ⟨.simple 1, []⟩), (2, ⟨.vec (.simple 1), [[byteVal 1]]⟩)]
    (writeTuple [(0, ⟨.simple 1, [byteVal 7, byteVal 8]⟩), (2, ⟨.vec (.simple 1), [[], [byteVal 9]]⟩)] ++ [5]) =
    .ok ([(0, ⟨.simple 1, [byteVal 7, byteVal 8]⟩), (2, ⟨.vec (.simple 1), [[], [byteVal 9]]⟩)], [5]) :=
  C90_tuple_partial _ _ _ _ (by
      intro a ha
      simp only [List.mem_cons, List.not_mem_nil, or_false] at ha
      rcases ha with rfl | rfl
      · simp [Ok]
      · simp only [Ok]
        refine ⟨(by decide : 2 < 18446744073709551616), fun x hx => ?_⟩
        rcases List.mem_cons.mp hx with rfl | hx
        · simp
        · rw [List.mem_singleton.mp hx]; simp) (by
      intro a ha
      simp only [List.mem_cons, List.not_mem_nil, or_false] at ha
      rcases ha with rfl | rfl <;> simp [NoStale]) rfl

example : readTuple exOrder [(0, ⟨.simple 1, []⟩)] (writeCont (.simple 1) [(0, [byteVal 7, byteVal 8])] ++ [5]) =
    .ok ([(0, ⟨.simple 1, [byteVal 7, byteVal 8]⟩)], [5]) :=
  (C90_one_type_partial exOrder (.simple 1) [(0, [byteVal 7, byteVal 8])] [(0, ⟨.simple 1, []⟩)] [5] (by simp [Ok]) (by simp [NoStale]) rfl).2

/-- A mesh with `n` cells. -/
def cellMesh (n : Nat) : Mesh Nat := { dim := 2, cells := List.replicate n {} }

example : ∃ r, readCont exOrder (.simple 1) (DataCont.allocateData [(2, [])] (cellMesh 2) (byteVal 0))
      (writeCont (.simple 1) (DataCont.allocateData [(2, [])] (cellMesh 2) (byteVal 7)) ++ []) = .ok (r, []) ∧
      ∀ d ∈ DataCont.dims [(2, ([] : List (Ty.simple 1).den))], ∃ a, r.byDim d = some a ∧ a.length = (cellMesh 2).numElems d ∧
        ∀ i < (cellMesh 2).numElems d, ∃ v, r.atElem d i = some (.ok v) ∧ (DataCont.allocateData [(2, [])] (cellMesh 2) (byteVal 7)).atElem d i = some (.ok v) :=
  C90_same_sizes_partial exOrder (.simple 1) (cellMesh 2) (cellMesh 2) [(2, [])] [(2, [])] (byteVal 7) (byteVal 0) [] rfl (fun _ _ => rfl)
    (by intro a ha
        have : a = (2, [byteVal 7, byteVal 7]) := by simpa [allocateData, allocateMemory, resize, cellMesh, Mesh.numElems] using ha
        subst this
        simp [Ok])
    (by intro a ha
        have : a = (2, [byteVal 0, byteVal 0]) := by simpa [allocateData, allocateMemory, resize, cellMesh, Mesh.numElems] using ha
        subst this
        simp [NoStale])

/-- Data of a mesh with one cell is read for a mesh with two cells. -/
example : (∃ v, (DataCont.allocateData [(2, [])] (cellMesh 2) (byteVal 0)).idxElem 2 1 = some (.ok v)) ∧
    ∃ r, readCont exOrder (.simple 1) (DataCont.allocateData [(2, [])] (cellMesh 2) (byteVal 0))
      (writeCont (.simple 1) (DataCont.allocateData [(2, [])] (cellMesh 1) (byteVal 7)) ++ []) = .ok (r, []) ∧
      r.idxElem 2 1 = some .ub ∧ r.atElem 2 1 = some (.throw .outOfRange) :=
  C90_other_mesh_violated exOrder (.simple 1) (cellMesh 1) (cellMesh 2) 2 (byteVal 7) (byteVal 0) [] (by decide)
    (by rw [show (cellMesh 1).numElems 2 = 1 from rfl]; simp [Ok]) (by simp [NoStale]) 1 (by decide) (by decide)

example : ∃ r, readCont exOrder (.simple 1) [(2, []), (0, [])] (writeCont (.simple 1) [(0, [byteVal 7, byteVal 8]), (2, [byteVal 9])] ++ []) = .ok (r, []) ∧
    r.byDim 2 = some [byteVal 7, byteVal 8] ∧ r.byDim 0 = some [byteVal 9] :=
  C90_other_dimensions_violated exOrder (.simple 1) 0 2 _ _ [] [] [] (by simp [Ok]) (by simp [Ok]) (by simp [NoStale]) (by simp [NoStale]) (by decide)

end GTMesh.Ser
