import Verif.Props.Print
import Verif.Props.Vtk2
import Verif.Props.Convert
import Verif.Props.VtkData

/-!
# C21, C23, C51, C53 with printed coordinates
-/

namespace GTMesh
open Spec GTMesh.Props
open Vtk (SameSides)

theorem map_fixed {α : Type} {g : α → α} {l : List α} : l.map g = l ↔ ∀ x ∈ l, g x = x := by
  constructor
  · intro h x hx
    obtain ⟨i, hi⟩ := List.getElem?_of_mem hx
    have := congrArg (fun l : List α => l[i]?) h
    simp only [List.getElem?_map, hi, Option.map_some, Option.some.injEq] at this
    exact this
  · intro h
    conv_rhs => rw [← List.map_id l]
    exact List.map_congr_left fun x hx => h x hx

theorem numElems_withPoints {V W : Type} (g : V → W) (m : Mesh V) (d : Nat) : (m.withPoints g).numElems d = m.numElems d := by
  simp only [Mesh.numElems, Mesh.withPoints, Mesh.midElems, List.length_map]

theorem cellLoop_withPoints {V W β : Type} (g : V → W) (m : Mesh V) {body body' : Idx → Res (List β)} (h : ∀ i, body' i = body i) (cell start : Idx) (n : Nat)
    (tmp : Idx) : (m.withPoints g).cellLoop body' cell start n tmp = m.cellLoop body cell start n tmp := by
  induction n generalizing tmp with
  | zero => rfl
  | succ n ih =>
    have hn : ∀ t, (m.withPoints g).nextFace cell t = m.nextFace cell t := fun _ => rfl
    simp only [Mesh.cellLoop, h, hn, ih]

theorem meshRun_withPoints {V W : Type} (g : V → W) (m : Mesh V) (target k : Nat) (i : Idx) :
    (m.withPoints g).meshRun target k i = m.meshRun target k i := by
  induction k generalizing i with
  | zero => rfl
  | succ k ih =>
    have h1 : (m.withPoints g).numFaces = m.numFaces := numElems_withPoints g m _
    have h2 : (m.withPoints g).meshRun target k = m.meshRun target k := funext ih
    simp only [Mesh.meshRun, h1, h2]
    have h3 := fun c : Cell => cellLoop_withPoints g m (body := m.meshRun target k) (fun _ => rfl) i c.bElem (m.numFaces + 1) c.bElem
    simp only [h3]
    rfl

theorem walk_withPoints {V W : Type} (g : V → W) (m : Mesh V) (i : Idx) : boundaryWalk (m.withPoints g) i = boundaryWalk m i :=
  meshRun_withPoints g m _ _ i

/-- All coordinates have at most six significant digits. -/
def SixDigits3 (l : List (ℚ × ℚ × ℚ)) : Prop := ∀ p ∈ l, SixDigits p.1 ∧ SixDigits p.2.1 ∧ SixDigits p.2.2

theorem stored3_fixed (l : List (ℚ × ℚ × ℚ)) : l.map (point3 stored) = l ↔ SixDigits3 l := by
  rw [map_fixed]
  refine forall_congr' fun p => imp_congr_right fun _ => ?_
  obtain ⟨x, y, z⟩ := p
  simp only [point3, Prod.mk.injEq, stored_fixed]

/-- Reading the printed file into an empty mesh. -/
theorem fpma_printed {R S : Type} (fmt : R → S) {res : Nat} {ts : List (Tok R)} {m' : Mesh (Point R)} (h : Fpma.load res ts { dim := 3 } = .ok m') :
    Fpma.load res (ts.map (Tok.printed fmt)) { dim := 3 } = .ok (m'.withPoints (point3 fmt)) := by
  have := C59_fpma fmt res ts { dim := 3 }
  rw [h] at this
  exact this

/-- The mesh that is there before does not matter for the 3D reader as far as this mesh has no boundary cells; here it is any mesh with the positions printed. -/
theorem vtk3_printed {R S : Type} [Zero R] [Zero S] (fmt : R → S) (h0 : fmt 0 = 0) {res : Nat} {ts : List (Vtk.VTok R)} {types t : List Nat} {m' : Mesh (Vtk.Point3 R)}
    (h : Vtk.load3 res ts types { dim := 3 } = .ok (m', t)) :
    Vtk.load3 res (ts.map (Vtk.VTok.printed fmt)) types { dim := 3 } = .ok (m'.withPoints (point3 fmt), t) := by
  have := C59_vtk3 fmt h0 res ts types { dim := 3 }
  rw [h] at this
  exact this

/-- C21 with the numbers as they are in the file: the faces and cells are as in `C21_round_trip_partial`, the positions are the printed ones, and they are the same as
before exactly when no coordinate has more than six significant digits. Missing: that they always are the same (false, `C21_digits_violated`). -/
theorem C21_printed_partial (m : Mesh (Point ℚ)) (bd poly : Idx → List Idx) (hd : m.dim = 3) (hv : ValidMesh m bd)
    (hpoly : ∀ (i : Nat) f, (m.midElems 2)[i]? = some f → IsPolygon m.edges f.sub (poly i))
    (hc : m.cells.length ≤ INVALID) (hf : (m.midElems 2).length ≤ INVALID) :
    ∃ ts m', Fpma.write m = .ok ts ∧ Fpma.load 0 (ts.map (Tok.printed stored)) { dim := 3 } = .ok m' ∧
      m'.vertices = m.vertices.map (point3 stored) ∧ (m'.vertices = m.vertices ↔ SixDigits3 m.vertices) ∧
      (m'.midElems 2).length = (m.midElems 2).length ∧
      (∀ (i : Nat) f, (m'.midElems 2)[i]? = some f →
        ∃ q, EdgesOf m'.edges f.sub q ∧ SameCycle q (poly i)) ∧
      m'.cells.length = m.cells.length ∧
      (∀ i, i < m.cells.length → boundaryWalk m' i = boundaryWalk m i ∧ boundaryWalk m i = .ok (bd i)) := by
  obtain ⟨ts, m', h1, h2, h3, h4⟩ := Fpma.C21_round_trip_partial m bd poly hd hv hpoly hc hf
  refine ⟨ts, m'.withPoints (point3 stored), h1, fpma_printed stored h2, by rw [← h3]; rfl, ?_, ?_⟩
  · rw [← stored3_fixed, ← h3]
    rfl
  · simp only [walk_withPoints]
    exact h4

/-- C21 is false of meshes with longer coordinates: the positions that are read are not the ones that were written. -/
theorem C21_digits_violated (m : Mesh (Point ℚ)) (bd poly : Idx → List Idx) (hd : m.dim = 3) (hv : ValidMesh m bd)
    (hpoly : ∀ (i : Nat) f, (m.midElems 2)[i]? = some f → IsPolygon m.edges f.sub (poly i))
    (hc : m.cells.length ≤ INVALID) (hf : (m.midElems 2).length ≤ INVALID) (p : Point ℚ) (hp : p ∈ m.vertices) (hlong : ¬ SixDigits p.1) :
    ∃ ts m', Fpma.write m = .ok ts ∧ Fpma.load 0 (ts.map (Tok.printed stored)) { dim := 3 } = .ok m' ∧ m'.vertices ≠ m.vertices := by
  obtain ⟨ts, m', h1, h2, _, h3, _⟩ := C21_printed_partial m bd poly hd hv hpoly hc hf
  exact ⟨ts, m', h1, h2, fun h => hlong (h3.mp h p hp).1⟩

/-- C23 with the numbers as they are in the file. -/
theorem C23_printed (zero : ℚ) (m : Mesh (Vtk.Point2 ℚ)) (types : List Nat) (bd poly : Idx → List Idx) (title : List String)
    (hd : m.dim = 2) (hv : ValidMesh m bd) (hidx : ∀ (c : Nat) cl, m.cells[c]? = some cl → cl.index = c)
    (hpoly : ∀ c, c < m.cells.length → IsPolygon m.edges (bd c) (poly c) ∧ 3 ≤ (poly c).length)
    (huniq : ∀ (i j : Nat) e e', m.edges[i]? = some e → m.edges[j]? = some e' →
      SamePair (e.a, e.b) (e'.a, e'.b) → i = j)
    (hcf : m.cells.length ≤ INVALID) (hef : ((List.range m.cells.length).map fun c => (poly c).length).sum ≤ INVALID)
    (htl : types.length = m.cells.length) (htypes : ∀ t ∈ types, ∃ c, Vtk.toVtk2 t = some c) :
    ∃ ts m', Vtk.writeToStream2 zero m types = .ok ts ∧
      Vtk.load2 ((Vtk.header title ++ ts).map (Vtk.VTok.printed stored)) [] { dim := 2 } = .ok (m', types) ∧
      m'.vertices = m.vertices.map (point2 stored) ∧ m'.cells.length = m.cells.length ∧
      ∀ c, c < m.cells.length → ∃ l q, boundaryWalk m' c = .ok l ∧ EdgesOf m'.edges l q ∧ SameCycle q (poly c) := by
  obtain ⟨ts, m', h1, h2, h3, h4⟩ := Vtk.C23_round_trip zero m types bd poly title hd hv hidx hpoly huniq hcf hef htl htypes [] { dim := 2 } rfl
  have := C59_vtk2 stored stored_zero (Vtk.header title ++ ts) [] { dim := 2 }
  rw [h2] at this
  exact ⟨ts, m'.withPoints (point2 stored), h1, this, by rw [← h3]; rfl, by simp only [walk_withPoints]; exact h4⟩

/-- C51 for solids with the numbers as they are in the file. Missing: that the points always are the same (false, `C51_digits_violated`). -/
theorem C51_printed_partial (ori : Idx → Bool) (key : Vtk.Point3 ℚ → List Char) (cc fc : Idx → Vtk.Point3 ℚ) (hash : Nat)
    (m : Mesh (Vtk.Point3 ℚ)) (bd vert : Idx → List Idx) (types : List Nat) (w0 : Vtk.Writer3 (Vtk.Point3 ℚ)) (hhash : w0.lastHash ≠ hash)
    (hd : m.dim = 3) (hv : ValidMesh m bd) (hn : Vtk.Numbered m) (htl : types.length = m.cells.length)
    (hsol : ∀ (i : Nat) t, types[i]? = some t → Vtk.IsSolid m (bd i) (vert i) t)
    (huniq : ∀ (i j : Nat) f f' p p', (m.midElems 2)[i]? = some f → (m.midElems 2)[j]? = some f' →
      IsPolygon m.edges f.sub p → IsPolygon m.edges f'.sub p' → SameSides p p' → i = j)
    (hfit : 12 * m.cells.length ≤ INVALID)
    (res : Nat) (hres : res = 0 ∨ 4 ≤ res) (title : List String) (types0 : List Nat) :
    ∃ w ts m', Vtk.writeToStream3 ori key cc fc hash m types w0 = .ok (w, ts) ∧
      Vtk.load3 res ((Vtk.header title ++ ts).map (Vtk.VTok.printed stored)) types0 { dim := 3 } = .ok (m', types) ∧
      m'.vertices = m.vertices.map (point3 stored) ∧ (m'.vertices = m.vertices ↔ SixDigits3 m.vertices) ∧
      m'.cells.length = m.cells.length ∧ ∃ bd' : Idx → List Idx,
        (∀ (c : Nat) t, types[c]? = some t → boundaryWalk m' c = .ok (bd' c) ∧ Vtk.IsSolid m' (bd' c) (vert c) t) ∧
        ∀ a b, a < m.cells.length → b < m.cells.length → ((∃ f ∈ bd a, f ∈ bd b) ↔ ∃ f ∈ bd' a, f ∈ bd' b) := by
  obtain ⟨w, ts, m', h1, h2, h3, h4, bd', h5, h6⟩ := Vtk.C51_solids_partial ori key cc fc hash m bd vert types w0 hhash hd hv hn htl hsol huniq hfit res hres title
    types0 { dim := 3 } rfl
  refine ⟨w, ts, m'.withPoints (point3 stored), h1, vtk3_printed stored stored_zero h2, by rw [← h3]; rfl, ?_, h4, bd', fun c t ht => ?_, h6⟩
  · rw [← stored3_fixed, ← h3]
    rfl
  · obtain ⟨a, b⟩ := h5 c t ht
    exact ⟨by rw [walk_withPoints]; exact a, ⟨b.count, b.nodup, b.faces⟩⟩

/-- C51 is false of meshes with longer coordinates. -/
theorem C51_digits_violated (ori : Idx → Bool) (key : Vtk.Point3 ℚ → List Char) (cc fc : Idx → Vtk.Point3 ℚ) (hash : Nat)
    (m : Mesh (Vtk.Point3 ℚ)) (bd vert : Idx → List Idx) (types : List Nat) (w0 : Vtk.Writer3 (Vtk.Point3 ℚ)) (hhash : w0.lastHash ≠ hash)
    (hd : m.dim = 3) (hv : ValidMesh m bd) (hn : Vtk.Numbered m) (htl : types.length = m.cells.length)
    (hsol : ∀ (i : Nat) t, types[i]? = some t → Vtk.IsSolid m (bd i) (vert i) t)
    (huniq : ∀ (i j : Nat) f f' p p', (m.midElems 2)[i]? = some f → (m.midElems 2)[j]? = some f' →
      IsPolygon m.edges f.sub p → IsPolygon m.edges f'.sub p' → SameSides p p' → i = j)
    (hfit : 12 * m.cells.length ≤ INVALID) (p : Vtk.Point3 ℚ) (hp : p ∈ m.vertices) (hlong : ¬ SixDigits p.1) (title : List String) :
    ∃ w ts m' t, Vtk.writeToStream3 ori key cc fc hash m types w0 = .ok (w, ts) ∧
      Vtk.load3 0 ((Vtk.header title ++ ts).map (Vtk.VTok.printed stored)) [] { dim := 3 } = .ok (m', t) ∧ m'.vertices ≠ m.vertices := by
  obtain ⟨w, ts, m', h1, h2, _, h3, _⟩ := C51_printed_partial ori key cc fc hash m bd vert types w0 hhash hd hv hn htl hsol huniq hfit 0 (Or.inl rfl) title []
  exact ⟨w, ts, m', types, h1, h2, fun h => hlong (h3.mp h p hp).1⟩

/-- C53, VTK to FPMA with the numbers as they are in the second file: everything as in `C53_vtk_to_fpma_partial`, the points are the printed ones, and the
same as before exactly when no coordinate has more than six significant digits. -/
theorem C53_printed_partial (F : Vtk.File ℚ) (hF : F.Solids) (res : Nat)
    (hres : ∀ vs ∈ F.cells, ∀ p ∈ Vtk.facePolygons vs, res = 0 ∨ p.length ≤ res)
    (hcodes : F.codes.length ≤ F.cells.length) (rest : List (Vtk.VTok ℚ))
    (types : List Nat) (m0 : Mesh (Vtk.Point3 ℚ)) (hd : m0.dim = 3)
    (htwo : ∀ vs ∈ F.cells, ∀ p ∈ Vtk.facePolygons vs, Vtk.AtMostTwoFace F p)
    (hr : ∀ vs ∈ F.cells, ∀ v ∈ vs, v < F.verts.length) :
    ∃ m t ts m', ∃ bd : Idx → List Idx, Vtk.load3 res (F.tokens ++ rest) types m0 = .ok (m, t) ∧ Fpma.write m = .ok ts ∧
      Fpma.load 0 (ts.map (Tok.printed stored)) { dim := 3 } = .ok m' ∧ m'.vertices = F.verts.map (point3 stored) ∧
      (m'.vertices = F.verts ↔ SixDigits3 F.verts) ∧ m'.cells.length = F.cells.length ∧
      (∀ (c : Nat) vs, F.cells[c]? = some vs → boundaryWalk m' c = .ok (bd c) ∧ Vtk.FacesOf m'.edges (m'.midElems 2) (bd c) vs) ∧
      (∀ (c c' : Nat) vs vs' (j j' : Nat) p p', F.cells[c]? = some vs → F.cells[c']? = some vs' → (Vtk.facePolygons vs)[j]? = some p →
        (Vtk.facePolygons vs')[j']? = some p' → ((bd c)[j]? = (bd c')[j']? ↔ SameSides p p')) := by
  obtain ⟨m, t, ts, m', bd, h1, h2, h3, h4, h5, h6, h7⟩ := Vtk.C53_vtk_to_fpma_partial F hF res hres hcodes rest types m0 hd htwo hr
  refine ⟨m, t, ts, m'.withPoints (point3 stored), bd, h1, h2, fpma_printed stored h3, by rw [← h4]; rfl, ?_, h5, by simp only [walk_withPoints]; exact h6, h7⟩
  rw [← stored3_fixed, ← h4]
  rfl

/-- C53 is false of files with longer coordinates. -/
theorem C53_digits_violated (F : Vtk.File ℚ) (hF : F.Solids) (hcodes : F.codes.length ≤ F.cells.length)
    (htwo : ∀ vs ∈ F.cells, ∀ p ∈ Vtk.facePolygons vs, Vtk.AtMostTwoFace F p)
    (hr : ∀ vs ∈ F.cells, ∀ v ∈ vs, v < F.verts.length) (p : Vtk.Point3 ℚ) (hp : p ∈ F.verts) (hlong : ¬ SixDigits p.1) :
    ∃ m t ts m', Vtk.load3 0 (F.tokens ++ []) [] { dim := 3 } = .ok (m, t) ∧ Fpma.write m = .ok ts ∧
      Fpma.load 0 (ts.map (Tok.printed stored)) { dim := 3 } = .ok m' ∧ m'.vertices ≠ F.verts := by
  obtain ⟨m, t, ts, m', bd, h1, h2, h3, _, h4, _⟩ := C53_printed_partial F hF 0 (fun _ _ _ _ => Or.inl rfl) hcodes [] [] { dim := 3 } rfl htwo hr
  exact ⟨m, t, ts, m', h1, h2, h3, fun h => hlong (h4.mp h p hp).1⟩

/-- C48 is false of data with more than six digits, even in the plane: the rows that are read are not the ones that were written. -/
theorem C48_digits_violated (zero : ℚ) (m : Mesh (Vtk.Point2 ℚ)) (types : List Nat) (title : List String) (ht : Vtk.Harmless title)
    (mesh : List (Vtk.VTok ℚ)) (hm : Vtk.writeToStream2 zero m types = .ok mesh)
    (cls : Vtk.Class) (he : Vtk.Exportable 2 cls) (data dst : List (Vtk.Row ℚ))
    (hdata : Vtk.Shaped cls data) (hdst : Vtk.Shaped cls dst) (hl : dst.length = data.length)
    (r : Vtk.Row ℚ) (v : Vtk.Member ℚ) (x : ℚ) (hr : r ∈ data) (hv : v ∈ r) (hx : x ∈ v) (hlong : ¬ SixDigits x) :
    ∃ ts rows, Vtk.writeData stored zero 2 [] m.cells.length cls data = .ok ts ∧
      Vtk.readData 2 cls (Vtk.header title ++ mesh ++ ts) dst = .ok rows ∧ rows ≠ data := by
  obtain ⟨ts, h1, h2⟩ := Vtk.C48_2d stored zero m types title ht mesh hm cls he data dst (List.ne_nil_of_mem hr) hdata hdst hl
  refine ⟨ts, _, h1, h2, fun h => hlong ?_⟩
  have a := map_fixed.mp h r hr
  have b := map_fixed.mp a v hv
  exact (stored_fixed x).mp (map_fixed.mp b x hx)

/-! ## Examples -/

/-- 0.1234567 has seven digits. -/
theorem seven_digits : ¬ SixDigits (1234567 / 10000000) := by
  rw [← C59_exact]
  decide +kernel

/-- The example mesh with the positions moved by 0.1234567. -/
def longMesh : Mesh (Vtk.Point3 ℚ) :=
  Vtk.exampleMesh3.withPoints fun p => ((p.1 : ℚ) + 1234567 / 10000000, (p.2.1 : ℚ), (p.2.2 : ℚ))

theorem longMesh_valid : ValidMesh longMesh Vtk.exampleBd3 := validB_sound (by decide +kernel)

theorem longMesh_long : ((1234567 / 10000000, 0, 0) : Vtk.Point3 ℚ) ∈ longMesh.vertices := by decide +kernel

example : ∃ w ts m' t, Vtk.writeToStream3 (fun _ => false) Vtk.centerKey (fun _ => (0, 0, 0)) (fun _ => (0, 0, 0)) 1 longMesh [301, 303] {} = .ok (w, ts) ∧
    Vtk.load3 0 ((Vtk.header [] ++ ts).map (Vtk.VTok.printed stored)) [] { dim := 3 } = .ok (m', t) ∧ m'.vertices ≠ longMesh.vertices :=
  C51_digits_violated _ _ _ _ 1 longMesh Vtk.exampleBd3 Vtk.exampleVert [301, 303] {} (by decide) rfl longMesh_valid
    ⟨Vtk.exampleMesh3_numbered.cells, Vtk.exampleMesh3_numbered.faces⟩ (by decide +kernel)
    (fun i t hi => by
      obtain ⟨a, b, c⟩ := Vtk.exampleMesh3_facts.1 i t hi
      exact ⟨a, b, c⟩)
    Vtk.exampleMesh3_facts.2 (by decide +kernel) _ longMesh_long seven_digits []

theorem longMesh_polygons : ∃ poly : Idx → List Idx, ∀ (i : Nat) f, (longMesh.midElems 2)[i]? = some f → IsPolygon longMesh.edges f.sub (poly i) := by
  obtain ⟨t, ht⟩ := Vtk.exampleMesh3_load
  obtain ⟨m, t', h1, _, _, _, _, _, _, h8, _⟩ := Vtk.C25_load Vtk.exampleFile3 Vtk.exampleFile3_solids 4 (by decide)
    (by decide) [] [] { dim := 3 } rfl
  rw [List.append_nil, ht] at h1
  cases h1
  have : ∀ i : Nat, ∃ p, ∀ f, (Vtk.exampleMesh3.midElems 2)[i]? = some f → IsPolygon Vtk.exampleMesh3.edges f.sub p := by
    intro i
    cases h : (Vtk.exampleMesh3.midElems 2)[i]? with
    | none => exact ⟨[], fun f hf => by cases hf⟩
    | some f =>
      obtain ⟨p, hp, _⟩ := h8 f (List.mem_of_getElem? h)
      exact ⟨p, fun f' hf => by cases hf; exact hp⟩
  choose poly hpoly using this
  exact ⟨poly, hpoly⟩

example : ∃ ts m', Fpma.write longMesh = .ok ts ∧ Fpma.load 0 (ts.map (Tok.printed stored)) { dim := 3 } = .ok m' ∧ m'.vertices ≠ longMesh.vertices := by
  obtain ⟨poly, hpoly⟩ := longMesh_polygons
  exact C21_digits_violated longMesh Vtk.exampleBd3 poly rfl longMesh_valid hpoly (by decide +kernel) (by decide +kernel) _ longMesh_long seven_digits

example : ∃ (m : Mesh (Vtk.Point2 ℚ)) (mesh ts : List (Vtk.VTok ℚ)) (rows : List (Vtk.Row ℚ)), Vtk.writeToStream2 0 m [] = .ok mesh ∧
    Vtk.writeData stored 0 2 [] m.cells.length [(["p"], .scalar)] [[[1 / 3]]] = .ok ts ∧
    Vtk.readData 2 [(["p"], .scalar)] (Vtk.header [] ++ mesh ++ ts) [[[0]]] = .ok rows ∧ rows ≠ [[[1 / 3]]] := by
  have hsh : ∀ x : ℚ, Vtk.Shaped [(["p"], .scalar)] [[[x]]] := by
    intro x r hr
    obtain rfl := List.mem_singleton.mp hr
    refine ⟨rfl, fun i c v hc hv => ?_⟩
    have hi : i = 0 := by have := (List.getElem?_eq_some_iff.mp hc).1; simp at this; omega
    subst hi
    cases hc
    cases hv
    rfl
  obtain ⟨ts, rows, h⟩ := C48_digits_violated 0 { dim := 2 } [] [] (fun w hw => by cases hw) _ rfl [(["p"], .scalar)] ⟨by simp, by simp, by simp, by simp⟩
    [[[1 / 3]]] [[[0]]] (hsh _) (hsh _) rfl [[1 / 3]] [1 / 3] (1 / 3) (by simp) (by simp) (by simp) (by rw [← C59_exact]; decide +kernel)
  exact ⟨{ dim := 2 }, _, ts, rows, rfl, h⟩

/-- Two different numbers that become the same. -/
example : stored (1000001 / 10) ≠ 1000001 / 10 ∧ stored (1000001 / 10) = stored (1000002 / 10) := by decide +kernel

end GTMesh
