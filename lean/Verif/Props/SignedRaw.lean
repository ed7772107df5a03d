import Verif.Model.SignedRaw
import Verif.Props.Signed

/-! # C85: the signature and the bytes that belong to no member -/

namespace GTMesh
open GTMesh.Vtk GTMesh.Props
variable {V : Type}

/-- Hash functions that see the bytes between the members of cells. -/
def sumPads : RawHasher V where
  idx _ := 0
  cells l := (l.map (·.2)).sum
  faces _ _ := 0
  edges _ := 0
  vertices _ := 0

/-- Hash functions that see the unused places of static lists. -/
def sumRest : RawHasher V where
  idx _ := 0
  cells _ := 0
  faces _ l := (l.map fun p => p.2.1.sum).sum
  edges _ := 0
  vertices _ := 0

theorem xor_ne {a b c : Nat} (h : a ≠ b) : a ^^^ c ≠ b ^^^ c := by
  intro e
  apply h
  have := congrArg (· ^^^ c) e
  simpa [Nat.xor_assoc] using this

theorem sigDown_congr (H K : Hasher V) (h1 : H.idx = K.idx) (h2 : H.faces = K.faces) (h3 : H.edges = K.edges) (h4 : H.vertices = K.vertices)
    (reserves : List Nat) (m : Mesh V) : ∀ d, sigDown H reserves m d = sigDown K reserves m d
  | 0 => by simp only [sigDown, h4]
  | 1 => by simp only [sigDown, h3, h4]
  | d + 2 => by simp only [sigDown, sigFaces, h1, h2]; rw [sigDown_congr H K h1 h2 h3 h4 reserves m (d + 1)]

theorem mem_le_sum (x : Nat) : ∀ l : List Nat, x ∈ l → x ≤ l.sum
  | a :: l, h => by
    rw [List.sum_cons]
    rcases List.mem_cons.mp h with rfl | h
    · omega
    · have := mem_le_sum x l h
      omega

theorem padding_seen (k : Nat) (reserves : List Nat) (m : Mesh V) (hc : m.cells ≠ []) :
    ∃ mem mem' : Memory, signature (sumPads.within k mem) reserves m ≠ signature (sumPads.within k mem') reserves m := by
  refine ⟨⟨fun _ _ => 0, fun _ _ => []⟩, ⟨fun _ _ => 1, fun _ _ => []⟩, ?_⟩
  unfold signature
  rw [sigDown_congr (sumPads.within k ⟨fun _ _ => 1, fun _ _ => []⟩) (sumPads.within k ⟨fun _ _ => 0, fun _ _ => []⟩) rfl rfl rfl rfl]
  apply xor_ne
  have : m.cells.length ≠ 0 := by simpa using hc
  simp only [RawHasher.within, sumPads, List.map_map, Function.comp_def, List.map_const', List.length_zipIdx, List.sum_replicate_nat]
  omega

/-- C85, false of the code wherever a cell has bytes between its members: for some hash functions, every mesh with a cell has two signatures, according to bytes that
belong to no member. -/
theorem C85_padding_violated (reserves : List Nat) (m : Mesh V) (hc : m.cells ≠ []) :
    ∃ mem mem' : Memory, signatureRaw sumPads mem reserves m ≠ signatureRaw sumPads mem' reserves m := padding_seen _ _ _ hc

/-- C85, false of the code with a static reserve: for some hash functions, every 3D mesh with a face of fewer edges than the reserve has two signatures, according to places
of the list of edges that were never written. -/
theorem C85_reserve_violated (reserve : Nat) (m : Mesh V) (hd : m.dim = 3) (f : Face) (hf : f ∈ m.midElems 2) (hl : f.sub.length < reserve) :
    ∃ mem mem' : Memory, (∀ d i, (mem.rest d i).length = reserve ∧ (mem'.rest d i).length = reserve) ∧
      signatureRaw sumRest mem [reserve] m ≠ signatureRaw sumRest mem' [reserve] m := by
  refine ⟨⟨fun _ _ => 0, fun _ _ => List.replicate reserve 0⟩, ⟨fun _ _ => 0, fun _ _ => List.replicate reserve 1⟩, fun _ _ => by simp, ?_⟩
  have hr : reserveOf m.dim [reserve] 2 = reserve := by rw [hd]; rfl
  have hpos : 0 < reserve := by omega
  have expand : ∀ mem : Memory, signatureRaw sumRest mem [reserve] m =
      (((m.midElems 2).zipIdx.map fun p => ((mem.rest 2 p.2).drop p.1.sub.length).sum)).sum := by
    intro mem
    unfold signatureRaw signature
    rw [show m.dim - 1 = 0 + 2 by omega]
    simp only [sigDown, sigFaces]
    rw [show (0 + 2 : Nat) = 2 from rfl, hr, if_pos hpos]
    simp [RawHasher.within, sumRest, Function.comp_def]
  rw [expand, expand]
  simp only [List.drop_replicate, List.sum_replicate_nat, Nat.mul_zero, Nat.mul_one]
  obtain ⟨i, hi⟩ := List.mem_iff_getElem?.mp hf
  intro e
  have hz : (((m.midElems 2).zipIdx.map fun _ => 0)).sum = 0 := by simp [List.map_const', List.sum_replicate_nat]
  rw [hz] at e
  have := mem_le_sum (reserve - f.sub.length) ((m.midElems 2).zipIdx.map fun p => reserve - p.1.sub.length)
    (List.mem_map.mpr ⟨(f, i), List.mem_zipIdx_iff_getElem?.mpr hi, rfl⟩)
  omega

example : ∃ mem mem' : Memory, signatureRaw sumPads mem [4] ({ dim := 3, cells := [{}] } : Mesh (Point3 Int)) ≠
    signatureRaw sumPads mem' [4] ({ dim := 3, cells := [{}] } : Mesh (Point3 Int)) := C85_padding_violated [4] _ (by simp)

/-- C85, false of the code: for some hash functions, any 3D VTK file with a cell gives two new meshes different signatures, according to the bytes between the members
of their cells. -/
theorem C85_same_file_violated {R : Type} [Zero R] (reserves : List Nat) (ts : List (VTok R)) (types : List Nat) (r : Mesh (Point3 R) × List Nat)
    (h : load3 (reserveOf 3 reserves 2) ts types { dim := 3, mids := [[]] } = .ok r) (hc : r.1.cells ≠ []) :
    ∃ mem mem' a b na nb, load3Signed ((sumPads (V := Point3 R)).within 3 mem) reserves ts types { mesh := { dim := 3, mids := [[]] } } = .ok a ∧
      load3Signed ((sumPads (V := Point3 R)).within 3 mem') reserves ts types { mesh := { dim := 3, mids := [[]] } } = .ok b ∧
      a.getSignature = .ok na ∧ b.getSignature = .ok nb ∧ na ≠ nb := by
  obtain ⟨mem, mem', hne⟩ := padding_seen 3 reserves r.1 hc
  have hrun : load3Run (reserveOf 3 reserves 2) ts types ({ dim := 3, mids := [[]] } : Mesh (Point3 R)) = .ok r :=
    Run.eq_of_res_ok ((load3Run_res _ _ _ _).trans h)
  have hload : ∀ H : Hasher (Point3 R), load3Signed H reserves ts types { mesh := { dim := 3, mids := [[]] } } = .ok { mesh := r.1, sig := some (signature H reserves r.1) } := by
    intro H
    unfold load3Signed
    rw [hrun]
    rfl
  exact ⟨mem, mem', _, _, _, _, hload _, hload _, rfl, rfl, hne⟩

example : ∃ mem mem' a b na nb, load3Signed ((sumPads (V := Point3 Int)).within 3 mem) [4] exampleFile3.tokens [] { mesh := { dim := 3, mids := [[]] } } = .ok a ∧
      load3Signed ((sumPads (V := Point3 Int)).within 3 mem') [4] exampleFile3.tokens [] { mesh := { dim := 3, mids := [[]] } } = .ok b ∧
      a.getSignature = .ok na ∧ b.getSignature = .ok nb ∧ na ≠ nb := by
  obtain ⟨r, h⟩ : ∃ r, load3 (reserveOf 3 [4] 2) exampleFile3.tokens [] ({ dim := 3, mids := [[]] } : Mesh (Point3 Int)) = .ok r := ⟨_, rfl⟩
  exact C85_same_file_violated [4] _ [] r h (by cases h; decide)

end GTMesh
