import Verif.Model.Index

namespace GTMesh.Bits

variable {w d : Nat}

theorem boundary_getLsbD (hd : 2 ≤ d) (hdw : d ≤ w) (j : Nat) :
    (BOUNDARY w d).getLsbD j = decide (j = d - 1) := by
  unfold BOUNDARY
  rw [BitVec.getLsbD_shiftLeft, BitVec.getLsbD_one]
  by_cases h : j = d - 1
  · subst h; simp; omega
  · simp [h]; omega

theorem lt_getLsbD (n : BitVec w) (hn : n.toNat < 2 ^ (d - 1)) {j : Nat} (hj : d - 1 ≤ j) :
    n.getLsbD j = false := by
  rw [BitVec.getLsbD]
  exact Nat.testBit_lt_two_pow (Nat.lt_of_lt_of_le hn (Nat.pow_le_pow_right (by omega) hj))

theorem isBoundary_iff (hd : 2 ≤ d) (hdw : d ≤ w) (i : BitVec w) :
    isBoundaryIndex d i = i.getLsbD (d - 1) := by
  unfold isBoundaryIndex
  rw [Bool.eq_iff_iff, beq_iff_eq]
  constructor
  · intro h
    have := congrArg (fun v => v.getLsbD (d - 1)) h
    simpa [boundary_getLsbD hd hdw] using this
  · intro h
    apply BitVec.eq_of_getLsbD_eq
    intro j hj
    rw [BitVec.getLsbD_and, boundary_getLsbD hd hdw]
    by_cases hj' : j = d - 1
    · subst hj'; simp [h]
    · simp [hj']

theorem make_getLsbD (hd : 2 ≤ d) (hdw : d ≤ w) (i : BitVec w) (j : Nat) :
    (makeBoundaryIndex d i).getLsbD j = (decide (j = d - 1) || i.getLsbD j) := by
  unfold makeBoundaryIndex
  rw [BitVec.getLsbD_or, boundary_getLsbD hd hdw]

theorem extract_getLsbD (hd : 2 ≤ d) (hdw : d ≤ w) (i : BitVec w) (j : Nat) :
    (extractBoundaryIndex d i).getLsbD j = (!decide (j = d - 1) && i.getLsbD j) := by
  unfold extractBoundaryIndex EXTRACTING
  rw [BitVec.getLsbD_and, BitVec.getLsbD_not, boundary_getLsbD hd hdw]
  by_cases hj : j < w
  · simp [hj]
  · have : i.getLsbD j = false := BitVec.getLsbD_of_ge _ _ (by omega)
    simp [this]

theorem extract_make (hd : 2 ≤ d) (hdw : d ≤ w) (n : BitVec w) (hn : n.toNat < 2 ^ (d - 1)) :
    extractBoundaryIndex d (makeBoundaryIndex d n) = n := by
  apply BitVec.eq_of_getLsbD_eq
  intro j hj
  rw [extract_getLsbD hd hdw, make_getLsbD hd hdw]
  by_cases hj' : j = d - 1
  · subst hj'; simp [lt_getLsbD n hn (Nat.le_refl _)]
  · simp [hj']

theorem extract_of_lt (hd : 2 ≤ d) (hdw : d ≤ w) (n : BitVec w) (hn : n.toNat < 2 ^ (d - 1)) :
    extractBoundaryIndex d n = n := by
  apply BitVec.eq_of_getLsbD_eq
  intro j hj
  rw [extract_getLsbD hd hdw]
  by_cases hj' : j = d - 1
  · subst hj'; simp [lt_getLsbD n hn (Nat.le_refl _)]
  · simp [hj']

theorem isBoundary_make (hd : 2 ≤ d) (hdw : d ≤ w) (n : BitVec w) :
    isBoundaryIndex d (makeBoundaryIndex d n) = true := by
  rw [isBoundary_iff hd hdw, make_getLsbD hd hdw]; simp

theorem isBoundary_of_lt (hd : 2 ≤ d) (hdw : d ≤ w) (n : BitVec w) (hn : n.toNat < 2 ^ (d - 1)) :
    isBoundaryIndex d n = false := by
  rw [isBoundary_iff hd hdw, lt_getLsbD n hn (Nat.le_refl _)]

theorem isBoundary_extract (hd : 2 ≤ d) (hdw : d ≤ w) (i : BitVec w) :
    isBoundaryIndex d (extractBoundaryIndex d i) = false := by
  rw [isBoundary_iff hd hdw, extract_getLsbD hd hdw]; simp

theorem make_of_boundary (hd : 2 ≤ d) (hdw : d ≤ w) (i : BitVec w)
    (h : isBoundaryIndex d i = true) : makeBoundaryIndex d i = i := by
  rw [isBoundary_iff hd hdw] at h
  apply BitVec.eq_of_getLsbD_eq
  intro j hj
  rw [make_getLsbD hd hdw]
  by_cases hj' : j = d - 1
  · subst hj'; simp [h]
  · simp [hj']

theorem make_extract (hd : 2 ≤ d) (hdw : d ≤ w) (i : BitVec w)
    (h : isBoundaryIndex d i = true) :
    makeBoundaryIndex d (extractBoundaryIndex d i) = i := by
  rw [isBoundary_iff hd hdw] at h
  apply BitVec.eq_of_getLsbD_eq
  intro j hj
  rw [make_getLsbD hd hdw, extract_getLsbD hd hdw]
  by_cases hj' : j = d - 1
  · subst hj'; simp [h]
  · simp [hj']

theorem invalid_toNat (hdw : d ≤ w) : (INVALID w d).toNat = 2 ^ d - 1 := by
  unfold INVALID
  rw [BitVec.toNat_ofNat]
  apply Nat.mod_eq_of_lt
  have := Nat.pow_le_pow_right (n := 2) (by omega) hdw
  have := Nat.pow_pos (n := d) (a := 2) (by omega)
  omega

theorem two_pow_pred (hd : 2 ≤ d) : 2 ^ d = 2 * 2 ^ (d - 1) := by
  rw [← Nat.pow_succ']; congr 1; omega

theorem boundary_toNat (hd : 2 ≤ d) (hdw : d ≤ w) : (BOUNDARY w d).toNat = 2 ^ (d - 1) := by
  apply Nat.eq_of_testBit_eq
  intro j
  have := boundary_getLsbD hd hdw j
  rw [BitVec.getLsbD] at this
  rw [this, Nat.testBit_two_pow]
  simp [eq_comm]

theorem make_toNat (hd : 2 ≤ d) (hdw : d ≤ w) (n : BitVec w) (hn : n.toNat < 2 ^ (d - 1)) :
    (makeBoundaryIndex d n).toNat = 2 ^ (d - 1) + n.toNat := by
  unfold makeBoundaryIndex
  rw [BitVec.toNat_or, boundary_toNat hd hdw]
  have := Nat.two_pow_add_eq_or_of_lt hn 1
  simpa using this.symm

theorem not_invalid_of_lt (hd : 2 ≤ d) (hdw : d ≤ w) (n : BitVec w) (hn : n.toNat < 2 ^ (d - 1)) :
    isInvalidIndex d n = false := by
  unfold isInvalidIndex
  rw [beq_eq_false_iff_ne]
  intro h
  rw [h, invalid_toNat hdw, two_pow_pred hd] at hn
  have : 2 ^ 1 ≤ 2 ^ (d - 1) := Nat.pow_le_pow_right (by omega) (by omega)
  omega

theorem invalid_make_iff (hd : 2 ≤ d) (hdw : d ≤ w) (n : BitVec w) (hn : n.toNat < 2 ^ (d - 1)) :
    isInvalidIndex d (makeBoundaryIndex d n) = true ↔ n.toNat = 2 ^ (d - 1) - 1 := by
  unfold isInvalidIndex
  rw [beq_iff_eq, ← BitVec.toNat_inj, make_toNat hd hdw n hn, invalid_toNat hdw, two_pow_pred hd]
  omega

theorem isBoundary_invalid (hd : 2 ≤ d) (hdw : d ≤ w) :
    isBoundaryIndex d (INVALID w d) = true := by
  rw [isBoundary_iff hd hdw, BitVec.getLsbD, invalid_toNat hdw, Nat.testBit_two_pow_sub_one]
  simp; omega

theorem isBoundary_iff_le (i : BitVec 64) :
    isBoundaryIndex 64 i = decide (2 ^ 63 ≤ i.toNat) := by
  rw [isBoundary_iff (by omega) (by omega), BitVec.getLsbD, Nat.testBit_eq_decide_div_mod_eq]
  have := i.isLt
  apply decide_eq_decide.mpr
  simp only [Nat.reduceSub]
  omega

theorem nat_model (i : BitVec 64) :
    (Bits.INVALID 64 64).toNat = GTMesh.INVALID
    ∧ Bits.isInvalidIndex 64 i = GTMesh.isInvalidIndex i.toNat
    ∧ Bits.isBoundaryIndex 64 i = GTMesh.isBoundaryIndex i.toNat
    ∧ (Bits.makeBoundaryIndex 64 i).toNat = GTMesh.makeBoundaryIndex i.toNat
    ∧ (Bits.extractBoundaryIndex 64 i).toNat = GTMesh.extractBoundaryIndex i.toNat := by
  have hlt := i.isLt
  have hinv : (Bits.INVALID 64 64).toNat = GTMesh.INVALID := by
    rw [invalid_toNat (by omega)]; rfl
  have hb : Bits.isBoundaryIndex 64 i = GTMesh.isBoundaryIndex i.toNat := by
    rw [isBoundary_iff_le]; rfl
  have hm : (Bits.makeBoundaryIndex 64 i).toNat = GTMesh.makeBoundaryIndex i.toNat := by
    unfold GTMesh.makeBoundaryIndex
    split
    · next h =>
      rw [make_of_boundary (by omega) (by omega) i]
      rw [hb]; simpa [GTMesh.isBoundaryIndex] using h
    · next h =>
      rw [make_toNat (by omega) (by omega) i (by simp [GTMesh.BOUNDARY] at h; omega)]
      rfl
  refine ⟨hinv, ?_, hb, hm, ?_⟩
  · unfold Bits.isInvalidIndex GTMesh.isInvalidIndex
    rw [Bool.eq_iff_iff, beq_iff_eq, beq_iff_eq, ← BitVec.toNat_inj, hinv]
  · unfold GTMesh.extractBoundaryIndex
    split
    · next h =>
      have hbi : Bits.isBoundaryIndex 64 i = true := by
        rw [hb]; simpa [GTMesh.isBoundaryIndex] using h
      have h1 := make_extract (by omega) (by omega) i hbi
      have h2 := isBoundary_extract (d := 64) (by omega) (by omega) i
      rw [isBoundary_iff_le] at h2
      have h3 := make_toNat (d := 64) (by omega) (by omega) (extractBoundaryIndex 64 i)
        (by simpa using h2)
      rw [h1] at h3
      simp only [Nat.reduceSub, Nat.reducePow] at h3
      simp only [GTMesh.BOUNDARY]
      omega
    · next h =>
      rw [extract_of_lt (by omega) (by omega) i (by simp [GTMesh.BOUNDARY] at h; omega)]

end GTMesh.Bits
