import Verif.Model.Index
import Verif.Proofs.Index

/-! # C01: boundary index encoding -/

namespace GTMesh.Props
open GTMesh

/-- C01. For every index type (width `w`, `d` value bits, `2 ≤ d ≤ w`) and every cell number `n` that fits
below the flag bit: tagging is undone by untagging, the tagged index tests as boundary, the untagged
one does not, and neither is the invalid index, except for the tag of the very largest number, which
collides with it. -/
theorem C01_boundary_tag (w d : Nat) (hd : 2 ≤ d) (hdw : d ≤ w) (n : BitVec w)
    (hn : n.toNat < 2 ^ (d - 1)) :
    Bits.extractBoundaryIndex d (Bits.makeBoundaryIndex d n) = n
    ∧ Bits.extractBoundaryIndex d n = n
    ∧ Bits.isBoundaryIndex d (Bits.makeBoundaryIndex d n) = true
    ∧ Bits.isBoundaryIndex d n = false
    ∧ Bits.isInvalidIndex d n = false
    ∧ (Bits.isInvalidIndex d (Bits.makeBoundaryIndex d n) = true ↔ n.toNat = 2 ^ (d - 1) - 1) := by
  refine ⟨Bits.extract_make hd hdw n hn, Bits.extract_of_lt hd hdw n hn,
    Bits.isBoundary_make hd hdw n, Bits.isBoundary_of_lt hd hdw n hn, ?_, ?_⟩
  · exact Bits.not_invalid_of_lt hd hdw n hn
  · exact Bits.invalid_make_iff hd hdw n hn

example : (2:Nat) ≤ 32 ∧ (32:Nat) ≤ 32 ∧ ((5#32).toNat < 2 ^ (32 - 1)) := by decide

/-- C01. Different numbers never share a tagged value. -/
theorem C01_tag_injective (w d : Nat) (hd : 2 ≤ d) (hdw : d ≤ w) (a b : BitVec w)
    (ha : a.toNat < 2 ^ (d - 1)) (hb : b.toNat < 2 ^ (d - 1))
    (h : Bits.makeBoundaryIndex d a = Bits.makeBoundaryIndex d b) : a = b := by
  have := Bits.extract_make hd hdw a ha
  rw [h, Bits.extract_make hd hdw b hb] at this
  exact this.symm

/-- C01. For every index value, without any range assumption: a value tests as boundary exactly when it is
a tagged value, re-tagging the untagged value restores it; the invalid index tests as boundary. -/
theorem C01_retag (w d : Nat) (hd : 2 ≤ d) (hdw : d ≤ w) :
    (∀ i : BitVec w, Bits.isBoundaryIndex d i = true ↔ ∃ n, i = Bits.makeBoundaryIndex d n)
    ∧ (∀ i : BitVec w, Bits.isBoundaryIndex d i = true →
        Bits.makeBoundaryIndex d (Bits.extractBoundaryIndex d i) = i)
    ∧ (∀ i : BitVec w, Bits.isBoundaryIndex d (Bits.extractBoundaryIndex d i) = false)
    ∧ Bits.isBoundaryIndex d (Bits.INVALID w d) = true := by
  refine ⟨fun i => ⟨fun h => ⟨i, (Bits.make_of_boundary hd hdw i h).symm⟩, ?_⟩, ?_, ?_, ?_⟩
  · rintro ⟨n, rfl⟩; exact Bits.isBoundary_make hd hdw n
  · exact Bits.make_extract hd hdw
  · exact Bits.isBoundary_extract hd hdw
  · exact Bits.isBoundary_invalid hd hdw

/-- C01. The arithmetic version used by the rest of the model is the 64-bit instance of the bit-level
functions. -/
theorem C01_nat_model (i : BitVec 64) :
    (Bits.INVALID 64 64).toNat = INVALID
    ∧ Bits.isInvalidIndex 64 i = isInvalidIndex i.toNat
    ∧ Bits.isBoundaryIndex 64 i = isBoundaryIndex i.toNat
    ∧ (Bits.makeBoundaryIndex 64 i).toNat = makeBoundaryIndex i.toNat
    ∧ (Bits.extractBoundaryIndex 64 i).toNat = extractBoundaryIndex i.toNat := by
  exact Bits.nat_model i

end GTMesh.Props
