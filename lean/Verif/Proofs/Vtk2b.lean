import Verif.Proofs.Vtk2
import Verif.Proofs.Fpma
import Verif.Props.DataContainer

namespace GTMesh.Vtk

open Spec GTMesh.Fpma GTMesh.Props
variable {R : Type}

/-! ## Sides of a polygon -/

theorem per_pair_inj {vs : List Idx} (hn : vs.Nodup) (h3 : 3 ≤ vs.length) {y z : Int}
    (h : SamePair (per vs y, per vs (y + 1)) (per vs z, per vs (z + 1))) : y % vs.length = z % vs.length := by
  have hne : vs ≠ [] := by rintro rfl; simp at h3
  rcases h with h | h
  · simp only [Prod.mk.injEq] at h
    exact per_inj hn hne h.1
  · simp only at h
    have h1 : Int.ModEq vs.length y (z + 1) := per_inj hn hne h.1
    have h2 : Int.ModEq vs.length (y + 1) z := per_inj hn hne h.2
    exfalso
    have h4 : Int.ModEq vs.length (z + 2) z := by
      have := (h1.add_right 1).symm
      have e : z + 1 + 1 = z + 2 := by omega
      rw [e] at this
      exact this.trans h2
    have h5 := h4.symm.dvd
    have e : z + 2 - z = 2 := by omega
    rw [e] at h5
    have := Int.le_of_dvd (by omega) h5
    omega

/-- The edges of a polygon with at least three sides are pairwise different. -/
theorem EdgesOf.nodup {es : List Edge} {l vs : List Idx} (h : EdgesOf es l vs) (hn : vs.Nodup)
    (h3 : 3 ≤ vs.length) : NoRepetition l := by
  have hne : vs ≠ [] := by rintro rfl; simp at h3
  unfold NoRepetition
  rw [← List.Nodup.eq_1, List.nodup_iff_injective_get]
  rintro ⟨i, hi⟩ ⟨j, hj⟩ hij
  simp only [List.get_eq_getElem] at hij
  rw [h.1] at hi hj
  obtain ⟨e, u, v, a1, a2, a3, ed, a4, a5⟩ := h.2 i hi
  obtain ⟨e', u', v', b1, b2, b3, ed', b4, b5⟩ := h.2 j hj
  have hee : e = e' := by
    rw [List.getElem?_eq_getElem (by rw [h.1]; exact hi)] at a1
    rw [List.getElem?_eq_getElem (by rw [h.1]; exact hj)] at b1
    rw [← Option.some.inj a1, ← Option.some.inj b1, hij]
  subst hee
  rw [a4] at b4
  cases b4
  rw [cyc_eq_per hne] at a2 a3 b2 b3
  rw [← Option.some.inj a2, ← Option.some.inj a3] at a5
  rw [← Option.some.inj b2, ← Option.some.inj b3] at b5
  push_cast at a5 b5
  have := per_pair_inj hn h3 (SamePair.trans (SamePair.symm a5) b5)
  rw [Int.emod_eq_of_lt (by omega) (by omega), Int.emod_eq_of_lt (by omega) (by omega)] at this
  simp; omega

/-- An edge belongs to the list of a polygon exactly when it is one of its sides. -/
theorem EdgesOf.mem_iff {es : List Edge} {l vs : List Idx} (h : EdgesOf es l vs)
    (hu : ∀ (i j : Nat) e e', es[i]? = some e → es[j]? = some e' → SamePair (e.a, e.b) (e'.a, e'.b) → i = j)
    {i : Nat} {e : Edge} (hi : es[i]? = some e) : i ∈ l ↔ HasSide vs e.a e.b := by
  constructor
  · intro hm
    obtain ⟨j, hj⟩ := List.getElem?_of_mem hm
    have hlt := (List.getElem?_eq_some_iff.mp hj).1
    obtain ⟨i', u, v, h1, h2, h3, ed, h4, h5⟩ := h.2 j (by rw [← h.1]; exact hlt)
    rw [hj] at h1
    cases h1
    rw [hi] at h4
    cases h4
    exact ⟨j, u, v, by rw [← h.1]; exact hlt, h2, h3, SamePair.symm h5⟩
  · rintro ⟨j, a, b, hj, ha, hb, hs⟩
    obtain ⟨i', u, v, h1, h2, h3, ed, h4, h5⟩ := h.2 j hj
    rw [ha] at h2; rw [hb] at h3
    cases h2; cases h3
    have := hu i i' e ed hi h4 (SamePair.trans (SamePair.symm hs) (SamePair.symm h5))
    rw [this]
    exact List.mem_of_getElem? h1

/-! ## Cells in a history -/

theorem histOf_increasing (f : Idx) : ∀ (ls : List (List Idx)) (k : Nat), (∀ l ∈ ls, NoRepetition l) →
    ((histOf f (chainCalls k ls)).map (·.2)).Pairwise (· < ·) ∧
    ∀ c, c ∈ (histOf f (chainCalls k ls)).map (·.2) ↔ ∃ (i : Nat) (l : List Idx), ls[i]? = some l ∧ f ∈ l ∧ c = k + i := by
  intro ls
  induction ls with
  | nil => intro k _; simp [chainCalls, histOf]
  | cons l ls ih =>
    intro k hn
    obtain ⟨h1, h2⟩ := ih (k + 1) fun l hl => hn l (by simp [hl])
    simp only [chainCalls, histOf_append, histOf_cell, List.map_append]
    have hc : ∀ c ∈ (histOf f (chainCalls (k + 1) ls)).map (·.2), k < c := by
      intro c hc
      obtain ⟨i, l, _, _, rfl⟩ := (h2 c).mp hc
      omega
    have hrec : ∀ c, (∃ (i : Nat) (l' : List Idx), (l :: ls)[i]? = some l' ∧ f ∈ l' ∧ c = k + i) ↔
        (f ∈ l ∧ c = k) ∨ (∃ (i : Nat) (l' : List Idx), ls[i]? = some l' ∧ f ∈ l' ∧ c = k + 1 + i) := by
      intro c
      constructor
      · rintro ⟨i, l', a1, a2, a3⟩
        cases i with
        | zero => simp at a1; subst a1; exact Or.inl ⟨a2, a3⟩
        | succ i => exact Or.inr ⟨i, l', by simpa using a1, a2, by omega⟩
      · rintro (⟨a, b⟩ | ⟨i, l', a1, a2, a3⟩)
        · exact ⟨0, l, by simp, a, by omega⟩
        · exact ⟨i + 1, l', by simpa using a1, a2, by omega⟩
    by_cases hf : f ∈ l
    · obtain ⟨j, hj, hjf⟩ := List.mem_iff_getElem.mp hf
      obtain ⟨u, v, hu1, hu2, hu3⟩ := consecutive_get l j hj
      have hu : u = f := by
        rw [cyc, Nat.mod_eq_of_lt hj, List.getElem?_eq_getElem hj] at hu2
        rw [← hjf]; exact (Option.some.inj hu2).symm
      subst hu
      rw [consecutive_filter (hn l (by simp)) hj hu2 hu3]
      refine ⟨?_, ?_⟩
      · simp only [List.map_cons, List.map_nil, List.cons_append, List.nil_append, List.pairwise_cons]
        exact ⟨hc, h1⟩
      · intro c
        rw [hrec c, ← h2 c]
        simp [hf]
    · rw [consecutive_filter_nil hf]
      refine ⟨by simpa using h1, ?_⟩
      intro c
      rw [hrec c, ← h2 c]
      simp [hf]

/-- Left and right cell after a history. -/
theorem connOf_sides {h : List (Idx × Idx)} (hinc : (h.map (·.2)).Pairwise (· < ·)) (hne : h ≠ []) :
    ∃ c ∈ h.map (·.2), (connOf h).left = c ∧ (∀ c' ∈ h.map (·.2), c ≤ c') ∧
      ((h.length = 1 ∧ (connOf h).right = INVALID) ∨
       (∃ r ∈ h.map (·.2), c < r ∧ (connOf h).right = r ∧ ∀ c' ∈ h.map (·.2), c' ≤ r)) := by
  cases h with
  | nil => exact absurd rfl hne
  | cons p h =>
    obtain ⟨g, c⟩ := p
    have hp := List.pairwise_cons.mp hinc
    refine ⟨c, by simp, ?_, ?_, ?_⟩
    · simp only [connOf]; split <;> rfl
    · intro c' hc'
      rcases List.mem_cons.mp hc' with h' | h'
      · exact Nat.le_of_eq h'.symm
      · exact Nat.le_of_lt (hp.1 c' h')
    · cases hl : h.getLast? with
      | none =>
        left
        have : h = [] := by simpa using hl
        subst this
        exact ⟨rfl, rfl⟩
      | some q =>
        right
        obtain ⟨g', c2⟩ := q
        have hne' : h ≠ [] := by rintro rfl; simp at hl
        have hlast : (g', c2) = h.getLast hne' := by
          rw [List.getLast?_eq_some_getLast hne'] at hl
          exact (Option.some.inj hl).symm
        have hm2 : (g', c2) ∈ h := hlast ▸ List.getLast_mem hne'
        have hm : c2 ∈ h.map (·.2) := List.mem_map.mpr ⟨(g', c2), hm2, rfl⟩
        refine ⟨c2, by simp only [List.map_cons, List.mem_cons]; exact Or.inr hm, hp.1 c2 hm, ?_, ?_⟩
        · simp only [connOf]; rw [hl]
        · intro c' hc'
          rcases List.mem_cons.mp hc' with h' | h'
          · rw [h']; exact Nat.le_of_lt (hp.1 c2 hm)
          · have hdec : h = h.dropLast ++ [(g', c2)] := by rw [hlast]; exact (List.dropLast_concat_getLast hne').symm
            have hp2 := hp.2
            rw [hdec, List.map_append, List.pairwise_append] at hp2
            rw [hdec, List.map_append, List.mem_append] at h'
            rcases h' with h' | h'
            · exact Nat.le_of_lt (hp2.2.2 c' h' c2 (by simp))
            · simp at h'; exact Nat.le_of_eq h'

/-! ## The whole file -/

theorem storeTypes_spec (conv : Nat → Option Nat) : ∀ (codes : List Nat) (k : Nat) (types : List Nat),
    k + codes.length ≤ types.length → ∃ t, storeTypes conv k codes types = .ok t ∧ t.length = types.length ∧
      (∀ (i : Nat), i < k → t[i]? = types[i]?) ∧ (∀ (i : Nat), k + codes.length ≤ i → t[i]? = types[i]?) ∧
      ∀ (i : Nat) c, codes[i]? = some c → t[k + i]? = (conv c).or types[k + i]? := by
  intro codes
  induction codes with
  | nil => intro k types _; exact ⟨types, rfl, rfl, fun _ _ => rfl, fun _ _ => rfl, by simp⟩
  | cons c codes ih =>
    intro k types hl
    simp only [List.length_cons] at hl
    cases hc : conv c with
    | none =>
      obtain ⟨t, h1, h2, h3, h4, h5⟩ := ih (k + 1) types (by omega)
      refine ⟨t, ?_, h2, fun i hi => h3 i (by omega), fun i hi => h4 i (by simp at hi; omega), ?_⟩
      · simp only [storeTypes, hc]; exact h1
      · intro i c' hi
        cases i with
        | zero =>
          simp only [List.getElem?_cons_zero, Option.some.injEq] at hi
          subst hi
          rw [hc]; simpa using h3 k (by omega)
        | succ i =>
          have := h5 i c' (by simpa using hi)
          rwa [show k + 1 + i = k + (i + 1) by omega] at this
    | some ty =>
      obtain ⟨t, h1, h2, h3, h4, h5⟩ := ih (k + 1) (types.set k ty) (by simp; omega)
      refine ⟨t, ?_, by simpa using h2, ?_, ?_, ?_⟩
      · simp only [storeTypes, hc]
        have hk : k < types.length := by omega
        simp only [Res.at', List.getElem?_eq_getElem hk, Res.bind]
        exact h1
      · intro i hi
        rw [h3 i (by omega), List.getElem?_set_ne (by omega)]
      · intro i hi
        simp at hi
        rw [h4 i (by omega), List.getElem?_set_ne (by omega)]
      · intro i c' hi
        cases i with
        | zero =>
          simp only [List.getElem?_cons_zero, Option.some.injEq] at hi
          subst hi
          rw [hc]
          have hk : k < types.length := by omega
          simpa [hk] using h3 k (by omega)
        | succ i =>
          have := h5 i c' (by simpa using hi)
          rw [show k + 1 + i = k + (i + 1) by omega] at this
          rw [this, List.getElem?_set_ne (by omega)]

theorem readWord_word (s w : String) (ts : List (VTok R)) : readWord s (.word w :: ts) = (w, ts) := rfl

/-- The text from the cell types on. -/
def typesTail (F : File R) (rest : List (VTok R)) : List (VTok R) :=
  .word "CELL_TYPES" :: .num F.codes.length :: .nl :: ((F.codes.flatMap fun c => [.num c, .nl]) ++ .nl :: rest)

/-- Reading a file with given readers for the points and the cells. -/
theorem loadFromStream_spec [Zero R] {V : Type} (conv : Nat → Option Nat) (proj : R × R × R → V)
    (loadC : List (VTok R) → Mesh V → Res (Mesh V × List (VTok R)))
    (F : File R) (rest : List (VTok R)) (types : List Nat) (m0 m : Mesh V)
    (hC : ∃ r, loadC (.num F.cells.length :: .num F.total :: .nl ::
        (F.cells.flatMap lineTokens ++ .nl :: typesTail F rest))
        { m0.clear with vertices := F.verts.map proj } = .ok (m, r) ∧ skipNl r = skipNl (typesTail F rest))
    (hm : m.cells.length = F.cells.length) (hcodes : F.codes.length ≤ F.cells.length) :
    ∃ t, loadFromStream conv (loadVertices proj) loadC (F.tokens ++ rest) types m0 = .ok (m, t) ∧
      t.length = F.cells.length ∧
      ∀ (i : Nat), t[i]? = (F.codes[i]?.bind conv).or (resize types F.cells.length 0)[i]? := by
  obtain ⟨r1, p1, p2⟩ := readPoints_spec F.verts
    ((F.verts.flatMap fun p => [.real p.1, .real p.2.1, .real p.2.2, .nl]) ++ .nl ::
      .word "CELLS" :: .num F.cells.length :: .num F.total :: .nl ::
      (F.cells.flatMap lineTokens ++ .nl ::
      .word "CELL_TYPES" :: .num F.codes.length :: .nl :: ((F.codes.flatMap fun c => [.num c, .nl]) ++ .nl :: rest)))
    _ rfl
  obtain ⟨r2, c1, c2⟩ := hC
  unfold typesTail at c1 c2
  obtain ⟨r3, t1, t2⟩ := readCodes_spec F.codes (.nl :: ((F.codes.flatMap fun c => [.num c, .nl]) ++ .nl :: rest))
    (.nl :: rest) (by simp)
  obtain ⟨t, s1, s2, s3, s4, s5⟩ := storeTypes_spec conv F.codes 0 (resize types F.cells.length 0)
    (by rw [resize_length]; omega)
  refine ⟨t, ?_, by rw [s2, resize_length], ?_⟩
  · unfold loadFromStream File.tokens
    simp only [List.append_assoc, List.cons_append, List.nil_append]
    rw [ignoreLine_words, ignoreLine_words]
    simp only [readWord_word, readWord, skipNl]
    rw [if_neg (by simp), if_neg (by simp), if_neg (by simp), if_pos trivial]
    unfold loadVertices
    simp only [readNum_num, Res.bind, ignoreLine]

    rw [p1]
    simp only [Res.bind]
    rw [p2]
    simp only [skipNl]
    rw [if_pos trivial]

    rw [c1]
    simp only [Res.bind]
    rw [c2]
    simp only [skipNl]
    rw [if_pos trivial]
    unfold loadCellTypes
    simp only [readNum_num, Res.bind]

    rw [t1]
    simp only [hm]
    rw [s1]
  · intro i
    rcases Nat.lt_or_ge i F.codes.length with h | h
    · have := s5 i F.codes[i] (by simp [h])
      rw [Nat.zero_add] at this
      rw [this]; simp [h]
    · rw [s4 i (by omega), List.getElem?_eq_none h]; simp

end GTMesh.Vtk
