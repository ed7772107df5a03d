import Verif.Model.CacheThrow
import Verif.Props.Cache

/-! # C29: what a writer object writes after a write that ended with an exception -/

namespace GTMesh.Props
open GTMesh Std' Vtk
variable {I W T R V P S α : Type}

/-! ## Sessions -/

/-- What the caller of `writeToStream` sees: the text in the stream and whether the call returned. -/
inductive Seen (T : Type) where
  | returned (text : List T)
  | threw (e : Exc) (text : List T)
  | ub
  | diverge
  deriving DecidableEq, Repr

/-- Without the state of the writer. -/
def seen : Ended W T → Seen T
  | .returned _ t => .returned t
  | .threw e _ t => .threw e t
  | .ub => .ub
  | .diverge => .diverge

/-- What is seen when one writer object is given a sequence of inputs, each with the number of tokens that the stream takes; the
caller catches the exceptions and goes on. -/
def session (M : Machine I W T) : W → List (I × Option Nat) → List (Seen T)
  | _, [] => []
  | w, p :: ps =>
    match M.write p.2 p.1 w with
    | .returned w' t => .returned t :: session M w' ps
    | .threw e w' t => .threw e t :: session M w' ps
    | .ub => [.ub]
    | .diverge => [.diverge]

/-- Nothing can be said after undefined behaviour, nothing happens after an endless loop. -/
def untilUndefined : List (Seen T) → List (Seen T)
  | [] => []
  | .ub :: _ => [.ub]
  | .diverge :: _ => [.diverge]
  | o :: os => o :: untilUndefined os

/-- The condition on a sequence of inputs: an input with the signature of the last mesh that was indexed follows, with no failure in
between, that mesh. `last` is the last stored signature, `known` the input it was stored for, unless an input without an index
came after it. -/
def Clean (hash : I → Nat) (able : I → Prop) (Same : I → I → Prop) : Nat → Option I → List I → Prop
  | _, _, [] => True
  | last, known, i :: is =>
    (hash i = last → ∃ j ∈ known, Same j i) ∧
    (hash i = last ∨ able i → Clean hash able Same (hash i) (some i) is) ∧
    (hash i ≠ last → ¬able i → Clean hash able Same last none is)

/-- The texts that the state after indexing leads to. -/
def after (M : Machine I W T) : Ran W → Res (I → Ran (List T))
  | .ok w => .ok fun j => M.text j w
  | .threw e _ => .throw e
  | .ub => .ub
  | .diverge => .diverge

theorem seen_toStream (limit : Option Nat) (w w' : W) (t : Ran (List T)) : seen (toStream limit w t) = seen (toStream limit w' t) := by
  cases t <;> cases limit <;> simp only [toStream] <;> first | rfl | (split <;> rfl)

theorem session_fresh (M : Machine I W T) (Same : I → I → Prop) (able : I → Prop) (w0 : I → W)
    (h0 : ∀ i, M.last (w0 i) ≠ M.hash i)
    (able_iff : ∀ i, able i ↔ ∃ f, after M (M.index i (w0 i)) = .ok f)
    (L1 : ∀ h w, M.last (M.setLast h w) = h)
    (L2 : ∀ i w e w', M.index i w = .threw e w' → M.last w' = M.last w)
    (L3 : ∀ i w w', after M (M.index i w) = after M (M.index i w'))
    (L4 : ∀ i h w, M.text i (M.setLast h w) = M.text i w)
    (L5 : ∀ i j w, Same j i → after M (M.index j w) = after M (M.index i w)) :
    ∀ (is : List (I × Option Nat)) (w : W) (known : Option I),
      (∀ j ∈ known, after M (M.index j w) = .ok fun k => M.text k w) →
      Clean M.hash able Same (M.last w) known (is.map (·.1)) →
      session M w is = untilUndefined (is.map fun p => seen (M.write p.2 p.1 (w0 p.1))) := by
  intro is
  induction is with
  | nil => intro w known _ _; rfl
  | cons p ps ih =>
    obtain ⟨i, limit⟩ := p
    intro w known hk hc
    simp only [List.map_cons, Clean] at hc
    obtain ⟨c1, c2, c3⟩ := hc
    have done : ∀ w1, after M (M.index i w) = .ok (fun k => M.text k w1) →
        Clean M.hash able Same (M.hash i) (some i) (ps.map (·.1)) →
        (match toStream limit (M.setLast (M.hash i) w1) (M.text i w1) with
          | .returned w' t => Seen.returned t :: session M w' ps
          | .threw e w' t => .threw e t :: session M w' ps
          | .ub => [.ub]
          | .diverge => [.diverge]) =
        untilUndefined (seen (M.write limit i (w0 i)) :: ps.map fun p => seen (M.write p.2 p.1 (w0 p.1))) := by
      intro w1 ha hcl
      have e1 : ∃ w2, M.index i (w0 i) = .ok w2 ∧ M.text i w2 = M.text i w1 := by
        rw [L3 i w (w0 i)] at ha
        cases hx : M.index i (w0 i) <;> rw [hx] at ha <;> simp only [after, reduceCtorEq, Res.ok.injEq] at ha
        exact ⟨_, rfl, congrFun ha i⟩
      obtain ⟨w2, e2, e3⟩ := e1
      have e4 : seen (M.write limit i (w0 i)) = seen (toStream limit (M.setLast (M.hash i) w1) (M.text i w1)) := by
        unfold Machine.write
        rw [if_pos (h0 i), e2]
        simp only [e3]
        exact seen_toStream _ _ _ _
      have rest : session M (M.setLast (M.hash i) w1) ps = untilUndefined (ps.map fun p => seen (M.write p.2 p.1 (w0 p.1))) := by
        refine ih _ (some i) ?_ ?_
        · intro j hj
          rw [Option.mem_some_iff] at hj
          subst hj
          rw [L3 _ _ w, ha]
          simp only [L4]
        · rw [L1]; exact hcl
      rw [e4]
      cases ht : M.text i w1 with
      | ok t =>
        cases limit with
        | none => simp only [toStream, seen, untilUndefined, rest]
        | some k => by_cases hk : k < t.length <;> simp only [toStream, hk, if_true, if_false, seen, untilUndefined, rest]
      | threw e t =>
        cases limit with
        | none => simp only [toStream, seen, untilUndefined, rest]
        | some k => by_cases hk : k < t.length <;> simp only [toStream, hk, if_true, if_false, seen, untilUndefined, rest]
      | ub => rfl
      | diverge => rfl
    simp only [session, List.map_cons]
    by_cases hh : M.last w ≠ M.hash i
    · unfold Machine.write at *
      rw [if_pos hh]
      cases hx : M.index i w with
      | ok w1 =>
        simp only
        refine done w1 (by rw [hx]; rfl) (c2 (Or.inr ?_))
        rw [able_iff, L3 _ _ w, hx]
        exact ⟨_, rfl⟩
      | threw e w1 =>
        have hna : ¬able i := by
          rw [able_iff, L3 _ _ w, hx]
          rintro ⟨f, hf⟩
          simp [after] at hf
        have e1 : ∃ w2, M.index i (w0 i) = .threw e w2 := by
          have := L3 i w (w0 i)
          rw [hx] at this
          cases hy : M.index i (w0 i) <;> rw [hy] at this <;> simp only [after, reduceCtorEq, Res.throw.injEq] at this
          rw [this]
          exact ⟨_, rfl⟩
        obtain ⟨w2, e2⟩ := e1
        simp only
        rw [if_pos (h0 i), e2]
        simp only [seen, untilUndefined]
        congr 1
        refine ih w1 none (by simp) ?_
        rw [L2 _ _ _ _ hx]
        exact c3 (Ne.symm hh) hna
      | ub =>
        have e1 : M.index i (w0 i) = .ub := by
          have := L3 i w (w0 i)
          rw [hx] at this
          cases hy : M.index i (w0 i) <;> rw [hy] at this <;> first | rfl | simp only [after, reduceCtorEq] at this
        simp only
        rw [if_pos (h0 i), e1]
        try rfl
      | diverge =>
        have e1 : M.index i (w0 i) = .diverge := by
          have := L3 i w (w0 i)
          rw [hx] at this
          cases hy : M.index i (w0 i) <;> rw [hy] at this <;> first | rfl | simp only [after, reduceCtorEq] at this
        simp only
        rw [if_pos (h0 i), e1]
        try rfl
    · have hh : M.last w = M.hash i := not_not.mp hh
      obtain ⟨j, hj, hs⟩ := c1 hh.symm
      have e := done w (by rw [← L5 i j w hs, hk j hj]) (c2 (Or.inl hh.symm))
      rw [← e]
      unfold Machine.write
      rw [if_neg (not_not.mpr hh)]

/-! ## The single writers -/

/-- The value without the state at an exception. -/
def Ran.res (f : S → α) : Ran S → Res α
  | .ok s => .ok (f s)
  | .threw e _ => .throw e
  | .ub => .ub
  | .diverge => .diverge

/-- The results in front of the first call that gives none. -/
def okPrefix (f : α → Res S) : List α → List S
  | [] => []
  | a :: as => match f a with
    | .ok s => s :: okPrefix f as
    | _ => []

/-- A text for a stream that takes so many tokens. -/
def offered (limit : Option Nat) (t : List T) : Seen T :=
  match limit with
  | some k => if k < t.length then .threw .other (t.take k) else .returned t
  | none => .returned t

/-- What has to be seen for an input with the text `full`: this text or, if the stream does not take it, its beginning; nothing else
is written by a call that returns. -/
def Right (full : Res (List T)) (limit : Option Nat) (o : Seen T) : Prop :=
  (∀ t, full = .ok t → o = offered limit t) ∧ (∀ t, o = .returned t → full = .ok t)

/-! ### VTK in 2D -/

/-- `VTKMeshWriter<2>` -/
def machine2 (zero : R) (H : Hasher (Point2 R)) : Machine (Input2 R) Writer2 (VTok R) where
  hash i := signature H [] i.mesh
  last w := w.lastHash
  setLast h w := { w with lastHash := h }
  index i w := indexRan2 i.mesh w
  text i w := textRan2 zero i.mesh i.types w

theorem each2 (f : Cell → Res (List Idx)) (w : Writer2) : ∀ (cs : List Cell) (acc : List (List Idx)),
    Ran.each (fun (w : Writer2) (c : Cell) => Ran.reads (f c) w fun vs => .ok { w with cellVert := w.cellVert ++ [vs] })
      { w with cellVert := acc } cs =
    match forEach f cs with
    | .ok cv => .ok { w with cellVert := acc ++ cv }
    | .throw e => .threw e { w with cellVert := acc ++ okPrefix f cs }
    | .ub => .ub
    | .diverge => .diverge := by
  intro cs
  induction cs with
  | nil => intro acc; simp [Ran.each, forEach]
  | cons c cs ih =>
    intro acc
    simp only [Ran.each, forEach, okPrefix]
    cases h : f c with
    | ok vs =>
      simp only [Ran.reads_ok, Ran.bind_ok, Res.bind]
      rw [ih (acc ++ [vs])]
      cases forEach f cs <;> simp
    | throw e => simp
    | ub => rfl
    | diverge => rfl

theorem indexRan2_eq (m : Mesh V) (w : Writer2) :
    indexRan2 m w = match indexMesh2 m with
    | .ok cv => .ok { w with cellVert := cv, total := totalNumbers cv }
    | .throw e => .threw e { w with cellVert := okPrefix (fun c : Cell => indexCell m.edges c.index c.bElem) m.cells }
    | .ub => .ub
    | .diverge => .diverge := by
  unfold indexRan2 indexMesh2
  rw [each2 (fun c : Cell => indexCell m.edges c.index c.bElem) w m.cells []]
  cases forEach (fun c : Cell => indexCell m.edges c.index c.bElem) m.cells <;> simp [Ran.bind]

theorem typesRan_eq (conv : Nat → Option Nat) : ∀ (types : List Nat) (t : List (VTok R)),
    typesRan conv types t = match codes conv types with
    | .ok cs => .ok (t ++ cs.flatMap fun c => [.num c, .nl])
    | _ => .threw .outOfRange (t ++ ((types.map conv).takeWhile Option.isSome).flatMap fun c => c.toList.flatMap fun c => [.num c, .nl]) := by
  intro types
  unfold typesRan codes
  induction types with
  | nil => intro t; simp [Ran.each, forEach]
  | cons ty types ih =>
    intro t
    simp only [Ran.each, forEach]
    cases h : conv ty with
    | none => simp [Ran.bind, Res.bind, h]
    | some c =>
      simp only [Ran.bind, Res.bind]
      rw [ih]
      generalize forEach (fun t => match conv t with | some c => Res.ok c | none => Res.throw Exc.outOfRange) types = r
      cases r <;> simp [h]

theorem codes_no (conv : Nat → Option Nat) : ∀ (types : List Nat), (∃ cs, codes conv types = .ok cs) ∨ codes conv types = .throw .outOfRange := by
  intro types
  unfold codes
  induction types with
  | nil => exact Or.inl ⟨[], rfl⟩
  | cons ty types ih =>
    simp only [forEach]
    cases h : conv ty with
    | none => exact Or.inr rfl
    | some c =>
      rcases ih with ⟨cs, h⟩ | h <;> simp only [Res.bind, h]
      · exact Or.inl ⟨_, rfl⟩
      · exact Or.inr trivial

theorem right_toStream (limit : Option Nat) (w : W) (full : Res (List T)) (r : Ran (List T))
    (h : ∀ t, full = .ok t ↔ r = .ok t) : Right full limit (seen (toStream limit w r)) := by
  constructor
  · intro t ht
    rw [(h t).mp ht]
    cases limit with
    | none => rfl
    | some k => simp only [toStream, offered]; split <;> rfl
  · intro t ht
    rw [h]
    cases r with
    | ok s =>
      cases limit with
      | none => simp only [toStream, seen, Seen.returned.injEq] at ht; rw [ht]
      | some k =>
        simp only [toStream] at ht
        split at ht <;> simp only [seen, reduceCtorEq, Seen.returned.injEq] at ht
        rw [ht]
    | threw e s =>
      cases limit with
      | none => simp [toStream, seen] at ht
      | some k => simp only [toStream] at ht; split at ht <;> simp [seen] at ht
    | ub => simp [toStream, seen] at ht
    | diverge => simp [toStream, seen] at ht

theorem right2 (zero : R) (H : Hasher (Point2 R)) (i : Input2 R) (limit : Option Nat) (w : Writer2)
    (h : w.lastHash ≠ signature H [] i.mesh) :
    Right (writeToStream2 zero i.mesh i.types) limit (seen ((machine2 zero H).write limit i w)) := by
  unfold Machine.write
  rw [if_pos (by exact h)]
  simp only [machine2, indexRan2_eq, writeToStream2]
  cases indexMesh2 i.mesh with
  | ok cv =>
    refine right_toStream _ _ _ _ fun t => ?_
    simp only [textRan2, typesRan_eq, Res.bind]
    rcases codes_no toVtk2 i.types with ⟨cs, hcs⟩ | hcs <;> rw [hcs] <;>
      simp [Ran.bind, cellsSection, typesSection]
  | throw e => simp [Right, seen]
  | ub => simp [Right, seen]
  | diverge => simp [Right, seen]

/-- C29 in 2D, with exceptions. One object of the 2D VTK writer is given any sequence of meshes; some calls may end with an exception,
of the writer or of the stream, and the caller goes on. Every call that returns has written the text of its mesh, and every call
with a mesh that can be written returns, unless the stream throws, and then the stream has the beginning of that text. This holds provided that the mesh of a call with the signature that
was stored last has the edges and the cells of the mesh it was stored for, and that no call whose mesh could not be indexed
came in between. -/
theorem C29_vtk2_exceptions_partial (zero : R) (H : Hasher (Point2 R)) (garbage : Nat) (is : List (Input2 R × Option Nat))
    (hc : Clean (fun i => signature H [] i.mesh) (fun i => ∃ cv, indexMesh2 i.mesh = .ok cv)
      (fun a b => a.mesh.edges = b.mesh.edges ∧ a.mesh.cells = b.mesh.cells) garbage none (is.map (·.1))) :
    ∃ outs, session (machine2 zero H) { lastHash := garbage } is = untilUndefined outs ∧
      List.Forall₂ (fun p o => Right (writeToStream2 zero p.1.mesh p.1.types) p.2 o) is outs := by
  refine ⟨_, session_fresh (machine2 zero H) _ _ (fun i => { lastHash := signature H [] i.mesh + 1 }) (by intro i; simp [machine2]) ?_
    (by intro h w; rfl) ?_ ?_ (by intro i h w; rfl) ?_ is _ none (by simp) hc, ?_⟩
  · intro i
    simp only [machine2, indexRan2_eq]
    cases indexMesh2 i.mesh <;> simp [after]
  · intro i w e w' h
    simp only [machine2, indexRan2_eq] at h ⊢
    cases g : indexMesh2 i.mesh <;> rw [g] at h <;> simp only [reduceCtorEq, Ran.threw.injEq] at h
    rw [← h.2]
  · intro i w w'
    simp only [machine2, indexRan2_eq]
    cases indexMesh2 i.mesh <;> rfl
  · intro i j w hs
    have : indexMesh2 j.mesh = indexMesh2 i.mesh := by simp only [indexMesh2, hs.1, hs.2]
    simp only [machine2, indexRan2_eq, this]
    cases indexMesh2 i.mesh <;> rfl
  · rw [List.forall₂_map_right_iff, List.forall₂_same]
    exact fun p _ => right2 zero H p.1 p.2 _ (by simp)

end GTMesh.Props
