import Verif.Spec.VtkData
import Verif.Proofs.Connections
import Verif.Proofs.Vtk3w

namespace GTMesh.Vtk
open Std'
variable {R : Type}

theorem splitLine_append {pre : List (VTok R)} (rest : List (VTok R)) (h : VTok.nl ∈ pre) :
    splitLine (pre ++ rest) = ((splitLine pre).1, (splitLine pre).2 ++ rest) := by
  induction pre with
  | nil => simp at h
  | cons t pre ih =>
    cases t with
    | nl => simp [splitLine]
    | word s => simp only [List.mem_cons, reduceCtorEq, false_or] at h; simp [splitLine, ih h]
    | num s => simp only [List.mem_cons, reduceCtorEq, false_or] at h; simp [splitLine, ih h]
    | real s => simp only [List.mem_cons, reduceCtorEq, false_or] at h; simp [splitLine, ih h]

theorem splitLine_sub (pre : List (VTok R)) :
    (∀ t ∈ (splitLine pre).1, t ∈ pre) ∧ (splitLine pre).2 <:+ pre := by
  induction pre with
  | nil => simp [splitLine]
  | cons t pre ih =>
    obtain ⟨h1, h2⟩ := ih
    cases t with
    | nl => simp [splitLine]
    | word s => simp only [splitLine]; exact ⟨fun t ht => by rcases List.mem_cons.mp ht with rfl | h <;> simp [*], h2.trans (List.suffix_cons _ _)⟩
    | num s => simp only [splitLine]; exact ⟨fun t ht => by rcases List.mem_cons.mp ht with rfl | h <;> simp [*], h2.trans (List.suffix_cons _ _)⟩
    | real s => simp only [splitLine]; exact ⟨fun t ht => by rcases List.mem_cons.mp ht with rfl | h <;> simp [*], h2.trans (List.suffix_cons _ _)⟩

theorem lineHas_false {text : String} {line : List (VTok R)} (h : ∀ w, VTok.word w ∈ line → ¬ Occurs text w) :
    lineHas text line = false := by
  rw [lineHas, List.any_eq_false]
  intro t ht
  cases t with
  | word w => simpa [Occurs] using h w ht
  | _ => simp

theorem indexData_cons (t : VTok R) (ts : List (VTok R)) : indexData (t :: ts) =
    if lineHas "SCALARS" (splitLine (t :: ts)).1 || lineHas "VECTORS" (splitLine (t :: ts)).1 then
      (lineName (splitLine (t :: ts)).1, afterHeader (splitLine (t :: ts)).1 (splitLine (t :: ts)).2) ::
        indexData (afterHeader (splitLine (t :: ts)).1 (splitLine (t :: ts)).2)
    else indexData (splitLine (t :: ts)).2 := by
  rw [indexData]

/-- Lines without key words are passed over. -/
theorem indexData_skip : ∀ (n : Nat) (pre rest : List (VTok R)), pre.length ≤ n → NoColumns pre →
    indexData (pre ++ rest) = indexData rest := by
  intro n
  induction n with
  | zero => intro pre rest h _; rw [List.length_eq_zero_iff.mp (Nat.le_zero.mp h), List.nil_append]
  | succ n ih =>
    intro pre rest hn h
    cases pre with
    | nil => rfl
    | cons t pre =>
      obtain ⟨l, hl⟩ := h.lines.resolve_left (by simp)
      have hnl : VTok.nl ∈ t :: pre := by rw [hl]; simp
      have hs := splitLine_sub (t :: pre)
      have hlt := splitLine_length_lt t pre
      rw [List.cons_append, indexData_cons, ← List.cons_append, splitLine_append rest hnl]
      rw [lineHas_false fun w hw => (h.words w (hs.1 _ hw)).1, lineHas_false fun w hw => (h.words w (hs.1 _ hw)).2]
      simp only [Bool.or_self, Bool.false_eq_true, if_false]
      refine ih _ rest (by simp only [List.length_cons] at hlt hn; omega) ⟨?_, fun w hw => h.words w (hs.2.subset hw)⟩
      obtain ⟨a, ha⟩ := hs.2
      rcases List.eq_nil_or_concat (splitLine (t :: pre)).2 with h0 | ⟨l', x, hx⟩
      · exact .inl h0
      · right
        refine ⟨l', ?_⟩
        rw [hx] at ha ⊢
        rw [hl, List.concat_eq_append, ← List.append_assoc] at ha
        have := (List.append_inj' ha (by simp)).2
        rw [List.concat_eq_append, this]

theorem NoColumns.append {a b : List (VTok R)} (ha : NoColumns a) (hb : NoColumns b) : NoColumns (a ++ b) where
  lines := by
    rcases hb.lines with rfl | ⟨l, rfl⟩
    · rw [List.append_nil]; exact ha.lines
    · exact .inr ⟨a ++ l, by simp⟩
  words := fun w hw => (List.mem_append.mp hw).elim (ha.words w) (hb.words w)

/-- A line of numbers. -/
theorem noColumns_values (fmt : R → R) (zero : R) (dim : Nat) (k : Kind) (vs : List (Member R)) :
    NoColumns (vs.flatMap (valueTokens fmt zero dim k) ++ [.nl]) where
  lines := .inr ⟨_, rfl⟩
  words := by
    intro w hw
    exfalso
    rcases List.mem_append.mp hw with hw | hw
    · obtain ⟨v, _, hv⟩ := List.mem_flatMap.mp hw
      cases k with
      | scalar => simp [valueTokens] at hv
      | vector d => simp [valueTokens] at hv
    · simp at hw

theorem occurs_scalars : Occurs "SCALARS" "SCALARS" := List.infix_refl _

/-- The first column of a text is found. -/
theorem indexData_column (fmt : R → R) (zero : R) {dim : Nat} (w : String) (k : Kind)
    (hk : k = .scalar ∨ k = .vector dim) (hw : k = .vector dim → ¬ Occurs "SCALARS" w) (data : List (Row R))
    (h : List (VTok R)) (hh : columnHeader dim [w] k data = .ok h) (vs : List (Member R)) (rest : List (VTok R)) :
    indexData (h ++ vs.flatMap (valueTokens fmt zero dim k) ++ [.nl] ++ rest) =
      ([w], vs.flatMap (valueTokens fmt zero dim k) ++ [.nl] ++ rest) :: indexData rest := by
  have hskip := indexData_skip _ _ rest le_rfl (noColumns_values fmt zero dim k vs)
  rcases hk with rfl | rfl
  · simp only [columnHeader, List.map_cons, List.map_nil, Res.ok.injEq, List.cons_append, List.nil_append] at hh
    subst hh
    have hs : lineHas "SCALARS" [(VTok.word "SCALARS" : VTok R), .word w, .word "double", .num 1] = true := by
      simp only [lineHas, List.any_cons, Bool.or_eq_true]
      exact .inl (by decide)
    have hn : lineName [(VTok.word "SCALARS" : VTok R), .word w, .word "double", .num 1] = [w] := by
      simp only [lineName, tokenName]
      rw [if_neg (by decide)]
    simp only [List.cons_append, List.append_assoc, List.nil_append]
    rw [indexData_cons]
    simp only [splitLine, hs, Bool.true_or, if_true, hn, afterHeader, ignoreLine]
    simp only [List.append_assoc, List.singleton_append] at hskip
    simp only [hskip]
  · simp only [columnHeader] at hh
    cases h1 : Res.at' data 0 <;> rw [h1] at hh <;> simp only [Res.bind, reduceCtorEq, Res.ok.injEq] at hh
    simp only [vectorKeyword, if_true, List.map_cons, List.map_nil, List.cons_append, List.nil_append] at hh
    subst hh
    have hs : lineHas "SCALARS" [(VTok.word "VECTORS" : VTok R), .word w, .word "double"] = false := by
      apply lineHas_false
      intro x hx
      simp only [List.mem_cons, VTok.word.injEq, List.not_mem_nil, or_false] at hx
      rcases hx with rfl | rfl | rfl
      · show ¬ (_ <:+: _); decide
      · exact hw rfl
      · show ¬ (_ <:+: _); decide
    have hv : lineHas "VECTORS" [(VTok.word "VECTORS" : VTok R), .word w, .word "double"] = true := by
      simp only [lineHas, List.any_cons, Bool.or_eq_true]
      exact .inl (by decide)
    have hn : lineName [(VTok.word "VECTORS" : VTok R), .word w, .word "double"] = [w] := by
      simp only [lineName, tokenName]
      rw [if_neg (by decide)]
    simp only [List.cons_append, List.append_assoc, List.nil_append]
    rw [indexData_cons]
    simp only [splitLine, hs, hv, Bool.or_true, if_true, hn, afterHeader, Bool.false_eq_true, if_false]
    simp only [List.append_assoc, List.singleton_append] at hskip
    simp only [hskip]

theorem extractAll_map [Zero R] (fmt : R → R) (rest : List (VTok R)) : ∀ (value : List (Option R)) (v : List R), value.length = v.length →
    extractAll value (some ((v.map fun x => VTok.real (fmt x)) ++ rest)) = .ok ((v.map fmt).map some, some rest) := by
  intro value
  induction value with
  | nil => intro v h; rw [List.length_eq_zero_iff.mp h.symm]; rfl
  | cons o value ih =>
    intro v h
    cases v with
    | nil => simp at h
    | cons x v =>
      have := ih v (by simpa using h)
      simp only [List.map_cons, List.cons_append, extractAll, extract, skipNl, Res.bind]
      rw [this]

theorem determinate_some : ∀ (v : List R), determinate (v.map some) = .ok v
  | [] => rfl
  | x :: v => by simp [determinate, determinate_some v]

theorem readValue_tokens [Zero R] (fmt : R → R) (zero : R) (dim : Nat) (k : Kind) (value : List (Option R)) (v : Member R)
    (hv : v.length = k.width) (hw : value.length = k.width) (rest : List (VTok R)) :
    readValue dim k value (some (valueTokens fmt zero dim k v ++ rest)) = .ok ((v.map fmt).map some, some rest) := by
  cases k with
  | scalar =>
    simp only [readValue, valueTokens]
    rw [extractAll_map fmt rest value v (by omega)]
    rfl
  | vector d =>
    simp only [readValue, valueTokens]
    rw [List.append_assoc, extractAll_map fmt _ value v (by omega)]
    by_cases h2 : dim = 2
    · simp [h2, extract, skipNl]
    · simp [h2]

theorem readRows_tokens [Zero R] (fmt : R → R) (zero : R) (dim : Nat) (k : Kind) (i : Nat) (rest : List (VTok R)) :
    ∀ (rows : List (Row R)) (vs : List (Member R)) (value : List (Option R)), rows.length = vs.length → (∀ v ∈ vs, v.length = k.width) →
    value.length = k.width →
    readRows dim k i value rows (some (vs.flatMap (valueTokens fmt zero dim k) ++ rest)) =
      .ok (List.zipWith (fun r v => r.set i (v.map fmt)) rows vs, some rest) := by
  intro rows
  induction rows with
  | nil =>
    intro vs value hl _ _
    rw [List.length_eq_zero_iff.mp hl.symm]
    rfl
  | cons r rows ih =>
    intro vs value hl hv hw
    cases vs with
    | nil => simp at hl
    | cons v vs =>
      simp only [List.flatMap_cons, List.append_assoc, readRows]
      rw [readValue_tokens fmt zero dim k value v (hv v (by simp)) hw]
      simp only [Res.bind, determinate_some]
      rw [ih vs _ (by simpa using hl) (fun x hx => hv x (by simp [hx])) (by simpa using hv v (by simp))]
      simp

theorem readColumn_tokens [Zero R] (fmt : R → R) (zero : R) (dim : Nat) (k : Kind) (i : Nat) (rest : List (VTok R))
    (rows : List (Row R)) (vs : List (Member R)) (hl : rows.length = vs.length) (hv : ∀ v ∈ vs, v.length = k.width)
    (ts : List (VTok R)) :
    readColumn dim k i rows (vs.flatMap (valueTokens fmt zero dim k) ++ rest) (some ts) =
      .ok (List.zipWith (fun r v => r.set i (v.map fmt)) rows vs, some rest) :=
  readRows_tokens fmt zero dim k i rest rows vs _ hl hv (by simp)

/-- The rows in which the first `i` members are already read. -/
def mixed (i : Nat) (out dst : List (Row R)) : List (Row R) := List.zipWith (fun o r => o.take i ++ r.drop i) out dst

theorem mixed_step (fmt : R → R) (i : Nat) : ∀ (out dst : List (Row R)), out.length = dst.length →
    (∀ o ∈ out, i < o.length) → (∀ r ∈ dst, i < r.length) →
    List.zipWith (fun r v => r.set i (v.map fmt)) (mixed i (printed fmt out) dst) (out.map fun o => o.getD i []) =
      mixed (i + 1) (printed fmt out) dst := by
  intro out
  induction out with
  | nil => intro dst _ _ _; simp [mixed, printed]
  | cons o out ih =>
    intro dst hl ho hr
    cases dst with
    | nil => simp at hl
    | cons r dst =>
      have h1 := ih dst (by simpa using hl) (fun x hx => ho x (by simp [hx])) (fun x hx => hr x (by simp [hx]))
      have h2 := ho o (by simp)
      have h3 := hr r (by simp)
      simp only [mixed, printed, List.map_cons, List.zipWith_cons_cons] at h1 ⊢
      rw [h1]
      congr 1
      rw [List.set_append_right _ _ (by simp), List.take_add_one, List.append_assoc]
      have h4 : (List.drop i r).set 0 (List.map fmt o[i]) = List.map fmt o[i] :: List.drop (i + 1) r := by
        rw [List.drop_eq_getElem_cons h3, List.set_cons_zero]
      simpa [h2, Nat.min_eq_left (Nat.le_of_lt h2)] using h4

theorem mixed_zero : ∀ (out dst : List (Row R)), out.length = dst.length → mixed 0 out dst = dst := by
  intro out
  induction out with
  | nil => intro dst h; rw [List.length_eq_zero_iff.mp h.symm]; rfl
  | cons o out ih =>
    intro dst h
    cases dst with
    | nil => simp at h
    | cons r dst =>
      have := ih dst (by simpa using h)
      simp only [mixed, List.zipWith_cons_cons] at this ⊢
      rw [this, List.take_zero, List.drop_zero, List.nil_append]

theorem mixed_all (n : Nat) : ∀ (out dst : List (Row R)), out.length = dst.length → (∀ o ∈ out, o.length = n) →
    (∀ r ∈ dst, r.length = n) → mixed n out dst = out := by
  intro out
  induction out with
  | nil => intro dst h _ _; simp [mixed]
  | cons o out ih =>
    intro dst h ho hr
    cases dst with
    | nil => simp at h
    | cons r dst =>
      have := ih dst (by simpa using h) (fun x hx => ho x (by simp [hx])) (fun x hx => hr x (by simp [hx]))
      simp only [mixed, List.zipWith_cons_cons] at this ⊢
      have h1 := ho o (by simp)
      have h2 := hr r (by simp)
      rw [this, List.take_of_length_le (by omega), List.drop_of_length_le (by omega), List.append_nil]

/-- The tokens of the columns from member `i` on. -/
def columnText (fmt : R → R) (zero : R) (dim : Nat) (out : List (Row R)) (i : Nat) (k : Kind) : List (VTok R) :=
  (out.map fun o => o.getD i []).flatMap (valueTokens fmt zero dim k) ++ [.nl]

/-- Writing the columns succeeds, and the index of the text has for each column an entry with its name in order,
whose position is that of its values. -/
theorem writeColumns_index (fmt : R → R) (zero : R) {dim : Nat} (backward : List (Idx × Idx)) (data out : List (Row R)) (n : Nat)
    (hc : column data (if dim = 2 then [] else backward) 0 0 = .ok out) (hn : ∀ o ∈ out, o.length = n)
    : ∀ (cls : Class) (i : Nat), i + cls.length = n → Exportable dim cls →
    (data = [] → ∀ c ∈ cls, c.2 = .scalar) →
    ∃ ts, writeColumns fmt zero dim backward data i cls = .ok ts ∧
      ∀ rest, (indexData (ts ++ rest)).length = cls.length + (indexData rest).length ∧
        (indexData (ts ++ rest)).drop cls.length = indexData rest ∧
        ∀ (j : Nat) c, cls[j]? = some c → ∃ more, (indexData (ts ++ rest))[j]? =
          some (c.1, columnText fmt zero dim out (i + j) c.2 ++ more) := by
  intro cls
  induction cls with
  | nil => intro i _ _ _; exact ⟨[], rfl, fun rest => by simp⟩
  | cons c cls ih =>
    intro i hi he hne
    obtain ⟨name, k⟩ := c
    obtain ⟨w, hw⟩ := he.words _ List.mem_cons_self
    simp only at hw
    subst hw
    have hk := he.kinds _ List.mem_cons_self
    simp only at hk
    simp only [List.length_cons] at hi
    obtain ⟨ts, h1, h2⟩ := ih (i + 1) (by omega) ⟨fun c hc => he.kinds c (by simp [hc]), fun c hc => he.words c (by simp [hc]),
      (List.nodup_cons.mp (by simpa using he.different)).2, fun c hc => he.vectors c (by simp [hc])⟩
      fun h c hc => hne h c (by simp [hc])
    obtain ⟨h, hh⟩ : ∃ h, columnHeader dim [w] k data = .ok h := by
      cases k with
      | scalar => exact ⟨_, rfl⟩
      | vector d =>
        cases data with
        | nil => exact absurd (hne rfl _ List.mem_cons_self) (by simp)
        | cons _ _ => exact ⟨_, rfl⟩
    have hvs : forEach (fun r : Row R => Res.idx r i) out = .ok (out.map fun o => o.getD i []) :=
      forEach_ok fun o ho => by
        have := hn o ho
        rw [Res.idx_eq_ok, List.getD_eq_getElem?_getD, List.getElem?_eq_getElem (by omega)]
        rfl
    have hwr : writeColumn fmt zero dim backward data i [w] k = .ok (h ++ (out.map fun o => o.getD i []).flatMap (valueTokens fmt zero dim k) ++ [.nl]) := by
      simp only [writeColumn, hh, hc, hvs, Res.bind]
    refine ⟨_, by simp only [writeColumns, hwr, h1, Res.bind]; rfl, fun rest => ?_⟩
    have hix := indexData_column fmt zero w k hk (fun h => he.vectors _ List.mem_cons_self h w rfl) data h hh
      (out.map fun o => o.getD i []) (ts ++ rest)
    simp only [List.append_assoc] at hix ⊢
    rw [hix]
    obtain ⟨h3, h5, h4⟩ := h2 rest
    refine ⟨by simp only [List.length_cons, h3]; omega, by rw [List.length_cons, List.drop_succ_cons, h5], fun j c' hj => ?_⟩
    cases j with
    | zero =>
      simp only [List.getElem?_cons_zero, Option.some.injEq] at hj ⊢
      subst hj
      exact ⟨ts ++ rest, by simp [columnText]⟩
    | succ j =>
      simp only [List.getElem?_cons_succ] at hj ⊢
      obtain ⟨more, hm⟩ := h4 j c' hj
      exact ⟨more, by rw [hm, show i + 1 + j = i + (j + 1) by omega]⟩

/-- The first entry with a name. -/
theorem find_nodup {α : Type} : ∀ (l : List (List String × α)) (names : List (List String)),
    names.Nodup → l.map (·.1) = names → ∀ (j : Nat) e, l[j]? = some e → l.find? (fun x => x.1 == e.1) = some e := by
  intro l
  induction l with
  | nil => intro _ _ _ j e h; simp at h
  | cons a l ih =>
    intro names hn he j e hj
    subst he
    simp only [List.map_cons, List.nodup_cons] at hn
    cases j with
    | zero => simp at hj; subst hj; simp
    | succ j =>
      simp only [List.getElem?_cons_succ] at hj
      have : a.1 ≠ e.1 := fun h => hn.1 (h ▸ List.mem_map_of_mem (List.mem_of_getElem? hj))
      rw [List.find?_cons_of_neg (by simpa using this)]
      exact ih _ hn.2 rfl j e hj

/-- Reading columns whose positions are right. -/
theorem readColumns_spec [Zero R] (fmt : R → R) (zero : R) (dim : Nat) (file : List (VTok R)) (pos : List (List String × List (VTok R)))
    (out dst : List (Row R)) (n : Nat) (hl : out.length = dst.length) (ho : ∀ o ∈ out, o.length = n) (hr : ∀ r ∈ dst, r.length = n) :
    ∀ (cls : Class) (i : Nat), i + cls.length = n →
    (∀ (j : Nat) c, cls[j]? = some c → ∃ more, position file pos c.1 = columnText fmt zero dim out (i + j) c.2 ++ more) →
    (∀ (j : Nat) c, cls[j]? = some c → ∀ o ∈ out, ∀ v, o[i + j]? = some v → v.length = c.2.width) →
    ∀ ts, readColumns dim file pos i cls (mixed i (printed fmt out) dst) (some ts) = .ok (mixed n (printed fmt out) dst) := by
  intro cls
  induction cls with
  | nil => intro i hi _ _ _; simp only [List.length_nil, Nat.add_zero] at hi; subst hi; rfl
  | cons c cls ih =>
    intro i hi hp hs ts
    simp only [List.length_cons] at hi
    obtain ⟨more, hm⟩ := hp 0 c rfl
    simp only [Nat.add_zero] at hm
    simp only [readColumns]
    rw [hm, columnText, List.append_assoc, readColumn_tokens fmt zero dim c.2 i]
    · simp only [Res.bind]
      rw [mixed_step fmt i out dst hl (fun o h => by have := ho o h; omega) (fun r h => by have := hr r h; omega)]
      refine ih (i + 1) (by omega) (fun j c' hj => ?_) (fun j c' hj o h v hv => ?_) _
      · rw [show i + 1 + j = i + (j + 1) by omega]; exact hp (j + 1) c' hj
      · refine hs (j + 1) c' hj o h v ?_
        rw [show i + (j + 1) = i + 1 + j by omega]; exact hv
    · simp [mixed, printed, hl]
    · intro v hv
      obtain ⟨o, h, rfl⟩ := List.mem_map.mp hv
      have h1 := ho o h
      refine hs 0 c rfl o h _ ?_
      rw [List.getD_eq_getElem?_getD, Nat.add_zero, List.getElem?_eq_getElem (by omega)]
      rfl

end GTMesh.Vtk
