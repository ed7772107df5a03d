import Verif.Spec.Serializer

namespace GTMesh.Ser

theorem leBytes_length (k n : Nat) : (leBytes k n).length = k := by
  induction k generalizing n with
  | zero => rfl
  | succ k ih => simp [leBytes, ih]

theorem leNat_leBytes (k n : Nat) (h : n < 256 ^ k) : leNat (leBytes k n) = n := by
  induction k generalizing n with
  | zero => simp [leBytes, leNat] at *; omega
  | succ k ih =>
    have : n / 256 < 256 ^ k := by
      rw [Nat.div_lt_iff_lt_mul (by omega)]
      rw [Nat.pow_succ] at h; exact h
    simp only [leBytes, leNat, ih _ this, UInt8.toNat_ofNat']
    have : n % 256 % 2 ^ 8 = n % 256 := by omega
    omega

theorem readSize_sizeBytes (n : Nat) (h : n < 2 ^ 64) (rest : Bytes) :
    readSize (sizeBytes n ++ rest) = .ok (n, rest) := by
  have hl : (sizeBytes n).length = 8 := leBytes_length 8 n
  have h1 : (sizeBytes n ++ rest).take 8 = sizeBytes n := by rw [← hl]; simp
  have h2 : (sizeBytes n ++ rest).drop 8 = rest := by rw [← hl]; simp
  simp only [readSize, readBytes]
  rw [if_pos (by simp [hl])]
  have h3 : leNat (sizeBytes n) = n := leNat_leBytes 8 n (by
    have : (256 : Nat) ^ 8 = 2 ^ 64 := by decide
    omega)
  simp only [Res.bind, h1, h2, h3]

theorem readInto_flatMap {α : Type} (f : α → Bytes → Res (α × Bytes)) (ser : α → Bytes)
    (P Q : α → Prop) (hf : ∀ old v rest, P old → Q v → f old (ser v ++ rest) = .ok (v, rest)) :
    ∀ (olds vs : List α) (rest : Bytes), olds.length = vs.length → (∀ x ∈ olds, P x) → (∀ x ∈ vs, Q x) →
      readInto f olds (vs.flatMap ser ++ rest) = .ok (vs, rest) := by
  intro olds
  induction olds with
  | nil => intro vs rest h _ _; cases vs <;> simp_all [readInto]
  | cons a as ih =>
    intro vs rest h hP hQ
    cases vs with
    | nil => simp at h
    | cons v vs =>
      simp only [List.flatMap_cons, List.append_assoc, readInto]
      rw [hf a v _ (hP a (by simp)) (hQ v (by simp))]
      simp only [Res.bind]
      rw [ih vs rest (by simpa using h) (fun x hx => hP x (by simp [hx])) (fun x hx => hQ x (by simp [hx]))]

theorem insertBy_last {α : Type} (lt : α → α → Bool) (x : α) (l : List α)
    (h : ∀ y ∈ l, lt y x = true ∧ lt x y = false) : insertBy lt x l = l ++ [x] := by
  induction l with
  | nil => rfl
  | cons y ys ih =>
    have := h y (by simp)
    simp [insertBy, this.1, this.2, ih fun z hz => h z (by simp [hz])]

theorem readInsert_flatMap {α : Type} (lt : α → α → Bool) (f : Bytes → Res (α × Bytes)) (ser : α → Bytes)
    (Q : α → Prop) (hf : ∀ v rest, Q v → f (ser v ++ rest) = .ok (v, rest)) :
    ∀ (vs acc : List α) (rest : Bytes), (∀ x ∈ vs, Q x) →
      readInsert lt f vs.length acc (vs.flatMap ser ++ rest) =
        .ok (vs.foldl (fun a x => insertBy lt x a) acc, rest) := by
  intro vs
  induction vs with
  | nil => intro acc rest _; simp [readInsert]
  | cons v vs ih =>
    intro acc rest hQ
    simp only [List.length_cons, List.flatMap_cons, List.append_assoc, readInsert, List.foldl_cons]
    rw [hf v _ (hQ v (by simp))]
    simp only [Res.bind]
    exact ih _ rest fun x hx => hQ x (by simp [hx])

theorem foldl_insertBy_sorted {α : Type} (lt : α → α → Bool) :
    ∀ (vs acc : List α), (acc ++ vs).Pairwise (fun a b => lt a b = true ∧ lt b a = false) →
      vs.foldl (fun a x => insertBy lt x a) acc = acc ++ vs := by
  intro vs
  induction vs with
  | nil => simp
  | cons v vs ih =>
    intro acc h
    have h1 : insertBy lt v acc = acc ++ [v] := by
      apply insertBy_last
      rw [List.pairwise_append] at h
      intro y hy
      exact h.2.2 y hy v (by simp)
    simp only [List.foldl_cons, h1]
    rw [ih _ (by simpa using h)]
    simp

theorem resizeTo_length {α : Type} (d : α) (l : List α) (n : Nat) : (resizeTo d l n).length = n := by
  simp [resizeTo]; omega

theorem noStale_dflt (t : Ty) : NoStale t t.dflt := by
  induction t with
  | simple | bool | unit => trivial
  | vec t ih => intro x hx; exact absurd hx (by simp [Ty.dflt])
  | arr t n ih => intro x hx; simp [Ty.dflt] at hx; rw [hx.2]; exact ih
  | pair t u iht ihu => exact ⟨iht, ihu⟩
  | set t ih => rfl
  | map k v _ _ => rfl

theorem noStale_of_noAssoc (t : Ty) (h : NoAssoc t) (old : t.den) : NoStale t old := by
  induction t with
  | simple | bool | unit => trivial
  | vec t ih => intro x hx; exact ih h x
  | arr t n ih => intro x hx; exact ih h x
  | pair t u iht ihu => exact ⟨iht h.1 old.1, ihu h.2 old.2⟩
  | set t ih => exact h.elim
  | map k v _ _ => exact h.elim

theorem roundtrip (lt : Order) (t : Ty) : ∀ (old v : t.den) (rest : Bytes), NoStale t old → Ok lt t v →
    deserialize lt t old (serialize t v ++ rest) = .ok (v, rest) := by
  induction t with
  | simple n =>
    intro old v rest _ _
    obtain ⟨v, hv⟩ := v
    subst hv
    simp [serialize, deserialize]
  | bool => intro old v rest _ _; cases v <;> rfl
  | unit => intro old v rest _ _; rfl
  | vec t ih =>
    intro old v rest ho hv
    simp only [serialize, deserialize, List.append_assoc]
    rw [readSize_sizeBytes _ hv.1]
    simp only [Res.bind]
    apply readInto_flatMap (deserialize lt t) (serialize t) (NoStale t) (Ok lt t) ih
    · exact resizeTo_length _ _ _
    · intro x hx
      simp only [resizeTo, List.mem_append, List.mem_replicate] at hx
      rcases hx with hx | hx
      · exact ho x (List.mem_of_mem_take hx)
      · rw [hx.2]; exact noStale_dflt t
    · exact hv.2
  | arr t n ih =>
    intro old v rest ho hv
    simp only [serialize, deserialize, List.append_assoc]
    rw [readSize_sizeBytes _ hv.1]
    have hl := v.property
    have hlo := old.property
    simp only [Res.bind]
    rw [if_pos (by omega)]
    have htake : old.val.take v.val.length = old.val := List.take_of_length_le (by omega)
    have hdrop : old.val.drop v.val.length = [] := List.drop_of_length_le (by omega)
    have hr := readInto_flatMap (deserialize lt t) (serialize t) (NoStale t) (Ok lt t) ih
      (old.val.take v.val.length) v.val rest (by rw [htake]; omega)
      (fun x hx => ho x (List.mem_of_mem_take hx)) hv.2
    split
    · rename_i q hq
      rw [hr] at hq
      cases hq
      congr 1
      congr 1
      apply Subtype.ext
      simp [hdrop]
    all_goals (rename_i hq; rw [hr] at hq; cases hq)
  | pair t u iht ihu =>
    intro old v rest ho hv
    obtain ⟨a, b⟩ := v
    obtain ⟨oa, ob⟩ := old
    simp only [serialize, deserialize, List.append_assoc]
    rw [iht oa a _ ho.1 hv.1]
    simp only [Res.bind]
    rw [ihu ob b _ ho.2 hv.2]
  | set t ih =>
    intro old v rest ho hv
    simp only [serialize, deserialize, List.append_assoc]
    rw [readSize_sizeBytes _ hv.1]
    simp only [Res.bind]
    rw [readInsert_flatMap (lt t) _ (serialize t) (Ok lt t)
      (fun w r hw => ih t.dflt w r (noStale_dflt t) hw) v old rest hv.2.1]
    have h0 : old = ([] : List t.den) := ho
    subst h0
    exact congrArg (fun z : List t.den => (Res.ok (z, rest) : Res (List t.den × Bytes)))
      (foldl_insertBy_sorted (lt t) v [] hv.2.2)
  | map k w ihk ihw =>
    intro old v rest ho hv
    simp only [serialize, deserialize, List.append_assoc]
    rw [readSize_sizeBytes _ hv.1]
    simp only [Res.bind]
    rw [readInsert_flatMap (fun x y : k.den × w.den => lt k x.1 y.1) _
      (fun p => serialize k p.1 ++ serialize w p.2) (fun p => Ok lt k p.1 ∧ Ok lt w p.2) ?_ v old rest hv.2.1]
    · have h0 : old = ([] : List (k.den × w.den)) := ho
      subst h0
      exact congrArg (fun z : List (k.den × w.den) => (Res.ok (z, rest) : Res (List (k.den × w.den) × Bytes)))
        (foldl_insertBy_sorted (fun x y : k.den × w.den => lt k x.1 y.1) v [] hv.2.2)
    · intro p r hp
      simp only [List.append_assoc]
      rw [ihk k.dflt p.1 _ (noStale_dflt k) hp.1]
      simp only [Res.bind]
      rw [ihw w.dflt p.2 _ (noStale_dflt w) hp.2]

/-! ## Merging -/

theorem mem_insertBy {α κ : Type} (key : α → κ) (lt : κ → κ → Bool) (ht : StrictTotal lt) (x : α) :
    ∀ (l : List α), l.Pairwise (fun a b => lt (key a) (key b) = true) →
      (insertBy (fun a b => lt (key a) (key b)) x l).Pairwise (fun a b => lt (key a) (key b) = true) ∧
      ∀ y, y ∈ insertBy (fun a b => lt (key a) (key b)) x l ↔ y ∈ l ∨ (y = x ∧ key x ∉ l.map key) := by
  intro l
  induction l with
  | nil => intro _; simp [insertBy]
  | cons a as ih =>
    intro h
    have h' := List.pairwise_cons.mp h
    simp only [insertBy]
    by_cases h1 : lt (key x) (key a) = true
    · rw [if_pos h1]
      have hall : ∀ b ∈ a :: as, lt (key x) (key b) = true := by
        intro b hb
        rcases List.mem_cons.mp hb with rfl | hb
        · exact h1
        · exact ht.trans _ _ _ h1 (h'.1 b hb)
      refine ⟨List.pairwise_cons.mpr ⟨hall, h⟩, ?_⟩
      intro y
      have hn : key x ∉ (a :: as).map key := by
        intro hm
        rw [List.mem_map] at hm
        obtain ⟨b, hb, hk⟩ := hm
        have := hall b hb
        rw [hk, ht.irrefl] at this
        exact absurd this (by simp)
      rw [List.mem_cons]
      constructor
      · rintro (rfl | hy)
        · exact Or.inr ⟨rfl, hn⟩
        · exact Or.inl hy
      · rintro (hy | ⟨rfl, _⟩)
        · exact Or.inr hy
        · exact Or.inl rfl
    · rw [if_neg h1]
      by_cases h2 : lt (key a) (key x) = true
      · rw [if_pos h2]
        obtain ⟨hp, hm⟩ := ih h'.2
        have hne : key x ≠ key a := by
          intro he; rw [he, ht.irrefl] at h2; exact absurd h2 (by simp)
        refine ⟨List.pairwise_cons.mpr ⟨?_, hp⟩, ?_⟩
        · intro b hb
          rcases (hm b).mp hb with hb | ⟨rfl, _⟩
          · exact h'.1 b hb
          · exact h2
        · intro y
          rw [List.mem_cons, hm y]
          simp only [List.mem_cons, List.map_cons, not_or]
          constructor
          · rintro (h | h | h)
            · exact Or.inl (Or.inl h)
            · exact Or.inl (Or.inr h)
            · exact Or.inr ⟨h.1, hne, h.2⟩
          · rintro ((h | h) | h)
            · exact Or.inl h
            · exact Or.inr (Or.inl h)
            · exact Or.inr (Or.inr ⟨h.1, h.2.2⟩)
      · rw [if_neg h2]
        have he : key x = key a := by
          rcases ht.tri (key x) (key a) with h | h | h
          · exact absurd h h1
          · exact h
          · exact absurd h h2
        refine ⟨h, fun y => ?_⟩
        constructor
        · exact Or.inl
        · rintro (h | ⟨_, h⟩)
          · exact h
          · exact absurd (by simp [he]) h

theorem mem_foldl_insertBy {α κ : Type} (key : α → κ) (lt : κ → κ → Bool) (ht : StrictTotal lt) :
    ∀ (vs acc : List α), acc.Pairwise (fun a b => lt (key a) (key b) = true) →
      vs.Pairwise (fun a b => lt (key a) (key b) = true) →
      let r := vs.foldl (fun a x => insertBy (fun a b => lt (key a) (key b)) x a) acc
      r.Pairwise (fun a b => lt (key a) (key b) = true) ∧
      ∀ y, y ∈ r ↔ y ∈ acc ∨ (y ∈ vs ∧ key y ∉ acc.map key) := by
  intro vs
  induction vs with
  | nil => intro acc h _; simpa using h
  | cons v vs ih =>
    intro acc h hv
    obtain ⟨hp, hm⟩ := mem_insertBy key lt ht v acc h
    have hv' := List.pairwise_cons.mp hv
    obtain ⟨h1, h2⟩ := ih _ hp hv'.2
    refine ⟨h1, fun y => ?_⟩
    rw [List.foldl_cons, h2 y, hm y]
    have hk : ∀ y ∈ vs, (key y ∉ (insertBy (fun a b => lt (key a) (key b)) v acc).map key ↔
        key y ∉ acc.map key) := by
      intro y hy
      apply not_congr
      simp only [List.mem_map]
      constructor
      · rintro ⟨z, hz, he⟩
        rcases (hm z).mp hz with hz | ⟨rfl, _⟩
        · exact ⟨z, hz, he⟩
        · have := hv'.1 y hy
          rw [he, ht.irrefl] at this
          exact absurd this (by simp)
      · rintro ⟨z, hz, he⟩
        exact ⟨z, (hm z).mpr (Or.inl hz), he⟩
    rw [List.mem_cons]
    constructor
    · rintro ((h | ⟨rfl, h⟩) | ⟨h, h'⟩)
      · exact Or.inl h
      · exact Or.inr ⟨Or.inl rfl, h⟩
      · exact Or.inr ⟨Or.inr h, (hk y h).mp h'⟩
    · rintro (h | ⟨rfl | h, h'⟩)
      · exact Or.inl (Or.inl h)
      · exact Or.inl (Or.inr ⟨rfl, h'⟩)
      · exact Or.inr ⟨h, (hk y h).mpr h'⟩

theorem serialize_length_unit : serialize .unit () = [] := rfl

end GTMesh.Ser

namespace GTMesh.Ser

/-! ## Reading from more bytes -/

theorem readInto_append {α : Type} (f : α → Bytes → Res (α × Bytes)) (ext : Bytes)
    (hf : ∀ old bs v r, f old bs = .ok (v, r) → f old (bs ++ ext) = .ok (v, r ++ ext)) :
    ∀ (l : List α) (bs : Bytes) v r, readInto f l bs = .ok (v, r) →
      readInto f l (bs ++ ext) = .ok (v, r ++ ext) := by
  intro l
  induction l with
  | nil => intro bs v r h; simp [readInto] at h ⊢; simp [h.1, h.2]
  | cons a as ih =>
    intro bs v r h
    simp only [readInto] at h ⊢
    cases h1 : f a bs with
    | ok p =>
      obtain ⟨p1, p2⟩ := p
      rw [h1] at h
      rw [hf a bs p1 p2 h1]
      simp only [Res.bind] at h ⊢
      cases h2 : readInto f as p2 with
      | ok q =>
        obtain ⟨q1, q2⟩ := q
        rw [h2] at h
        rw [ih p2 q1 q2 h2]
        simp only [Res.ok.injEq, Prod.mk.injEq] at h ⊢
        exact ⟨h.1, by rw [h.2]⟩
      | throw e => simp [h2] at h
      | ub => simp [h2] at h
      | diverge => simp [h2] at h
    | throw e => simp [h1] at h
    | ub => simp [h1] at h
    | diverge => simp [h1] at h

theorem readInsert_append {α : Type} (lt : α → α → Bool) (f : Bytes → Res (α × Bytes)) (ext : Bytes)
    (hf : ∀ bs v r, f bs = .ok (v, r) → f (bs ++ ext) = .ok (v, r ++ ext)) :
    ∀ (n : Nat) (acc : List α) (bs : Bytes) v r, readInsert lt f n acc bs = .ok (v, r) →
      readInsert lt f n acc (bs ++ ext) = .ok (v, r ++ ext) := by
  intro n
  induction n with
  | zero => intro acc bs v r h; simp [readInsert] at h ⊢; simp [h.1, h.2]
  | succ n ih =>
    intro acc bs v r h
    simp only [readInsert] at h ⊢
    cases h1 : f bs with
    | ok p =>
      obtain ⟨p1, p2⟩ := p
      rw [h1] at h
      rw [hf bs p1 p2 h1]
      exact ih _ _ _ _ h
    | throw e => simp [h1] at h
    | ub => simp [h1] at h
    | diverge => simp [h1] at h

theorem readBytes_append (n : Nat) (bs ext : Bytes) (v r : Bytes) (h : readBytes n bs = .ok (v, r)) :
    readBytes n (bs ++ ext) = .ok (v, r ++ ext) := by
  unfold readBytes at *
  split at h
  · rename_i hn
    simp only [Res.ok.injEq, Prod.mk.injEq] at h
    rw [if_pos (by simp; omega), List.take_append_of_le_length hn, List.drop_append_of_le_length hn, h.1, h.2]
  · simp at h

theorem readSize_append (bs ext : Bytes) (n : Nat) (r : Bytes) (h : readSize bs = .ok (n, r)) :
    readSize (bs ++ ext) = .ok (n, r ++ ext) := by
  unfold readSize at *
  cases h1 : readBytes 8 bs with
  | ok p =>
    obtain ⟨p1, p2⟩ := p
    rw [h1] at h
    rw [readBytes_append _ _ _ _ _ h1]
    simp only [Res.bind, Res.ok.injEq, Prod.mk.injEq] at h ⊢
    exact ⟨h.1, by rw [h.2]⟩
  | throw e => simp [h1] at h
  | ub => simp [h1] at h
  | diverge => simp [h1] at h

theorem bind_eq_ok' {α : Type u} {β : Type v} {x : Res α} {f : α → Res β} {b : β} (h : x.bind f = .ok b) :
    ∃ a, x = .ok a ∧ f a = .ok b := by
  cases x <;> simp at h
  exact ⟨_, rfl, h⟩

theorem deserialize_append (lt : Order) (ext : Bytes) (t : Ty) : ∀ (old : t.den) (bs : Bytes) v r,
    deserialize lt t old bs = .ok (v, r) → deserialize lt t old (bs ++ ext) = .ok (v, r ++ ext) := by
  induction t with
  | simple n =>
    intro old bs v r h
    unfold deserialize at h ⊢
    split at h
    · rename_i hn
      cases h
      rw [dif_pos (by simp; omega)]
      simp only [List.take_append_of_le_length hn, List.drop_append_of_le_length hn]
    · simp at h
  | bool =>
    intro old bs v r h
    unfold deserialize at h ⊢
    obtain ⟨⟨p1, p2⟩, h1, h2⟩ := bind_eq_ok' h
    rw [readBytes_append _ _ _ _ _ h1]
    simp only [Res.bind] at h2 ⊢
    by_cases c0 : p1 = [0]
    · rw [if_pos c0] at h2 ⊢
      cases h2; rfl
    · rw [if_neg c0] at h2 ⊢
      by_cases c1 : p1 = [1]
      · rw [if_pos c1] at h2 ⊢
        cases h2; rfl
      · rw [if_neg c1] at h2
        simp at h2
  | unit => intro old bs v r h; unfold deserialize at h ⊢; cases h; rfl
  | vec t ih =>
    intro old bs v r h
    unfold deserialize at h ⊢
    obtain ⟨⟨p1, p2⟩, h1, h2⟩ := bind_eq_ok' h
    rw [readSize_append _ _ _ _ h1]
    exact readInto_append _ ext ih _ _ _ _ h2
  | arr t n ih =>
    intro old bs v r h
    unfold deserialize at h ⊢
    obtain ⟨⟨p1, p2⟩, h1, h2⟩ := bind_eq_ok' h
    rw [readSize_append _ _ _ _ h1]
    simp only [Res.bind] at h2 ⊢
    by_cases c : p1 ≤ n
    · rw [if_pos c] at h2 ⊢
      split at h2
      · rename_i q hq
        obtain ⟨q1, q2⟩ := q
        have := readInto_append _ ext ih _ _ _ _ hq
        split
        · rename_i q' hq'
          rw [this] at hq'
          cases hq'
          cases h2
          rfl
        all_goals (rename_i hq'; rw [this] at hq'; cases hq')
      all_goals simp at h2
    · rw [if_neg c] at h2
      simp at h2
  | pair t u iht ihu =>
    intro old bs v r h
    obtain ⟨oa, ob⟩ := old
    simp only [deserialize] at h ⊢
    obtain ⟨⟨p1, p2⟩, h1, h2⟩ := bind_eq_ok' h
    obtain ⟨⟨q1, q2⟩, h3, h4⟩ := bind_eq_ok' h2
    rw [iht _ _ _ _ h1]
    simp only [Res.bind]
    rw [ihu _ _ _ _ h3]
    cases h4
    rfl
  | set t ih =>
    intro old bs v r h
    unfold deserialize at h ⊢
    obtain ⟨⟨p1, p2⟩, h1, h2⟩ := bind_eq_ok' h
    rw [readSize_append _ _ _ _ h1]
    exact readInsert_append _ _ ext (ih t.dflt) _ _ _ _ _ h2
  | map k w ihk ihw =>
    intro old bs v r h
    unfold deserialize at h ⊢
    obtain ⟨⟨p1, p2⟩, h1, h2⟩ := bind_eq_ok' h
    rw [readSize_append _ _ _ _ h1]
    refine readInsert_append _ _ ext ?_ _ _ _ _ _ h2
    intro bs v r h
    obtain ⟨⟨p1, p2⟩, h1, h2⟩ := bind_eq_ok' h
    obtain ⟨⟨q1, q2⟩, h3, h4⟩ := bind_eq_ok' h2
    rw [ihk _ _ _ _ h1]
    simp only [Res.bind]
    rw [ihw _ _ _ _ h3]
    cases h4
    rfl

/-! ## Only values or undefined behaviour -/

/-- A normal return or undefined behaviour. -/
def OkOrUb {α : Type} (r : Res α) : Prop := (∃ a, r = .ok a) ∨ r = .ub

theorem OkOrUb.bind {α β : Type} {x : Res α} {f : α → Res β} (hx : OkOrUb x) (hf : ∀ a, OkOrUb (f a)) :
    OkOrUb (x.bind f) := by
  rcases hx with ⟨a, rfl⟩ | rfl
  · exact hf a
  · exact Or.inr rfl

theorem okOrUb_ok {α : Type} (a : α) : OkOrUb (Res.ok a) := Or.inl ⟨a, rfl⟩

theorem readInto_okOrUb {α : Type} (f : α → Bytes → Res (α × Bytes)) (hf : ∀ a bs, OkOrUb (f a bs)) :
    ∀ (l : List α) (bs : Bytes), OkOrUb (readInto f l bs) := by
  intro l
  induction l with
  | nil => intro bs; exact okOrUb_ok _
  | cons a as ih =>
    intro bs
    exact (hf a bs).bind fun p => (ih p.2).bind fun q => okOrUb_ok _

theorem readInsert_okOrUb {α : Type} (lt : α → α → Bool) (f : Bytes → Res (α × Bytes))
    (hf : ∀ bs, OkOrUb (f bs)) : ∀ (n : Nat) (acc : List α) (bs : Bytes), OkOrUb (readInsert lt f n acc bs) := by
  intro n
  induction n with
  | zero => intro acc bs; exact okOrUb_ok _
  | succ n ih => intro acc bs; exact (hf bs).bind fun p => ih _ _

theorem readBytes_okOrUb (n : Nat) (bs : Bytes) : OkOrUb (readBytes n bs) := by
  unfold readBytes; split
  · exact okOrUb_ok _
  · exact Or.inr rfl

theorem readSize_okOrUb (bs : Bytes) : OkOrUb (readSize bs) :=
  (readBytes_okOrUb 8 bs).bind fun _ => okOrUb_ok _

theorem deserialize_okOrUb (lt : Order) (t : Ty) :
    ∀ (old : t.den) (bs : Bytes), OkOrUb (deserialize lt t old bs) := by
  induction t with
  | simple n =>
    intro old bs
    unfold deserialize; split
    · exact okOrUb_ok _
    · exact Or.inr rfl
  | bool =>
    intro old bs
    unfold deserialize
    refine (readBytes_okOrUb 1 bs).bind fun p => ?_
    split
    · exact okOrUb_ok _
    · split
      · exact okOrUb_ok _
      · exact Or.inr rfl
  | unit => intro old bs; exact okOrUb_ok _
  | vec t ih =>
    intro old bs
    exact (readSize_okOrUb bs).bind fun p => readInto_okOrUb _ ih _ _
  | arr t n ih =>
    intro old bs
    unfold deserialize
    refine (readSize_okOrUb bs).bind fun p => ?_
    split
    · have h := readInto_okOrUb (deserialize lt t) ih (old.val.take p.1) p.2
      split
      · exact okOrUb_ok _
      · rename_i hq; rcases h with ⟨a, h⟩ | h <;> rw [h] at hq <;> cases hq
      · exact Or.inr rfl
      · rename_i hq; rcases h with ⟨a, h⟩ | h <;> rw [h] at hq <;> cases hq
    · exact Or.inr rfl
  | pair t u iht ihu =>
    intro old bs
    obtain ⟨a, b⟩ := old
    exact (iht a bs).bind fun p => (ihu b p.2).bind fun q => okOrUb_ok _
  | set t ih =>
    intro old bs
    exact (readSize_okOrUb bs).bind fun p => readInsert_okOrUb _ _ (ih _) _ _ _
  | map k w ihk ihw =>
    intro old bs
    refine (readSize_okOrUb bs).bind fun p => readInsert_okOrUb _ _ ?_ _ _ _
    intro bs
    exact (ihk _ bs).bind fun p => (ihw _ p.2).bind fun q => okOrUb_ok _

/-! ## The serializer object -/

namespace Serializer

/-- The bytes of a sequence of values. -/
def encode (vs : List ((t : Ty) × t.den)) : Bytes := vs.flatMap fun v => serialize v.1 v.2

theorem writeAll_data (grow : Nat → Nat → Nat) : ∀ (vs : List ((t : Ty) × t.den)) (s : Serializer),
    (s.writeAll grow vs).data = s.data ++ encode vs := by
  intro vs
  induction vs with
  | nil => intro s; simp [writeAll, encode]
  | cons v vs ih =>
    intro s
    simp only [writeAll, ih]
    have : (s.write grow v.1 v.2).data = s.data ++ serialize v.1 v.2 := by
      unfold write; simp only; split <;> rfl
    simp [this, encode]

theorem writeAll_null (grow : Nat → Nat → Nat) : ∀ (vs : List ((t : Ty) × t.den)) (s : Serializer),
    s.cur = .null → (s.writeAll grow vs).cur = .null := by
  intro vs
  induction vs with
  | nil => intro s h; exact h
  | cons v vs ih =>
    intro s h
    apply ih
    unfold write; simp only; split <;> simp [h]

theorem read_restart (lt : Order) (s : Serializer) (t : Ty) (old : t.den)
    (h : s.cur = .null ∨ ∃ p, s.cur = .at p ∧ s.data.length ≤ p) :
    s.read lt t old = s.resetIterator.read lt t old := by
  have h1 : s.resetIfNotValid = .ok s.resetIterator := by
    rcases h with h | ⟨p, h, hp⟩
    · simp [resetIfNotValid, isIteratorValid, h]
    · have : ¬ p < s.data.length := by omega
      simp [resetIfNotValid, isIteratorValid, h, this]
  have h2 : s.resetIterator.resetIfNotValid = .ok s.resetIterator := by
    by_cases hd : 0 < s.data.length <;>
      simp [resetIfNotValid, isIteratorValid, resetIterator]
  unfold read
  rw [h1, h2]

theorem read_at (lt : Order) (s : Serializer) (t : Ty) (old v : t.den) (pre rest : Bytes)
    (hcur : s.cur = .at pre.length) (hd : s.data = pre ++ serialize t v ++ rest)
    (hne : serialize t v ++ rest ≠ [] ∨ pre = []) (ho : NoStale t old) (hv : Ok lt t v) :
    s.read lt t old = .ok (v, { s with cur := .at (pre ++ serialize t v).length }) := by
  have hs : s.resetIfNotValid = .ok s := by
    by_cases hp : pre.length < s.data.length
    · simp [resetIfNotValid, isIteratorValid, hcur, hp]
    · rcases hne with hne | hne
      · exfalso
        apply hp
        rw [hd, List.append_assoc, List.length_append]
        have := List.length_pos_iff.mpr hne
        omega
      · have : s.resetIterator = s := by
          cases s; simp_all [resetIterator]
        have hnot : ¬ 0 < s.data.length := by rw [hne] at hp; simpa using hp
        simp only [resetIfNotValid, isIteratorValid, hcur, hne, List.length_nil, Res.bind]
        simp [this]
  unfold read
  rw [hs]
  simp only [Res.bind, hcur]
  have : s.data.drop pre.length = serialize t v ++ rest := by rw [hd]; simp
  rw [this, roundtrip lt t old v rest ho hv]
  simp only [Res.ok.injEq, Prod.mk.injEq, true_and]
  congr 2
  rw [hd]; simp
  omega

theorem read_empty (lt : Order) (s : Serializer) (t : Ty) (old v : t.den) (p : Nat)
    (hcur : s.cur = .at p) (he : serialize t v = []) (ho : NoStale t old) (hv : Ok lt t v) :
    ∃ q, s.read lt t old = .ok (v, { s with cur := .at q }) := by
  have : ∃ p', s.resetIfNotValid = .ok { s with cur := .at p' } := by
    by_cases hp : p < s.data.length
    · exact ⟨p, by cases s; simp_all [resetIfNotValid, isIteratorValid]⟩
    · exact ⟨0, by
        simp only [resetIfNotValid, isIteratorValid, hcur, Res.bind, hp, decide_false]
        simp [resetIterator]⟩
  obtain ⟨p', hp'⟩ := this
  refine ⟨s.data.length - (s.data.drop p').length, ?_⟩
  unfold read
  rw [hp']
  simp only [Res.bind]
  have h := roundtrip lt t old v (s.data.drop p') ho hv
  rw [he, List.nil_append] at h
  rw [h]

theorem readAll_empty (lt : Order) : ∀ (vs : List ((t : Ty) × t.den)) (s : Serializer) (p : Nat),
    s.cur = .at p → encode vs = [] → (∀ v ∈ vs, Ok lt v.1 v.2) →
    ∃ q, s.readAll lt (vs.map (·.1)) = .ok (vs, { s with cur := .at q }) := by
  intro vs
  induction vs with
  | nil => intro s p hc _ _; exact ⟨p, by cases s; simp_all [readAll]⟩
  | cons v vs ih =>
    intro s p hc he hok
    obtain ⟨t, v⟩ := v
    have he' : serialize t v ++ encode vs = [] := by simpa [encode] using he
    rw [List.append_eq_nil_iff] at he'
    obtain ⟨q, hq⟩ := read_empty lt s t t.dflt v p hc he'.1 (noStale_dflt t) (hok ⟨t, v⟩ (by simp))
    obtain ⟨q', hq'⟩ := ih { s with cur := .at q } q rfl he'.2 fun w hw => hok w (by simp [hw])
    refine ⟨q', ?_⟩
    simp only [List.map_cons, readAll, hq, Res.bind, hq']

theorem readAll_at (lt : Order) : ∀ (vs : List ((t : Ty) × t.den)) (s : Serializer) (pre rest : Bytes),
    s.cur = .at pre.length → s.data = pre ++ encode vs ++ rest → (∀ v ∈ vs, Ok lt v.1 v.2) →
    ∃ q, s.readAll lt (vs.map (·.1)) = .ok (vs, { s with cur := .at q }) ∧
      ((∀ v ∈ vs, serialize v.1 v.2 ≠ []) → q = (pre ++ encode vs).length) := by
  intro vs
  induction vs with
  | nil =>
    intro s pre rest hc hd _
    exact ⟨pre.length, by cases s; simp_all [readAll], by simp [encode]⟩
  | cons v vs ih =>
    intro s pre rest hc hd hok
    obtain ⟨t, v⟩ := v
    have hd' : s.data = pre ++ serialize t v ++ (encode vs ++ rest) := by
      rw [hd]; simp [encode]
    by_cases hne : serialize t v ++ (encode vs ++ rest) = []
    · have he : encode (⟨t, v⟩ :: vs) = [] := by
        simp only [List.append_eq_nil_iff] at hne
        simp only [encode, List.flatMap_cons]
        rw [hne.1]
        exact hne.2.1
      obtain ⟨q, hq⟩ := readAll_empty lt (⟨t, v⟩ :: vs) s _ hc he hok
      refine ⟨q, hq, fun h => ?_⟩
      have := h ⟨t, v⟩ (by simp)
      simp only [List.append_eq_nil_iff] at hne
      exact absurd hne.1 this
    · have h1 := read_at lt s t t.dflt v pre (encode vs ++ rest) hc hd' (Or.inl hne) (noStale_dflt t)
        (hok ⟨t, v⟩ (by simp))
      obtain ⟨q, hq, hq'⟩ := ih { s with cur := .at (pre ++ serialize t v).length } (pre ++ serialize t v) rest rfl
        (by simp [hd']) fun w hw => hok w (by simp [hw])
      refine ⟨q, ?_, ?_⟩
      · simp only [List.map_cons, readAll, h1, Res.bind, hq]
      · intro h
        rw [hq' fun w hw => h w (by simp [hw])]
        simp [encode]

theorem readAll_restart (lt : Order) (s : Serializer) (t : Ty) (ts : List Ty)
    (h : s.cur = .null ∨ ∃ p, s.cur = .at p ∧ s.data.length ≤ p) :
    s.readAll lt (t :: ts) = s.resetIterator.readAll lt (t :: ts) := by
  simp only [readAll, read_restart lt s t _ h]

end Serializer
end GTMesh.Ser
