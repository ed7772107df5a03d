import Verif.Model.Coloring
import Verif.Proofs.Connections

namespace GTMesh
open Std' Spec

/-- `att[c][k]` as a Boolean, false when out of range (only used in proofs). -/
def attBit (att : List (List Bool)) (c k : Nat) : Bool := ((att[c]?.getD [])[k]?).getD false

theorem freeColors_ok {att : List (List Bool)} {R : Nat} (hR : ∀ a ∈ att, a.length = R)
    (cs : List Idx) (hcs : ∀ c ∈ cs, c < att.length) (free : List Bool) (hf : free.length = R) :
    ∃ f, freeColors att cs free = .ok f ∧ f.length = R ∧
      ∀ k, k < R → (f[k]? = some true ↔ free[k]? = some true ∧ ∀ c ∈ cs, attBit att c k = false) := by
  induction cs generalizing free with
  | nil => exact ⟨free, rfl, hf, fun k _ => by simp⟩
  | cons c cs ih =>
    have hc : c < att.length := hcs c (by simp)
    have hlen : att[c].length = R := hR _ (List.getElem_mem hc)
    obtain ⟨f, h1, h2, h3⟩ := ih (fun d hd => hcs d (by simp [hd]))
      (List.zipWith (fun f a => f && !a) free att[c]) (by simp [hf, hlen])
    refine ⟨f, ?_, h2, fun k hk => ?_⟩
    · have : Res.at' att c = .ok att[c] := by simp [hc]
      simp only [freeColors, this, Res.bind, maskColors, hf, hlen, if_true, h1]
    · rw [h3 k hk]
      have e1 : free[k]? = some (free[k]'(by omega)) := by simp [hf, hk]
      have e2 : (att[c])[k]? = some ((att[c])[k]'(by omega)) := by simp [hlen, hk]
      have e3 : attBit att c k = (att[c])[k]'(by omega) := by
        simp [attBit, hc, e2]
      rw [List.getElem?_zipWith, e1, e2]
      simp only [List.mem_cons, forall_eq_or_imp, e3]
      simp [and_assoc]

theorem selectColor_ok (free : List Bool) (n sel : Nat) (hn : sel + n = free.length) (hpos : 0 < n) :
    (∃ k, selectColor free n sel = .ok (k, false) ∧ sel ≤ k ∧ free[k]? = some true ∧
      ∀ j, sel ≤ j → j < k → free[j]? = some false) ∨
    (selectColor free n sel = .ok (free.length, true) ∧
      ∀ j, sel ≤ j → j < free.length → free[j]? = some false) := by
  induction n generalizing sel with
  | zero => omega
  | succ n ih =>
    have hlt : sel < free.length := by omega
    have hi : Res.idx free sel = .ok free[sel] := by simp [hlt]
    simp only [selectColor, hi, Res.bind]
    by_cases hb : free[sel] = true
    · left
      refine ⟨sel, by simp [hb], Nat.le_refl _, by simp [hlt, hb], fun j h1 h2 => by omega⟩
    · have hb' : free[sel]? = some false := by simp [hlt]; simpa using hb
      by_cases hs : sel + 1 = free.length
      · right
        refine ⟨by simp [hb, hs], fun j h1 h2 => ?_⟩
        have : j = sel := by omega
        subst this; exact hb'
      · simp only [hb, hs, if_false]
        rcases ih (sel + 1) (by omega) (by omega) with ⟨k, h1, h2, h3, h4⟩ | ⟨h1, h2⟩
        · left
          refine ⟨k, by simpa using h1, by omega, h3, fun j a b => ?_⟩
          by_cases hj : j = sel
          · subst hj; exact hb'
          · exact h4 j (by omega) b
        · right
          refine ⟨by simpa using h1, fun j a b => ?_⟩
          by_cases hj : j = sel
          · subst hj; exact hb'
          · exact h2 j (by omega) b

theorem attachAll_ok {R col : Nat} (hcol : col < R) (cs : List Idx) (att : List (List Bool))
    (hR : ∀ a ∈ att, a.length = R) (hcs : ∀ c ∈ cs, c < att.length) :
    ∃ att', attachAll col cs att = .ok att' ∧ att'.length = att.length ∧ (∀ a ∈ att', a.length = R) ∧
      ∀ c k, c < att.length → (attBit att' c k = true ↔ attBit att c k = true ∨ (c ∈ cs ∧ k = col)) := by
  induction cs generalizing att with
  | nil => exact ⟨att, rfl, rfl, hR, fun c k _ => by simp⟩
  | cons d cs ih =>
    have hd : d < att.length := hcs d (by simp)
    have hlen : att[d].length = R := hR _ (List.getElem_mem hd)
    obtain ⟨att', h1, h2, h3, h4⟩ := ih (att.set d (att[d].set col true))
      (by
        intro a ha
        rcases List.mem_or_eq_of_mem_set ha with h | h
        · exact hR a h
        · subst h; simp [hlen])
      (by intro c hc; simpa using hcs c (by simp [hc]))
    refine ⟨att', ?_, by simpa using h2, h3, fun c k hc => ?_⟩
    · have : Res.at' att d = .ok att[d] := by simp [hd]
      simp only [attachAll, this, Res.bind, hlen, hcol, if_true, h1]
    · rw [h4 c k (by simpa using hc)]
      have : attBit (att.set d (att[d].set col true)) c k = true ↔
          attBit att c k = true ∨ (c = d ∧ k = col) := by
        unfold attBit
        by_cases hcd : c = d
        · subst hcd
          simp only [List.getElem?_set, hd, if_true, Option.getD_some]
          by_cases hk : col = k
          · subst hk; simp [hlen, hcol]
          · simp [hk, hd, Ne.symm hk]
        · rw [List.getElem?_set_ne (Ne.symm hcd)]; simp [hcd]
      rw [this, List.mem_cons]; tauto

/-- Two elements share a connecting element. -/
def Conflict (vs : Idx → List Idx) (s t : Idx) : Prop := ∃ c, c ∈ vs s ∧ c ∈ vs t

/-- `k` is the smallest color not used by an earlier element in conflict with `i`. -/
def FirstFit (vs : Idx → List Idx) (colors : List Nat) (i k : Nat) : Prop :=
  (∀ t, t < i → Conflict vs t i → colors[t]? ≠ some k) ∧
  (∀ k', k' < k → ∃ t, t < i ∧ Conflict vs t i ∧ colors[t]? = some k')

structure GreedyInv (vs : Idx → List Idx) (nConn i : Nat) (st : ColorState) : Prop where
  len : st.colors.length = i
  pos : 0 < st.reserve
  alen : st.attached.length = nConn
  arow : ∀ a ∈ st.attached, a.length = st.reserve
  lt : ∀ (t k : Nat), st.colors[t]? = some k → k < st.reserve
  bits : ∀ c k, c < nConn → (attBit st.attached c k = true ↔ ∃ t, t < i ∧ c ∈ vs t ∧ st.colors[t]? = some k)
  fit : ∀ (t k : Nat), st.colors[t]? = some k → FirstFit vs st.colors t k

theorem attBit_enlarge {att : List (List Bool)} (R c k : Nat) :
    attBit (att.map (enlarge R)) c k = attBit att c k := by
  unfold attBit
  rw [List.getElem?_map]
  cases h : att[c]? with
  | none => simp
  | some a =>
    simp only [Option.map_some, Option.getD_some, enlarge, List.getElem?_append]
    split
    · rfl
    · rename_i hk
      rw [List.getElem?_eq_none (l := a) (by omega), List.getElem?_replicate]
      split <;> simp

theorem greedyStep_inv {vs : Idx → List Idx} {nConn i : Nat} {st : ColorState}
    (h : GreedyInv vs nConn i st) (hv : ∀ c ∈ vs i, c < nConn) :
    ∃ st', greedyStep st (vs i) = .ok st' ∧ GreedyInv vs nConn (i + 1) st' := by
  obtain ⟨free, f1, f2, f3⟩ := freeColors_ok h.arow (vs i) (by rw [h.alen]; exact hv)
    (List.replicate st.reserve true) (by simp)
  have f4 : ∀ k, k < st.reserve →
      (free[k]? = some true ↔ ∀ t, t < i → Conflict vs t i → st.colors[t]? ≠ some k) := by
    intro k hk
    rw [f3 k hk]
    simp only [List.getElem?_replicate, hk, if_true, true_and]
    constructor
    · rintro hc t ht ⟨c, c1, c2⟩ he
      have := hc c c2
      rw [← Bool.not_eq_true, h.bits c k (hv c c2)] at this
      exact this ⟨t, ht, c1, he⟩
    · intro hc c hcv
      rw [← Bool.not_eq_true, h.bits c k (hv c hcv)]
      rintro ⟨t, ht, c1, he⟩
      exact hc t ht ⟨c, c1, hcv⟩ he
  have f5 : ∀ k, k < st.reserve → free[k]? = some false →
      ∃ t, t < i ∧ Conflict vs t i ∧ st.colors[t]? = some k := by
    intro k hk hfalse
    by_contra hcon
    have : free[k]? = some true := (f4 k hk).mpr (fun t ht hc he => hcon ⟨t, ht, hc, he⟩)
    rw [hfalse] at this; simp at this
  -- the chosen color and the (possibly enlarged) state
  have key : ∃ sel grow, selectColor free free.length 0 = .ok (sel, grow) ∧
      sel < (if grow then st.reserve * 2 else st.reserve) ∧
      FirstFit vs st.colors i sel := by
    rcases selectColor_ok free free.length 0 (by simp) (by rw [f2]; exact h.pos) with
      ⟨k, s1, s2, s3, s4⟩ | ⟨s1, s2⟩
    · have hk : k < st.reserve := by
        have := (List.getElem?_eq_some_iff.mp s3).1; omega
      refine ⟨k, false, s1, by simpa using hk, (f4 k hk).mp s3, fun k' hk' => ?_⟩
      exact f5 k' (by omega) (s4 k' (by omega) hk')
    · refine ⟨free.length, true, s1, ?_, ?_, fun k' hk' => ?_⟩
      · have := h.pos; simp only [if_true]; omega
      · intro t ht _ he
        have := h.lt t _ he; omega
      · exact f5 k' (by omega) (s2 k' (by omega) hk')
  obtain ⟨sel, grow, s1, s2, s3⟩ := key
  have hatt : ∃ att2 R2, att2 = (if grow then st.attached.map (enlarge R2) else st.attached) ∧
      R2 = (if grow then st.reserve * 2 else st.reserve) ∧ st.reserve ≤ R2 ∧
      att2.length = nConn ∧ (∀ a ∈ att2, a.length = R2) ∧
      (∀ c k, attBit att2 c k = attBit st.attached c k) := by
    cases grow with
    | false => exact ⟨_, _, rfl, rfl, Nat.le_refl _, h.alen, h.arow, fun _ _ => rfl⟩
    | true =>
      refine ⟨_, _, rfl, rfl, ?_, ?_, ?_, ?_⟩
      · simp only [if_true]; omega
      · simpa using h.alen
      · intro a ha
        simp only [if_true, List.mem_map] at ha ⊢
        obtain ⟨b, hb, rfl⟩ := ha
        have := h.arow b hb
        simp [enlarge, this]; omega
      · intro c k; simp only [if_true]; exact attBit_enlarge _ c k
  obtain ⟨att2, R2, a1, a2, a3, a4, a5, a6⟩ := hatt
  obtain ⟨att3, b1, b2, b3, b4⟩ := attachAll_ok (R := R2) (col := sel) (by rw [a2]; exact s2) (vs i) att2 a5
    (by rw [a4]; exact hv)
  refine ⟨{ colors := st.colors ++ [sel], reserve := R2, attached := att3 }, ?_, ?_⟩
  · unfold greedyStep
    simp only [f1, Res.bind, s1]
    rw [a1, a2] at b1
    rw [b1, a2]
  · have hget : ∀ t, t < i → (st.colors ++ [sel])[t]? = st.colors[t]? := by
      intro t ht; rw [List.getElem?_append_left (by rw [h.len]; exact ht)]
    have hlast : (st.colors ++ [sel])[i]? = some sel := by
      rw [List.getElem?_append_right (by rw [h.len]), h.len]; simp
    refine ⟨by simp [h.len], Nat.lt_of_lt_of_le h.pos a3, by rw [b2, a4], b3, ?_, ?_, ?_⟩
    · intro t k ht
      simp only at ht
      by_cases hti : t < i
      · rw [hget t hti] at ht; have := h.lt t k ht; simp only; omega
      · have := (List.getElem?_eq_some_iff.mp ht).1
        simp [h.len] at this
        have : t = i := by omega
        subst this
        rw [hlast] at ht; cases ht
        simp only; rw [a2]; exact s2
    · intro c k hc
      simp only
      rw [b4 c k (by rw [a4]; exact hc), a6, h.bits c k hc]
      constructor
      · rintro (⟨t, t1, t2, t3⟩ | ⟨h1, rfl⟩)
        · exact ⟨t, by omega, t2, by rw [hget t t1]; exact t3⟩
        · exact ⟨i, by omega, h1, hlast⟩
      · rintro ⟨t, t1, t2, t3⟩
        by_cases hti : t < i
        · rw [hget t hti] at t3; exact Or.inl ⟨t, hti, t2, t3⟩
        · have : t = i := by omega
          subst this
          rw [hlast] at t3; cases t3
          exact Or.inr ⟨t2, rfl⟩
    · intro t k ht
      simp only at ht ⊢
      have hle : t ≤ i := by
        have := (List.getElem?_eq_some_iff.mp ht).1; simp [h.len] at this; omega
      have hmono : ∀ j, FirstFit vs st.colors t j → FirstFit vs (st.colors ++ [sel]) t j := by
        rintro j ⟨p, q⟩
        refine ⟨fun u hu hc => ?_, fun k' hk' => ?_⟩
        · rw [hget u (by omega)]; exact p u hu hc
        · obtain ⟨u, u1, u2, u3⟩ := q k' hk'
          exact ⟨u, u1, u2, by rw [hget u (by omega)]; exact u3⟩
      by_cases hti : t < i
      · rw [hget t hti] at ht; exact hmono _ (h.fit t k ht)
      · have : t = i := by omega
        subst this
        rw [hlast] at ht; cases ht
        exact hmono _ s3

theorem greedyColor_ok {vs : Idx → List Idx} {visit : Idx → Res (List Idx)} {n nConn : Nat}
    (hv : ∀ i, i < n → visit i = .ok (vs i) ∧ ∀ c ∈ vs i, c < nConn) :
    ∃ colors, greedyColor n nConn visit = .ok colors ∧ colors.length = n ∧
      ∀ (t k : Nat), colors[t]? = some k → FirstFit vs colors t k := by
  have loop : ∀ m i st, GreedyInv vs nConn i st → i + m = n →
      ∃ st', greedyLoop visit (List.range' i m) st = .ok st' ∧ GreedyInv vs nConn n st' := by
    intro m
    induction m with
    | zero =>
      intro i st h hi
      have : i = n := by omega
      subst this
      exact ⟨st, rfl, h⟩
    | succ m ih =>
      intro i st h hi
      obtain ⟨h1, h2⟩ := hv i (by omega)
      obtain ⟨st', s1, s2⟩ := greedyStep_inv h h2
      obtain ⟨st'', t1, t2⟩ := ih (i + 1) st' s2 (by omega)
      refine ⟨st'', ?_, t2⟩
      rw [List.range'_succ, greedyLoop, h1]
      simp only [Res.bind, s1]; exact t1
  obtain ⟨st, h1, h2⟩ := loop n 0 { colors := [], reserve := 16, attached := List.replicate nConn (List.replicate 16 false) }
    ⟨rfl, Nat.succ_pos 15, by simp, by
      intro a ha; simp at ha; simp [ha.2], by simp, by
      intro c k hc
      simp only [attBit, List.getElem?_replicate, hc, if_true, Option.getD_some]
      constructor
      · intro h; split at h <;> simp at h
      · rintro ⟨t, ht, -⟩; omega, by simp⟩ (by omega)
  refine ⟨st.colors, ?_, h2.len, h2.fit⟩
  unfold greedyColor
  rw [List.range_eq_range', h1]; rfl

/-! ## Random coloring -/

theorem pickRandom_ok (free : List Bool) :
    ∀ n rnd sel, sel ≤ free.length → free.length + 1 ≤ sel + n → rnd < (free.drop sel).count true →
      ∃ k, pickRandom free n rnd sel = .ok k ∧ free[k]? = some true := by
  intro n
  induction n with
  | zero => intro rnd sel h1 h2; omega
  | succ n ih =>
    intro rnd sel h1 h2 h3
    have hlt : sel < free.length := by
      rcases Nat.lt_or_ge sel free.length with h | h
      · exact h
      · rw [List.drop_eq_nil_of_le h] at h3; simp at h3
    have hi : Res.idx free sel = .ok free[sel] := by simp [hlt]
    simp only [pickRandom, hi, Res.bind]
    rw [List.drop_eq_getElem_cons hlt] at h3
    by_cases hb : free[sel] = true
    · by_cases hr : rnd = 0
      · subst hr
        exact ⟨sel, by simp [hb], by simp [hlt, hb]⟩
      · simp only [hr, hb, false_and, if_false, if_true]
        apply ih
        · omega
        · omega
        · rw [hb] at h3; simp at h3; omega
    · have hb' : free[sel] = false := by simpa using hb
      simp only [hb', Bool.false_eq_true, and_false, if_false]
      apply ih
      · omega
      · omega
      · rw [hb'] at h3; simpa using h3

theorem reattachAll_eq (color : Nat) (cs : List Idx) (att : List (List Bool)) :
    reattachAll color cs att = attachAll color cs att := by
  induction cs generalizing att with
  | nil => rfl
  | cons c cs ih =>
    simp only [reattachAll, attachAll, ih, List.set_set]

structure RandInv (vs : Idx → List Idx) (n nConn R : Nat) (colors : List Nat) (att : List (List Bool)) : Prop where
  len : colors.length = n
  alen : att.length = nConn
  arow : ∀ a ∈ att, a.length = R
  lt : ∀ (t k : Nat), colors[t]? = some k → k < R
  bits : ∀ (t k c : Nat), colors[t]? = some k → c ∈ vs t → attBit att c k = true
  proper : ∀ (s t k : Nat), s ≠ t → Conflict vs s t → colors[s]? = some k → colors[t]? ≠ some k

theorem markLoop_ok {vs : Idx → List Idx} {n nConn R : Nat} {conn : List (List Idx)} {colors : List Nat}
    (hconn : ∀ i, i < n → conn[i]? = some (vs i) ∧ ∀ c ∈ vs i, c < nConn)
    (hlen : colors.length = n) (hlt : ∀ (t k : Nat), colors[t]? = some k → k < R) :
    ∀ m i att, i + m = n → att.length = nConn → (∀ a ∈ att, a.length = R) →
      (∀ (t k c : Nat), t < i → colors[t]? = some k → c ∈ vs t → attBit att c k = true) →
      ∃ att', markLoop conn colors (List.range' i m) att = .ok att' ∧ att'.length = nConn ∧
        (∀ a ∈ att', a.length = R) ∧
        (∀ (t k c : Nat), colors[t]? = some k → c ∈ vs t → attBit att' c k = true) := by
  intro m
  induction m with
  | zero =>
    intro i att hi h1 h2 h3
    refine ⟨att, rfl, h1, h2, fun t k c ht hc => h3 t k c ?_ ht hc⟩
    have := (List.getElem?_eq_some_iff.mp ht).1; omega
  | succ m ih =>
    intro i att hi h1 h2 h3
    obtain ⟨c1, c2⟩ := hconn i (by omega)
    have hci : colors[i]? = some (colors[i]'(by omega)) := by simp [show i < colors.length by omega]
    obtain ⟨att', a1, a2, a3, a4⟩ := attachAll_ok (R := R) (hlt i _ hci) (vs i) att h2 (by rw [h1]; exact c2)
    obtain ⟨att'', b1, b2, b3, b4⟩ := ih (i + 1) att' (by omega) (by omega) a3 (by
      intro t k c ht hk hc
      have htn : t < n := by omega
      rw [a4 c k (by rw [h1]; exact (hconn t htn).2 c hc)]
      by_cases hti : t < i
      · exact Or.inl (h3 t k c hti hk hc)
      · have : t = i := by omega
        subst this
        rw [hci] at hk; cases hk
        exact Or.inr ⟨hc, rfl⟩)
    refine ⟨att'', ?_, b2, b3, b4⟩
    rw [List.range'_succ, markLoop]
    have e1 : Res.at' conn i = .ok (vs i) := by simp [c1]
    have e2 : Res.idx colors i = .ok (colors[i]'(by omega)) := by simp [show i < colors.length by omega]
    simp only [e1, e2, Res.bind, a1]; exact b1

theorem recolorLoop_ok {vs : Idx → List Idx} {n nConn R : Nat} {conn : List (List Idx)}
    {draw : Nat → Nat → Nat} (hdraw : ∀ i k, draw i k ≤ k)
    (hconn : ∀ i, i < n → conn[i]? = some (vs i) ∧ ∀ c ∈ vs i, c < nConn) :
    ∀ m i colors att, i + m = n → RandInv vs n nConn R colors att →
      ∃ r, recolorLoop draw R conn (List.range' i m) colors att = .ok r ∧
        ∃ att', RandInv vs n nConn R r att' := by
  intro m
  induction m with
  | zero => intro i colors att hi h; exact ⟨colors, rfl, att, h⟩
  | succ m ih =>
    intro i colors att hi h
    obtain ⟨c1, c2⟩ := hconn i (by omega)
    obtain ⟨free, f1, f2, f3⟩ := freeColors_ok h.arow (vs i) (by rw [h.alen]; exact c2)
      (List.replicate R true) (by simp)
    rw [List.range'_succ, recolorLoop]
    have e1 : Res.at' conn i = .ok (vs i) := by simp [c1]
    simp only [e1, Res.bind, f1]
    split
    · rename_i hpos
      split
      · exact ih (i + 1) colors att (by omega) h
      · rename_i hne
        have hd := hdraw i (free.count true)
        obtain ⟨sel, p1, p2⟩ := pickRandom_ok free (free.length + 1) (draw i (free.count true)) 0 (by omega) (by omega)
          (by simp; omega)
        have hsel : sel < R := by have := (List.getElem?_eq_some_iff.mp p2).1; omega
        have hfree := ((f3 sel hsel).mp p2).2
        have hil : i < colors.length := by rw [h.len]; omega
        obtain ⟨att', a1, a2, a3, a4⟩ := attachAll_ok (R := R) hsel (vs i) att h.arow (by rw [h.alen]; exact c2)
        simp only [p1, hil, if_true, reattachAll_eq, a1]
        apply ih (i + 1) _ _ (by omega)
        have hne_own : ∀ (t k : Nat), t ≠ i → (colors.set i sel)[t]? = some k → colors[t]? = some k := by
          intro t k ht hk; rwa [List.getElem?_set_ne (Ne.symm ht)] at hk
        have hown : (colors.set i sel)[i]? = some sel := by simp [hil]
        have hfreeC : ∀ t, Conflict vs t i → colors[t]? ≠ some sel := by
          rintro t ⟨c, x1, x2⟩ he
          have := h.bits t sel c he x1
          rw [hfree c x2] at this; simp at this
        have hin : ∀ (t k : Nat), (colors.set i sel)[t]? = some k → t < n := by
          intro t k ht; have := (List.getElem?_eq_some_iff.mp ht).1; simp [h.len] at this; exact this
        refine ⟨by simp [h.len], by rw [a2, h.alen], a3, ?_, ?_, ?_⟩
        · intro t k ht
          by_cases hti : t = i
          · subst hti; rw [hown] at ht; cases ht; exact hsel
          · exact h.lt t k (hne_own t k hti ht)
        · intro t k c ht hc
          have htn := hin t k ht
          rw [a4 c k (by rw [h.alen]; exact (hconn t htn).2 c hc)]
          by_cases hti : t = i
          · subst hti; rw [hown] at ht; cases ht; exact Or.inr ⟨hc, rfl⟩
          · exact Or.inl (h.bits t k c (hne_own t k hti ht) hc)
        · intro s t k hst hc hs ht
          by_cases hsi : s = i
          · subst hsi
            rw [hown] at hs; cases hs
            exact hfreeC t (by obtain ⟨c, x, y⟩ := hc; exact ⟨c, y, x⟩) (hne_own t _ (Ne.symm hst) ht)
          · by_cases hti : t = i
            · subst hti
              rw [hown] at ht; cases ht
              exact hfreeC s hc (hne_own s _ hsi hs)
            · exact h.proper s t k hst hc (hne_own s k hsi hs) (hne_own t k hti ht)
    · exact ih (i + 1) colors att (by omega) h

end GTMesh
