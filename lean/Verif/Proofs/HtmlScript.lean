import Verif.Spec.HtmlScript

/-!
# Proofs about the script of an HTML log
-/

namespace GTMesh.HtmlScript

variable {V X : Type}

theorem matchesFilter_iff (cmp : Compare V X) (f : Filter X) (e : Entry V) (hn : e.name ≠ []) :
    matchesFilter cmp f e = true ↔ Meant cmp f e := by
  obtain ⟨w, n, op, a, b⟩ := f
  cases op <;> simp [matchesFilter, Meant, hn]

theorem lineSelected_iff (l : Int) (e : Entry V) : lineSelected (some l) e = true ↔ OnLine l e := by
  simp only [lineSelected, OnLine, Option.getD, Bool.or_eq_true, decide_eq_true_eq]
  exact Or.comm

/-- The rule that applies to an entry: that of the first filter that matches. -/
def ruleOf (cmp : Compare V X) (fs : List (Filter X)) (sel : Option Int) (e : Entry V) : Option Bool :=
  if lineSelected sel e then (fs.find? (fun f => matchesFilter cmp f e)).map (·.wholeGroup) else none

theorem checkLoop_eq (cmp : Compare V X) (e : Entry V) (rule : Option Bool) (fs : List (Filter X)) :
    checkLoop cmp e rule fs = match fs.find? (fun f => matchesFilter cmp f e) with
      | some f => (true, some f.wholeGroup)
      | none => (false, rule) := by
  induction fs with
  | nil => rfl
  | cons f fs ih =>
    rw [checkLoop, List.find?_cons]
    by_cases h : matchesFilter cmp f e = true
    · simp [h]
    · simp only [h]
      simpa using ih

/-- One step of the loop. -/
theorem filterLoop_step (cmp : Compare V X) (p : Page V X) (hf : p.filters ≠ []) (n i : Nat) (rule : Option Bool) (out : List (Entry V))
    (e : Entry V) (he : p.data[i]? = some e) : ∃ rule', filterLoop cmp p (n + 1) i rule out =
      match ruleOf cmp p.filters p.selectedLine e with
      | some false => filterLoop cmp p n (i + 1) rule' (out ++ [e])
      | some true =>
        let index := groupStart p.data e.group (i + 1) i
        let g := pushGroup p.data e.group (p.data.length - index) index out
        filterLoop cmp p n (g.1 - 1 + 1) rule' g.2
      | none => filterLoop cmp p n (i + 1) rule' out := by
  have hl : p.filters.length > 0 := List.length_pos_iff.mpr hf
  simp only [filterLoop, he, ruleOf, checkData, hl, if_true, checkLoop_eq]
  by_cases hs : lineSelected p.selectedLine e = true
  · simp only [hs, if_true]
    cases hfd : p.filters.find? (fun f => matchesFilter cmp f e) with
    | none => exact ⟨rule, by simp⟩
    | some f =>
      refine ⟨some f.wholeGroup, ?_⟩
      cases hw : f.wholeGroup <;> simp [hw]
  · exact ⟨rule, by simp [hs]⟩

theorem filterLoop_end (cmp : Compare V X) (p : Page V X) (n i : Nat) (rule : Option Bool) (out : List (Entry V))
    (he : p.data.length ≤ i) : (filterLoop cmp p n i rule out).2 = out := by
  cases n with
  | zero => rfl
  | succ n => simp [filterLoop, List.getElem?_eq_none he]

/-- With filters of rows only: the entries that match, in order. -/
theorem filterLoop_rows (cmp : Compare V X) (p : Page V X) (hf : p.filters ≠ []) (hr : ∀ f ∈ p.filters, f.wholeGroup = false)
    (suf : List (Entry V)) : ∀ (pre : List (Entry V)) (n : Nat) (rule : Option Bool) (out : List (Entry V)), p.data = pre ++ suf →
      suf.length < n → (filterLoop cmp p n pre.length rule out).2 =
        out ++ suf.filter (fun e => (ruleOf cmp p.filters p.selectedLine e).isSome) := by
  induction suf with
  | nil =>
    intro pre n rule out hd hn
    rw [filterLoop_end _ _ _ _ _ _ (by simp [hd])]
    simp
  | cons e suf ih =>
    intro pre n rule out hd hn
    obtain ⟨n, rfl⟩ : ∃ m, n = m + 1 := ⟨n - 1, by simp at hn; omega⟩
    obtain ⟨rule', hs⟩ := filterLoop_step cmp p hf n pre.length rule out e (by simp [hd])
    rw [hs]
    have hd' : p.data = (pre ++ [e]) ++ suf := by simp [hd]
    have hl : pre.length + 1 = (pre ++ [e]).length := by simp
    cases hrl : ruleOf cmp p.filters p.selectedLine e with
    | none =>
      simp only [hl]
      rw [ih (pre ++ [e]) n rule' out hd' (by simpa using hn)]
      simp [hrl]
    | some b =>
      have hb : b = false := by
        simp only [ruleOf] at hrl
        split at hrl
        · obtain ⟨f, hf1, rfl⟩ := Option.map_eq_some_iff.mp hrl
          exact hr f (List.mem_of_find?_eq_some hf1)
        · cases hrl
      subst hb
      simp only [hl]
      rw [ih (pre ++ [e]) n rule' (out ++ [e]) hd' (by simpa using hn)]
      simp [hrl]

theorem ruleOf_isSome (cmp : Compare V X) (fs : List (Filter X)) (l : Int) (e : Entry V) (hn : e.name ≠ []) :
    (ruleOf cmp fs (some l) e).isSome = true ↔ OnLine l e ∧ ∃ f ∈ fs, Meant cmp f e := by
  simp only [ruleOf]
  by_cases hs : lineSelected (some l) e = true
  · have := (lineSelected_iff l e).mp hs
    simp only [hs, if_true, this, true_and, Option.isSome_map, List.find?_isSome]
    exact exists_congr fun f => and_congr_right fun _ => matchesFilter_iff cmp f e hn
  · have : ¬ OnLine l e := fun h => hs ((lineSelected_iff l e).mpr h)
    simp [hs, this]

/-! ## Groups -/

/-- What is shown of a group. -/
def groupOut (rule : Entry V → Option Bool) (grp : List (Entry V)) : List (Entry V) → List (Entry V)
  | [] => []
  | e :: es =>
    match rule e with
    | some false => e :: groupOut rule grp es
    | some true => grp
    | none => groupOut rule grp es

/-- What is shown of the data, group by group. -/
inductive Shown (rule : Entry V → Option Bool) : List (Entry V) → List (Entry V) → Prop where
  | nil : Shown rule [] []
  | group (g : Nat) (grp rest out : List (Entry V)) : (∀ e ∈ grp, e.group = g) → (∀ e ∈ rest, g < e.group) → Shown rule rest out →
      Shown rule (grp ++ rest) (groupOut rule grp grp ++ out)

theorem groupStart_eq (pre : List (Entry V)) (g : Nat) (hpre : ∀ e ∈ pre, e.group ≠ g) (rest : List (Entry V)) :
    ∀ (grp : List (Entry V)), (∀ e ∈ grp, e.group = g) → ∀ (k : Nat), k ≤ grp.length → ∀ index,
      groupStart (pre ++ grp ++ rest) g (pre.length + k) index = if k = 0 then index else pre.length := by
  intro grp hg k
  induction k with
  | zero =>
    intro _ index
    simp only [Nat.add_zero, if_true]
    cases hp : pre.length with
    | zero => rfl
    | succ m =>
      rw [groupStart]
      have hm : m < pre.length := by omega
      have : (pre ++ grp ++ rest)[m]? = some pre[m] := by
        rw [List.append_assoc, List.getElem?_append_left hm, List.getElem?_eq_getElem hm]
      rw [this]
      simp [hpre _ (List.getElem_mem hm)]
  | succ k ih =>
    intro hk index
    rw [← Nat.add_assoc, groupStart]
    have : (pre ++ grp ++ rest)[pre.length + k]? = some grp[k] := by
      rw [List.append_assoc, List.getElem?_append_right (by omega), Nat.add_sub_cancel_left, List.getElem?_append_left hk,
        List.getElem?_eq_getElem hk]
    rw [this]
    simp only [hg _ (List.getElem_mem hk), if_true, Nat.succ_ne_zero, if_false]
    rw [ih (by omega)]
    split
    · subst k; rfl
    · rfl

theorem pushGroup_eq (g : Nat) (rest : List (Entry V)) (hrest : ∀ e ∈ rest, e.group ≠ g) : ∀ (grp pre out : List (Entry V)) (n : Nat),
    (∀ e ∈ grp, e.group = g) → grp.length + rest.length ≤ n →
      pushGroup (pre ++ grp ++ rest) g n pre.length out = (pre.length + grp.length, out ++ grp) := by
  intro grp
  induction grp with
  | nil =>
    intro pre out n _ hn
    cases n with
    | zero => simp [pushGroup]
    | succ n =>
      simp only [pushGroup, List.append_nil, List.getElem?_append_right (Nat.le_refl _), Nat.sub_self, List.length_nil, Nat.add_zero]
      cases rest with
      | nil => simp
      | cons e r => simp [hrest e (by simp)]
  | cons e grp ih =>
    intro pre out n hg hn
    obtain ⟨n, rfl⟩ : ∃ m, n = m + 1 := ⟨n - 1, by simp at hn; omega⟩
    have he : (pre ++ e :: grp ++ rest)[pre.length]? = some e := by simp
    simp only [pushGroup, he, hg e (by simp), if_true]
    have := ih (pre ++ [e]) (out ++ [e]) n (fun x hx => hg x (by simp [hx])) (by simp at hn; omega)
    simp only [List.append_assoc, List.cons_append, List.nil_append, List.length_append, List.length_cons, List.length_nil] at this
    simp only [List.append_assoc, List.cons_append, this, List.length_cons]
    congr 1
    omega

/-- The loop inside of a group. -/
theorem filterLoop_group (cmp : Compare V X) (p : Page V X) (hf : p.filters ≠ []) (pre rest : List (Entry V)) (g : Nat)
    (hpre : ∀ e ∈ pre, e.group ≠ g) (hrest : ∀ e ∈ rest, e.group ≠ g) (g2 : List (Entry V)) : ∀ (g1 : List (Entry V)) (n : Nat)
    (rule : Option Bool) (out : List (Entry V)), (∀ e ∈ g1 ++ g2, e.group = g) → p.data = pre ++ (g1 ++ g2) ++ rest →
      g2.length + rest.length < n → ∃ n' rule', rest.length < n' ∧
      filterLoop cmp p n (pre.length + g1.length) rule out = filterLoop cmp p n' (pre ++ (g1 ++ g2)).length rule'
        (out ++ groupOut (ruleOf cmp p.filters p.selectedLine) (g1 ++ g2) g2) := by
  induction g2 with
  | nil =>
    intro g1 n rule out hg hd hn
    exact ⟨n, rule, by simpa using hn, by simp [groupOut]⟩
  | cons e g2 ih =>
    intro g1 n rule out hg hd hn
    obtain ⟨n, rfl⟩ : ∃ m, n = m + 1 := ⟨n - 1, by omega⟩
    have he : p.data[pre.length + g1.length]? = some e := by
      rw [hd, List.append_assoc, List.getElem?_append_right (by omega), Nat.add_sub_cancel_left, List.getElem?_append_left (by simp),
        List.getElem?_append_right (by omega)]
      simp
    obtain ⟨rule', hs⟩ := filterLoop_step cmp p hf n _ rule out e he
    rw [hs]
    have hl : pre.length + g1.length + 1 = pre.length + (g1 ++ [e]).length := by simp; omega
    have happ : g1 ++ e :: g2 = (g1 ++ [e]) ++ g2 := by simp
    have hn' : g2.length + rest.length < n := by simp at hn; omega
    cases hrl : ruleOf cmp p.filters p.selectedLine e with
    | none =>
      simp only [hl, groupOut, hrl]
      rw [happ] at hg hd ⊢
      exact ih (g1 ++ [e]) n rule' out hg hd hn'
    | some b =>
      cases b with
      | false =>
        simp only [hl, groupOut, hrl]
        rw [happ] at hg hd ⊢
        obtain ⟨n', r', h1, h2⟩ := ih (g1 ++ [e]) n rule' (out ++ [e]) hg hd hn'
        exact ⟨n', r', h1, by rw [h2]; simp⟩
      | true =>
        refine ⟨n, rule', by omega, ?_⟩
        have heg : e.group = g := hg e (by simp)
        have hst : groupStart p.data e.group (pre.length + g1.length + 1) (pre.length + g1.length) = pre.length := by
          rw [hd, heg, Nat.add_assoc, groupStart_eq pre g hpre rest (g1 ++ e :: g2) hg (g1.length + 1) (by simp)]
          simp
        have hpu : pushGroup p.data e.group (p.data.length - pre.length) pre.length out =
            (pre.length + (g1 ++ e :: g2).length, out ++ (g1 ++ e :: g2)) := by
          rw [heg]
          have := pushGroup_eq g rest hrest (g1 ++ e :: g2) pre out (p.data.length - pre.length) hg (by rw [hd]; simp; omega)
          rw [← hd] at this
          exact this
        simp only [hst, hpu, groupOut, hrl]
        congr 1
        simp
        omega

theorem filterLoop_shown (cmp : Compare V X) (p : Page V X) (hf : p.filters ≠ []) (k : Nat) : ∀ (suf pre : List (Entry V)) (n : Nat)
    (rule : Option Bool) (out : List (Entry V)), suf.length ≤ k → p.data = pre ++ suf → Grouped suf →
      (∀ a ∈ pre, ∀ b ∈ suf, a.group < b.group) → suf.length < n →
      ∃ res, Shown (ruleOf cmp p.filters p.selectedLine) suf res ∧ (filterLoop cmp p n pre.length rule out).2 = out ++ res := by
  induction k with
  | zero =>
    intro suf pre n rule out hk hd _ _ _
    obtain rfl : suf = [] := List.length_eq_zero_iff.mp (by omega)
    exact ⟨[], .nil, by rw [filterLoop_end _ _ _ _ _ _ (by simp [hd])]; simp⟩
  | succ k ih =>
    intro suf pre n rule out hk hd hs hlt hn
    cases suf with
    | nil => exact ⟨[], .nil, by rw [filterLoop_end _ _ _ _ _ _ (by simp [hd])]; simp⟩
    | cons e0 suf =>
      let q : Entry V → Bool := fun e => decide (e.group = e0.group)
      have hsplit : (e0 :: suf).takeWhile q ++ (e0 :: suf).dropWhile q = e0 :: suf := List.takeWhile_append_dropWhile
      have hq0 : q e0 = true := by simp [q]
      have htw : (e0 :: suf).takeWhile q = e0 :: suf.takeWhile q := by simp [hq0]
      have hdw : (e0 :: suf).dropWhile q = suf.dropWhile q := by simp [hq0]
      generalize hgr : (e0 :: suf).takeWhile q = grp at hsplit htw
      generalize hre : (e0 :: suf).dropWhile q = rest at hsplit hdw
      have hgrp : ∀ e ∈ grp, e.group = e0.group := by
        intro e he
        rw [← hgr] at he
        have : q e = true := List.all_eq_true.mp List.all_takeWhile e he
        simpa [q] using this
      rw [← hsplit] at hs
      have hs' := List.pairwise_append.mp hs
      have hrest : ∀ e ∈ rest, e0.group < e.group := by
        intro e he
        cases hr : rest with
        | nil => rw [hr] at he; cases he
        | cons r0 rs =>
          have hr0 : ¬ q r0 = true := by
            have := List.head?_dropWhile_not q (e0 :: suf)
            rw [hre, hr] at this
            simpa using this
          have hr0' : r0.group ≠ e0.group := by simpa [q] using hr0
          have h0 : e0.group ≤ r0.group := hs'.2.2 e0 (by rw [htw]; simp) r0 (by rw [hr]; simp)
          rw [hr] at he
          rcases List.mem_cons.mp he with rfl | he
          · omega
          · have := hs'.2.1
            rw [hr] at this
            have := (List.pairwise_cons.mp this).1 e he
            omega
      have hpre : ∀ e ∈ pre, e.group ≠ e0.group := fun e he => Nat.ne_of_lt (hlt e he e0 (by simp))
      have hlen : grp.length + rest.length = suf.length + 1 := by
        have := congrArg List.length hsplit
        simpa using this
      have hgl : 0 < grp.length := by rw [htw]; simp
      obtain ⟨n', rule', hn', hloop⟩ := filterLoop_group cmp p hf pre rest e0.group hpre (fun e he => (Nat.ne_of_lt (hrest e he)).symm)
        grp [] n rule out hgrp (by rw [List.nil_append, List.append_assoc, hsplit]; exact hd) (by simp at hn; omega)
      simp only [List.nil_append, List.length_nil, Nat.add_zero] at hloop
      obtain ⟨res, hres, hfin⟩ := ih rest (pre ++ grp) n' rule' (out ++ groupOut (ruleOf cmp p.filters p.selectedLine) grp grp)
        (by simp at hk; omega) (by rw [List.append_assoc, hsplit]; exact hd) hs'.2.1
        (by
          intro a ha b hb
          rcases List.mem_append.mp ha with ha | ha
          · exact hlt a ha b (by rw [← hsplit]; simp [hb])
          · rw [hgrp a ha]; exact hrest b hb) hn'
      refine ⟨groupOut (ruleOf cmp p.filters p.selectedLine) grp grp ++ res, ?_, ?_⟩
      · rw [← hsplit]
        exact .group e0.group grp rest res hgrp hrest hres
      · rw [hloop, hfin]
        simp

theorem filterData_shown (cmp : Compare V X) (p : Page V X) (hf : p.filters ≠ []) (hg : Grouped p.data) :
    Shown (ruleOf cmp p.filters p.selectedLine) p.data (filterData cmp p).dataToShow := by
  obtain ⟨res, h1, h2⟩ := filterLoop_shown cmp p hf p.data.length p.data [] (p.data.length + 1) p.apliedRule [] (Nat.le_refl _) rfl hg
    (by simp) (by omega)
  simp only [List.length_nil, List.nil_append] at h2
  simpa [filterData, h2] using h1

theorem mem_groupOut (rule : Entry V → Option Bool) (grp : List (Entry V)) (e : Entry V) (es : List (Entry V)) (hsub : ∀ x ∈ es, x ∈ grp) :
    e ∈ groupOut rule grp es ↔ (e ∈ es ∧ rule e = some false) ∨ (e ∈ grp ∧ ∃ x ∈ es, rule x = some true) := by
  induction es with
  | nil => simp [groupOut]
  | cons a es ih =>
    have ih := ih (fun x hx => hsub x (by simp [hx]))
    cases hr : rule a with
    | none =>
      simp only [groupOut, hr, ih, List.mem_cons, exists_eq_or_imp]
      constructor
      · rintro (⟨h1, h2⟩ | ⟨h1, h2⟩)
        · exact .inl ⟨.inr h1, h2⟩
        · exact .inr ⟨h1, .inr h2⟩
      · rintro (⟨rfl | h1, h2⟩ | ⟨h1, h2 | h2⟩)
        · rw [hr] at h2; cases h2
        · exact .inl ⟨h1, h2⟩
        · cases h2
        · exact .inr ⟨h1, h2⟩
    | some b =>
      cases b with
      | false =>
        simp only [groupOut, hr, ih, List.mem_cons, exists_eq_or_imp]
        constructor
        · rintro (rfl | ⟨h1, h2⟩ | ⟨h1, h2⟩)
          · exact .inl ⟨.inl rfl, hr⟩
          · exact .inl ⟨.inr h1, h2⟩
          · exact .inr ⟨h1, .inr h2⟩
        · rintro (⟨rfl | h1, h2⟩ | ⟨h1, h2 | h2⟩)
          · exact .inl rfl
          · exact .inr (.inl ⟨h1, h2⟩)
          · cases h2
          · exact .inr (.inr ⟨h1, h2⟩)
      | true =>
        simp only [groupOut, hr, List.mem_cons, exists_eq_or_imp]
        constructor
        · intro h
          exact .inr ⟨h, .inl trivial⟩
        · rintro (⟨rfl | h1, h2⟩ | ⟨h1, _⟩)
          · exact hsub e (by simp)
          · exact hsub e (by simp [h1])
          · exact h1

/-- The entries which are shown, with any filters. -/
theorem mem_shown {rule : Entry V → Option Bool} {data out : List (Entry V)} (h : Shown rule data out) (e : Entry V) :
    e ∈ out ↔ e ∈ data ∧ (rule e = some false ∨ ∃ x ∈ data, x.group = e.group ∧ rule x = some true) := by
  induction h with
  | nil => simp
  | group g grp rest out hg hr _ ih =>
    rw [List.mem_append, mem_groupOut _ _ _ _ (fun x hx => hx), ih, List.mem_append]
    constructor
    · rintro ((⟨h1, h2⟩ | ⟨h1, x, hx, hx2⟩) | ⟨h1, h2 | ⟨x, hx, hx2⟩⟩)
      · exact ⟨.inl h1, .inl h2⟩
      · exact ⟨.inl h1, .inr ⟨x, List.mem_append_left _ hx, by rw [hg x hx, hg e h1], hx2⟩⟩
      · exact ⟨.inr h1, .inl h2⟩
      · exact ⟨.inr h1, .inr ⟨x, List.mem_append_right _ hx, hx2⟩⟩
    · rintro ⟨h1 | h1, h2 | ⟨x, hx, hx2, hx3⟩⟩
      · exact .inl (.inl ⟨h1, h2⟩)
      · rcases List.mem_append.mp hx with hx | hx
        · exact .inl (.inr ⟨h1, x, hx, hx3⟩)
        · have := hr x hx
          rw [hx2, hg e h1] at this
          omega
      · exact .inr ⟨h1, .inl h2⟩
      · rcases List.mem_append.mp hx with hx | hx
        · have := hr e h1
          rw [← hx2, hg x hx] at this
          omega
        · exact .inr ⟨h1, .inr ⟨x, hx, hx2, hx3⟩⟩

theorem groupOut_all (rule : Entry V → Option Bool) (hb : ∀ e, rule e ≠ some false) (grp : List (Entry V)) : ∀ es : List (Entry V),
    groupOut rule grp es = if ∃ x ∈ es, (rule x).isSome then grp else [] := by
  intro es
  induction es with
  | nil => simp [groupOut]
  | cons a es ih =>
    cases hr : rule a with
    | none => simp [groupOut, hr, ih]
    | some b =>
      cases b with
      | false => exact absurd hr (hb a)
      | true => simp [groupOut, hr]

/-- With filters of groups only: the groups in which an entry matches, each once. -/
theorem shown_groups {rule : Entry V → Option Bool} (hb : ∀ e, rule e ≠ some false) {data out : List (Entry V)} (h : Shown rule data out)
    (Q : Entry V → Bool) (hQ : ∀ e, Q e = true ↔ ∃ x ∈ data, x.group = e.group ∧ (rule x).isSome) : out = data.filter Q := by
  induction h generalizing Q with
  | nil => rfl
  | group g grp rest out hg hr _ ih =>
    rw [List.filter_append, groupOut_all rule hb]
    congr 1
    · split
      · rename_i hx
        obtain ⟨x, hx, hs⟩ := hx
        refine (List.filter_eq_self.mpr fun e he => (hQ e).mpr ⟨x, by simp [hx], by rw [hg x hx, hg e he], hs⟩).symm
      · rename_i hx
        refine (List.filter_eq_nil_iff.mpr fun e he h => ?_).symm
        obtain ⟨x, hxm, hxg, hxs⟩ := (hQ e).mp h
        rcases List.mem_append.mp hxm with h1 | h1
        · exact hx ⟨x, h1, hxs⟩
        · have := hr x h1
          rw [hxg, hg e he] at this
          omega
    · classical
      rw [ih (fun e => decide (∃ x ∈ rest, x.group = e.group ∧ (rule x).isSome)) (by simp)]
      refine List.filter_congr fun e he => ?_
      rw [Bool.eq_iff_iff, hQ, decide_eq_true_eq]
      constructor
      · rintro ⟨x, h1, h2⟩
        exact ⟨x, by simp [h1], h2⟩
      · rintro ⟨x, h1, h2, h3⟩
        rcases List.mem_append.mp h1 with h1 | h1
        · have := hr e he
          rw [← h2, hg x h1] at this
          omega
        · exact ⟨x, h1, h2, h3⟩

/-! ## The table -/

theorem tokens_text (t : List Char) (ht : ∀ c ∈ t, c ≠ '<') : ∀ (acc r : List Char),
    tokens false acc (t ++ '<' :: r) = .text (acc ++ t) :: tokens true [] r := by
  induction t with
  | nil => simp [tokens]
  | cons c t ih =>
    intro acc r
    simp only [List.cons_append, tokens, ht c (by simp), if_false]
    rw [ih (fun x hx => ht x (by simp [hx]))]
    simp

theorem tokens_tag (t : List Char) (ht : ∀ c ∈ t, c ≠ '>') : ∀ (acc r : List Char),
    tokens true acc (t ++ '>' :: r) = .tag (acc ++ t) :: tokens false [] r := by
  induction t with
  | nil => simp [tokens]
  | cons c t ih =>
    intro acc r
    simp only [List.cons_append, tokens, ht c (by simp), if_false]
    rw [ih (fun x hx => ht x (by simp [hx]))]
    simp

theorem digits_text (n : Nat) : ∀ c ∈ Nat.toDigits 10 n, c ≠ '<' := by
  intro c hc h
  have := Nat.isDigit_of_mem_toDigits (by decide) (by decide) hc
  rw [h] at this
  exact absurd this (by decide)

/-- A cell in the text. -/
theorem tableRows_cell (row : List (List Char)) (cell t : List Char) (r : List Char) (ht : ∀ c ∈ t, c ≠ '<') :
    tableRows row cell (tokens false [] (t ++ ("</td><td>".toList ++ r))) = tableRows (row ++ [cell ++ t]) [] (tokens false [] r) := by
  have h : "</td><td>".toList ++ r = '<' :: (['/', 't', 'd'] ++ '>' :: ([] ++ '<' :: (['t', 'd'] ++ '>' :: r))) := by
    simp [show "</td><td>".toList = ['<', '/', 't', 'd', '>', '<', 't', 'd', '>'] from by decide]
  rw [h, tokens_text t ht, tokens_tag _ (by decide), tokens_text [] (by simp), tokens_tag _ (by decide)]
  simp [tableRows]

/-- The last cell of a row. -/
theorem tableRows_last (row : List (List Char)) (cell t : List Char) (r : List Char) (ht : ∀ c ∈ t, c ≠ '<') :
    tableRows row cell (tokens false [] (t ++ ("</td></tr>".toList ++ r))) =
      (row ++ [cell ++ t]) :: tableRows [] [] (tokens false [] r) := by
  have h : "</td></tr>".toList ++ r = '<' :: (['/', 't', 'd'] ++ '>' :: ([] ++ '<' :: (['/', 't', 'r'] ++ '>' :: r))) := by
    simp [show "</td></tr>".toList = ['<', '/', 't', 'd', '>', '<', '/', 't', 'r', '>'] from by decide]
  rw [h, tokens_text t ht, tokens_tag _ (by decide), tokens_text [] (by simp), tokens_tag _ (by decide)]
  simp [tableRows]

/-- The beginning of a row. -/
theorem tableRows_begin (odd oddGroup : Bool) (r : List Char) :
    tableRows [] [] (tokens false [] ("<tr style=\"background-color:".toList ++ ((rowColor odd oddGroup).toList ++ ("\"><td>".toList ++ r)))) =
      tableRows [] [] (tokens false [] r) := by
  have h : "<tr style=\"background-color:".toList ++ ((rowColor odd oddGroup).toList ++ ("\"><td>".toList ++ r)) =
      [] ++ '<' :: (("tr style=\"background-color:".toList ++ ((rowColor odd oddGroup).toList ++ ['"'])) ++
        '>' :: ([] ++ '<' :: (['t', 'd'] ++ '>' :: r))) := by
    simp [show "<tr style=\"background-color:".toList = '<' :: "tr style=\"background-color:".toList from by decide,
      show "\"><td>".toList = ['"', '>', '<', 't', 'd', '>'] from by decide]
  have ht : ∀ c ∈ "tr style=\"background-color:".toList ++ ((rowColor odd oddGroup).toList ++ ['"']), c ≠ '>' := by
    cases odd <;> cases oddGroup <;> decide
  have hs : "tr style=\"background-color:".toList = 't' :: 'r' :: " style=\"background-color:".toList := by decide
  rw [h, tokens_text [] (by simp), tokens_tag _ ht, tokens_text [] (by simp), tokens_tag _ (by decide)]
  simp [tableRows, hs]

/-- A row in the text. -/
theorem tableRows_row (stringify : V → List Char) (odd oddGroup : Bool) (e : Entry V) (r : List Char) (h1 : ∀ c ∈ e.file, c ≠ '<')
    (h2 : ∀ c ∈ e.name, c ≠ '<') (h3 : ∀ c ∈ stringify e.value, c ≠ '<') :
    tableRows [] [] (tokens false [] (showRow stringify odd oddGroup e ++ r)) =
      cells stringify e :: tableRows [] [] (tokens false [] r) := by
  unfold showRow
  repeat rw [List.append_assoc]
  rw [tableRows_begin]
  rw [tableRows_cell _ _ _ _ (digits_text _)]
  rw [tableRows_cell _ _ _ _ (digits_text _)]
  rw [tableRows_cell _ _ _ _ h1]
  rw [tableRows_cell _ _ _ _ h2]
  rw [tableRows_last _ _ _ _ h3]
  rfl

theorem tableRows_end : tableRows [] [] (tokens false [] "</table>".toList) = [] := by decide +kernel

theorem tableRows_showRows (stringify : V → List Char) (es : List (Entry V))
    (h : ∀ e ∈ es, PlainText e.file ∧ PlainText e.name ∧ PlainText (stringify e.value)) (stop : List Char)
    (hstop : tableRows [] [] (tokens false [] stop) = []) : ∀ (odd oddGroup : Bool) (g : Nat),
    tableRows [] [] (tokens false [] (showRows stringify odd oddGroup g es ++ stop)) = es.map (cells stringify) := by
  induction es with
  | nil =>
    intro odd oddGroup g
    simp only [showRows, List.nil_append, List.map_nil]
    exact hstop
  | cons e es ih =>
    intro odd oddGroup g
    obtain ⟨h1, h2, h3⟩ := h e List.mem_cons_self
    simp only [showRows, List.append_assoc, List.map_cons]
    rw [tableRows_row _ _ _ _ _ (fun c hc => (h1 c hc).1) (fun c hc => (h2 c hc).1) (fun c hc => (h3 c hc).1)]
    rw [ih (fun x hx => h x (List.mem_cons_of_mem _ hx))]

theorem tokens_ne_nil (s : List Char) : ∀ (b : Bool) (acc : List Char), tokens b acc s ≠ [] := by
  induction s with
  | nil => intro b acc; cases b <;> simp [tokens]
  | cons c s ih => intro b acc; cases b <;> simp only [tokens] <;> split <;> simp [ih]

theorem tokens_append (s r : List Char) : ∀ (b : Bool) (acc : List Char) (ts : List Token), tokens b acc (s ++ ['>']) = ts ++ [.text []] →
    tokens b acc (s ++ '>' :: r) = ts ++ tokens false [] r := by
  induction s with
  | nil =>
    intro b acc ts h
    cases b with
    | true =>
      simp only [List.nil_append, tokens, if_true] at h ⊢
      have : ts = [.tag acc] := by
        have h2 := congrArg List.dropLast h
        simpa using h2.symm
      simp [this]
    | false =>
      simp [tokens] at h
      have h2 := congrArg List.getLast? h
      simp at h2
  | cons c s ih =>
    intro b acc ts h
    cases b with
    | true =>
      simp only [List.cons_append, tokens] at h ⊢
      split
      · rename_i hc
        simp only [hc, if_true] at h
        cases ts with
        | nil =>
          simp at h
        | cons t ts =>
          simp only [List.cons_append, List.cons.injEq] at h ⊢
          exact ⟨h.1, ih _ _ _ h.2⟩
      · rename_i hc
        simp only [hc, if_false] at h
        exact ih _ _ _ h
    | false =>
      simp only [List.cons_append, tokens] at h ⊢
      split
      · rename_i hc
        simp only [hc, if_true] at h
        cases ts with
        | nil =>
          simp only [List.nil_append, List.cons.injEq] at h
          have h2 := h.2
          exact absurd h2 (tokens_ne_nil _ _ _)
        | cons t ts =>
          simp only [List.cons_append, List.cons.injEq] at h ⊢
          exact ⟨h.1, ih _ _ _ h.2⟩
      · rename_i hc
        simp only [hc, if_false] at h
        exact ih _ _ _ h

theorem readTable_showData (stringify : V → List Char) (p : Page V X)
    (h : ∀ e ∈ p.dataToShow, PlainText e.file ∧ PlainText e.name ∧ PlainText (stringify e.value)) :
    readTable (showData stringify p) = heading :: p.dataToShow.map (cells stringify) := by
  have hh : tableHead.toList = tableHead.toList.dropLast ++ ['>'] := by decide +kernel
  have key : ∀ r, tableRows [] [] (tokens false [] (tableHead.toList ++ r)) = heading :: tableRows [] [] (tokens false [] r) := by
    intro r
    have ht : tokens false [] (tableHead.toList.dropLast ++ ['>']) = (tokens false [] tableHead.toList).dropLast ++ [.text []] := by
      decide +kernel
    have := tokens_append tableHead.toList.dropLast r false [] _ ht
    rw [hh, List.append_assoc, List.singleton_append, this]
    have hc : (tokens false [] tableHead.toList).dropLast =
      [.text [], .tag "table style=\"position: absolute; width:90%; left:5%\"".toList, .text [],
       .tag ('t' :: 'r' :: " style=\"background-color:lightgrey\"".toList), .text [], .tag ['t', 'h'], .text "GroupIndex".toList,
       .tag ['/', 't', 'h'], .text [], .tag ['t', 'h'], .text "Line".toList, .tag ['/', 't', 'h'], .text [], .tag ['t', 'h'],
       .text "File".toList, .tag ['/', 't', 'h'], .text [], .tag ['t', 'h'], .text "var name".toList, .tag ['/', 't', 'h'], .text [],
       .tag ['t', 'h'], .text "value".toList, .tag ['/', 't', 'h'], .text [], .tag ['/', 't', 'r']] := by decide +kernel
    rw [hc]
    simp [tableRows, heading]
  unfold readTable showData
  rw [List.append_assoc, key, tableRows_showRows stringify _ h _ tableRows_end]

end GTMesh.HtmlScript
