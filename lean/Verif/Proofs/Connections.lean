import Verif.Model.Connections
import Verif.Proofs.Apply
import Verif.Proofs.Lists

namespace GTMesh
open Std' Spec

theorem forEach_ok {α : Type u} {β : Type v} {body : α → Res β} {f : α → β} {l : List α}
    (h : ∀ x ∈ l, body x = .ok (f x)) : forEach body l = .ok (l.map f) := by
  induction l with
  | nil => rfl
  | cons x xs ih =>
    simp only [forEach, h x (by simp), Res.bind, ih (fun y hy => h y (by simp [hy])), List.map_cons]

theorem mem_setInsert {x y : Nat} {l : List Nat} : y ∈ setInsert x l ↔ y = x ∨ y ∈ l := by
  induction l with
  | nil => simp [setInsert]
  | cons z zs ih =>
    simp only [setInsert]
    split
    · simp
    · split
      · subst_vars; simp
      · simp [ih]; tauto

theorem setInsert_sorted {x : Nat} {l : List Nat} (h : StrictlyIncreasing l) :
    StrictlyIncreasing (setInsert x l) := by
  unfold StrictlyIncreasing at *
  induction l with
  | nil => simp [setInsert]
  | cons z zs ih =>
    rw [List.pairwise_cons] at h
    simp only [setInsert]
    split
    · rename_i hx
      refine List.pairwise_cons.mpr ⟨?_, List.pairwise_cons.mpr h⟩
      intro a ha
      rcases List.mem_cons.mp ha with rfl | ha
      · exact hx
      · have := h.1 a ha; omega
    · split
      · exact List.pairwise_cons.mpr h
      · refine List.pairwise_cons.mpr ⟨?_, ih h.2⟩
        intro a ha
        rcases mem_setInsert.mp ha with rfl | ha
        · omega
        · exact h.1 a ha

theorem foldl_setInsert (xs : List Nat) (s : List Nat) (hs : StrictlyIncreasing s) :
    StrictlyIncreasing (xs.foldl (fun s x => setInsert x s) s) ∧
    ∀ t, t ∈ xs.foldl (fun s x => setInsert x s) s ↔ t ∈ xs ∨ t ∈ s := by
  induction xs generalizing s with
  | nil => simp [hs]
  | cons x xs ih =>
    obtain ⟨h1, h2⟩ := ih (setInsert x s) (setInsert_sorted hs)
    refine ⟨h1, fun t => ?_⟩
    rw [List.foldl_cons, h2, mem_setInsert, List.mem_cons]; tauto

theorem insertAll_sorted (xs : List Nat) : StrictlyIncreasing (insertAll xs) :=
  (foldl_setInsert xs [] List.Pairwise.nil).1

theorem mem_insertAll {xs : List Nat} {t : Nat} : t ∈ insertAll xs ↔ t ∈ xs := by
  rw [insertAll, (foldl_setInsert xs [] List.Pairwise.nil).2]; simp

theorem scatter_ok {β : Type} (upd : Idx → β → β) (calls : List (Idx × Idx)) (d : List β)
    (h : ∀ p ∈ calls, p.1 < d.length) :
    scatter upd calls d = .ok (d.mapIdx fun s b =>
      ((calls.filter fun p => p.1 == s).map (·.2)).foldl (fun b c => upd c b) b) := by
  induction calls generalizing d with
  | nil =>
    simp only [scatter]
    congr 1
    apply List.ext_getElem <;> simp
  | cons p r ih =>
    obtain ⟨o, c⟩ := p
    have ho : o < d.length := h (o, c) (by simp)
    have hat : Res.at' d o = .ok d[o] := by simp [ho]
    simp only [scatter, hat, Res.bind]
    rw [ih _ (by intro q hq; simpa using h q (by simp [hq]))]
    congr 1
    apply List.ext_getElem
    · simp
    · intro i h1 h2
      simp only [List.getElem_mapIdx, List.getElem_set, List.filter_cons]
      by_cases hi : o = i
      · subst hi; simp
      · simp [hi]

theorem mem_mapInsert {β : Type u} {k k' : Nat} {v v' : β} {l : List (Nat × β)}
    (hs : l.Pairwise (fun a b => a.1 < b.1)) :
    (k', v') ∈ mapInsert k v l ↔
      (k', v') ∈ l ∨ (k' = k ∧ v' = v ∧ k ∉ l.map (·.1)) := by
  induction l with
  | nil => simp [mapInsert]
  | cons p r ih =>
    obtain ⟨k1, v1⟩ := p
    rw [List.pairwise_cons] at hs
    simp only [mapInsert]
    split
    · rename_i hlt
      have : k ∉ r.map (·.1) := by
        intro hm; obtain ⟨q, hq, he⟩ := List.mem_map.mp hm
        have := hs.1 q hq; simp at this; omega
      have hne : k ≠ k1 := by omega
      simp_all
      tauto
    · split
      · subst_vars; simp
      · rw [List.mem_cons, ih hs.2]; simp; tauto

theorem mapInsert_sorted {β : Type u} {k : Nat} {v : β} {l : List (Nat × β)}
    (hs : l.Pairwise (fun a b => a.1 < b.1)) : (mapInsert k v l).Pairwise (fun a b => a.1 < b.1) := by
  induction l with
  | nil => simp [mapInsert]
  | cons p r ih =>
    obtain ⟨k1, v1⟩ := p
    have hs' := hs
    rw [List.pairwise_cons] at hs
    simp only [mapInsert]
    split
    · rename_i hx
      refine List.pairwise_cons.mpr ⟨?_, hs'⟩
      intro a ha
      rcases List.mem_cons.mp ha with rfl | ha
      · exact hx
      · have := hs.1 a ha; simp at this ⊢; omega
    · split
      · exact hs'
      · refine List.pairwise_cons.mpr ⟨?_, ih hs.2⟩
        rintro ⟨a1, a2⟩ ha
        rcases (mem_mapInsert hs.2).mp ha with ha | ⟨rfl, _, _⟩
        · exact hs.1 _ ha
        · simp; omega

theorem mapInsert_length {β : Type u} {k : Nat} {v : β} {l : List (Nat × β)}
    (hs : l.Pairwise (fun a b => a.1 < b.1)) :
    (mapInsert k v l).length = if k ∈ l.map (·.1) then l.length else l.length + 1 := by
  induction l with
  | nil => simp [mapInsert]
  | cons p r ih =>
    obtain ⟨k1, v1⟩ := p
    rw [List.pairwise_cons] at hs
    simp only [mapInsert]
    split
    · have : k ∉ r.map (·.1) := by
        intro hm; obtain ⟨q, hq, he⟩ := List.mem_map.mp hm
        have := hs.1 q hq; simp at this; omega
      rw [if_neg (by simp only [List.map_cons, List.mem_cons, not_or]; exact ⟨by omega, this⟩)]
      simp
    · split
      · subst_vars; simp
      · rename_i hne
        simp only [List.length_cons, ih hs.2, List.map_cons, List.mem_cons, hne, false_or]
        split <;> rfl

/-- What the numbered map holds after a sequence of insertions. -/
structure Numbered (mp : List (Idx × Nat)) (xs : List Idx) : Prop where
  sorted : mp.Pairwise (fun a b => a.1 < b.1)
  len : mp.length = (firstOcc xs).length
  mem : ∀ k v, (k, v) ∈ mp ↔ (firstOcc xs)[v]? = some k

theorem numbered_nil : Numbered [] [] := ⟨List.Pairwise.nil, rfl, by simp⟩

theorem Numbered.keys {mp : List (Idx × Nat)} {xs : List Idx} (h : Numbered mp xs) (k : Idx) :
    k ∈ mp.map (·.1) ↔ k ∈ xs := by
  rw [← mem_firstOcc (l := xs)]
  constructor
  · intro hk
    obtain ⟨⟨a, b⟩, h1, h2⟩ := List.mem_map.mp hk
    have := (h.mem a b).mp h1
    simp at h2; subst h2
    exact List.mem_of_getElem? this
  · intro hk
    obtain ⟨v, hv⟩ := List.getElem?_of_mem hk
    exact List.mem_map.mpr ⟨(k, v), (h.mem k v).mpr hv, rfl⟩

theorem Numbered.insert {mp : List (Idx × Nat)} {xs : List Idx} (h : Numbered mp xs) (c : Idx) :
    Numbered (insertNumbered c mp) (xs ++ [c]) := by
  have hk := h.keys c
  by_cases hc : c ∈ xs
  · refine ⟨mapInsert_sorted h.sorted, ?_, ?_⟩
    · rw [insertNumbered, mapInsert_length h.sorted, if_pos (hk.mpr hc), firstOcc_append_mem hc, h.len]
    · intro k v
      rw [insertNumbered, mem_mapInsert h.sorted, firstOcc_append_mem hc, h.mem]
      constructor
      · rintro (h1 | ⟨_, _, h2⟩)
        · exact h1
        · exact absurd (hk.mpr hc) h2
      · exact Or.inl
  · refine ⟨mapInsert_sorted h.sorted, ?_, ?_⟩
    · rw [insertNumbered, mapInsert_length h.sorted, if_neg (fun h' => hc (hk.mp h')),
        firstOcc_append_not_mem hc, h.len]; simp
    · intro k v
      rw [insertNumbered, mem_mapInsert h.sorted, firstOcc_append_not_mem hc, h.mem,
        List.getElem?_append, h.len]
      have hc' : c ∉ mp.map (·.1) := fun h' => hc (hk.mp h')
      split
      · constructor
        · rintro (h1 | ⟨_, h2, _⟩)
          · exact h1
          · omega
        · exact Or.inl
      · rename_i hv
        have hn : (firstOcc xs)[v]? = none := List.getElem?_eq_none (by omega)
        rw [hn]
        simp only [reduceCtorEq, false_or, hc', not_false_eq_true, and_true]
        constructor
        · rintro ⟨rfl, rfl⟩; simp
        · intro h1
          have hv0 : v - (firstOcc xs).length = 0 := by
            rcases Nat.eq_zero_or_pos (v - (firstOcc xs).length) with h0 | h0
            · exact h0
            · rw [List.getElem?_eq_none (by simp; omega)] at h1; simp at h1
          rw [hv0] at h1; simp at h1
          exact ⟨h1.symm, by omega⟩

theorem Numbered.foldl {mp : List (Idx × Nat)} {xs : List Idx} (h : Numbered mp xs) (ys : List Idx) :
    Numbered (ys.foldl (fun mp n => insertNumbered n mp) mp) (xs ++ ys) := by
  induction ys generalizing mp xs with
  | nil => simpa using h
  | cons y ys ih =>
    have := ih (h.insert y)
    simpa using this

theorem layout_fold (mp : List (Idx × Nat)) (a : List Idx) (hlt : ∀ e ∈ mp, e.2 < a.length)
    (hd : mp.Pairwise (fun x y => x.2 ≠ y.2)) :
    ∃ r : List Idx, mp.foldl placeStep (.ok a) = .ok r ∧
      r.length = a.length ∧ (∀ e ∈ mp, r[e.2]? = some e.1) ∧
      (∀ v, (∀ e ∈ mp, e.2 ≠ v) → r[v]? = a[v]?) := by
  induction mp generalizing a with
  | nil => exact ⟨a, rfl, rfl, by simp, by simp⟩
  | cons e mp ih =>
    rw [List.pairwise_cons] at hd
    have he : e.2 < a.length := hlt e (by simp)
    obtain ⟨r, h1, h2, h3, h4⟩ := ih (a.set e.2 e.1) (by intro f hf; simpa using hlt f (by simp [hf])) hd.2
    refine ⟨r, ?_, by simpa using h2, ?_, ?_⟩
    · simp only [List.foldl_cons, placeStep, Res.bind, he, if_true]; exact h1
    · intro f hf
      rcases List.mem_cons.mp hf with rfl | hf
      · rw [h4 _ (fun g hg => (hd.1 g hg).symm)]; simp [he]
      · exact h3 f hf
    · intro v hv
      rw [h4 v (fun g hg => hv g (by simp [hg]))]
      rw [List.getElem?_set_ne (hv e (by simp))]

theorem Numbered.layout {mp : List (Idx × Nat)} {xs : List Idx} (h : Numbered mp xs) :
    layout mp = .ok (firstOcc xs) := by
  have hlt : ∀ e ∈ mp, e.2 < (List.replicate mp.length 0).length := by
    rintro ⟨k, v⟩ he
    have := (h.mem k v).mp he
    have := (List.getElem?_eq_some_iff.mp this).1
    simp [h.len]; exact this
  have hd : mp.Pairwise (fun x y => x.2 ≠ y.2) := by
    refine h.sorted.imp_of_mem ?_
    rintro ⟨k, v⟩ ⟨k', v'⟩ h1 h2 hlt heq
    simp at heq; subst heq
    have e1 := (h.mem _ _).mp h1
    have e2 := (h.mem _ _).mp h2
    rw [e1] at e2; simp at e2; simp at hlt; omega
  obtain ⟨r, h1, h2, h3, -⟩ := layout_fold mp _ hlt hd
  unfold GTMesh.layout
  rw [h1]
  congr 1
  apply List.ext_getElem?
  intro v
  by_cases hv : v < (firstOcc xs).length
  · have := (h.mem (firstOcc xs)[v] v).mpr (by simp [hv])
    rw [h3 _ this]; simp [hv]
  · rw [List.getElem?_eq_none (by simp at h2; have := h.len; omega), List.getElem?_eq_none (by omega)]

theorem layout_insertNumbered (xs : List Idx) :
    layout (xs.foldl (fun mp n => insertNumbered n mp) []) = .ok (firstOcc xs) := by
  have := numbered_nil.foldl xs
  simpa using this.layout

end GTMesh
