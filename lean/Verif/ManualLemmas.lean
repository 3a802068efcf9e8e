import Verif.ManualModel

/-!
# Lemmas about the table of waiting keys

The order of the keys, the search tree, the list, and the one fact that both builds share: a
lookup turns the presence of its key around.
-/

namespace Verif.Manual

open Verif.Server

/-! ## Order -/

theorem memcmp_swap : ∀ a b : List Nat, memcmp b a = - memcmp a b
  | [], [] => rfl
  | [], _ :: _ => rfl
  | _ :: _, [] => rfl
  | a :: as, b :: bs => by
    unfold memcmp
    by_cases h : a = b
    · simp [h, memcmp_swap as bs]
    · have h' : ¬ b = a := fun e => h e.symm
      simp only [h, h', if_false]
      by_cases h1 : a < b
      · have : ¬ b < a := by omega
        simp [h1, this]
      · have : b < a := by omega
        simp [h1, this]

theorem memcmp_zero : ∀ {a b : List Nat}, a.length = b.length → (memcmp a b = 0 ↔ a = b)
  | [], [], _ => by simp [memcmp]
  | [], _ :: _, h => by simp at h
  | _ :: _, [], h => by simp at h
  | a :: as, b :: bs, h => by
    unfold memcmp
    by_cases h1 : a = b
    · simp only [h1, if_true, List.cons.injEq, true_and]
      exact memcmp_zero (by simpa using h)
    · simp only [h1, if_false, List.cons.injEq, false_and, iff_false]
      split <;> simp

theorem memcmp_trans : ∀ {a b c : List Nat}, memcmp a b < 0 → memcmp b c < 0 → memcmp a c < 0
  | [], _, _, h, _ => by simp [memcmp] at h
  | _ :: _, [], _, h, _ => by simp [memcmp] at h
  | _ :: _, _ :: _, [], _, h => by simp [memcmp] at h
  | a :: as, b :: bs, c :: cs, h1, h2 => by
    unfold memcmp at h1 h2 ⊢
    by_cases e1 : a = b
    · subst e1
      simp only [if_true] at h1
      by_cases e2 : a = c
      · simp only [e2, if_true] at h2 ⊢
        exact memcmp_trans h1 h2
      · simpa only [e2, if_false] using h2
    · simp only [e1, if_false] at h1
      by_cases l1 : a < b
      · by_cases e2 : b = c
        · subst e2
          simp [e1, l1]
        · simp only [e2, if_false] at h2
          by_cases l2 : b < c
          · have h3 : a < c := by omega
            have h4 : ¬ a = c := by omega
            simp [h3, h4]
          · simp [l2] at h2
      · simp [l1] at h1

theorem cmp_swap (a b : List Nat) : cmp b a = - cmp a b := by
  unfold cmp
  by_cases h1 : a.length > b.length
  · have : ¬ b.length > a.length := by omega
    have : b.length < a.length := by omega
    simp [*]
  · by_cases h2 : a.length < b.length
    · have : b.length > a.length := by omega
      simp [*]
    · have e1 : ¬ b.length > a.length := by omega
      have e2 : ¬ b.length < a.length := by omega
      rw [if_neg e1, if_neg e2, if_neg h1, if_neg h2]
      exact memcmp_swap a b

theorem cmp_zero {a b : List Nat} : cmp a b = 0 ↔ a = b := by
  unfold cmp
  by_cases h1 : a.length > b.length
  · simp only [h1, if_true]
    constructor
    · intro h; simp at h
    · intro h; subst h; omega
  · by_cases h2 : a.length < b.length
    · simp only [h1, h2, if_true, if_false]
      constructor
      · intro h; simp at h
      · intro h; subst h; omega
    · simp only [h1, h2, if_false]
      exact memcmp_zero (by omega)

theorem cmp_trans {a b c : List Nat} (h1 : cmp a b < 0) (h2 : cmp b c < 0) : cmp a c < 0 := by
  unfold cmp at *
  by_cases g1 : a.length > b.length
  · simp [g1] at h1
  by_cases g2 : b.length > c.length
  · simp [g2] at h2
  by_cases l1 : a.length < b.length
  · have e1 : ¬ a.length > c.length := by omega
    have e2 : a.length < c.length := by omega
    simp [e1, e2]
  by_cases l2 : b.length < c.length
  · have e1 : ¬ a.length > c.length := by omega
    have e2 : a.length < c.length := by omega
    simp [e1, e2]
  have e1 : ¬ a.length > c.length := by omega
  have e2 : ¬ a.length < c.length := by omega
  simp only [g1, l1, if_false] at h1
  simp only [g2, l2, if_false] at h2
  rw [if_neg e1, if_neg e2]
  exact memcmp_trans h1 h2

theorem cmp_neg_swap {a b : List Nat} (h0 : cmp a b ≠ 0) (h : ¬ cmp a b < 0) : cmp b a < 0 := by
  rw [cmp_swap]; omega

theorem cmp_irrefl (a : List Nat) : ¬ cmp a a < 0 := by
  rw [cmp_zero.2 rfl]; decide

theorem cmp_asymm {a b : List Nat} (h : cmp a b < 0) : ¬ cmp b a < 0 := by
  rw [cmp_swap]; omega

/-! ## The tree -/

def tmem (x : List Nat) : Tree → Prop
  | .nil => False
  | .node l k r => x = k ∨ tmem x l ∨ tmem x r

/-- The tree is in order. -/
def Bst : Tree → Prop
  | .nil => True
  | .node l k r =>
    Bst l ∧ Bst r ∧ (∀ x, tmem x l → cmp x k < 0) ∧ ∀ x, tmem x r → cmp k x < 0

theorem tfind_iff {n : List Nat} : ∀ {t : Tree}, Bst t → (tfind n t = true ↔ tmem n t)
  | .nil, _ => by simp [tfind, tmem]
  | .node l k r, ⟨hl, hr, h1, h2⟩ => by
    unfold tfind tmem
    by_cases e : cmp n k = 0
    · simp only [e, if_true, true_iff]; exact .inl (cmp_zero.1 e)
    · have hne : n ≠ k := fun h => e (cmp_zero.2 h)
      by_cases lt : cmp n k < 0
      · simp only [e, lt, if_false, if_true, hne, false_or]
        rw [tfind_iff hl]
        constructor
        · exact .inl
        · rintro (h | h)
          · exact h
          · exact absurd (h2 n h) (cmp_asymm lt)
      · simp only [e, lt, if_false, hne, false_or]
        rw [tfind_iff hr]
        constructor
        · exact .inr
        · rintro (h | h)
          · exact absurd (h1 n h) lt
          · exact h

theorem tmem_tsearch {n x : List Nat} : ∀ {t : Tree},
    tmem x (tsearch n t) ↔ x = n ∨ tmem x t
  | .nil => by simp [tsearch, tmem]
  | .node l k r => by
    unfold tsearch
    by_cases e : cmp n k = 0
    · simp only [e, if_true]
      have := cmp_zero.1 e
      subst this
      simp only [tmem]
      constructor
      · exact .inr
      · rintro (h | h)
        · exact .inl h
        · exact h
    · by_cases lt : cmp n k < 0
      · simp only [e, lt, if_false, if_true, tmem, tmem_tsearch (t := l)]
        constructor
        · rintro (h | (h | h) | h) <;> simp [h]
        · rintro (h | h | h | h) <;> simp [h]
      · simp only [e, lt, if_false, tmem, tmem_tsearch (t := r)]
        constructor
        · rintro (h | h | h | h) <;> simp [h]
        · rintro (h | h | h | h) <;> simp [h]

theorem bst_tsearch {n : List Nat} : ∀ {t : Tree}, Bst t → Bst (tsearch n t)
  | .nil, _ => by simp [tsearch, Bst, tmem]
  | .node l k r, ⟨hl, hr, h1, h2⟩ => by
    unfold tsearch
    by_cases e : cmp n k = 0
    · simp only [e, if_true]; exact ⟨hl, hr, h1, h2⟩
    · by_cases lt : cmp n k < 0
      · simp only [e, lt, if_false, if_true]
        refine ⟨bst_tsearch hl, hr, ?_, h2⟩
        intro x hx
        rcases tmem_tsearch.1 hx with h | h
        · rw [h]; exact lt
        · exact h1 x h
      · simp only [e, lt, if_false]
        refine ⟨hl, bst_tsearch hr, h1, ?_⟩
        intro x hx
        rcases tmem_tsearch.1 hx with h | h
        · rw [h]; exact cmp_neg_swap e lt
        · exact h2 x h

theorem popMin_spec : ∀ {l : Tree} {k : List Nat} {r : Tree}, Bst (.node l k r) →
    Bst (popMin l k r).2 ∧
    (∀ x, tmem x (.node l k r) ↔ x = (popMin l k r).1 ∨ tmem x (popMin l k r).2) ∧
    ∀ x, tmem x (popMin l k r).2 → cmp (popMin l k r).1 x < 0
  | .nil, k, r, ⟨_, hr, _, h2⟩ => by
    refine ⟨hr, ?_, h2⟩
    intro x
    simp [popMin, tmem]
  | .node l' k' r', k, r, ⟨hl, hr, h1, h2⟩ => by
    obtain ⟨i1, i2, i3⟩ := popMin_spec (l := l') (k := k') (r := r') hl
    unfold popMin
    generalize popMin l' k' r' = m at i1 i2 i3
    have hm : tmem m.1 (.node l' k' r') := (i2 m.1).2 (.inl rfl)
    refine ⟨⟨i1, hr, ?_, h2⟩, ?_, ?_⟩
    · intro x hx
      exact h1 x ((i2 x).2 (.inr hx))
    · intro x
      show (x = k ∨ tmem x (.node l' k' r') ∨ tmem x r) ↔ x = m.1 ∨ x = k ∨ tmem x m.2 ∨ tmem x r
      rw [i2 x]
      constructor
      · rintro (h | (h | h) | h) <;> simp [h]
      · rintro (h | h | h | h) <;> simp [h]
    · intro x hx
      show cmp m.1 x < 0
      have hx' : x = k ∨ tmem x m.2 ∨ tmem x r := hx
      rcases hx' with h | h | h
      · rw [h]; exact h1 _ hm
      · exact i3 x h
      · exact cmp_trans (h1 _ hm) (h2 x h)

theorem join_spec {l r : Tree} {k : List Nat} (h : Bst (.node l k r)) :
    Bst (join l r) ∧ ∀ x, tmem x (join l r) ↔ tmem x l ∨ tmem x r := by
  obtain ⟨hl, hr, h1, h2⟩ := h
  cases l with
  | nil => exact ⟨hr, fun x => by simp [join, tmem]⟩
  | node ll lk lr =>
    cases r with
    | nil => exact ⟨hl, fun x => by simp [join, tmem]⟩
    | node rl rk rr =>
      obtain ⟨i1, i2, i3⟩ := popMin_spec hr
      have hj : join (.node ll lk lr) (.node rl rk rr) =
          .node (.node ll lk lr) (popMin rl rk rr).1 (popMin rl rk rr).2 := rfl
      rw [hj]
      generalize popMin rl rk rr = m at i1 i2 i3
      have hm : tmem m.1 (.node rl rk rr) := (i2 m.1).2 (.inl rfl)
      refine ⟨⟨hl, i1, ?_, i3⟩, ?_⟩
      · intro x hx
        exact cmp_trans (h1 x hx) (h2 _ hm)
      · intro x
        show (x = m.1 ∨ tmem x (.node ll lk lr) ∨ tmem x m.2) ↔ _
        rw [i2 x]
        constructor
        · rintro (h | h | h) <;> simp [h]
        · rintro (h | h | h) <;> simp [h]

theorem tdelete_spec {n : List Nat} : ∀ {t : Tree}, Bst t →
    Bst (tdelete n t) ∧ ∀ x, tmem x (tdelete n t) ↔ tmem x t ∧ x ≠ n
  | .nil, _ => by simp [tdelete, Bst, tmem]
  | .node l k r, h@⟨hl, hr, h1, h2⟩ => by
    unfold tdelete
    by_cases e : cmp n k = 0
    · simp only [e, if_true]
      obtain ⟨j1, j2⟩ := join_spec h
      refine ⟨j1, fun x => ?_⟩
      rw [j2 x]
      have hk := cmp_zero.1 e
      subst hk
      have a1 : tmem x l → x ≠ n := fun hx e => cmp_irrefl n (e ▸ h1 x hx)
      have a2 : tmem x r → x ≠ n := fun hx e => cmp_irrefl n (e ▸ h2 x hx)
      simp only [tmem]
      constructor
      · rintro (g | g)
        · exact ⟨.inr (.inl g), a1 g⟩
        · exact ⟨.inr (.inr g), a2 g⟩
      · rintro ⟨g | g | g, hne⟩
        · exact absurd g hne
        · exact .inl g
        · exact .inr g
    · by_cases lt : cmp n k < 0
      · simp only [e, lt, if_false, if_true]
        obtain ⟨i1, i2⟩ := tdelete_spec (n := n) hl
        refine ⟨⟨i1, hr, fun x hx => h1 x ((i2 x).1 hx).1, h2⟩, fun x => ?_⟩
        simp only [tmem, i2 x]
        have a1 : x = k → x ≠ n := fun hx hn => e (cmp_zero.2 (hn.symm.trans hx))
        have a2 : tmem x r → x ≠ n := fun hx hn => by
          have := h2 x hx
          rw [hn] at this
          exact cmp_asymm lt this
        constructor
        · rintro (g | ⟨g, g'⟩ | g)
          · exact ⟨.inl g, a1 g⟩
          · exact ⟨.inr (.inl g), g'⟩
          · exact ⟨.inr (.inr g), a2 g⟩
        · rintro ⟨g | g | g, hne⟩
          · exact .inl g
          · exact .inr (.inl ⟨g, hne⟩)
          · exact .inr (.inr g)
      · simp only [e, lt, if_false]
        obtain ⟨i1, i2⟩ := tdelete_spec (n := n) hr
        refine ⟨⟨hl, i1, h1, fun x hx => h2 x ((i2 x).1 hx).1⟩, fun x => ?_⟩
        simp only [tmem, i2 x]
        have a1 : x = k → x ≠ n := fun hx hn => e (cmp_zero.2 (hn.symm.trans hx))
        have a2 : tmem x l → x ≠ n := fun hx hn => by
          have := h1 x hx
          rw [hn] at this
          exact lt this
        constructor
        · rintro (g | g | ⟨g, g'⟩)
          · exact ⟨.inl g, a1 g⟩
          · exact ⟨.inr (.inl g), a2 g⟩
          · exact ⟨.inr (.inr g), g'⟩
        · rintro ⟨g | g | g, hne⟩
          · exact .inl g
          · exact .inr (.inl g)
          · exact .inr (.inr ⟨g, hne⟩)

/-! ## The list -/

theorem searchList_iff {n : List Nat} : ∀ {l : List (List Nat)},
    searchList n l = true ↔ n ∈ l
  | [] => by simp [searchList]
  | k :: ks => by
    unfold searchList
    by_cases e : cmp k n = 0
    · simp [cmp_zero.1 e, cmp_zero.2]
    · have hne : n ≠ k := fun h => e (cmp_zero.2 h.symm)
      simp only [e, if_false, List.mem_cons, hne, false_or]
      exact searchList_iff

theorem addEntry_eq (n : List Nat) : ∀ l : List (List Nat), addEntry l n = l ++ [n]
  | [] => rfl
  | k :: ks => by simp [addEntry, addEntry_eq n ks]

theorem deleteEntry_eq (n : List Nat) : ∀ l : List (List Nat), deleteEntry n l = l.erase n
  | [] => rfl
  | k :: ks => by
    unfold deleteEntry
    by_cases e : cmp k n = 0
    · simp [cmp_zero.1 e, cmp_zero.2]
    · have hne : ¬ k = n := fun h => e (cmp_zero.2 h)
      simp [e, hne, deleteEntry_eq n ks]

/-! ## What both builds share -/

/-- A lookup that lets a request without key through, and for a request with key lets it
through exactly if the key is there and then turns the presence of this key around. -/
structure Turns {σ : Type} (key : List Nat → Option (List Nat)) (look : σ → List Nat → Bool × σ)
    (Inv : σ → Prop) (has : σ → List Nat → Prop) : Prop where
  none : ∀ {st p}, key p = none → look st p = (true, st)
  inv : ∀ {st p}, Inv st → Inv (look st p).2
  found : ∀ {st p n}, Inv st → key p = some n → ((look st p).1 = true ↔ has st n)
  turn : ∀ {st p n}, Inv st → key p = some n →
    ∀ x, has (look st p).2 x ↔ if x = n then ¬ has st n else has st x

theorem turns_tree (key : List Nat → Option (List Nat)) :
    Turns key (lookupTree key) (fun st => Bst st.tab) (fun st x => tmem x st.tab) where
  none := fun h => by simp [lookupTree, h]
  inv := by
    intro st p h
    show Bst (lookupTree key st p).2.tab
    unfold lookupTree
    cases hk : key p with
    | none => exact h
    | some n =>
      show Bst (if _ then _ else _ : Bool × Tab Tree).2.tab
      split
      · exact (tdelete_spec h).1
      · exact bst_tsearch h
  found := by
    intro st p n h hk
    unfold lookupTree
    simp only [hk]
    rw [← tfind_iff h]
    cases tfind n st.tab <;> simp
  turn := by
    intro st p n h hk x
    have hf := tfind_iff (n := n) h
    unfold lookupTree
    simp only [hk]
    cases hx : tfind n st.tab with
    | true =>
      rw [hx] at hf
      have hm := hf.1 rfl
      simp only [if_true]
      show tmem x (tdelete n st.tab) ↔ _
      rw [(tdelete_spec h).2 x]
      by_cases e : x = n
      · simp [e, hm]
      · simp [e]
    | false =>
      rw [hx] at hf
      have hm : ¬ tmem n st.tab := fun g => by have := hf.2 g; cases this
      show tmem x (tsearch n st.tab) ↔ _
      rw [tmem_tsearch]
      by_cases e : x = n
      · simp [e, hm]
      · simp [e]

theorem turns_list (key : List Nat → Option (List Nat)) :
    Turns key (lookupList key) (fun st => st.tab.Nodup) (fun st x => x ∈ st.tab) where
  none := fun h => by simp [lookupList, h]
  inv := by
    intro st p h
    show (lookupList key st p).2.tab.Nodup
    unfold lookupList
    cases hk : key p with
    | none => exact h
    | some n =>
      have hf := searchList_iff (n := n) (l := st.tab)
      cases hx : searchList n st.tab with
      | true =>
        simp only [hx, if_true, deleteEntry_eq]
        exact h.erase n
      | false =>
        rw [hx] at hf
        have hm : n ∉ st.tab := fun g => by have := hf.2 g; cases this
        simp only [hx, addEntry_eq]
        show (st.tab ++ [n]).Nodup
        rw [List.nodup_append]
        refine ⟨h, by simp, ?_⟩
        intro a ha b hb
        simp only [List.mem_singleton] at hb
        subst hb
        intro e
        subst e
        exact hm ha
  found := by
    intro st p n h hk
    unfold lookupList
    simp only [hk]
    rw [← searchList_iff]
    cases searchList n st.tab <;> simp
  turn := by
    intro st p n h hk x
    have hf := searchList_iff (n := n) (l := st.tab)
    unfold lookupList
    simp only [hk]
    cases hx : searchList n st.tab with
    | true =>
      rw [hx] at hf
      have hm := hf.1 rfl
      simp only [if_true, deleteEntry_eq]
      show x ∈ st.tab.erase n ↔ _
      rw [h.mem_erase_iff]
      by_cases e : x = n
      · simp [e, hm]
      · simp [e]
    | false =>
      rw [hx] at hf
      have hm : n ∉ st.tab := fun g => by have := hf.2 g; cases this
      show x ∈ addEntry st.tab n ↔ _
      rw [addEntry_eq, List.mem_append, List.mem_singleton]
      by_cases e : x = n
      · simp [e, hm]
      · simp [e]

end Verif.Manual
