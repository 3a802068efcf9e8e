import Verif.ProxyTableModel

/-!
# C40: the proxy's table of client contexts
-/
namespace Verif.ProxyTable

/-! ## What the table is for -/

/-- The context registered for a key. -/
def known (d : List (Nat × Nat)) (k : Nat) : Option Nat := (d.find? fun e => e.1 == k).map (·.2)

/-- The directory the table stands for: keys are served in this order; `n` is the number of
the next context.  A key that is known gets its context, another one a new context if it can
be set up. -/
def serve : List (Nat × Nat) → Nat → List (Nat × Bool) → List (Option Nat)
  | _, _, [] => []
  | d, n, (k, ok) :: gs =>
    match known d k with
    | some c => some c :: serve d n gs
    | none => if ok then some n :: serve ((k, n) :: d) (n + 1) gs else none :: serve d n gs

/-- The directory afterwards. -/
def after : List (Nat × Nat) → Nat → List (Nat × Bool) → List (Nat × Nat) × Nat
  | d, n, [] => (d, n)
  | d, n, (k, ok) :: gs =>
    match known d k with
    | some _ => after d n gs
    | none => if ok then after ((k, n) :: d) (n + 1) gs else after d n gs

/-! ## Searching and sorting -/

def Sorted (l : List Node) : Prop := l.Pairwise fun a b => a.tid ≤ b.tid

theorem insert_perm (n : Node) (l : List Node) : (insert n l).Perm (n :: l) := by
  induction l with
  | nil => exact List.Perm.refl _
  | cons m ms ih =>
    simp only [insert]
    split
    · exact List.Perm.refl _
    · exact (List.Perm.cons m ih).trans (List.Perm.swap n m ms)

theorem sort_perm (l : List Node) : (sort l).Perm l := by
  induction l with
  | nil => exact List.Perm.refl _
  | cons n ns ih => exact (insert_perm n _).trans (List.Perm.cons n ih)

theorem insert_sorted (n : Node) (l : List Node) (h : Sorted l) : Sorted (insert n l) := by
  induction l with
  | nil => simp [insert, Sorted]
  | cons m ms ih =>
    have h' := List.pairwise_cons.1 h
    simp only [insert]
    split
    · rename_i hle
      refine List.pairwise_cons.2 ⟨?_, h⟩
      intro a ha
      rcases List.mem_cons.1 ha with rfl | ha
      · exact hle
      · exact Nat.le_trans hle (h'.1 a ha)
    · rename_i hle
      refine List.pairwise_cons.2 ⟨?_, ih h'.2⟩
      intro a ha
      rcases List.mem_cons.1 ((insert_perm n ms).mem_iff.1 ha) with rfl | ha
      · omega
      · exact h'.1 a ha

theorem sort_sorted (l : List Node) : Sorted (sort l) := by
  induction l with
  | nil => simp [sort, Sorted]
  | cons n ns ih => exact insert_sorted n _ ih

theorem sorted_get {l : List Node} (h : Sorted l) {i j : Nat} {a b : Node} (hij : i ≤ j)
    (hi : l[i]? = some a) (hj : l[j]? = some b) : a.tid ≤ b.tid := by
  have h' := List.pairwise_iff_getElem.1 h
  obtain ⟨hi1, rfl⟩ := List.getElem?_eq_some_iff.1 hi
  obtain ⟨hj1, rfl⟩ := List.getElem?_eq_some_iff.1 hj
  rcases Nat.lt_or_ge i j with hlt | hge
  · exact h' i j hi1 hj1 hlt
  · have : i = j := by omega
    subst this
    exact Nat.le_refl _

theorem search_spec (arr : List Node) (key : Nat) (hs : Sorted arr) (fuel l u : Nat)
    (hf : u < fuel + l ∨ u < l) (hu : u ≤ arr.length) :
    (∃ i n, search arr key fuel l u = .here i ∧ arr[i]? = some n ∧ n.tid = key) ∨
    (search arr key fuel l u = .no ∧
      ∀ i n, l ≤ i → i < u → arr[i]? = some n → n.tid ≠ key) := by
  induction fuel generalizing l u with
  | zero =>
    right
    refine ⟨rfl, ?_⟩
    intro i n h1 h2
    omega
  | succ fuel ih =>
    simp only [search]
    by_cases hlu : l < u
    · rw [if_pos hlu]
      have hm : (l + u) / 2 < arr.length := by omega
      rw [List.getElem?_eq_getElem hm]
      have hmm : arr[(l + u) / 2]? = some arr[(l + u) / 2] := List.getElem?_eq_getElem hm
      generalize arr[(l + u) / 2] = n at hmm
      simp only
      by_cases h1 : key > n.tid
      · rw [if_pos h1]
        rcases ih ((l + u) / 2 + 1) u (by omega) hu with h | ⟨h, h'⟩
        · exact Or.inl h
        · right
          refine ⟨h, ?_⟩
          intro i m hi1 hi2 hm
          rcases Nat.lt_or_ge ((l + u) / 2) i with hlt | hge
          · exact h' i m (by omega) hi2 hm
          · have := sorted_get hs hge hm hmm
            omega
      · rw [if_neg h1]
        by_cases h2 : key < n.tid
        · rw [if_pos h2]
          rcases ih l ((l + u) / 2) (by omega) (by omega) with h | ⟨h, h'⟩
          · exact Or.inl h
          · right
            refine ⟨h, ?_⟩
            intro i m hi1 hi2 hm
            rcases Nat.lt_or_ge i ((l + u) / 2) with hlt | hge
            · exact h' i m hi1 hlt hm
            · have := sorted_get hs hge hmm hm
              omega
        · rw [if_neg h2]
          left
          exact ⟨_, n, rfl, hmm, by omega⟩
    · rw [if_neg hlu]
      right
      refine ⟨rfl, ?_⟩
      intro i n h1 h2
      omega

theorem bsearch_spec (arr : List Node) (key : Nat) (hs : Sorted arr) :
    (∃ i n, bsearch arr arr.length key = .here i ∧ arr[i]? = some n ∧ n.tid = key) ∨
    (bsearch arr arr.length key = .no ∧ ∀ n ∈ arr, n.tid ≠ key) := by
  rcases search_spec arr key hs (arr.length + 1) 0 arr.length (by omega) (Nat.le_refl _) with
    h | ⟨h, h'⟩
  · exact Or.inl h
  · right
    refine ⟨h, ?_⟩
    intro n hn
    obtain ⟨i, hi, rfl⟩ := List.getElem_of_mem hn
    exact h' i _ (Nat.zero_le _) hi (List.getElem?_eq_getElem hi)

/-! ## Table and directory -/

/-- The node of a directory entry. -/
def nodeOf (e : Nat × Nat) : Node := ⟨e.1, some e.2⟩

/-- The table holds the directory `d` and nothing else; `n` is larger than all contexts. -/
structure Rep (arr : List Node) (d : List (Nat × Nat)) (n : Nat) : Prop where
  sorted : Sorted arr
  perm : ∃ free, arr.Perm (d.map nodeOf ++ List.replicate free ⟨0, none⟩)
  keys : (d.map (·.1)).Nodup
  nonzero : ∀ e ∈ d, e.1 ≠ 0
  fresh : ∀ e ∈ d, e.2 < n
  vals : (d.map (·.2)).Nodup

theorem known_mem {d : List (Nat × Nat)} (h : (d.map (·.1)).Nodup) {e : Nat × Nat} (he : e ∈ d) :
    known d e.1 = some e.2 := by
  induction d with
  | nil => cases he
  | cons a d ih =>
    simp only [List.map_cons, List.nodup_cons] at h
    unfold known
    rw [List.find?_cons]
    rcases List.mem_cons.1 he with rfl | he'
    · simp
    · have : a.1 ≠ e.1 := by
        intro heq
        exact h.1 (heq ▸ List.mem_map_of_mem he')
      have hb : (a.1 == e.1) = false := by simpa using this
      rw [hb]
      exact ih h.2 he'

theorem known_none {d : List (Nat × Nat)} {k : Nat} (h : ∀ e ∈ d, e.1 ≠ k) : known d k = none := by
  unfold known
  rw [List.find?_eq_none.2]
  · rfl
  · intro e he
    simpa using h e he

theorem known_some {d : List (Nat × Nat)} {k c : Nat} (h : known d k = some c) : (k, c) ∈ d := by
  unfold known at h
  cases hf : d.find? (fun e => e.1 == k) with
  | none => rw [hf] at h; cases h
  | some e =>
    rw [hf] at h
    have h1 := List.find?_some hf
    have h2 := List.mem_of_find?_eq_some hf
    simp only [Option.map_some, Option.some.injEq] at h
    have h3 : e.1 = k := by simpa using h1
    subst h3 h
    exact h2

theorem perm_get {arr : List Node} {i : Nat} {a : Node} (h : arr[i]? = some a) :
    ∃ rest, arr.Perm (a :: rest) ∧ ∀ x, (arr.set i x).Perm (x :: rest) := by
  induction arr generalizing i with
  | nil => cases h
  | cons b bs ih =>
    cases i with
    | zero =>
      simp only [List.getElem?_cons_zero, Option.some.injEq] at h
      subst h
      exact ⟨bs, List.Perm.refl _, fun x => List.Perm.refl _⟩
    | succ i =>
      obtain ⟨rest, h1, h2⟩ := ih (by simpa using h)
      refine ⟨b :: rest, (List.Perm.cons b h1).trans (List.Perm.swap a b rest), ?_⟩
      intro x
      exact (List.Perm.cons b (h2 x)).trans (List.Perm.swap x b rest)

theorem mem_rep {arr : List Node} {d : List (Nat × Nat)} {m : Nat} (h : Rep arr d m) (x : Node) :
    x ∈ arr → (∃ e ∈ d, nodeOf e = x) ∨ x = ⟨0, none⟩ := by
  intro hx
  obtain ⟨free, hp⟩ := h.perm
  rcases List.mem_append.1 (hp.mem_iff.1 hx) with hx | hx
  · left
    exact List.mem_map.1 hx
  · right
    exact (List.mem_replicate.1 hx).2

theorem entry_mem {arr : List Node} {d : List (Nat × Nat)} {m : Nat} (h : Rep arr d m)
    {e : Nat × Nat} (he : e ∈ d) : nodeOf e ∈ arr := by
  obtain ⟨free, hp⟩ := h.perm
  exact hp.mem_iff.2 (List.mem_append_left _ (List.mem_map_of_mem he))

theorem qsort_all (arr : List Node) : qsort arr arr.length = some (sort arr) := by
  unfold qsort
  simp

/-- A new entry in the place of an unused one. -/
theorem fill_spec {arr : List Node} {d : List (Nat × Nat)} {m : Nat} (h : Rep arr d m) {i : Nat}
    {x : Node} (hi : arr[i]? = some x) (hx : x.tid = 0) {key : Nat} (hk : key ≠ 0)
    (hnew : ∀ e ∈ d, e.1 ≠ key) :
    ∃ arr', fill arr arr.length i key m = some arr' ∧ arr'.length = arr.length ∧
      Rep arr' ((key, m) :: d) (m + 1) := by
  have hx0 : x = ⟨0, none⟩ := by
    rcases mem_rep h x (List.mem_of_getElem? hi) with ⟨e, he, rfl⟩ | hx0
    · exact absurd hx (h.nonzero e he)
    · exact hx0
  subst hx0
  obtain ⟨rest, h1, h2⟩ := perm_get hi
  obtain ⟨free, hp⟩ := h.perm
  have hfree : 1 ≤ free := by
    rcases Nat.eq_zero_or_pos free with hf | hf
    · subst hf
      have : (⟨0, none⟩ : Node) ∈ d.map nodeOf := by
        have := hp.mem_iff.1 (List.mem_of_getElem? hi)
        simpa using this
      obtain ⟨e, -, he⟩ := List.mem_map.1 this
      simp [nodeOf] at he
    · exact hf
  have hrest : rest.Perm (d.map nodeOf ++ List.replicate (free - 1) ⟨0, none⟩) := by
    have h3 : ((⟨0, none⟩ : Node) :: rest).Perm
        (d.map nodeOf ++ List.replicate free ⟨0, none⟩) := h1.symm.trans hp
    obtain ⟨f, rfl⟩ : ∃ f, free = f + 1 := ⟨free - 1, by omega⟩
    rw [List.replicate_succ] at h3
    exact List.Perm.cons_inv (h3.trans List.perm_middle)
  refine ⟨sort (arr.set i ⟨key, some m⟩), ?_, ?_, ?_⟩
  · unfold fill
    have := qsort_all (arr.set i ⟨key, some m⟩)
    rwa [List.length_set] at this
  · rw [(sort_perm _).length_eq, List.length_set]
  · refine ⟨sort_sorted _, ⟨free - 1, ?_⟩, ?_, ?_, ?_, ?_⟩
    · exact (sort_perm _).trans ((h2 _).trans (List.Perm.cons _ hrest))
    · simp only [List.map_cons, List.nodup_cons]
      refine ⟨?_, h.keys⟩
      intro hmem
      obtain ⟨e, he, heq⟩ := List.mem_map.1 hmem
      exact hnew e he heq
    · intro e he
      rcases List.mem_cons.1 he with rfl | he
      · exact hk
      · exact h.nonzero e he
    · intro e he
      rcases List.mem_cons.1 he with rfl | he
      · exact Nat.lt_succ_self _
      · exact Nat.lt_succ_of_lt (h.fresh e he)
    · simp only [List.map_cons, List.nodup_cons]
      refine ⟨?_, h.vals⟩
      intro hmem
      obtain ⟨e, he, heq⟩ := List.mem_map.1 hmem
      have := h.fresh e he
      omega

/-- A larger table with the same entries, and an unused one. -/
theorem grow_spec {arr : List Node} {d : List (Nat × Nat)} {m : Nat} (h : Rep arr d m)
    (hpos : 1 ≤ arr.length) :
    ∃ arr' i x, grow arr arr.length = some (arr.length * 2, arr', i) ∧
      arr'.length = arr.length * 2 ∧ Rep arr' d m ∧ arr'[i]? = some x ∧ x.tid = 0 := by
  let big := arr ++ List.replicate arr.length (⟨0, none⟩ : Node)
  have hlen : big.length = arr.length * 2 := by
    show (arr ++ List.replicate arr.length (⟨0, none⟩ : Node)).length = arr.length * 2
    rw [List.length_append, List.length_replicate]
    omega
  have hslen : (sort big).length = arr.length * 2 := by rw [(sort_perm big).length_eq, hlen]
  have hq : qsort (arr.take arr.length ++ List.replicate arr.length ⟨0, none⟩) (arr.length * 2) =
      some (sort big) := by
    rw [List.take_length]
    have := qsort_all big
    rwa [hlen] at this
  obtain ⟨free, hp⟩ := h.perm
  have hrep : Rep (sort big) d m := by
    refine ⟨sort_sorted _, ⟨free + arr.length, ?_⟩, h.keys, h.nonzero, h.fresh, h.vals⟩
    refine (sort_perm big).trans ?_
    have h1 := hp.append_right (List.replicate arr.length (⟨0, none⟩ : Node))
    rw [List.append_assoc, List.replicate_append_replicate] at h1
    exact h1
  have hzero : ∃ i n, bsearch (sort big) (arr.length * 2) 0 = .here i ∧
      (sort big)[i]? = some n ∧ n.tid = 0 := by
    have := bsearch_spec (sort big) 0 (sort_sorted _)
    rw [hslen] at this
    rcases this with h' | ⟨-, h'⟩
    · exact h'
    · refine absurd rfl (h' ⟨0, none⟩ ?_)
      refine (sort_perm big).mem_iff.2 (List.mem_append_right _ ?_)
      exact List.mem_replicate.2 ⟨by omega, rfl⟩
  obtain ⟨i, x, hb, hi, hx⟩ := hzero
  refine ⟨sort big, i, x, ?_, hslen, hrep, hi, hx⟩
  unfold grow
  rw [if_neg (Nat.lt_irrefl _), hq]
  simp only [hb]

/-! ## One call -/

theorem get_last {α : Type} (pre : List α) (a : α) : (pre ++ [a])[pre.length]? = some a := by
  simp

theorem set_last {α : Type} (pre : List α) (a b : α) : (pre ++ [a]).set pre.length b = pre ++ [b] := by
  simp

/-- The state: earlier proxies are destroyed, the table of the last one stands for `d`. -/
structure Good (w : World) (pre : List (Option (List Node))) (d : List (Nat × Nat)) : Prop where
  tables : ∃ arr, w.tables = pre ++ [some arr] ∧ arr.length = w.curMax ∧ Rep arr d w.next
  size : 1 ≤ w.curMax

theorem get_spec {w : World} {pre : List (Option (List Node))} {d : List (Nat × Nat)}
    (h : Good w pre d) {key : Nat} (hk : key ≠ 0) (ok : Bool) :
    ∃ w', getCtx w pre.length key ok =
        some ((match known d key with
          | some c => some c
          | none => if ok then some w.next else none), w') ∧
      Good w' pre (after d w.next [(key, ok)]).1 ∧ w'.next = (after d w.next [(key, ok)]).2 := by
  obtain ⟨⟨arr, ht, hl, hr⟩, hs⟩ := h
  unfold getCtx
  rw [ht, get_last]
  simp only [after]
  have hb := bsearch_spec arr key hr.sorted
  rw [hl] at hb
  rcases hb with ⟨i, x, hb, hi, hx⟩ | ⟨hb, hno⟩
  · have hmem : ∃ e ∈ d, nodeOf e = x := by
      rcases mem_rep hr x (List.mem_of_getElem? hi) with h | h
      · exact h
      · subst h
        exact absurd hx.symm hk
    obtain ⟨e, he, rfl⟩ := hmem
    have hkn := known_mem hr.keys he
    have hek : e.1 = key := hx
    rw [hek] at hkn
    simp only [hb, hi, hkn]
    exact ⟨w, rfl, ⟨⟨arr, ht, hl, hr⟩, hs⟩, rfl⟩
  · have hnew : ∀ e ∈ d, e.1 ≠ key := fun e he => hno (nodeOf e) (entry_mem hr he)
    have hkn := known_none hnew
    simp only [hb, hkn]
    cases ok with
    | false => exact ⟨w, rfl, ⟨⟨arr, ht, hl, hr⟩, hs⟩, rfl⟩
    | true =>
      simp only [Bool.not_true, Bool.false_eq_true, if_false, if_true]
      have hb0 := bsearch_spec arr 0 hr.sorted
      rw [hl] at hb0
      rcases hb0 with ⟨i, x, hb0, hi, hx⟩ | ⟨hb0, -⟩
      · obtain ⟨arr', hf, hl', hr'⟩ := fill_spec hr hi hx hk hnew
        rw [hl] at hf hl'
        simp only [hb0, hf, set_last]
        exact ⟨_, rfl, ⟨⟨arr', rfl, hl', hr'⟩, hs⟩, rfl⟩
      · obtain ⟨arr1, i, x, hg, hl1, hr1, hi, hx⟩ := grow_spec hr (by omega)
        obtain ⟨arr', hf, hl', hr'⟩ := fill_spec hr1 hi hx hk hnew
        rw [hl] at hg
        rw [hl1, hl] at hf hl'
        simp only [hb0, hg, hf, set_last]
        exact ⟨_, rfl, ⟨⟨arr', rfl, hl', hr'⟩, by show 1 ≤ w.curMax * 2; omega⟩, rfl⟩

/-- All calls for one proxy. -/
def gets (p : Nat) (gs : List (Nat × Bool)) : List Op := gs.map fun g => .get p g.1 g.2

theorem after_cons (d : List (Nat × Nat)) (n : Nat) (g : Nat × Bool) (gs : List (Nat × Bool)) :
    after d n (g :: gs) = after (after d n [g]).1 (after d n [g]).2 gs := by
  obtain ⟨k, ok⟩ := g
  simp only [after]
  cases known d k with
  | some c => rfl
  | none => cases ok <;> rfl

theorem serve_cons (d : List (Nat × Nat)) (n : Nat) (k : Nat) (ok : Bool)
    (gs : List (Nat × Bool)) :
    serve d n ((k, ok) :: gs) = (match known d k with
          | some c => some c
          | none => if ok then some n else none) ::
        serve (after d n [(k, ok)]).1 (after d n [(k, ok)]).2 gs := by
  simp only [serve, after]
  cases known d k with
  | some c => rfl
  | none => cases ok <;> rfl

theorem run_gets {w : World} {pre : List (Option (List Node))} {d : List (Nat × Nat)}
    (h : Good w pre d) (gs : List (Nat × Bool)) (hk : ∀ g ∈ gs, g.1 ≠ 0) :
    ∃ w', run w (gets pre.length gs) = some ((serve d w.next gs).map Ans.ctx, w') ∧
      Good w' pre (after d w.next gs).1 ∧ w'.next = (after d w.next gs).2 := by
  induction gs generalizing w d with
  | nil => exact ⟨w, rfl, h, rfl⟩
  | cons g gs ih =>
    obtain ⟨w1, h1, h2, h3⟩ := get_spec h (hk g (by simp)) g.2
    obtain ⟨w2, h4, h5, h6⟩ := ih h2 (fun g' hg' => hk g' (by simp [hg']))
    refine ⟨w2, ?_, ?_, ?_⟩
    · show run w (Op.get pre.length g.1 g.2 :: gets pre.length gs) = _
      simp only [run, step, h1, Option.map_some, h4]
      rw [serve_cons, h3]
      rfl
    · rw [after_cons, ← h3]
      exact h5
    · rw [after_cons, ← h3]
      exact h6

/-- The state right after `est_proxy_init`. -/
theorem init_good (w : World) (hs : 1 ≤ w.curMax) : Good (initProxy w) w.tables [] := by
  refine ⟨⟨List.replicate w.curMax ⟨0, none⟩, rfl, by simp [initProxy], ?_⟩, hs⟩
  refine ⟨?_, ⟨w.curMax, List.Perm.refl _⟩, by simp, by simp, by simp, by simp⟩
  unfold Sorted
  rw [List.pairwise_replicate]
  right
  exact Nat.le_refl 0

theorem ctxs_perm {arr : List Node} {d : List (Nat × Nat)} {n : Nat} (hr : Rep arr d n) :
    (arr.filterMap Node.ctx).Perm (d.map (·.2)) := by
  obtain ⟨free, hp⟩ := hr.perm
  have := hp.filterMap Node.ctx
  rw [List.filterMap_append, List.filterMap_map] at this
  have h4 : (List.replicate free (⟨0, none⟩ : Node)).filterMap Node.ctx = [] := by
    rw [List.filterMap_eq_nil_iff]
    intro a ha
    rw [(List.mem_replicate.1 ha).2]
  rw [h4, List.append_nil] at this
  have h5 : ∀ d : List (Nat × Nat), d.filterMap (Node.ctx ∘ nodeOf) = d.map (·.2) := by
    intro d
    induction d with
    | nil => rfl
    | cons a d ih => simp [nodeOf, ← ih]
  rw [h5] at this
  exact this

theorem serve_known (gs : List (Nat × Bool)) (d : List (Nat × Nat)) (n k c j : Nat) (o : Bool)
    (h : known d k = some c) (hj : gs[j]? = some (k, o)) :
    (serve d n gs)[j]? = some (some c) := by
  induction gs generalizing d n j with
  | nil => cases hj
  | cons g gs ih =>
    obtain ⟨k', o'⟩ := g
    rw [serve_cons]
    cases j with
    | zero =>
      simp only [List.getElem?_cons_zero, Option.some.injEq, Prod.mk.injEq] at hj
      obtain ⟨rfl, rfl⟩ := hj
      simp [h]
    | succ j =>
      rw [List.getElem?_cons_succ] at hj ⊢
      refine ih _ _ _ ?_ hj
      simp only [after]
      cases hk : known d k' with
      | some _ => exact h
      | none =>
        cases o' with
        | false => exact h
        | true =>
          simp only [if_true]
          have hne : k' ≠ k := by
            intro heq
            rw [heq, h] at hk
            cases hk
          unfold known
          rw [List.find?_cons]
          have hb : (k' == k) = false := by simpa using hne
          simp only [hb]
          exact h

theorem serve_same (gs : List (Nat × Bool)) (d : List (Nat × Nat)) (n k c i j : Nat) (o o' : Bool)
    (hij : i ≤ j) (hi : gs[i]? = some (k, o)) (hj : gs[j]? = some (k, o'))
    (h : (serve d n gs)[i]? = some (some c)) : (serve d n gs)[j]? = some (some c) := by
  induction gs generalizing d n i j with
  | nil => cases hi
  | cons g gs ih =>
    obtain ⟨k', o1⟩ := g
    rw [serve_cons] at h ⊢
    cases i with
    | zero =>
      cases j with
      | zero => exact h
      | succ j =>
        simp only [List.getElem?_cons_zero, Option.some.injEq, Prod.mk.injEq] at hi
        obtain ⟨rfl, rfl⟩ := hi
        rw [List.getElem?_cons_succ] at hj ⊢
        refine serve_known gs _ _ k' c j o' ?_ hj
        simp only [List.getElem?_cons_zero, Option.some.injEq] at h
        simp only [after]
        cases hk : known d k' with
        | some c' =>
          rw [hk] at h
          simp only [Option.some.injEq] at h
          rw [← h]
          exact hk
        | none =>
          rw [hk] at h
          cases o1 with
          | false => cases h
          | true =>
            simp only [if_true, Option.some.injEq] at h ⊢
            subst h
            simp [known]
    | succ i =>
      cases j with
      | zero => omega
      | succ j =>
        rw [List.getElem?_cons_succ] at hi hj h ⊢
        exact ih _ _ _ _ (by omega) hi hj h

theorem after_mono (gs : List (Nat × Bool)) (d : List (Nat × Nat)) (n : Nat) :
    ∀ e ∈ d, e ∈ (after d n gs).1 := by
  induction gs generalizing d n with
  | nil => exact fun e he => he
  | cons g gs ih =>
    obtain ⟨k, o⟩ := g
    intro e he
    simp only [after]
    cases known d k with
    | some _ => exact ih _ _ e he
    | none =>
      cases o with
      | false => exact ih _ _ e he
      | true => exact ih _ _ e (List.mem_cons_of_mem _ he)

theorem serve_mem (gs : List (Nat × Bool)) (d : List (Nat × Nat)) (n k c i : Nat) (o : Bool)
    (hi : gs[i]? = some (k, o)) (h : (serve d n gs)[i]? = some (some c)) :
    (k, c) ∈ (after d n gs).1 := by
  induction gs generalizing d n i with
  | nil => cases hi
  | cons g gs ih =>
    obtain ⟨k', o'⟩ := g
    rw [serve_cons] at h
    rw [after_cons]
    cases i with
    | succ i =>
      rw [List.getElem?_cons_succ] at hi h
      exact ih _ _ _ hi h
    | zero =>
      simp only [List.getElem?_cons_zero, Option.some.injEq, Prod.mk.injEq] at hi h
      obtain ⟨rfl, rfl⟩ := hi
      apply after_mono
      simp only [after]
      cases hk : known d k' with
      | some c' =>
        rw [hk] at h
        simp only [Option.some.injEq] at h
        subst h
        exact known_some hk
      | none =>
        rw [hk] at h
        cases o' with
        | false => cases h
        | true =>
          simp only [if_true, Option.some.injEq] at h ⊢
          subst h
          exact List.mem_cons_self

theorem serve_null (gs : List (Nat × Bool)) (d : List (Nat × Nat)) (n k i : Nat) (o : Bool)
    (hi : gs[i]? = some (k, o)) (h : (serve d n gs)[i]? = some none) : o = false := by
  induction gs generalizing d n i with
  | nil => cases hi
  | cons g gs ih =>
    obtain ⟨k', o'⟩ := g
    rw [serve_cons] at h
    cases i with
    | succ i =>
      rw [List.getElem?_cons_succ] at hi h
      exact ih _ _ _ hi h
    | zero =>
      simp only [List.getElem?_cons_zero, Option.some.injEq, Prod.mk.injEq] at hi h
      obtain ⟨rfl, rfl⟩ := hi
      cases hk : known d k' with
      | some c' => rw [hk] at h; cases h
      | none =>
        rw [hk] at h
        cases o' with
        | false => rfl
        | true => cases h

theorem nodup_fst {d : List (Nat × Nat)} (h : (d.map (·.1)).Nodup) {k a b : Nat}
    (h1 : (k, a) ∈ d) (h2 : (k, b) ∈ d) : a = b := by
  have := known_mem h h1
  rw [known_mem h h2] at this
  exact (Option.some.inj this).symm

theorem nodup_snd {d : List (Nat × Nat)} (h : (d.map (·.2)).Nodup) {k k' a : Nat}
    (h1 : (k, a) ∈ d) (h2 : (k', a) ∈ d) : k = k' := by
  have h' : ((d.map fun e => (e.2, e.1)).map (·.1)).Nodup := by
    rw [List.map_map]
    exact h
  exact nodup_fst h' (List.mem_map.2 ⟨_, h1, rfl⟩) (List.mem_map.2 ⟨_, h2, rfl⟩)

/-! ## C40 -/

/-- C40: as long as the calls are made on one proxy context, the table behaves as a
directory: for every sequence of calls on threads with non-zero keys, whatever the size of the
table when the proxy was created and however often it grew, nothing undefined happens and
every thread gets what `serve` says.  At the end exactly the contexts of the directory are
destroyed, each once.  Calls of different threads at the same time are not covered. -/
theorem C40_directory_partial (w : World) (hs : 1 ≤ w.curMax) (gs : List (Nat × Bool))
    (hk : ∀ g ∈ gs, g.1 ≠ 0) :
    ∃ w' w'' cs, run w (.init :: gets w.tables.length gs) =
        some (.unit :: (serve [] w.next gs).map Ans.ctx, w') ∧
      cleanup w' w.tables.length = some (cs, w'') ∧
      cs.Perm ((after [] w.next gs).1.map (·.2)) ∧ cs.Nodup ∧ w''.tables = w.tables ++ [none] ∧
      1 ≤ w''.curMax := by
  obtain ⟨w1, h1, ⟨⟨arr, ht, hl, hr⟩, hsz⟩, h3⟩ := run_gets (init_good w hs) gs hk
  refine ⟨w1, { w1 with tables := w.tables ++ [none] }, arr.filterMap Node.ctx, ?_, ?_, ?_, ?_, ?_,
    ?_⟩
  · simp only [run, step, h1]
    rfl
  · unfold cleanup
    rw [ht, get_last]
    simp only [hl, Nat.lt_irrefl, if_false]
    rw [← hl, List.take_length, set_last]
  · exact ctxs_perm hr
  · exact (ctxs_perm hr).nodup_iff.2 hr.vals
  · rfl
  · exact hsz

/-- C40: the answers of any sequence of calls on one proxy.  A thread that got a context gets
the same one on every later call, two calls return the same context exactly if they are made
on the same thread, and NULL is returned only if a new context could not be set up. -/
theorem C40_same_thread_same_context_partial (w : World) (hs : 1 ≤ w.curMax)
    (gs : List (Nat × Bool)) (hk : ∀ g ∈ gs, g.1 ≠ 0) (as : List Ans) (w' : World)
    (h : run w (.init :: gets w.tables.length gs) = some (.unit :: as, w')) :
    as.length = gs.length ∧
    ∀ (i j k k' : Nat) (o o' : Bool) (c : Nat), i ≤ j → gs[i]? = some (k, o) →
      gs[j]? = some (k', o') → as[i]? = some (.ctx (some c)) →
      (k = k' → as[j]? = some (.ctx (some c))) ∧
      (k ≠ k' → ∀ c', as[j]? = some (.ctx (some c')) → c ≠ c') ∧
      (as[j]? = some (.ctx none) → o' = false) := by
  obtain ⟨w1, h1, ⟨⟨arr, ht, hl, hr⟩, hsz⟩, h3⟩ := run_gets (init_good w hs) gs hk
  have h2 : run w (.init :: gets w.tables.length gs) =
      some (.unit :: (serve [] w.next gs).map Ans.ctx, w1) := by
    simp only [run, step, h1]
    rfl
  rw [h2] at h
  have has : as = (serve [] w.next gs).map Ans.ctx := by
    have := (Prod.mk.inj (Option.some.inj h)).1
    exact (List.cons.inj this).2.symm
  subst has
  have hlen : ∀ (gs : List (Nat × Bool)) d n, (serve d n gs).length = gs.length := by
    intro gs
    induction gs with
    | nil => intro d n; rfl
    | cons g gs ih =>
      intro d n
      obtain ⟨k, o⟩ := g
      rw [serve_cons, List.length_cons, ih, List.length_cons]
  have hget : ∀ (i : Nat) (a : Option Nat), ((serve [] w.next gs).map Ans.ctx)[i]? = some (Ans.ctx a) →
      (serve [] w.next gs)[i]? = some a := by
    intro i a hi
    rw [List.getElem?_map] at hi
    cases hx : (serve [] w.next gs)[i]? with
    | none => rw [hx] at hi; cases hi
    | some b =>
      rw [hx] at hi
      injection hi with hi
      injection hi with hi
      rw [hi]
  refine ⟨by rw [List.length_map, hlen], ?_⟩
  intro i j k k' o o' c hij hi hj ha
  have ha' := hget i _ ha
  refine ⟨?_, ?_, ?_⟩
  · rintro rfl
    rw [List.getElem?_map, serve_same gs _ _ k c i j o o' hij hi hj ha']
    rfl
  · intro hne c' hc' heq
    subst heq
    have hc'' := hget j _ hc'
    have m1 := serve_mem gs _ _ _ _ _ _ hi ha'
    have m2 := serve_mem gs _ _ _ _ _ _ hj hc''
    exact hne (nodup_snd hr.vals m1 m2)
  · intro hn
    exact serve_null gs _ _ _ _ _ hj (hget j _ hn)

/-- Ten threads, so that the table of eight grows, and some come again. -/
def demoGets : List (Nat × Bool) :=
  [(50, true), (90, true), (10, true), (50, false), (70, true), (20, true), (60, false),
   (30, true), (40, true), (80, true), (100, true), (5, true), (90, true), (60, true)]

example : (∀ g ∈ demoGets, g.1 ≠ 0) ∧
    (run World.init (.init :: gets 0 demoGets)).map (fun r => (r.1, r.2.curMax)) =
      some ([.unit, .ctx (some 0), .ctx (some 1), .ctx (some 2), .ctx (some 0), .ctx (some 3),
        .ctx (some 4), .ctx none, .ctx (some 5), .ctx (some 6), .ctx (some 7), .ctx (some 8),
        .ctx (some 9), .ctx (some 1), .ctx (some 10)], 16) := by decide +kernel

/-- Threads of one process have different keys. -/
theorem C40_thread_keys (pid a b : Nat) (ha : a < 2 ^ 64) (hb : b < 2 ^ 64)
    (h : threadKey a pid = threadKey b pid) : a = b := by
  unfold threadKey at h
  omega

example : threadKey 140000000000000 4242 ≠ threadKey 140000000000001 4242 := by decide

/-- C40 is false for two proxy contexts in one process: the size of the tables is one variable
for both, so once the table of the first has grown, a request of the second reads behind the
end of its table. -/
theorem C40_two_proxies_false :
    run World.init ([.init, .init] ++
      gets 0 [(1, true), (2, true), (3, true), (4, true), (5, true), (6, true), (7, true),
        (8, true), (9, true)]) ≠ none ∧
    run World.init ([.init, .init] ++
      gets 0 [(1, true), (2, true), (3, true), (4, true), (5, true), (6, true), (7, true),
        (8, true), (9, true)] ++ gets 1 [(1, true)]) = none := by decide +kernel

/-- Destroying the second proxy then reads behind its table as well. -/
theorem C40_two_proxies_cleanup_false :
    run World.init ([.init, .init] ++
      gets 0 [(1, true), (2, true), (3, true), (4, true), (5, true), (6, true), (7, true),
        (8, true), (9, true)] ++ [.cleanup 1]) = none := by decide +kernel

end Verif.ProxyTable
