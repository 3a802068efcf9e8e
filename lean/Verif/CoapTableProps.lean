import Verif.CoapModel
import Verif.ClientRespProps

/-!
# Properties of the CoAP request table (C05, C06, C07)
-/
namespace Verif.Coap

/-! ## What C11 says of `bsearch` and `qsort` -/

/-- The C standard's contract: on a table in order, `bsearch` finds an entry with the key if
there is one (any of them if several), and `qsort` puts the entries into order. -/
structure Libc.Ok (L : Libc) : Prop where
  hit : ∀ k t i, Sorted t → L.bsearch k t = some i → ∃ n, t[i]? = some n ∧ n.key = k
  miss : ∀ k t, Sorted t → L.bsearch k t = none → ∀ n ∈ t, n.key ≠ k
  perm : ∀ t, (L.qsort t).Perm t
  sorted : ∀ t, Sorted (L.qsort t)

/-- Insertion into a table in order. -/
def ins (n : Node) : List Node → List Node
  | [] => [n]
  | a :: l => if n.key ≤ a.key then n :: a :: l else a :: ins n l

theorem ins_perm (n : Node) : ∀ l, (ins n l).Perm (n :: l)
  | [] => List.Perm.refl _
  | a :: l => by
    simp only [ins]
    split
    · exact List.Perm.refl _
    · exact ((ins_perm n l).cons a).trans (List.Perm.swap n a l)

theorem ins_sorted (n : Node) : ∀ l, Sorted l → Sorted (ins n l)
  | [], _ => by simp [ins, Sorted]
  | a :: l, h => by
    obtain ⟨h1, h2⟩ := List.pairwise_cons.1 h
    simp only [ins]
    split
    · rename_i hle
      refine List.pairwise_cons.2 ⟨fun b hb => ?_, h⟩
      rcases List.mem_cons.1 hb with rfl | hb
      · exact hle
      · exact List.le_trans hle (h1 b hb)
    · rename_i hle
      refine List.pairwise_cons.2 ⟨fun b hb => ?_, ins_sorted n l h2⟩
      rcases List.mem_cons.1 ((ins_perm n l).mem_iff.1 hb) with rfl | hb
      · exact (List.le_total _ _).resolve_left hle
      · exact h1 b hb

/-- A C library that meets the contract, used in the examples. -/
def simpleLibc : Libc where
  bsearch k t := t.findIdx? (fun n => n.key = k)
  qsort t := t.foldr ins []

theorem simpleLibc_ok : simpleLibc.Ok where
  hit := by
    intro k t i _ h
    simp only [simpleLibc, List.findIdx?_eq_some_iff_getElem] at h
    obtain ⟨hi, hk, _⟩ := h
    exact ⟨t[i], by simp [hi], by simpa using hk⟩
  miss := by
    intro k t _ h n hn
    simp only [simpleLibc, List.findIdx?_eq_none_iff] at h
    simpa using h n hn
  perm := by
    intro t
    simp only [simpleLibc]
    induction t with
    | nil => exact List.Perm.refl _
    | cons a l ih => exact (ins_perm a _).trans (ih.cons a)
  sorted := by
    intro t
    simp only [simpleLibc]
    induction t with
    | nil => exact List.Pairwise.nil
    | cons a l ih => exact ins_sorted a _ ih

/-! ## The well-formed table -/

/-- What C05 asks of a table with `cap` slots. -/
structure Inv (cap : Nat) (t : Tbl) : Prop where
  size : t.slots.length = cap
  sorted : Sorted t.slots
  distinct : t.slots.Pairwise (fun a b => a.key ≠ [] → a.key ≠ b.key)
  free : ∀ n ∈ t.slots, n.key = [] → n = blank
  count : t.cnt = t.slots.countP (fun n => decide (n.key ≠ []))

/-- The record stored for a session. -/
def look (l : List Node) (k : List Nat) : Option Node := l.find? (fun n => decide (n.key = k))

/-! ### Tables up to order -/

def Distinct (l : List Node) : Prop := l.Pairwise (fun a b => a.key ≠ [] → a.key ≠ b.key)

theorem Distinct.perm {l l' : List Node} (p : l.Perm l') (h : Distinct l) : Distinct l' := by
  refine (p.pairwise_iff (fun {a b} hab hb e => ?_)).1 h
  have : a.key ≠ [] := by rw [← e]; exact hb
  exact hab this e.symm

theorem look_iff {l : List Node} (hd : Distinct l) {k : List Nat} (hk : k ≠ []) (n : Node) :
    look l k = some n ↔ n ∈ l ∧ n.key = k := by
  constructor
  · intro h
    exact ⟨List.mem_of_find?_eq_some h, by simpa using List.find?_some h⟩
  · rintro ⟨hm, hnk⟩
    induction l with
    | nil => simp at hm
    | cons a l ih =>
      obtain ⟨h1, h2⟩ := List.pairwise_cons.1 hd
      simp only [look, List.find?_cons]
      by_cases ha : a.key = k
      · simp only [ha, decide_true]
        rcases List.mem_cons.1 hm with rfl | hm
        · rfl
        · exact absurd (by rw [ha, hnk]) (h1 n hm (by rw [ha]; exact hk))
      · simp only [ha, decide_false]
        rcases List.mem_cons.1 hm with rfl | hm
        · exact absurd hnk ha
        · exact ih h2 hm

theorem look_perm {l l' : List Node} (p : l.Perm l') (hd : Distinct l) {k : List Nat}
    (hk : k ≠ []) : look l k = look l' k := by
  apply Option.ext
  intro n
  rw [look_iff hd hk, look_iff (hd.perm p) hk, p.mem_iff]

theorem look_cons (e : Node) (l : List Node) (k : List Nat) :
    look (e :: l) k = if e.key = k then some e else look l k := by
  simp only [look, List.find?_cons]
  by_cases h : e.key = k <;> simp [h]

theorem perm_cons_eraseIdx {l : List Node} {i : Nat} {e : Node} (h : l[i]? = some e) :
    l.Perm (e :: l.eraseIdx i) := by
  obtain ⟨hi, rfl⟩ := List.getElem?_eq_some_iff.1 h
  have e : l = l.take i ++ l[i] :: l.drop (i + 1) := by
    rw [List.getElem_cons_drop, List.take_append_drop]
  rw [List.eraseIdx_eq_take_drop_succ]
  exact (List.Perm.of_eq e).trans List.perm_middle

theorem set_perm {l : List Node} {i : Nat} {e : Node} (h : l[i]? = some e) (n : Node) :
    (l.set i n).Perm (n :: l.eraseIdx i) := by
  obtain ⟨hi, _⟩ := List.getElem?_eq_some_iff.1 h
  rw [List.set_eq_take_append_cons_drop, if_pos hi, List.eraseIdx_eq_take_drop_succ]
  exact List.perm_middle

theorem Inv.mk' {cap : Nat} {t : Tbl} {l : List Node} (p : t.slots.Perm l)
    (hs : Sorted t.slots) (hl : l.length = cap) (hd : Distinct l)
    (hf : ∀ n ∈ l, n.key = [] → n = blank)
    (hc : t.cnt = l.countP (fun n => decide (n.key ≠ []))) : Inv cap t where
  size := by rw [p.length_eq, hl]
  sorted := hs
  distinct := hd.perm p.symm
  free := fun n hn => hf n (p.mem_iff.1 hn)
  count := by rw [hc, p.countP_eq]

/-- Facts about a table seen as one entry and the rest. -/
theorem Inv.split {cap : Nat} {t : Tbl} (h : Inv cap t) {i : Nat} {e : Node}
    (he : t.slots[i]? = some e) :
    (e :: t.slots.eraseIdx i).length = cap ∧ Distinct (e :: t.slots.eraseIdx i) ∧
    (∀ n ∈ e :: t.slots.eraseIdx i, n.key = [] → n = blank) ∧
    t.cnt = (e :: t.slots.eraseIdx i).countP (fun n => decide (n.key ≠ [])) := by
  have p := perm_cons_eraseIdx he
  exact ⟨by rw [← p.length_eq, h.size], Distinct.perm p h.distinct,
    fun n hn => h.free n (p.mem_iff.2 hn), by rw [← p.countP_eq, h.count]⟩

theorem sorted_set_same {l : List Node} (hs : Sorted l) {i : Nat} {e n : Node}
    (he : l[i]? = some e) (hk : n.key = e.key) : Sorted (l.set i n) := by
  have key : ∀ l : List Node, Sorted l ↔ (l.map (·.key)).Pairwise (· ≤ ·) := by
    intro l; simp [Sorted, List.pairwise_map]
  rw [key] at *
  have : (l.set i n).map (·.key) = l.map (·.key) := by
    rw [List.map_set]
    apply List.ext_getElem?
    intro j
    rw [List.getElem?_set]
    split
    · rename_i hij
      subst hij
      obtain ⟨hi, rfl⟩ := List.getElem?_eq_some_iff.1 he
      simp [hi, hk]
    · rfl
  rw [this]; exact hs

/-- Changing a record without its key. -/
theorem Inv.put {cap : Nat} {t : Tbl} (h : Inv cap t) {i : Nat} {e n : Node}
    (he : t.slots[i]? = some e) (hk : n.key = e.key) (hne : e.key ≠ []) :
    Inv cap (putNode t i n) ∧
    ∀ k, k ≠ [] → look (putNode t i n).slots k = if k = e.key then some n else look t.slots k := by
  obtain ⟨h1, h2, h3, h4⟩ := h.split he
  obtain ⟨d1, d2⟩ := List.pairwise_cons.1 h2
  have hd' : Distinct (n :: t.slots.eraseIdx i) := by
    refine List.pairwise_cons.2 ⟨fun b hb => ?_, d2⟩
    rw [hk]; exact d1 b hb
  have inv : Inv cap (putNode t i n) := by
    refine Inv.mk' (set_perm he n) (sorted_set_same h.sorted he hk) (by simpa using h1) hd' ?_ ?_
    · intro m hm hmk
      rcases List.mem_cons.1 hm with rfl | hm
      · exact absurd (hk ▸ hmk) hne
      · exact h3 m (List.mem_cons_of_mem _ hm) hmk
    · simp only [putNode]
      rw [h4, List.countP_cons, List.countP_cons, hk]
  refine ⟨inv, fun k hkne => ?_⟩
  have hset : (putNode t i n).slots = t.slots.set i n := rfl
  rw [hset, look_perm (set_perm he n) inv.distinct hkne,
    look_perm (perm_cons_eraseIdx he) h.distinct hkne, look_cons, look_cons, hk]
  by_cases hke : k = e.key
  · simp [hke]
  · have : ¬ e.key = k := fun x => hke x.symm
    simp [hke, this]

theorem Inv.found {cap : Nat} {t : Tbl} (h : Inv cap t) {L : Libc} (hL : L.Ok) {k : List Nat}
    (hk : k ≠ []) {i : Nat} (hb : L.bsearch k t.slots = some i) :
    ∃ n, t.slots[i]? = some n ∧ n.key = k ∧ look t.slots k = some n := by
  obtain ⟨n, hn, hnk⟩ := hL.hit k t.slots i h.sorted hb
  exact ⟨n, hn, hnk, (look_iff h.distinct hk n).2 ⟨List.mem_of_getElem? hn, hnk⟩⟩

theorem Inv.missed {cap : Nat} {t : Tbl} (h : Inv cap t) {L : Libc} (hL : L.Ok) {k : List Nat}
    (hb : L.bsearch k t.slots = none) : look t.slots k = none := by
  simp only [look, List.find?_eq_none, decide_eq_true_eq]
  exact hL.miss k t.slots h.sorted hb

theorem used_lt_iff {cap : Nat} {t : Tbl} (h : Inv cap t) :
    t.cnt < cap ↔ ∃ n ∈ t.slots, n.key = [] := by
  rw [h.count, ← h.size]
  have hle := List.countP_le_length (l := t.slots) (p := fun n => decide (n.key ≠ []))
  have := List.countP_eq_length (l := t.slots) (p := fun n => decide (n.key ≠ []))
  constructor
  · intro hlt
    apply Classical.byContradiction
    intro hno
    have : t.slots.countP (fun n => decide (n.key ≠ [])) = t.slots.length := by
      rw [this]
      intro a ha
      simp only [ne_eq, decide_not, Bool.not_eq_eq_eq_not, Bool.not_true, decide_eq_false_iff_not]
      intro h0
      exact hno ⟨a, ha, h0⟩
    omega
  · rintro ⟨n, hn, h0⟩
    rcases Nat.lt_or_ge (t.slots.countP (fun n : Node => decide (n.key ≠ []))) t.slots.length with h | h
    · exact h
    · have he := this.1 (by omega) n hn
      simp [h0] at he

/-! ### `get_coap_req` -/

/-- What `get_coap_req` answers and does, in terms of the stored records. -/
theorem getReq_spec {cap : Nat} {t : Tbl} (h : Inv cap t) {L : Libc} (hL : L.Ok) {k : List Nat}
    (hk : k ≠ []) (r : Req) :
    Inv cap (getReq L t k r).2 ∧
    match look t.slots k with
    | some n => ∃ i, (getReq L t k r).1 = some i ∧ (getReq L t k r).2.cnt = t.cnt ∧
        (getReq L t k r).2.slots[i]? = some (if n.cur ≠ r ∧ r ≠ .reset then reinit n r else n) ∧
        ∀ k', k' ≠ [] → look (getReq L t k r).2.slots k' =
          if k' = k then some (if n.cur ≠ r ∧ r ≠ .reset then reinit n r else n)
          else look t.slots k'
    | none =>
      if t.cnt < cap then
        ∃ i, (getReq L t k r).1 = some i ∧ (getReq L t k r).2.cnt = t.cnt + 1 ∧
          (getReq L t k r).2.slots[i]? = some ⟨k, [], [], r⟩ ∧
          ∀ k', k' ≠ [] → look (getReq L t k r).2.slots k' =
            if k' = k then some ⟨k, [], [], r⟩ else look t.slots k'
      else getReq L t k r = (none, t) := by
  cases hb : L.bsearch k t.slots with
  | some i =>
    obtain ⟨n, hn, hnk, hlk⟩ := h.found hL hk hb
    simp only [getReq, hb, hn, hlk]
    by_cases hc : n.cur ≠ r ∧ r ≠ .reset
    · simp only [hc, and_self, ne_eq, not_false_eq_true, if_true]
      obtain ⟨p1, p2⟩ := h.put (n := reinit n r) hn rfl (by rw [hnk]; exact hk)
      refine ⟨p1, i, by trivial, by trivial, ?_, ?_⟩
      · obtain ⟨hi, _⟩ := List.getElem?_eq_some_iff.1 hn
        simp [hi]
      · intro k' hk'
        have := p2 k' hk'
        rw [hnk] at this
        exact this
    · simp only [hc, if_false]
      refine ⟨h, i, by trivial, by trivial, hn, ?_⟩
      intro k' hk'
      by_cases e : k' = k
      · simp [e, hlk]
      · simp [e]
  | none =>
    have hlk := h.missed hL hb
    simp only [hlk]
    simp only [getReq, hb]
    cases hb0 : L.bsearch [] t.slots with
    | none =>
      have hno : ¬ t.cnt < cap := by
        rw [used_lt_iff h]
        rintro ⟨n, hn, h0⟩
        exact hL.miss [] t.slots h.sorted hb0 n hn h0
      simp only [insertReq, hb0, hno, if_false, and_true]
      exact h
    | some i =>
      obtain ⟨e, he, hek⟩ := hL.hit [] t.slots i h.sorted hb0
      have hm := List.mem_of_getElem? he
      have hbl := h.free e hm hek
      have hlt : t.cnt < cap := (used_lt_iff h).2 ⟨e, hm, hek⟩
      obtain ⟨h1, h2, h3, h4⟩ := h.split he
      obtain ⟨d1, d2⟩ := List.pairwise_cons.1 h2
      subst hbl
      have hnew : ({ blank with key := k, cur := r } : Node) = ⟨k, [], [], r⟩ := rfl
      have hp : (L.qsort (t.slots.set i ⟨k, [], [], r⟩)).Perm
          (⟨k, [], [], r⟩ :: t.slots.eraseIdx i) :=
        (hL.perm _).trans (set_perm he _)
      have hd' : Distinct (⟨k, [], [], r⟩ :: t.slots.eraseIdx i) := by
        refine List.pairwise_cons.2 ⟨fun b hb' _ hbk => ?_, d2⟩
        have : b ∈ t.slots := (perm_cons_eraseIdx he).mem_iff.2 (List.mem_cons_of_mem _ hb')
        exact hL.miss k t.slots h.sorted hb b this hbk.symm
      have hs' := hL.sorted (t.slots.set i ⟨k, [], [], r⟩)
      simp only [insertReq, hb0, he, hnew, hlt, if_true]
      cases hb2 : L.bsearch k (L.qsort (t.slots.set i ⟨k, [], [], r⟩)) with
      | none =>
        have := hL.miss k _ hs' hb2 ⟨k, [], [], r⟩ (hp.mem_iff.2 (List.mem_cons_self ..))
        exact absurd rfl this
      | some j =>
        have inv : Inv cap ⟨L.qsort (t.slots.set i ⟨k, [], [], r⟩), t.cnt + 1⟩ := by
          refine Inv.mk' hp hs' (by simpa using h1) hd' ?_ ?_
          · intro m hm' hmk
            rcases List.mem_cons.1 hm' with rfl | hm'
            · exact absurd hmk hk
            · exact h3 m (List.mem_cons_of_mem _ hm') hmk
          · simp only []
            rw [h4, List.countP_cons, List.countP_cons]
            simp [blank, hk]
        refine ⟨inv, j, rfl, rfl, ?_, ?_⟩
        · obtain ⟨n, hn, hnk⟩ := hL.hit k _ j hs' hb2
          have hm2 := hp.mem_iff.1 (List.mem_of_getElem? hn)
          rcases List.mem_cons.1 hm2 with rfl | hm2
          · exact hn
          · have : n ∈ t.slots := (perm_cons_eraseIdx he).mem_iff.2 (List.mem_cons_of_mem _ hm2)
            exact absurd hnk (hL.miss k t.slots h.sorted hb n this)
        · intro k' hk'
          rw [look_perm hp inv.distinct hk', look_perm (perm_cons_eraseIdx he) h.distinct hk',
            look_cons, look_cons]
          by_cases e : k' = k
          · simp [e]
          · have e2 : ¬ k = k' := fun x => e x.symm
            have e3 : ¬ blank.key = k' := fun x => hk' x.symm
            simp [e, e2, e3]

/-! ### `remove_coap_req` -/

theorem cnt_pos {cap : Nat} {t : Tbl} (h : Inv cap t) {k : List Nat} (hk : k ≠ []) {n : Node}
    (hl : look t.slots k = some n) : 0 < t.cnt := by
  rw [h.count]
  obtain ⟨hm, hnk⟩ := (look_iff h.distinct hk n).1 hl
  rw [List.countP_pos_iff]
  exact ⟨n, hm, by simpa [hnk] using hk⟩

theorem removeReq_spec {cap : Nat} {t : Tbl} (h : Inv cap t) {L : Libc} (hL : L.Ok) {k : List Nat}
    (hk : k ≠ []) :
    Inv cap (removeReq L t k).2 ∧
    ((removeReq L t k).1 = (look t.slots k).isSome) ∧
    ((removeReq L t k).2.cnt = if (look t.slots k).isSome then t.cnt - 1 else t.cnt) ∧
    ∀ k', k' ≠ [] → look (removeReq L t k).2.slots k' =
      if k' = k then none else look t.slots k' := by
  have skip : look t.slots k = none → ∀ k', k' ≠ [] → look t.slots k' =
      if k' = k then none else look t.slots k' := by
    intro hl k' _
    by_cases e : k' = k
    · simp [e, hl]
    · simp [e]
  by_cases hc : t.cnt = 0
  · have hl : look t.slots k = none := by
      cases hl : look t.slots k with
      | none => rfl
      | some n => have := cnt_pos h hk hl; omega
    simp only [removeReq, hc, if_true, hl]
    exact ⟨h, rfl, by simp, skip hl⟩
  · cases hb : L.bsearch k t.slots with
    | none =>
      have hl := h.missed hL hb
      simp only [removeReq, hc, if_false, hb, hl]
      exact ⟨h, rfl, by simp, skip hl⟩
    | some i =>
      obtain ⟨e, he, hek, hl⟩ := h.found hL hk hb
      obtain ⟨h1, h2, h3, h4⟩ := h.split he
      obtain ⟨d1, d2⟩ := List.pairwise_cons.1 h2
      simp only [removeReq, hc, if_false, hb, hl, Option.isSome_some, if_true, true_and]
      have hp : (L.qsort (t.slots.set i blank)).Perm (blank :: t.slots.eraseIdx i) :=
        (hL.perm _).trans (set_perm he _)
      have hd' : Distinct (blank :: t.slots.eraseIdx i) :=
        List.pairwise_cons.2 ⟨fun b _ hb' => absurd rfl hb', d2⟩
      have inv : Inv cap ⟨L.qsort (t.slots.set i blank), t.cnt - 1⟩ := by
        refine Inv.mk' hp (hL.sorted _) (by simpa using h1) hd' ?_ ?_
        · intro m hm' hmk
          rcases List.mem_cons.1 hm' with rfl | hm'
          · rfl
          · exact h3 m (List.mem_cons_of_mem _ hm') hmk
        · simp only []
          rw [h4, List.countP_cons, List.countP_cons]
          simp [blank, hek, hk]
      refine ⟨inv, fun k' hk' => ?_⟩
      rw [look_perm hp inv.distinct hk', look_perm (perm_cons_eraseIdx he) h.distinct hk',
        look_cons, look_cons]
      have e3 : ¬ blank.key = k' := fun x => hk' x.symm
      simp only [e3, if_false]
      by_cases ek : k' = k
      · subst ek
        simp only [if_true, look, List.find?_eq_none, decide_eq_true_eq]
        intro b hb' hbk
        exact d1 b hb' (by rw [hek]; exact hk) (by rw [hek, hbk])
      · have : ¬ e.key = k' := by rw [hek]; exact fun x => ek x.symm
        simp [ek, this]

/-! ## Histories -/

/-- One event: a handler runs for session `k` with request type `r` and rewrites the request
and response buffers of the record it was given, a session connects, or a session ends. -/
inductive Op
  | use (k : List Nat) (r : Req) (f : List Nat → List Nat → List Nat × List Nat)
  | connect (k : List Nat)
  | close (k : List Nat)

def Op.key : Op → List Nat
  | .use k _ _ => k
  | .connect k => k
  | .close k => k

/-- The contents of the record the handler was given, if any. -/
abbrev Seen := Option (List Nat × List Nat)

/-- The code's behaviour for one event. -/
def step (L : Libc) (t : Tbl) : Op → Seen × Tbl
  | .use k r f =>
    match getReq L t k r with
    | (none, t') => (none, t')
    | (some i, t') =>
      match t'.slots[i]? with
      | none => (none, t')
      | some n => (some (n.req, n.resp),
          putNode t' i { n with req := (f n.req n.resp).1, resp := (f n.req n.resp).2 })
  | .connect k => (none, connected L t k)
  | .close k => (none, closed L t k)

def run (L : Libc) : Tbl → List Op → List Seen × Tbl
  | t, [] => ([], t)
  | t, o :: os => ((step L t o).1 :: (run L (step L t o).2 os).1, (run L (step L t o).2 os).2)

/-! ### The specification: a bounded map from sessions to records -/

structure Rec where
  req : List Nat
  resp : List Nat
  cur : Req
deriving DecidableEq

structure Map where
  get : List Nat → Option Rec
  used : Nat

def Map.put (m : Map) (k : List Nat) (v : Option Rec) : List Nat → Option Rec :=
  fun k' => if k' = k then v else m.get k'

/-- The record a handler of type `r` sees: the one of the session's current request, or a
fresh one if the session has none or was busy with another type of request. -/
def visible (m : Map) (k : List Nat) (r : Req) : Rec :=
  match m.get k with
  | none => ⟨[], [], r⟩
  | some v => if v.cur ≠ r ∧ r ≠ .reset then ⟨[], [], r⟩ else v

def specStep (cap : Nat) (m : Map) : Op → Seen × Map
  | .use k r f =>
    if m.get k = none ∧ cap ≤ m.used then (none, m)
    else
      let v := visible m k r
      (some (v.req, v.resp),
        ⟨m.put k (some ⟨(f v.req v.resp).1, (f v.req v.resp).2, v.cur⟩),
          if m.get k = none then m.used + 1 else m.used⟩)
  | .connect k =>
    if m.get k = none then
      if cap ≤ m.used then (none, m) else (none, ⟨m.put k (some ⟨[], [], .reset⟩), m.used + 1⟩)
    else (none, m)
  | .close k =>
    if m.get k = none then (none, m) else (none, ⟨m.put k none, m.used - 1⟩)

def specRun (cap : Nat) : Map → List Op → List Seen × Map
  | m, [] => ([], m)
  | m, o :: os =>
    ((specStep cap m o).1 :: (specRun cap (specStep cap m o).2 os).1,
      (specRun cap (specStep cap m o).2 os).2)

/-- The table represents the map. -/
structure Repr (t : Tbl) (m : Map) : Prop where
  stored : ∀ k, k ≠ [] → (look t.slots k).map (fun n => (⟨n.req, n.resp, n.cur⟩ : Rec)) = m.get k
  used : t.cnt = m.used

theorem look_key {l : List Node} {k : List Nat} {n : Node} (h : look l k = some n) :
    n.key = k := by simpa using List.find?_some h

theorem step_refines {cap : Nat} {t : Tbl} {m : Map} (h : Inv cap t) (hr : Repr t m) {L : Libc}
    (hL : L.Ok) (o : Op) (hk : o.key ≠ []) :
    Inv cap (step L t o).2 ∧ Repr (step L t o).2 (specStep cap m o).2 ∧
    (step L t o).1 = (specStep cap m o).1 := by
  cases o with
  | use k r f =>
    simp only [Op.key] at hk
    have hrk := hr.stored k hk
    obtain ⟨inv, hs⟩ := getReq_spec h hL hk r
    cases hl : look t.slots k with
    | some n =>
      simp only [hl, Option.map_some] at hs hrk
      obtain ⟨i, g1, g2, g3, g4⟩ := hs
      have hnk := look_key hl
      have hv : visible m k r = ⟨(if n.cur ≠ r ∧ r ≠ .reset then reinit n r else n).req,
          (if n.cur ≠ r ∧ r ≠ .reset then reinit n r else n).resp,
          (if n.cur ≠ r ∧ r ≠ .reset then reinit n r else n).cur⟩ := by
        simp only [visible, ← hrk]
        by_cases hc : n.cur ≠ r ∧ r ≠ .reset <;> simp [hc, reinit]
      have hkey : (if n.cur ≠ r ∧ r ≠ .reset then reinit n r else n).key = k := by
        split <;> simp [reinit, hnk]
      generalize (if n.cur ≠ r ∧ r ≠ .reset then reinit n r else n) = n' at *
      have e : getReq L t k r = (some i, (getReq L t k r).2) := by rw [← g1]
      obtain ⟨p1, p2⟩ := inv.put (n := { n' with req := (f n'.req n'.resp).1, resp := (f n'.req n'.resp).2 })
        g3 rfl (by rw [hkey]; exact hk)
      have hstep : step L t (.use k r f) = (some (n'.req, n'.resp),
          putNode (getReq L t k r).2 i { n' with req := (f n'.req n'.resp).1, resp := (f n'.req n'.resp).2 }) := by
        simp only [step]
        rw [e]
        simp only [g3]
      rw [hstep]
      simp only [specStep, ← hrk, reduceCtorEq, false_and, if_false, hv]
      refine ⟨p1, ⟨?_, ?_⟩, trivial⟩
      · intro k' hk'
        rw [p2 k' hk', hkey, g4 k' hk']
        simp only [Map.put]
        by_cases ek : k' = k
        · simp [ek]
        · simp [ek, hr.stored k' hk']
      · simp only [putNode]; rw [g2, hr.used]
    | none =>
      simp only [hl, Option.map_none] at hs hrk
      by_cases hlt : t.cnt < cap
      · simp only [hlt, if_true] at hs
        obtain ⟨i, g1, g2, g3, g4⟩ := hs
        have hu : ¬ cap ≤ m.used := by rw [← hr.used]; omega
        have e : getReq L t k r = (some i, (getReq L t k r).2) := by rw [← g1]
        obtain ⟨p1, p2⟩ := inv.put (n := ⟨k, (f [] []).1, (f [] []).2, r⟩) g3 rfl hk
        have hstep : step L t (.use k r f) = (some ([], []),
            putNode (getReq L t k r).2 i ⟨k, (f [] []).1, (f [] []).2, r⟩) := by
          simp only [step]
          rw [e]
          simp only [g3]
        rw [hstep]
        have hv : visible m k r = ⟨[], [], r⟩ := by simp [visible, ← hrk]
        simp only [specStep, hv, hu, and_false, if_false]
        refine ⟨p1, ⟨?_, ?_⟩, trivial⟩
        · intro k' hk'
          rw [p2 k' hk', g4 k' hk']
          simp only [Map.put]
          by_cases ek : k' = k
          · simp [ek]
          · simp [ek, hr.stored k' hk']
        · simp only [putNode, ← hrk, if_true]; rw [g2, hr.used]
      · simp only [hlt, if_false] at hs
        have hu : cap ≤ m.used := by rw [← hr.used]; omega
        simp only [step, hs, specStep, ← hrk, hu, and_self, if_true, and_true]
        exact ⟨h, hr⟩
  | connect k =>
    simp only [Op.key] at hk
    have hrk := hr.stored k hk
    obtain ⟨inv, hs⟩ := getReq_spec h hL hk .reset
    simp only [step, connected, specStep]
    refine ⟨inv, ?_, by (repeat' split) <;> rfl⟩
    cases hl : look t.slots k with
    | some n =>
      simp only [hl, Option.map_some] at hs hrk
      obtain ⟨i, g1, g2, g3, g4⟩ := hs
      simp only [← hrk, reduceCtorEq, if_false]
      refine ⟨fun k' hk' => ?_, by rw [g2, hr.used]⟩
      rw [g4 k' hk']
      by_cases ek : k' = k
      · simp [ek, hrk]
      · simp [ek, hr.stored k' hk']
    | none =>
      simp only [hl, Option.map_none] at hs hrk
      simp only [← hrk, if_true]
      by_cases hlt : t.cnt < cap
      · simp only [hlt, if_true] at hs
        obtain ⟨i, g1, g2, g3, g4⟩ := hs
        have hu : ¬ cap ≤ m.used := by rw [← hr.used]; omega
        simp only [hu, if_false]
        refine ⟨fun k' hk' => ?_, by simp only []; rw [g2, hr.used]⟩
        rw [g4 k' hk']
        simp only [Map.put]
        by_cases ek : k' = k
        · simp [ek]
        · simp [ek, hr.stored k' hk']
      · simp only [hlt, if_false] at hs
        have hu : cap ≤ m.used := by rw [← hr.used]; omega
        simp only [hu, if_true, hs]
        exact hr
  | close k =>
    simp only [Op.key] at hk
    have hrk := hr.stored k hk
    obtain ⟨inv, hs⟩ := getReq_spec h hL hk .reset
    simp only [step, specStep]
    cases hl : look t.slots k with
    | some n =>
      simp only [hl, Option.map_some] at hs hrk
      obtain ⟨i, g1, g2, g3, g4⟩ := hs
      have hnr : (if n.cur ≠ Req.reset ∧ Req.reset ≠ Req.reset then reinit n .reset else n) = n := by simp
      rw [hnr] at g3 g4
      have e : getReq L t k .reset = (some i, (getReq L t k .reset).2) := by rw [← g1]
      have hc : closed L t k = (removeReq L (getReq L t k .reset).2 k).2 := by
        simp only [closed]
        rw [e]
        simp only [g3, look_key hl]
      obtain ⟨q1, q2, q3, q4⟩ := removeReq_spec inv hL hk
      have hlk : look (getReq L t k .reset).2.slots k = some n := by rw [g4 k hk]; simp
      rw [hc]
      simp only [← hrk, reduceCtorEq, if_false, and_true]
      refine ⟨q1, fun k' hk' => ?_, ?_⟩
      · rw [q4 k' hk', g4 k' hk']
        simp only [Map.put]
        by_cases ek : k' = k
        · simp [ek]
        · simp [ek, hr.stored k' hk']
      · rw [q3, hlk]; simp [g2, hr.used]
    | none =>
      simp only [hl, Option.map_none] at hs hrk
      simp only [← hrk, if_true, and_true]
      by_cases hlt : t.cnt < cap
      · simp only [hlt, if_true] at hs
        obtain ⟨i, g1, g2, g3, g4⟩ := hs
        have e : getReq L t k .reset = (some i, (getReq L t k .reset).2) := by rw [← g1]
        have hc : closed L t k = (removeReq L (getReq L t k .reset).2 k).2 := by
          simp only [closed]
          rw [e]
          simp only [g3]
        obtain ⟨q1, q2, q3, q4⟩ := removeReq_spec inv hL hk
        have hlk : look (getReq L t k .reset).2.slots k = some ⟨k, [], [], .reset⟩ := by
          rw [g4 k hk]; simp
        rw [hc]
        refine ⟨q1, fun k' hk' => ?_, ?_⟩
        · rw [q4 k' hk', g4 k' hk']
          by_cases ek : k' = k
          · simp [ek, hrk]
          · simp [ek, hr.stored k' hk']
        · rw [q3, hlk]; simp [g2, hr.used]
      · simp only [hlt, if_false] at hs
        simp only [closed, hs]
        exact ⟨h, hr⟩

theorem init_inv (cap : Nat) : Inv cap (initTbl cap) where
  size := by simp [initTbl]
  sorted := by
    simp only [initTbl, Sorted, List.pairwise_replicate]
    exact Or.inr (List.le_refl _)
  distinct := by
    simp only [initTbl, List.pairwise_replicate]
    exact Or.inr (fun h => absurd rfl h)
  free := by intro n hn _; exact List.eq_of_mem_replicate hn
  count := by simp [initTbl, List.countP_replicate, blank]

/-- The empty map. -/
def Map.empty : Map := ⟨fun _ => none, 0⟩

theorem init_repr (cap : Nat) : Repr (initTbl cap) Map.empty where
  stored := by
    intro k hk
    have : look (initTbl cap).slots k = none := by
      simp only [look, List.find?_eq_none, decide_eq_true_eq]
      intro n hn
      rw [List.eq_of_mem_replicate hn]
      exact fun h => hk h.symm
    simp [this, Map.empty]
  used := rfl

theorem run_refines {cap : Nat} {L : Libc} (hL : L.Ok) : ∀ (ops : List Op) {t : Tbl} {m : Map},
    Inv cap t → Repr t m → (∀ o ∈ ops, o.key ≠ []) →
    Inv cap (run L t ops).2 ∧ Repr (run L t ops).2 (specRun cap m ops).2 ∧
    (run L t ops).1 = (specRun cap m ops).1
  | [], _, _, h, hr, _ => ⟨h, hr, rfl⟩
  | o :: os, t, m, h, hr, hk => by
    obtain ⟨a, b, c⟩ := step_refines h hr hL o (hk o (List.mem_cons_self ..))
    obtain ⟨a', b', c'⟩ := run_refines hL os a b (fun o ho => hk o (List.mem_cons_of_mem _ ho))
    exact ⟨a', b', by simp only [run, specRun, c, c']⟩

/-! ## The properties -/

/-- C05: after any history on a table of `cap` slots (with any C library that meets the
standard), the table has `cap` slots, is in order, has no session twice, its free slots are
zeroed and `coap_req_cnt` is the number of used slots. -/
theorem C05_table_well_formed (L : Libc) (hL : L.Ok) (cap : Nat) (ops : List Op)
    (hk : ∀ o ∈ ops, o.key ≠ []) : Inv cap (run L (initTbl cap) ops).2 :=
  (run_refines hL ops (init_inv cap) (init_repr cap) hk).1

/-- C05: when every slot is used, the lookup of a new session gives nothing and changes
nothing. -/
theorem C05_full_table_unchanged (L : Libc) (hL : L.Ok) (cap : Nat) (t : Tbl) (h : Inv cap t)
    (hfull : ∀ n ∈ t.slots, n.key ≠ []) (k : List Nat) (hk : k ≠ [])
    (hnew : ∀ n ∈ t.slots, n.key ≠ k) (r : Req) : getReq L t k r = (none, t) := by
  have hl : look t.slots k = none := by
    simp only [look, List.find?_eq_none, decide_eq_true_eq]; exact hnew
  have hlt : ¬ t.cnt < cap := by
    rw [used_lt_iff h]
    rintro ⟨n, hn, h0⟩
    exact hfull n hn h0
  have := (getReq_spec h hL hk r).2
  simp only [hl, hlt, if_false] at this
  exact this

/-- C05: as long as a slot is free, every session gets a record. -/
theorem C05_free_slot_served (L : Libc) (hL : L.Ok) (cap : Nat) (t : Tbl) (h : Inv cap t)
    (hfree : ∃ n ∈ t.slots, n.key = []) (k : List Nat) (hk : k ≠ []) (r : Req) :
    ∃ i n, (getReq L t k r).1 = some i ∧ (getReq L t k r).2.slots[i]? = some n ∧ n.key = k := by
  have hs := (getReq_spec h hL hk r).2
  have hlt := (used_lt_iff h).2 hfree
  cases hl : look t.slots k with
  | some n =>
    simp only [hl] at hs
    obtain ⟨i, g1, _, g3, _⟩ := hs
    exact ⟨i, _, g1, g3, by split <;> simp [reinit, look_key hl]⟩
  | none =>
    simp only [hl, hlt, if_true] at hs
    obtain ⟨i, g1, _, g3, _⟩ := hs
    exact ⟨i, _, g1, g3, rfl⟩

/-- C06: the table behaves as a map from sessions to records with room for `cap` sessions:
what every handler of every history sees is what the map says. -/
theorem C06_table_is_map (L : Libc) (hL : L.Ok) (cap : Nat) (ops : List Op)
    (hk : ∀ o ∈ ops, o.key ≠ []) :
    (run L (initTbl cap) ops).1 = (specRun cap Map.empty ops).1 :=
  (run_refines hL ops (init_inv cap) (init_repr cap) hk).2.2

/-- C06, isolation: an event of one session does not change the record of another. -/
theorem C06_isolation (L : Libc) (hL : L.Ok) (cap : Nat) (ops : List Op)
    (hk : ∀ o ∈ ops, o.key ≠ []) (o : Op) (ho : o.key ≠ []) (k' : List Nat) (hk' : k' ≠ [])
    (hne : k' ≠ o.key) :
    look (step L (run L (initTbl cap) ops).2 o).2.slots k' =
      look (run L (initTbl cap) ops).2.slots k' := by
  have h := C05_table_well_formed L hL cap ops hk
  generalize (run L (initTbl cap) ops).2 = t at *
  cases o with
  | use k r f =>
    simp only [Op.key] at ho hne
    obtain ⟨inv, hs⟩ := getReq_spec h hL ho r
    cases hl : look t.slots k with
    | some n =>
      simp only [hl] at hs
      obtain ⟨i, g1, g2, g3, g4⟩ := hs
      have hkey : (if n.cur ≠ r ∧ r ≠ .reset then reinit n r else n).key = k := by
        split <;> simp [reinit, look_key hl]
      generalize (if n.cur ≠ r ∧ r ≠ .reset then reinit n r else n) = n' at *
      have e : getReq L t k r = (some i, (getReq L t k r).2) := by rw [← g1]
      obtain ⟨p1, p2⟩ := inv.put (n := { n' with req := (f n'.req n'.resp).1, resp := (f n'.req n'.resp).2 })
        g3 rfl (by rw [hkey]; exact ho)
      have hstep : (step L t (.use k r f)).2 = 
          putNode (getReq L t k r).2 i { n' with req := (f n'.req n'.resp).1, resp := (f n'.req n'.resp).2 } := by
        simp only [step]
        rw [e]
        simp only [g3]
      rw [hstep, p2 k' hk', hkey, g4 k' hk']
      simp [hne]
    | none =>
      simp only [hl] at hs
      by_cases hlt : t.cnt < cap
      · simp only [hlt, if_true] at hs
        obtain ⟨i, g1, g2, g3, g4⟩ := hs
        have e : getReq L t k r = (some i, (getReq L t k r).2) := by rw [← g1]
        obtain ⟨p1, p2⟩ := inv.put (n := ⟨k, (f [] []).1, (f [] []).2, r⟩) g3 rfl ho
        have hstep : (step L t (.use k r f)).2 = 
            putNode (getReq L t k r).2 i ⟨k, (f [] []).1, (f [] []).2, r⟩ := by
          simp only [step]
          rw [e]
          simp only [g3]
        rw [hstep, p2 k' hk', g4 k' hk']
        simp [hne]
      · simp only [hlt, if_false] at hs
        simp only [step, hs]
  | connect k =>
    simp only [Op.key] at ho hne
    have hs := (getReq_spec h hL ho .reset).2
    simp only [step, connected]
    cases hl : look t.slots k with
    | some n =>
      simp only [hl] at hs
      obtain ⟨i, g1, g2, g3, g4⟩ := hs
      rw [g4 k' hk']; simp [hne]
    | none =>
      simp only [hl] at hs
      by_cases hlt : t.cnt < cap
      · simp only [hlt, if_true] at hs
        obtain ⟨i, g1, g2, g3, g4⟩ := hs
        rw [g4 k' hk']; simp [hne]
      · simp only [hlt, if_false] at hs
        rw [hs]
  | close k =>
    simp only [Op.key] at ho hne
    obtain ⟨inv, hs⟩ := getReq_spec h hL ho .reset
    simp only [step, closed]
    have q := (removeReq_spec inv hL ho).2.2.2 k' hk'
    cases hl : look t.slots k with
    | some n =>
      simp only [hl] at hs
      obtain ⟨i, g1, g2, g3, g4⟩ := hs
      have hkey : (if n.cur ≠ Req.reset ∧ Req.reset ≠ Req.reset then reinit n .reset else n).key = k := by
        simp [look_key hl]
      have e : getReq L t k .reset = (some i, (getReq L t k .reset).2) := by rw [← g1]
      rw [e]
      simp only [g3, hkey]
      rw [q, g4 k' hk']; simp [hne]
    | none =>
      simp only [hl] at hs
      by_cases hlt : t.cnt < cap
      · simp only [hlt, if_true] at hs
        obtain ⟨i, g1, g2, g3, g4⟩ := hs
        have e : getReq L t k .reset = (some i, (getReq L t k .reset).2) := by rw [← g1]
        rw [e]
        simp only [g3]
        rw [q, g4 k' hk']; simp [hne]
      · simp only [hlt, if_false] at hs
        rw [hs]

/-- A history on two slots: two sessions use their records, a third finds no room, the first
ends, the third gets a fresh record and the second still has its own. -/
example :
    (run simpleLibc (initTbl 2) [
      .use [49] .sen (fun _ _ => ([7], [])),
      .use [50] .sen (fun _ _ => ([8], [])),
      .use [51] .sen (fun _ _ => ([9], [])),
      .close [49],
      .use [51] .sen (fun _ _ => ([9], [])),
      .use [50] .sen (fun a b => (a, b)),
      .use [50] .crts (fun a b => (a, b))]).1
    = [some ([], []), some ([], []), none, none, some ([], []), some ([8], []), some ([], [])] := by
  decide +kernel

/-! ## C07: the keys -/

theorem decimal_inj {a b : Nat} (h : ClientResp.decimal a = ClientResp.decimal b) : a = b := by
  rw [← ClientResp.numVal_decimal a, ← ClientResp.numVal_decimal b, h]

theorem mkKey_ne_nil (p : Nat) (ip : List Nat) : mkKey p ip ≠ [] := by
  simp [mkKey, ClientResp.decimal_ne_nil]

/-- C07 is false: peer 11.2.3.4 on port 80 and peer 1.2.3.4 on port 801 get the same key. -/
theorem C07_same_key_false :
    mkKey 80 [49, 49, 46, 50, 46, 51, 46, 52] = mkKey 801 [49, 46, 50, 46, 51, 46, 52] := by decide +kernel

/-- C07 is false for IPv6 peers as well. -/
theorem C07_same_key_v6_false :
    mkKey 5683 [50, 48, 58, 58, 49] = mkKey 56832 [48, 58, 58, 49] := by decide +kernel

/-- What holds of C07: peers with the same port or with the same address text have
different keys if they differ, and so do peers whose port numbers have the same number of
digits. -/
theorem C07_same_width_partial (p q : Nat) (a b : List Nat)
    (hw : (ClientResp.decimal p).length = (ClientResp.decimal q).length)
    (hne : (p, a) ≠ (q, b)) : mkKey p a ≠ mkKey q b := by
  intro h
  have := List.append_inj h hw
  exact hne (by rw [decimal_inj this.1, this.2])

theorem C07_same_address_partial (p q : Nat) (a : List Nat) (hne : p ≠ q) :
    mkKey p a ≠ mkKey q a := by
  intro h
  exact hne (decimal_inj (List.append_cancel_right h))

theorem decimal_length_five (p : Nat) (h1 : 10000 ≤ p) (h2 : p < 100000) :
    (ClientResp.decimal p).length = 5 := by
  have one : ∀ q, q < 10 → (ClientResp.decimal q).length = 1 := by
    intro q hq; unfold ClientResp.decimal; simp [hq]
  have st : ∀ q, 10 ≤ q → (ClientResp.decimal q).length = (ClientResp.decimal (q / 10)).length + 1 := by
    intro q hq
    rw [ClientResp.decimal]
    simp [Nat.not_lt.2 hq]
  rw [st p (by omega), st (p / 10) (by omega), st (p / 10 / 10) (by omega),
    st (p / 10 / 10 / 10) (by omega), one _ (by omega)]

/-- C07 for ephemeral ports: ports of five digits give different peers different keys. -/
theorem C07_five_digit_ports_partial (p q : Nat) (a b : List Nat) (hp : 10000 ≤ p)
    (hp2 : p < 65536) (hq : 10000 ≤ q) (hq2 : q < 65536) (hne : (p, a) ≠ (q, b)) :
    mkKey p a ≠ mkKey q b :=
  C07_same_width_partial p q a b
    (by rw [decimal_length_five p hp (by omega), decimal_length_five q hq (by omega)]) hne

example : mkKey 50001 [49, 48, 46, 48, 46, 48, 46, 49] ≠ mkKey 50001 [49, 48, 46, 48, 46, 48, 46, 50] :=
  C07_five_digit_ports_partial _ _ _ _ (by decide) (by decide) (by decide) (by decide) (by decide)

example : mkKey 80 [49, 46, 50, 46, 51, 46, 52] ≠ mkKey 801 [49, 46, 50, 46, 51, 46, 52] := C07_same_address_partial _ _ _ (by decide)

end Verif.Coap
