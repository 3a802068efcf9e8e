import Verif.ThreadModel

/-!
# C124: requests handled at the same time do not disturb each other

A schedule is the order in which the threads make their steps.  A request that is handled
alone has all its steps next to each other.
-/
namespace Verif.Thread

/-! ### CSR attributes -/

/-- How often challengePassword is in the answer of a thread that is ready. -/
def asked (h : Bool) : APc → Option Nat
  | .done added => some (h.toNat + added.toNat)
  | _ => none

/-- A schedule in which each request is handled without interruption. -/
def oneByOne (steps : Nat) (order : List Nat) : List Nat :=
  order.flatMap fun i => List.replicate steps i

theorem attr_other (has : List Bool) (s : Attr) (i j : Nat) (h : i ≠ j) :
    (attrStep has s i).pcs[j]? = s.pcs[j]? := by
  unfold attrStep
  split <;> simp [List.getElem?_set_ne h]

theorem attr_alone (has : List Bool) (s : Attr) (i : Nat) (h : Bool) (hi : has[i]? = some h)
    (hp : s.pcs[i]? = some .start) :
    (attrRun has s [i, i, i]).pcs[i]? = some (.done (!h)) ∧
      ∀ j, i ≠ j → (attrRun has s [i, i, i]).pcs[j]? = s.pcs[j]? := by
  have hlt : i < s.pcs.length := by
    rcases Nat.lt_or_ge i s.pcs.length with h | h
    · exact h
    · rw [List.getElem?_eq_none h] at hp; cases hp
  constructor
  · have h1 : attrStep has s i = ⟨false, s.pcs.set i .zeroed⟩ := by
      unfold attrStep; simp [hp, hi]
    have h2 : attrStep has ⟨false, s.pcs.set i .zeroed⟩ i =
        ⟨h, (s.pcs.set i .zeroed).set i .stored⟩ := by
      unfold attrStep; simp [hi, hlt]
    simp only [attrRun, List.foldl_cons, List.foldl_nil, h1, h2]
    unfold attrStep; simp [hi, hlt]
  · intro j hj
    simp only [attrRun, List.foldl_cons, List.foldl_nil]
    rw [attr_other _ _ _ _ hj, attr_other _ _ _ _ hj, attr_other _ _ _ _ hj]

theorem attr_order (has : List Bool) : ∀ (order : List Nat) (s : Attr), order.Nodup →
    (∀ i ∈ order, i < has.length ∧ s.pcs[i]? = some .start) →
    (∀ i ∈ order, ∀ h, has[i]? = some h →
      (attrRun has s (oneByOne 3 order)).pcs[i]? = some (.done (!h))) ∧
    ∀ j, j ∉ order → (attrRun has s (oneByOne 3 order)).pcs[j]? = s.pcs[j]? := by
  intro order
  induction order with
  | nil => intro s _ _; exact ⟨by simp, fun j _ => rfl⟩
  | cons i is ih =>
    intro s hn hs
    rw [List.nodup_cons] at hn
    obtain ⟨hlt, hst⟩ := hs i (by simp)
    have e : attrRun has s (oneByOne 3 (i :: is)) =
        attrRun has (attrRun has s [i, i, i]) (oneByOne 3 is) := by
      simp [attrRun, oneByOne, List.replicate]
    obtain ⟨a1, a2⟩ := attr_alone has s i has[i] (List.getElem?_eq_getElem hlt) hst
    obtain ⟨b1, b2⟩ := ih (attrRun has s [i, i, i]) hn.2 (by
      intro k hk
      have hne : i ≠ k := fun x => hn.1 (x ▸ hk)
      rw [a2 k hne]
      exact hs k (by simp [hk]))
    rw [e]
    constructor
    · intro k hk h hh
      rcases List.mem_cons.mp hk with rfl | hk
      · rw [b2 k hn.1, a1]
        rw [List.getElem?_eq_getElem hlt] at hh
        cases hh; rfl
      · exact b1 k hk h hh
    · intro j hj
      simp only [List.mem_cons, not_or] at hj
      rw [b2 j hj.2, a2 j (fun x => hj.1 x.symm)]

/-- C124: when the requests for CSR attributes are handled one after the other, in whatever
order, each client is asked for challengePassword exactly once. -/
theorem C124_attributes_one_by_one (flag : Bool) (has : List Bool) (order : List Nat)
    (hn : order.Nodup) (i : Nat) (hi : i ∈ order) (hb : ∀ j ∈ order, j < has.length)
    (h : Bool) (hh : has[i]? = some h) :
    ∃ pc, (attrRun has (attrInit flag has.length) (oneByOne 3 order)).pcs[i]? = some pc ∧
      asked h pc = some 1 := by
  have := (attr_order has order (attrInit flag has.length) hn (fun j hj => ⟨hb j hj, by
    simp [attrInit, hb j hj]⟩)).1 i hi h hh
  exact ⟨_, this, by cases h <;> rfl⟩

example : (attrRun [true, false] (attrInit false 2) (oneByOne 3 [1, 0])).pcs =
    [.done false, .done true] := by decide

theorem attr_none (has : List Bool) (hf : ∀ h ∈ has, h = false) : ∀ (sched : List Nat) (s : Attr),
    ((∃ (i : Nat) (pc : APc), s.pcs[i]? = some pc ∧ pc ≠ .start) → s.flag = false) →
    (∀ (i : Nat) (a : Bool), s.pcs[i]? = some (.done a) → a = true) →
    ∀ (i : Nat) (a : Bool), (attrRun has s sched).pcs[i]? = some (.done a) → a = true := by
  intro sched
  induction sched with
  | nil => intro s _ h2 i a h; exact h2 i a h
  | cons k ks ih =>
    intro s h1 h2
    show ∀ (i : Nat) (a : Bool),
      (attrRun has (attrStep has s k) ks).pcs[i]? = some (.done a) → a = true
    have set_done : ∀ (pc : APc) (i : Nat) (a : Bool), (s.pcs.set k pc)[i]? = some (.done a) →
        s.pcs[i]? = some (.done a) ∨ pc = .done a := by
      intro pc i a h
      by_cases e : k = i
      · subst e
        rw [List.getElem?_set] at h
        simp only [if_true] at h
        split at h
        · cases h; exact Or.inr rfl
        · cases h
      · rw [List.getElem?_set_ne e] at h; exact Or.inl h
    apply ih
    · unfold attrStep
      split
      · exact fun _ => rfl
      · rename_i hh; intro _
        exact hf _ (List.mem_of_getElem? hh)
      · rename_i hp hh; intro _
        exact h1 ⟨k, .stored, hp, by simp⟩
      · exact h1
    · intro i a
      unfold attrStep
      split
      · intro h
        rcases set_done _ _ _ h with h | h
        · exact h2 _ _ h
        · cases h
      · intro h
        rcases set_done _ _ _ h with h | h
        · exact h2 _ _ h
        · cases h
      · rename_i hp hh
        intro h
        rcases set_done _ _ _ h with h | h
        · exact h2 _ _ h
        · have := h1 ⟨k, .stored, hp, by simp⟩
          rw [this] at h; cases h; rfl
      · exact h2 i a

/-- C124 (partial): if no callback returns attributes with challengePassword in them, every
client is asked for it exactly once, in every schedule.  Missing: callbacks that do, see
`C124_not_asked_false` and `C124_asked_twice_false`. -/
theorem C124_attributes_interleaved_partial (flag : Bool) (has : List Bool) (sched : List Nat)
    (hf : ∀ h ∈ has, h = false) (i : Nat) (a : Bool)
    (hd : (attrRun has (attrInit flag has.length) sched).pcs[i]? = some (.done a)) :
    asked false (.done a) = some 1 := by
  have : a = true := by
    refine attr_none has hf sched (attrInit flag has.length) ?_ ?_ i a hd
    · rintro ⟨i, pc, h, hne⟩
      have hm := List.mem_of_getElem? h
      simp only [attrInit, List.mem_replicate] at hm
      exact absurd hm.2 hne
    · intro i a h
      have hm := List.mem_of_getElem? h
      simp [attrInit, List.mem_replicate] at hm
  rw [this]; rfl

example : (attrRun [false, false] (attrInit true 2) [0, 0, 1, 0, 1, 1]).pcs =
    [.done true, .done true] := by decide

/-- C124 is false of CSR attributes: the flag is kept in the context that all threads share.  If
another request whose attributes contain challengePassword is handled at the wrong moment, the
client whose attributes do not is not asked for it, although the server demands proof of
possession. -/
theorem C124_not_asked_false : ∃ (has : List Bool) (sched : List Nat) (pc : APc),
    (attrRun has (attrInit false has.length) sched).pcs[0]? = some pc ∧ has[0]? = some false ∧
      asked false pc = some 0 :=
  ⟨[false, true], [0, 0, 1, 1, 0], .done false, by decide, by decide, by decide⟩

/-- C124 is false of CSR attributes: two requests for the same attributes, which contain
challengePassword, and one of the clients is asked for it twice. -/
theorem C124_asked_twice_false : ∃ (has : List Bool) (sched : List Nat) (pc : APc),
    (∀ h ∈ has, h = true) ∧ (attrRun has (attrInit true has.length) sched).pcs[0]? = some pc ∧
      asked true pc = some 2 :=
  ⟨[true, true], [0, 0, 1, 0], .done true, by decide, by decide, by decide⟩

/-! ### The table of the proxy -/

theorem tabRun_append (keys : List Nat) : ∀ (a b : List Nat) (s : Tab),
    tabRun keys s (a ++ b) = (tabRun keys s a).bind fun s' => tabRun keys s' b := by
  intro a
  induction a with
  | nil => intro b s; rfl
  | cons i is ih =>
    intro b s
    rw [List.cons_append, tabRun, tabRun]
    split
    · rfl
    · exact ih b _

/-- C124 (partial): once every thread has its own entry in the table, each gets its own client
context, in every schedule, and nothing in the table changes.  Missing: threads that appear
while others work, see the theorems below. -/
theorem C124_proxy_known_threads_partial (keys : List Nat) (s : Tab) (own : Nat → Nat × Nat)
    (hs : ∀ (i : Nat) (pc : TPc), s.pcs[i]? = some pc → pc = .start)
    (hk : ∀ (i k : Nat), keys[i]? = some k → ProxyTable.bsearch s.arr s.size k = .here (own i).1 ∧
      s.arr[(own i).1]? = some ⟨k, some (own i).2⟩) (sched : List Nat) :
    ∃ s', tabRun keys s sched = some s' ∧ s'.arr = s.arr ∧ s'.size = s.size ∧
      ∀ (i : Nat) (c : Option Nat), s'.pcs[i]? = some (.done c) → c = some (own i).2 := by
  -- the invariant
  have key : ∀ (sched : List Nat) (x : Tab), x.arr = s.arr → x.size = s.size → x.gen = s.gen →
      (∀ (i : Nat) (pc : TPc), x.pcs[i]? = some pc → pc = .start ∨ pc = .found s.gen (own i).1 ∨
        pc = .done (some (own i).2)) →
      ∃ s', tabRun keys x sched = some s' ∧ s'.arr = s.arr ∧ s'.size = s.size ∧
        ∀ (i : Nat) (c : Option Nat), s'.pcs[i]? = some (.done c) → c = some (own i).2 := by
    intro sched
    induction sched with
    | nil =>
      intro x h1 h2 h3 h4
      refine ⟨x, rfl, h1, h2, ?_⟩
      intro i c h
      rcases h4 i _ h with h | h | h
      · cases h
      · cases h
      · cases h; rfl
    | cons i is ih =>
      intro x h1 h2 h3 h4
      have upd : ∀ (pc : TPc), (pc = .found s.gen (own i).1 ∨ pc = .done (some (own i).2)) →
          ∀ (j : Nat) (q : TPc), (x.pcs.set i pc)[j]? = some q → q = .start ∨ q = .found s.gen (own j).1 ∨
            q = .done (some (own j).2) := by
        intro pc hp j q h
        by_cases e : i = j
        · subst e
          rw [List.getElem?_set] at h
          simp only [if_true] at h
          split at h
          · cases h; exact Or.inr hp
          · cases h
        · rw [List.getElem?_set_ne e] at h; exact h4 j q h
      have step : ∃ y, tabStep keys x i = some y ∧ y.arr = s.arr ∧ y.size = s.size ∧
          y.gen = s.gen ∧ (∀ (i : Nat) (pc : TPc), y.pcs[i]? = some pc → pc = .start ∨
            pc = .found s.gen (own i).1 ∨ pc = .done (some (own i).2)) := by
        cases hp : x.pcs[i]? with
        | none => exact ⟨x, by simp [tabStep, hp], h1, h2, h3, h4⟩
        | some pc =>
          cases hk' : keys[i]? with
          | none => exact ⟨x, by simp [tabStep, hp, hk'], h1, h2, h3, h4⟩
          | some k =>
            obtain ⟨hb, ha⟩ := hk i k hk'
            have e : tabStep keys x i = tabStepAt x i k pc := by simp [tabStep, hp, hk']
            rw [e]
            rcases h4 i pc hp with rfl | rfl | rfl
            · refine ⟨{ x with pcs := x.pcs.set i (.found x.gen (own i).1) }, ?_, h1, h2, h3, ?_⟩
              · simp [tabStepAt, h1, h2, hb]
              · rw [h3]; exact upd _ (Or.inl rfl)
            · refine ⟨{ x with pcs := x.pcs.set i (.done (some (own i).2)) }, ?_, h1, h2, h3, ?_⟩
              · simp [tabStepAt, h1, h3, ha]
              · exact upd _ (Or.inr rfl)
            · exact ⟨x, rfl, h1, h2, h3, h4⟩
      obtain ⟨y, hy, y1, y2, y3, y4⟩ := step
      rw [tabRun, hy]
      exact ih y y1 y2 y3 y4
  exact key sched s rfl rfl rfl (fun i pc h => Or.inl (hs i pc h))

/-- A table of eight entries with two threads, keys 5 and 9, contexts 50 and 90. -/
def exTab (n : Nat) : Tab :=
  ⟨0, 8, List.replicate 6 ⟨0, none⟩ ++ [⟨5, some 50⟩, ⟨9, some 90⟩], 100,
    List.replicate n .start⟩

example : ((tabRun [9, 5] (exTab 2) [0, 1, 1, 0]).map Tab.pcs) =
    some [.done (some 90), .done (some 50)] := by decide

/-- The shared data as the sequential model of the table (C40) has them. -/
def worldOf (s : Tab) : ProxyTable.World := ⟨s.size, [some s.arr], s.next⟩

/-- C124: a call of `get_client_ctx` that is not interrupted does what the sequential model of
the table (C40) says: same context, same table, undefined in the same cases. -/
theorem C124_proxy_alone (k : Nat) (s : Tab) (hs : s.pcs = [.start]) :
    match ProxyTable.getCtx (worldOf s) 0 k true with
    | none => tabRun [k] s [0, 0, 0, 0, 0] = none
    | some (c, w) => ∃ s', tabRun [k] s [0, 0, 0, 0, 0] = some s' ∧ worldOf s' = w ∧
        s'.pcs = [.done c] := by
  obtain ⟨gen, size, arr, next, pcs⟩ := s
  cases hs
  have st : ∀ (g sz : Nat) (a : List ProxyTable.Node) (nx : Nat) (pc : TPc),
      tabStep [k] ⟨g, sz, a, nx, [pc]⟩ 0 = tabStepAt ⟨g, sz, a, nx, [pc]⟩ 0 k pc := by
    intro g sz a nx pc; rfl
  -- the part behind the search for an unused entry
  have tail : ∀ (g sz : Nat) (a : List ProxyTable.Node) (nx c j : Nat), j < a.length →
      tabRun [k] ⟨g, sz, a, nx, [.slot c j]⟩ [0, 0, 0] =
        (ProxyTable.fill a sz j k c).map fun a' => ⟨g, sz, a', nx, [.done (some c)]⟩ := by
    intro g sz a nx c j hj
    have h1 : tabStepAt ⟨g, sz, a, nx, [.slot c j]⟩ 0 k (.slot c j) =
        some ⟨g, sz, a.set j ⟨k, (a[j]).ctx⟩, nx, [.named c j]⟩ := by
      simp [tabStepAt, List.getElem?_eq_getElem hj]
    have h2 : tabStepAt ⟨g, sz, a.set j ⟨k, (a[j]).ctx⟩, nx, [.named c j]⟩ 0 k (.named c j) =
        some ⟨g, sz, a.set j ⟨k, some c⟩, nx, [.filled c]⟩ := by
      simp [tabStepAt, hj]
    rw [tabRun, st, h1]
    dsimp only
    rw [tabRun, st, h2]
    dsimp only
    rw [tabRun, st]
    simp only [tabStepAt, ProxyTable.fill]
    cases ProxyTable.qsort (a.set j ⟨k, some c⟩) sz <;> simp [tabRun]
  have inb : ∀ (arr : List ProxyTable.Node) (key fuel l u j : Nat),
      ProxyTable.search arr key fuel l u = .here j → j < arr.length := by
    intro arr key fuel
    induction fuel with
    | zero => intro l u j h; cases h
    | succ f ih =>
      intro l u j h
      rw [ProxyTable.search] at h
      split at h
      · split at h
        · cases h
        · rename_i n hn
          split at h
          · exact ih _ _ _ h
          · split at h
            · exact ih _ _ _ h
            · cases h
              rcases Nat.lt_or_ge ((l + u) / 2) arr.length with hh | hh
              · exact hh
              · rw [List.getElem?_eq_none hh] at hn; cases hn
      · cases h
  have rest3 : ∀ (g sz : Nat) (a : List ProxyTable.Node) (nx c : Nat),
      tabRun [k] ⟨g, sz, a, nx, [.fresh c]⟩ [0, 0, 0, 0] =
        (match ProxyTable.bsearch a sz 0 with
         | .ub => none
         | .here j => tabRun [k] ⟨g, sz, a, nx, [.slot c j]⟩ [0, 0, 0]
         | .no =>
           match ProxyTable.grow a sz with
           | none => none
           | some (sz', a', j) => tabRun [k] ⟨g + 1, sz', a', nx, [.slot c j]⟩ [0, 0, 0]) := by
    intro g sz a nx c
    rw [tabRun, st]
    simp only [tabStepAt]
    cases ProxyTable.bsearch a sz 0 with
    | ub => rfl
    | here j => rfl
    | no => cases ProxyTable.grow a sz with
      | none => rfl
      | some x => rfl
  have hg : ProxyTable.getCtx (worldOf ⟨gen, size, arr, next, [.start]⟩) 0 k true =
      (match ProxyTable.bsearch arr size k with
       | .ub => none
       | .here i =>
         match arr[i]? with
         | some n => some (n.ctx, ⟨size, [some arr], next⟩)
         | none => none
       | .no =>
         match (match ProxyTable.bsearch arr size 0 with
           | .ub => none
           | .here i => some (size, arr, i)
           | .no => ProxyTable.grow arr size) with
         | none => none
         | some (sz, arr', i) =>
           match ProxyTable.fill arr' sz i k next with
           | none => none
           | some arr'' => some (some next, ⟨sz, [some arr''], next + 1⟩)) := by
    simp only [ProxyTable.getCtx, worldOf, List.getElem?_cons_zero, Bool.not_true,
      Bool.false_eq_true, if_false]
    cases ProxyTable.bsearch arr size k <;> rfl
  rw [hg]
  cases hb : ProxyTable.bsearch arr size k with
  | ub =>
    dsimp only
    rw [tabRun, st]
    simp [tabStepAt, hb]
  | here j =>
    have hj := inb _ _ _ _ _ _ hb
    dsimp only
    rw [List.getElem?_eq_getElem hj]
    dsimp only
    refine ⟨⟨gen, size, arr, next, [.done (arr[j]).ctx]⟩, ?_, rfl, rfl⟩
    rw [tabRun, st]
    simp only [tabStepAt, hb, List.set_cons_zero]
    rw [tabRun, st]
    simp only [tabStepAt, List.getElem?_eq_getElem hj, List.set_cons_zero, if_true]
    simp [tabRun, tabStep, tabStepAt]
  | no =>
    have hrun : tabRun [k] ⟨gen, size, arr, next, [.start]⟩ [0, 0, 0, 0, 0] =
        tabRun [k] ⟨gen, size, arr, next + 1, [.fresh next]⟩ [0, 0, 0, 0] := by
      rw [tabRun, st]
      simp [tabStepAt, hb]
    rw [hrun, rest3]
    dsimp only
    cases hb0 : ProxyTable.bsearch arr size 0 with
    | ub => rfl
    | here j =>
      have hj := inb _ _ _ _ _ _ hb0
      dsimp only
      rw [tail _ _ _ _ _ _ hj]
      cases ProxyTable.fill arr size j k next with
      | none => rfl
      | some a => exact ⟨_, rfl, rfl, rfl⟩
    | no =>
      dsimp only
      cases hgr : ProxyTable.grow arr size with
      | none => rfl
      | some x =>
        obtain ⟨sz, a, j⟩ := x
        have hj : j < a.length := by
          unfold ProxyTable.grow at hgr
          split at hgr
          · cases hgr
          · split at hgr
            · cases hgr
            · split at hgr
              · rename_i hx
                cases hgr
                exact inb _ _ _ _ _ _ hx
              · cases hgr
        dsimp only
        rw [tail _ _ _ _ _ _ hj]
        cases ProxyTable.fill a sz j k next with
        | none => rfl
        | some a' => exact ⟨_, rfl, rfl, rfl⟩

example : ((tabRun [7] (exTab 1) [0, 0, 0, 0, 0]).map fun s => (s.arr.drop 5, s.pcs)) =
    some ([⟨5, some 50⟩, ⟨7, some 100⟩, ⟨9, some 90⟩], [.done (some 100)]) := by decide

/-- C124 is false of a proxy with a new thread: while it sorts its entry into the table, a thread
that has found its own entry but not yet read it gets the client context of the new one. -/
theorem C124_proxy_other_context_false : ∃ (keys sched : List Nat) (s : Tab),
    tabRun keys (exTab 2) sched = some s ∧ keys = [5, 7] ∧
      s.pcs = [.done (some 100), .done (some 100)] :=
  ⟨[5, 7], [0, 1, 1, 1, 1, 1, 0],
    ⟨0, 8, List.replicate 5 ⟨0, none⟩ ++ [⟨5, some 50⟩, ⟨7, some 100⟩, ⟨9, some 90⟩], 101,
      [.done (some 100), .done (some 100)]⟩, by decide, rfl, rfl⟩

/-- C124 is false of two new threads: both take the same unused entry, and the table then gives
the second one the context the first one is working with; the context of the second is in no
entry any more. -/
theorem C124_proxy_same_entry_false : ∃ (keys sched : List Nat) (s : Tab),
    tabRun keys (exTab 2) sched = some s ∧ keys = [3, 4] ∧
      s.pcs = [.done (some 100), .done (some 101)] ∧
      ProxyTable.Node.mk 4 (some 100) ∈ s.arr ∧
      ∀ n ∈ s.arr, n.ctx ≠ some 101 ∧ n.tid ≠ 3 :=
  ⟨[3, 4], [0, 1, 0, 1, 0, 1, 1, 0, 0, 1],
    ⟨0, 8, List.replicate 5 ⟨0, none⟩ ++ [⟨4, some 100⟩, ⟨5, some 50⟩, ⟨9, some 90⟩], 102,
      [.done (some 100), .done (some 101)]⟩, by decide, rfl, rfl, by decide, by decide⟩

/-- C124 is false of a full table: while a new thread makes it larger, the old one is released
under a thread that has just found its entry in it. -/
theorem C124_proxy_released_table_false : ∃ (s : Tab) (keys sched : List Nat),
    s.size = 2 ∧ s.arr = [⟨5, some 50⟩, ⟨9, some 90⟩] ∧ s.pcs = [.start, .start] ∧
      tabRun keys s sched = none :=
  ⟨⟨0, 2, [⟨5, some 50⟩, ⟨9, some 90⟩], 100, [.start, .start]⟩, [5, 7], [0, 1, 1, 0],
    rfl, rfl, rfl, by decide⟩

/-! ### Manual approval -/

theorem man_inv (keys list : List Nat) : ∀ (sched : List Nat) (s : Man),
    (∀ k ∈ s.list, k ∈ list ∨ ∃ j : Nat, keys[j]? = some k ∧ s.pcs[j]? = some (.done false)) →
    (∀ (i : Nat) (k : Nat), keys[i]? = some k → (s.pcs[i]? = some (.done true) ∨ s.pcs[i]? = some .hit) →
      k ∈ list ∨ ∃ j : Nat, keys[j]? = some k ∧ s.pcs[j]? = some (.done false)) →
    ∀ (i k : Nat), keys[i]? = some k → (manRun keys s sched).pcs[i]? = some (.done true) →
      k ∈ list ∨ ∃ j : Nat, keys[j]? = some k ∧ (manRun keys s sched).pcs[j]? = some (.done false) := by
  intro sched
  induction sched with
  | nil => intro s _ h2 i k hk hd; exact h2 i k hk (Or.inl hd)
  | cons t ts ih =>
    intro s h1 h2
    show ∀ (i k : Nat), keys[i]? = some k →
      (manRun keys (manStep keys s t) ts).pcs[i]? = some (.done true) →
      k ∈ list ∨ ∃ j : Nat, keys[j]? = some k ∧
        (manRun keys (manStep keys s t) ts).pcs[j]? = some (.done false)
    cases hp : s.pcs[t]? with
    | none =>
      have e : manStep keys s t = s := by simp [manStep, hp]
      rw [e]; exact ih s h1 h2
    | some pc =>
      cases hk : keys[t]? with
      | none =>
        have e : manStep keys s t = s := by simp [manStep, hp, hk]
        rw [e]; exact ih s h1 h2
      | some kt =>
        have e : manStep keys s t = manStepAt s t kt pc := by simp [manStep, hp, hk]
        rw [e]
        have hlt : t < s.pcs.length := by
          rcases Nat.lt_or_ge t s.pcs.length with h | h
          · exact h
          · rw [List.getElem?_eq_none h] at hp; cases hp
        -- a thread that waits goes on waiting when another one steps
        have keep : ∀ (q : MPc) (k : Nat), pc ≠ .done false →
            (k ∈ list ∨ ∃ j : Nat, keys[j]? = some k ∧ s.pcs[j]? = some (.done false)) →
            (k ∈ list ∨ ∃ j : Nat, keys[j]? = some k ∧ (s.pcs.set t q)[j]? = some (.done false)) := by
          intro q k hne h
          rcases h with h | ⟨j, hj, hw⟩
          · exact Or.inl h
          · refine Or.inr ⟨j, hj, ?_⟩
            have : t ≠ j := by
              intro x; subst x; rw [hp] at hw; cases hw; exact hne rfl
            rw [List.getElem?_set_ne this]; exact hw
        have get : ∀ (q r : MPc) (i : Nat), (s.pcs.set t q)[i]? = some r →
            (t = i ∧ r = q) ∨ s.pcs[i]? = some r := by
          intro q r i h
          by_cases e : t = i
          · subst e
            rw [List.getElem?_set] at h
            simp only [if_true, hlt] at h
            cases h; exact Or.inl ⟨rfl, rfl⟩
          · rw [List.getElem?_set_ne e] at h; exact Or.inr h
        cases pc with
        | start =>
          apply ih
          · intro k hm; exact keep _ k (by simp) (h1 k hm)
          · intro i k hki hd
            refine keep _ k (by simp) ?_
            rcases hd with hd | hd
            · rcases get _ _ _ hd with ⟨rfl, h⟩ | h
              · split at h <;> cases h
              · exact h2 i k hki (Or.inl h)
            · rcases get _ _ _ hd with ⟨rfl, h⟩ | h
              · rw [hk] at hki; cases hki
                split at h
                · rename_i hm; exact h1 _ hm
                · cases h
              · exact h2 i k hki (Or.inr h)
        | hit =>
          apply ih
          · intro k hm
            exact keep _ k (by simp) (h1 k (List.mem_of_mem_erase hm))
          · intro i k hki hd
            refine keep _ k (by simp) ?_
            rcases hd with hd | hd
            · rcases get _ _ _ hd with ⟨rfl, -⟩ | h
              · exact h2 t k hki (Or.inr hp)
              · exact h2 i k hki (Or.inl h)
            · rcases get _ _ _ hd with ⟨rfl, h⟩ | h
              · cases h
              · exact h2 i k hki (Or.inr h)
        | miss =>
          have e2 : ∀ (l : List Nat) (q : MPc), (q = .root ∧ l = s.list ∨ q = .done false ∧
              l = s.list ++ [kt]) → ∀ (i k : Nat), keys[i]? = some k →
              (manRun keys ⟨l, s.pcs.set t q⟩ ts).pcs[i]? = some (.done true) →
              k ∈ list ∨ ∃ j : Nat, keys[j]? = some k ∧
                (manRun keys ⟨l, s.pcs.set t q⟩ ts).pcs[j]? = some (.done false) := by
            intro l q hq
            apply ih
            · intro k hm
              rcases hq with ⟨rfl, rfl⟩ | ⟨rfl, rfl⟩
              · exact keep _ k (by simp) (h1 k hm)
              · rcases List.mem_append.mp hm with hm | hm
                · exact keep _ k (by simp) (h1 k hm)
                · rw [List.mem_singleton] at hm
                  subst hm
                  exact Or.inr ⟨t, hk, by simp [hlt]⟩
            · intro i k hki hd
              refine keep _ k (by simp) ?_
              rcases hd with hd | hd
              · rcases get _ _ _ hd with ⟨rfl, h⟩ | h
                · rcases hq with ⟨rfl, -⟩ | ⟨rfl, -⟩ <;> cases h
                · exact h2 i k hki (Or.inl h)
              · rcases get _ _ _ hd with ⟨rfl, h⟩ | h
                · rcases hq with ⟨rfl, -⟩ | ⟨rfl, -⟩ <;> cases h
                · exact h2 i k hki (Or.inr h)
          simp only [manStepAt]
          split
          · exact e2 _ _ (Or.inl ⟨rfl, rfl⟩)
          · exact e2 _ _ (Or.inr ⟨rfl, rfl⟩)
        | root =>
          apply ih
          · intro k hm
            have hm : k = kt := by simpa [manStepAt] using hm
            subst hm
            exact Or.inr ⟨t, hk, by simp [manStepAt, hlt]⟩
          · intro i k hki hd
            refine keep _ k (by simp) ?_
            rcases hd with hd | hd
            · rcases get _ _ _ hd with ⟨rfl, h⟩ | h
              · cases h
              · exact h2 i k hki (Or.inl h)
            · rcases get _ _ _ hd with ⟨rfl, h⟩ | h
              · cases h
              · exact h2 i k hki (Or.inr h)
        | done b => exact ih s h1 h2

/-- C124: in every schedule the sample server signs only requests whose key had been sent before:
it was in the list at the beginning, or another of the requests with that key was told to wait. -/
theorem C124_manual_never_first (keys list sched : List Nat) (i k : Nat)
    (hk : keys[i]? = some k)
    (hd : (manRun keys ⟨list, List.replicate keys.length .start⟩ sched).pcs[i]? =
      some (.done true)) :
    k ∈ list ∨ ∃ j : Nat, keys[j]? = some k ∧
      (manRun keys ⟨list, List.replicate keys.length .start⟩ sched).pcs[j]? =
        some (.done false) := by
  refine man_inv keys list sched _ (fun k h => Or.inl h) ?_ i k hk hd
  intro i k _ h
  rcases h with h | h
  · have := List.mem_of_getElem? h; simp [List.mem_replicate] at this
  · have := List.mem_of_getElem? h; simp [List.mem_replicate] at this

example : (manRun [7, 8, 7] ⟨[1], List.replicate 3 .start⟩ [0, 1, 0, 2, 1, 2]).pcs =
    [.done false, .done false, .done true] := by decide

/-- C124 is false of the sample server: one approval lets two requests through when both are
searched for before one of them has removed the entry. -/
theorem C124_manual_twice_false : ∃ (sched : List Nat),
    manRun [7, 7] ⟨[7], [.start, .start]⟩ sched = ⟨[], [.done true, .done true]⟩ :=
  ⟨[0, 1, 0, 1], by decide⟩

/-- C124 is false of the sample server: of two first requests that find the list empty one is
lost, and its client has to wait once more. -/
theorem C124_manual_lost_false : ∃ (sched : List Nat),
    manRun [7, 8] ⟨[], [.start, .start]⟩ sched = ⟨[8], [.done false, .done false]⟩ :=
  ⟨[0, 0, 1, 1, 0, 1], by decide⟩

end Verif.Thread
