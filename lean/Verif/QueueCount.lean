import Verif.QueueLemmas

/-!
# Every connection is in one place

The rest of the invariants of the work queue: what has become of each connection, who
can sleep, and how the shutdown is counted.
-/

namespace Verif.Queue

theorem countP_modify (p : Worker → Bool) (f : Worker → Worker) :
    ∀ (l : List Worker) (i : Nat) (w : Worker), l[i]? = some w →
      (l.modify i f).countP p + (if p w then 1 else 0) = l.countP p + (if p (f w) then 1 else 0)
  | [], i, w, h => by simp at h
  | a :: l, 0, w, h => by
    simp only [List.getElem?_cons_zero, Option.some.injEq] at h
    subst h
    simp only [List.modify_zero_cons, List.countP_cons]
    omega
  | a :: l, i + 1, w, h => by
    have := countP_modify p f l i w (by simpa using h)
    simp only [List.modify_succ_cons, List.countP_cons]
    omega

theorem countP_sameHold (p : Worker → Bool)
    (hp : ∀ w : Worker, w.pc = .waiting → p { w with pc := .woken } = p w) :
    ∀ ws ws' : List Worker, SameHold ws ws' → ws'.countP p = ws.countP p
  | [], [], _ => rfl
  | [], b :: bs, h => by have := h.1; simp at this
  | a :: as, [], h => by have := h.1; simp at this
  | a :: as, b :: bs, h => by
    have ih := countP_sameHold p hp as bs
      ⟨by have := h.1; simpa using this, fun i w' hw => by
        have := h.2 (i + 1) w' (by simpa using hw); simpa using this⟩
    obtain ⟨w, hw, hab⟩ := h.2 0 b rfl
    simp only [List.getElem?_cons_zero, Option.some.injEq] at hw
    subst hw
    have : p b = p a := by
      rcases hab with rfl | ⟨h1, rfl⟩
      · rfl
      · exact hp a h1
    simp only [List.countP_cons, ih, this]

/-- The worker has connection `k` in its hands and will hand it over. -/
def fresh (live : Bool) (k : Nat) (w : Worker) : Bool :=
  decide (w.sock = some k) && (decide (w.pc = .serve) || (decide (w.pc = .ret) && live))

/-- The worker has handed connection `k` over and not closed it yet. -/
def open' (k : Nat) (w : Worker) : Bool := decide (w.sock = some k) && decide (w.pc = .close)

/-- How often connection `k` was handed over or is about to be. -/
def cnt (s : St) (k : Nat) : Nat :=
  s.served.count (some k) + s.workers.countP (fresh (decide (s.stop = 0)) k)

/-- What has become of the first `t` connections. -/
structure Acct (t : Nat) (s : St) : Prop where
  le1 : ∀ k, cnt s k ≤ 1
  eq1 : s.stop = 0 → ∀ k, k < t → cnt s k = 1
  eq0 : ∀ k, t ≤ k → cnt s k = 0
  sv : none ∉ s.served
  fs : ∀ w ∈ s.workers, w.pc = .serve ∨ w.pc = .close ∨ (w.pc = .ret ∧ s.stop = 0) → w.sock ≠ none
  cl : ∀ k, s.closed.count (some k) + s.workers.countP (open' k) = s.served.count (some k)
  cn : none ∉ s.closed

theorem Acct.init (n : Nat) : Acct 0 (init n) := by
  have hs : ∀ w ∈ (Queue.init n).workers, w = ⟨.start, Option.none⟩ := by
    intro w hw; exact List.eq_of_mem_replicate hw
  have h0 : ∀ k, cnt (Queue.init n) k = 0 := by
    intro k
    unfold cnt
    have : (Queue.init n).workers.countP (fresh (decide ((Queue.init n).stop = 0)) k) = 0 := by
      rw [List.countP_eq_zero]
      intro w hw; rw [hs w hw]; simp [fresh]
    rw [this]; rfl
  refine ⟨fun k => by rw [h0]; omega, fun _ k hk => by omega, fun k _ => h0 k,
    by simp [Queue.init], ?_, ?_, by simp [Queue.init]⟩
  · intro w hw hp; rw [hs w hw] at hp; simp at hp
  · intro k
    have : (Queue.init n).workers.countP (open' k) = 0 := by
      rw [List.countP_eq_zero]
      intro w hw; rw [hs w hw]; simp [open']
    rw [this]; rfl

/-- The logs stay, one worker moves between places where it has nothing new to hand over. -/
theorem Acct.quiet {t : Nat} {s s' : St} (h : Acct t s) {i : Nat} {w : Worker}
    (hi : s.workers[i]? = some w) {f : Worker → Worker} (hw : s'.workers = s.workers.modify i f)
    (e1 : s'.served = s.served) (e2 : s'.closed = s.closed) (e3 : s'.stop = s.stop)
    (hf : ∀ k, fresh (decide (s.stop = 0)) k (f w) = fresh (decide (s.stop = 0)) k w)
    (ho : ∀ k, open' k (f w) = open' k w)
    (hn : (f w).pc = .serve ∨ (f w).pc = .close ∨ ((f w).pc = .ret ∧ s.stop = 0) →
      (f w).sock ≠ none) : Acct t s' := by
  have hc : ∀ k, cnt s' k = cnt s k := by
    intro k
    unfold cnt
    rw [e1, e3, hw]
    have := countP_modify (fresh (decide (s.stop = 0)) k) f s.workers i w hi
    rw [hf k] at this
    omega
  refine ⟨fun k => by rw [hc]; exact h.le1 k, fun h0 k hk => by rw [hc]; exact h.eq1 (by rw [← e3]; exact h0) k hk,
    fun k hk => by rw [hc]; exact h.eq0 k hk, by rw [e1]; exact h.sv, ?_, ?_, by rw [e2]; exact h.cn⟩
  · intro v hv hp
    rw [hw] at hv; rw [e3] at hp
    rcases mem_modify hv with ⟨w', hw', rfl⟩ | hv
    · rw [hi] at hw'; cases hw'; exact hn hp
    · exact h.fs v hv hp
  · intro k
    rw [e1, e2, hw, ← h.cl k]
    have := countP_modify (open' k) f s.workers i w hi
    rw [ho k] at this
    omega

theorem Acct.worker {g t t' : Nat} {s : St} (h : Acct t s) (r : Ring g t s) {i : Nat} {w : Worker}
    (hi : s.workers[i]? = some w)
    (ht : t' = t ∧ (w.pc = .take → t = g) ∨ t' = t + 1 ∧ w.pc = .take ∧ t < g) :
    Acct t' (workerStep s i w) := by
  have hmem := List.mem_of_getElem? hi
  have hfs := h.fs w hmem
  have htk := r.tk w hmem
  obtain ⟨pc, sock⟩ := w
  unfold workerStep
  cases pc <;> dsimp only at hfs ht htk ⊢
  case take =>
    by_cases hlt : t < g
    · have ht' : t' = t + 1 := by
        rcases ht with ⟨_, e⟩ | ⟨e, _⟩
        · have := e rfl; omega
        · exact e
      subst ht'
      obtain ⟨a, b, e, -⟩ := takeOff_some r hlt
      rw [e]
      have hc : ∀ k, cnt { s with head := a, tail := b, master := signalEmpty s.master, mutex := .free, workers := s.workers.modify i fun _ => ⟨.ret, some t⟩ } k =
          cnt s k + (if t = k ∧ s.stop = 0 then 1 else 0) := by
        intro k
        unfold cnt
        have := countP_modify (fresh (decide (s.stop = 0)) k) (fun _ => ⟨.ret, some t⟩) s.workers i _ hi
        by_cases h0 : s.stop = 0 <;> by_cases hk : t = k <;> simp [fresh, h0, hk] at this ⊢ <;> omega
      refine ⟨?_, ?_, ?_, h.sv, ?_, ?_, h.cn⟩
      · intro k
        rw [hc k]
        have h1 := h.le1 k
        split
        · rename_i hk
          have := h.eq0 k (by omega)
          omega
        · omega
      · intro h0 k hk
        rw [hc k]
        by_cases hkt : k < t
        · have := h.eq1 h0 k hkt
          rw [if_neg (by omega)]; omega
        · have := h.eq0 k (by omega)
          have h0' : s.stop = 0 := h0
          rw [if_pos ⟨by omega, h0'⟩]; omega
      · intro k hk
        rw [hc k, h.eq0 k (by omega), if_neg (by omega)]
      · intro v hv hp
        rcases mem_modify hv with ⟨w', hw', rfl⟩ | hv
        · simp
        · exact h.fs v hv hp
      · intro k
        have := countP_modify (open' k) (fun _ => ⟨.ret, some t⟩) s.workers i _ hi
        have hcl := h.cl k
        dsimp only
        simp [open'] at this
        omega
    · have ht' : t' = t := by
        rcases ht with ⟨e, _⟩ | ⟨_, _, e⟩
        · exact e
        · omega
      subst ht'
      have h0 : s.stop ≠ 0 := fun e => hlt (htk rfl e)
      rw [takeOff_none r (by have := r.le; omega)]
      exact h.quiet hi rfl rfl rfl rfl (fun k => by simp [fresh, h0]) (fun k => by simp [open'])
        (fun hp => by simp [h0] at hp)
  all_goals
    have ht' : t' = t := by
      rcases ht with ⟨e, _⟩ | ⟨_, e, _⟩
      · exact e
      · cases e
    subst ht'
  case start | woken =>
    split
    · exact h.quiet hi rfl rfl rfl rfl (fun k => by simp [fresh]) (fun k => by simp [open'])
        (fun hp => by simp at hp)
    · exact h
  case check =>
    split
    · exact h.quiet hi rfl rfl rfl rfl (fun k => by simp [fresh]) (fun k => by simp [open'])
        (fun hp => by simp at hp)
    · exact h.quiet hi rfl rfl rfl rfl (fun k => by simp [fresh]) (fun k => by simp [open'])
        (fun hp => by simp at hp)
  case toWait =>
    exact h.quiet hi rfl rfl rfl rfl (fun k => by simp [fresh]) (fun k => by simp [open'])
        (fun hp => by simp at hp)
  case waiting => exact h
  case ret =>
    split
    · rename_i h0
      exact h.quiet hi rfl rfl rfl rfl (fun k => by simp [fresh, h0]) (fun k => by simp [open'])
        (fun _ => hfs (.inr (.inr ⟨rfl, h0⟩)))
    · rename_i h0
      exact h.quiet hi rfl rfl rfl rfl (fun k => by simp [fresh, h0]) (fun k => by simp [open'])
        (fun hp => by simp at hp)
  case serve =>
    have hne := hfs (.inl rfl)
    cases sock with
    | none => exact absurd rfl hne
    | some c =>
    have hc : ∀ k, cnt { s with served := s.served ++ [some c], late := s.late || s.returned, workers := setPc s.workers i .close } k = cnt s k := by
      intro k
      unfold cnt setPc
      have := countP_modify (fresh (decide (s.stop = 0)) k) (fun w => { w with pc := .close })
        s.workers i _ hi
      rw [List.count_append]
      by_cases hk : c = k
      · subst hk; simp [fresh] at this ⊢; omega
      · have hk' : ¬ (some c == some k) = true := by simpa using hk
        simp [fresh, hk] at this ⊢; omega
    refine ⟨fun k => by rw [hc]; exact h.le1 k, fun h0 k hk => by rw [hc]; exact h.eq1 h0 k hk,
      fun k hk => by rw [hc]; exact h.eq0 k hk, ?_, ?_, ?_, h.cn⟩
    · intro hm
      have hm' : none ∈ s.served ++ [some c] := hm
      rw [List.mem_append] at hm'
      rcases hm' with hm' | hm'
      · exact h.sv hm'
      · simp at hm'
    · intro v hv hp
      rcases mem_modify hv with ⟨w', hw', rfl⟩ | hv
      · rw [hi] at hw'; cases hw'; simp
      · exact h.fs v hv hp
    · intro k
      have := countP_modify (open' k) (fun w => { w with pc := .close }) s.workers i _ hi
      have hcl := h.cl k
      unfold setPc
      dsimp only
      rw [List.count_append]
      by_cases hk : c = k
      · subst hk
        simp [open'] at this ⊢
        omega
      · simp [open', hk] at this ⊢; omega
  case close =>
    have hne := hfs (.inr (.inl rfl))
    cases sock with
    | none => exact absurd rfl hne
    | some c =>
    have hc : ∀ k, cnt { s with closed := s.closed ++ [some c], workers := setPc s.workers i .start } k = cnt s k := by
      intro k
      unfold cnt setPc
      have := countP_modify (fresh (decide (s.stop = 0)) k) (fun w => { w with pc := .start })
        s.workers i _ hi
      simp [fresh] at this ⊢; omega
    refine ⟨fun k => by rw [hc]; exact h.le1 k, fun h0 k hk => by rw [hc]; exact h.eq1 h0 k hk,
      fun k hk => by rw [hc]; exact h.eq0 k hk, h.sv, ?_, ?_, ?_⟩
    · intro v hv hp
      rcases mem_modify hv with ⟨w', hw', rfl⟩ | hv
      · rw [hi] at hw'; cases hw'; simp at hp
      · exact h.fs v hv hp
    · intro k
      have := countP_modify (open' k) (fun w => { w with pc := .start }) s.workers i _ hi
      have hcl := h.cl k
      unfold setPc
      dsimp only
      rw [List.count_append]
      by_cases hk : c = k
      · subst hk; simp [open'] at this hcl ⊢; omega
      · simp [open', hk] at this hcl ⊢; omega
    · intro hm
      have hm' : none ∈ s.closed ++ [some c] := hm
      rw [List.mem_append] at hm'
      rcases hm' with hm' | hm'
      · exact h.cn hm'
      · simp at hm'
  case leave =>
    split
    · exact h.quiet hi rfl rfl rfl rfl (fun k => by simp [fresh]) (fun k => by simp [open'])
        (fun hp => by simp at hp)
    · exact h
  case done => exact h

/-- Waking workers up changes nothing about the connections. -/
theorem Acct.same {t : Nat} {s s' : St} (h : Acct t s) (hw : SameHold s.workers s'.workers)
    (e1 : s'.served = s.served) (e2 : s'.closed = s.closed)
    (e3 : s'.stop = s.stop ∨ s'.stop ≠ 0) : Acct t s' := by
  have hle : ∀ k, cnt s' k ≤ cnt s k := by
    intro k
    unfold cnt
    rw [countP_sameHold _ (fun w hp => by simp [fresh, hp]) _ _ hw, e1]
    refine Nat.add_le_add_left (List.countP_mono_left ?_) _
    intro w _ hf
    rcases e3 with e | e
    · rw [e] at hf; exact hf
    · simp [fresh, e] at hf; simp [fresh, hf]
  refine ⟨fun k => Nat.le_trans (hle k) (h.le1 k), ?_, ?_, by rw [e1]; exact h.sv, ?_, ?_,
    by rw [e2]; exact h.cn⟩
  · intro h0 k hk
    have e : s'.stop = s.stop := by
      rcases e3 with e | e
      · exact e
      · exact absurd h0 e
    have := h.eq1 (by rw [← e]; exact h0) k hk
    unfold cnt at this ⊢
    rw [countP_sameHold _ (fun w hp => by simp [fresh, hp]) _ _ hw, e1, e]
    exact this
  · intro k hk
    have := hle k
    have := h.eq0 k hk
    omega
  · intro v hv hp
    obtain ⟨w, hm, rfl | ⟨_, rfl⟩⟩ := hw.mem hv
    · refine h.fs v hm ?_
      rcases hp with hp | hp | ⟨hp, h0⟩
      · exact .inl hp
      · exact .inr (.inl hp)
      · rcases e3 with e | e
        · exact .inr (.inr ⟨hp, by rw [← e]; exact h0⟩)
        · exact absurd h0 e
    · simp at hp
  · intro k
    rw [e1, e2, countP_sameHold _ (fun w hp => by simp [open', hp]) _ _ hw]
    exact h.cl k

/-- A worker's move changes its own record only, and it falls asleep only from `toWait`. -/
theorem workerStep_workers (s : St) (i : Nat) (w : Worker) :
    workerStep s i w = s ∨ ∃ f, (workerStep s i w).workers = s.workers.modify i f ∧
      ((f w).pc = .waiting → w.pc = .toWait) ∧ ((f w).pc = .done → w.pc = .leave) ∧
      (w.pc = .done → False) ∧
      ((f w).pc = .leave → s.stop ≠ 0) ∧
      ((f w).pc ≠ .done ∧ (workerStep s i w).num = s.num ∧
          ((workerStep s i w).master = s.master ∨ (workerStep s i w).master = signalEmpty s.master) ∨
        (f w).pc = .done ∧ (workerStep s i w).num = s.num - 1 ∧
          (workerStep s i w).master = signalCond s.master) := by
  obtain ⟨pc, sock⟩ := w
  unfold workerStep
  cases pc <;> dsimp only
  case start | woken =>
    split
    · exact .inr ⟨_, rfl, (fun h => by simp at h), (fun h => by simp at h), (fun h => by simp at h), (fun h => by simp at h),
        .inl ⟨by simp, rfl, .inl rfl⟩⟩
    · exact .inl rfl
  case check =>
    split
    · exact .inr ⟨_, rfl, (fun h => by simp at h), (fun h => by simp at h), (fun h => by simp at h), (fun h => by simp at h),
        .inl ⟨by simp, rfl, .inl rfl⟩⟩
    · exact .inr ⟨_, rfl, (fun h => by simp at h), (fun h => by simp at h), (fun h => by simp at h), (fun h => by simp at h),
        .inl ⟨by simp, rfl, .inl rfl⟩⟩
  case toWait =>
    exact .inr ⟨_, rfl, (fun _ => rfl), (fun h => by simp at h), (fun h => by simp at h), (fun h => by simp at h),
        .inl ⟨by simp, rfl, .inl rfl⟩⟩
  case waiting => exact .inl rfl
  case take =>
    split
    · exact .inr ⟨_, rfl, (fun h => by simp at h), (fun h => by simp at h), (fun h => by simp at h), (fun h => by simp at h),
        .inl ⟨by simp, rfl, .inr rfl⟩⟩
    · exact .inr ⟨_, rfl, (fun h => by simp at h), (fun h => by simp at h), (fun h => by simp at h), (fun h => by simp at h),
        .inl ⟨by simp, rfl, .inr rfl⟩⟩
  case ret =>
    split
    · exact .inr ⟨_, rfl, (fun h => by simp at h), (fun h => by simp at h), (fun h => by simp at h), (fun h => by simp at h),
        .inl ⟨by simp, rfl, .inl rfl⟩⟩
    · rename_i h0
      exact .inr ⟨_, rfl, (fun h => by simp at h), (fun h => by simp at h), (fun h => by simp at h), (fun _ => h0),
        .inl ⟨by simp, rfl, .inl rfl⟩⟩
  case serve =>
    exact .inr ⟨_, rfl, (fun h => by simp at h), (fun h => by simp at h), (fun h => by simp at h), (fun h => by simp at h),
        .inl ⟨by simp, rfl, .inl rfl⟩⟩
  case close =>
    exact .inr ⟨_, rfl, (fun h => by simp at h), (fun h => by simp at h), (fun h => by simp at h), (fun h => by simp at h),
        .inl ⟨by simp, rfl, .inl rfl⟩⟩
  case leave =>
    split
    · exact .inr ⟨_, rfl, (fun h => by simp at h), (fun _ => rfl), (fun h => by simp at h), (fun h => by simp at h),
        .inr ⟨by simp, rfl, rfl⟩⟩
    · exact .inl rfl
  case done => exact .inl rfl

theorem workerStep_stop (s : St) (i : Nat) (w : Worker) :
    (workerStep s i w).stop = s.stop ∧ (workerStep s i w).returned = s.returned := by
  obtain ⟨pc, sock⟩ := w
  unfold workerStep
  cases pc <;> dsimp only
  case take => split <;> exact ⟨rfl, rfl⟩
  all_goals first | exact ⟨rfl, rfl⟩ | (split <;> exact ⟨rfl, rfl⟩)

/-- Everybody sleeps only when there is nothing on the queue. -/
def Quiet (g t : Nat) (s : St) : Prop :=
  s.workers ≠ [] → (∀ w ∈ s.workers, w.pc = .waiting) → t = g

theorem Quiet.worker {g t t' : Nat} {s : St} (h : Quiet g t s) (r : Ring g t s) {i : Nat}
    {w : Worker} (hi : s.workers[i]? = some w) (ht : t' = t ∨ t' = t + 1 ∧ w.pc = .take) :
    Quiet g t' (workerStep s i w) := by
  have hmem := List.mem_of_getElem? hi
  rcases workerStep_workers s i w with e | ⟨f, e, hwt, -⟩
  · rcases ht with rfl | ⟨rfl, hp⟩
    · rw [e]; exact h
    · rw [e]; intro _ hall
      have := hall w hmem
      rw [hp] at this; cases this
  · intro _ hall
    have hm : f w ∈ (workerStep s i w).workers := by
      rw [e]
      apply List.mem_of_getElem? (i := i)
      rw [List.getElem?_modify, hi]; simp
    have hp := hwt (hall _ hm)
    rcases ht with rfl | ⟨rfl, hp'⟩
    · exact r.tw w hmem hp
    · rw [hp] at hp'; cases hp'

theorem Quiet.signal {g t : Nat} {s s' : St} {k : Nat}
    (e : s'.workers = signalFull s.workers k) : Quiet g t s' := by
  intro hne hall
  rw [e] at hne hall
  rcases signalFull_cases s.workers k with ⟨e', hs⟩ | ⟨i, w, hi, hp, e'⟩
  · rw [e'] at hne hall
    cases hw : s.workers with
    | nil => exact absurd hw hne
    | cons a as =>
      have := sleepers_mem (ws := s.workers) (i := 0) (w := a) (by rw [hw]; rfl)
        (hall a (by rw [hw]; simp))
      rw [hs] at this; simp at this
  · rw [e'] at hall
    have : (⟨.woken, w.sock⟩ : Worker) ∈ setPc s.workers i .woken := by
      apply List.mem_of_getElem? (i := i)
      rw [getElem?_setPc, if_pos rfl, hi]; rfl
    have := hall _ this
    cases this

/-- Waking workers up leaves fewer of them asleep. -/
theorem Quiet.same {g t : Nat} {s s' : St} (h : Quiet g t s)
    (hw : SameHold s.workers s'.workers) : Quiet g t s' := by
  intro hne hall
  refine h ?_ ?_
  · intro e
    have := hw.1
    rw [e] at this
    exact hne (List.eq_nil_of_length_eq_zero (by simpa using this))
  · intro w hm
    obtain ⟨i, hi⟩ := List.mem_iff_getElem?.mp hm
    have hlt : i < s.workers.length := by
      by_cases hl : i < s.workers.length
      · exact hl
      · rw [List.getElem?_eq_none (by omega)] at hi; cases hi
    have hlt' : i < s'.workers.length := by rw [hw.1]; exact hlt
    obtain ⟨v, h1, h2⟩ := hw.2 i _ (List.getElem?_eq_getElem hlt')
    rw [hi] at h1; cases h1
    have hp := hall _ (List.getElem_mem hlt')
    rcases h2 with e | ⟨hp', _⟩
    · rw [← e]; exact hp
    · exact hp'

/-- The server has not begun to shut down, or the shutdown is counted right. -/
structure Live (s : St) : Prop where
  w : s.stop = 0 → ∀ w ∈ s.workers, w.pc ≠ .leave ∧ w.pc ≠ .done
  m : s.stop = 0 → s.master ≠ .bcast ∧ s.master ≠ .join ∧ s.master ≠ .joinWait ∧ s.master ≠ .fin
  r : s.stop = 0 → s.returned = false
  l : s.returned = false → s.late = false
  num : s.num = ((s.workers.countP fun w => decide (w.pc ≠ .done) : Nat) : Int)
  jw : s.master = .joinWait → s.num > 0
  fin : s.master = .fin → s.num ≤ 0

theorem Live.init (n : Nat) : Live (init n) := by
  refine ⟨?_, fun _ => by simp [Queue.init], fun _ => rfl, fun _ => rfl, ?_,
    fun h => by simp [Queue.init] at h, fun h => by simp [Queue.init] at h⟩
  · intro _ w hw
    rw [List.eq_of_mem_replicate hw]; simp
  · simp [Queue.init, List.countP_replicate]

theorem Live.worker {s : St} (h : Live s) {i : Nat} {w : Worker}
    (hi : s.workers[i]? = some w) : Live (workerStep s i w) := by
  have hmem := List.mem_of_getElem? hi
  have hst := workerStep_stop s i w
  rcases workerStep_workers s i w with e | ⟨f, e, -, hd, hnd, hl, hnm⟩
  · rw [e]; exact h
  have hcnt : (workerStep s i w).num =
      (((workerStep s i w).workers.countP fun w => decide (w.pc ≠ .done) : Nat) : Int) := by
    have key := countP_modify (fun w => decide (w.pc ≠ .done)) f s.workers i w hi
    have hnum := h.num
    have hw : decide (w.pc ≠ .done) = true := by simpa using hnd
    rw [hw, if_pos rfl] at key
    rw [e]
    rcases hnm with ⟨h1, h2, _⟩ | ⟨h1, h2, _⟩
    · have hf : decide ((f w).pc ≠ .done) = true := by simpa using h1
      rw [hf, if_pos rfl] at key
      rw [h2]; omega
    · have hf : decide ((f w).pc ≠ .done) = false := by simp [h1]
      rw [hf, if_neg (by simp)] at key
      rw [h2]; omega
  have notj : ∀ m, signalCond m ≠ .joinWait := by intro m; cases m <;> simp [signalCond]
  have emj : ∀ m m' : MPc, m' = m ∨ m' = signalEmpty m →
      (m' = .joinWait → m = .joinWait) ∧ (m' = .fin → m = .fin) ∧ (m' = .bcast → m = .bcast) ∧
      (m' = .join → m = .join) := by
    intro m m' hm
    rcases hm with rfl | rfl
    · exact ⟨id, id, id, id⟩
    · cases m <;> simp [signalEmpty]
  refine ⟨?_, ?_, ?_, ?_, hcnt, ?_, ?_⟩
  · intro h0 v hv
    rw [hst.1] at h0
    rw [e] at hv
    rcases mem_modify hv with ⟨w', hw', rfl⟩ | hv
    · rw [hi] at hw'; cases hw'
      exact ⟨fun x => hl x h0, fun x => (h.w h0 w hmem).1 (hd x)⟩
    · exact h.w h0 v hv
  · intro h0
    rw [hst.1] at h0
    obtain ⟨a1, a2, a3, a4⟩ := h.m h0
    rcases hnm with ⟨_, _, hm⟩ | ⟨h1, _, _⟩
    · obtain ⟨b1, b2, b3, b4⟩ := emj _ _ hm
      exact ⟨fun x => a1 (b3 x), fun x => a2 (b4 x), fun x => a3 (b1 x), fun x => a4 (b2 x)⟩
    · exact absurd (hd h1) (h.w h0 w hmem).1
  · intro h0; rw [hst.1] at h0; rw [hst.2]; exact h.r h0
  · intro hr
    rw [hst.2] at hr
    have hlate := h.l hr
    clear hl hd hnd hnm e hcnt hst
    obtain ⟨pc, sock⟩ := w
    unfold workerStep
    cases pc <;> dsimp only
    case serve => rw [hlate, hr]; rfl
    case take => split <;> exact hlate
    all_goals first | exact hlate | (split <;> exact hlate)
  · intro hj
    rcases hnm with ⟨_, h2, hm⟩ | ⟨h1, _, hm⟩
    · rw [h2]; exact h.jw ((emj _ _ hm).1 hj)
    · rw [hm] at hj; exact absurd hj (notj _)
  · intro hf
    rcases hnm with ⟨_, h2, hm⟩ | ⟨h1, h2, hm⟩
    · rw [h2]; exact h.fin ((emj _ _ hm).2.1 hf)
    · rw [hm] at hf
      have : s.master = .fin := by
        cases hs : s.master <;> rw [hs] at hf <;> simp [signalCond] at hf
      have := h.fin this
      omega

theorem Live.same {s s' : St} (h : Live s) (hw : SameHold s.workers s'.workers)
    (e0 : s'.stop = 0 → s.stop = 0) (er : s'.returned = s.returned) (el : s'.late = s.late)
    (en : s'.num = s.num)
    (hm : s'.stop = 0 → s'.master ≠ .bcast ∧ s'.master ≠ .join ∧ s'.master ≠ .joinWait ∧
      s'.master ≠ .fin)
    (hj : s'.master = .joinWait → s.num > 0) (hf : s'.master = .fin → s.num ≤ 0) : Live s' := by
  refine ⟨?_, hm, fun h0 => by rw [er]; exact h.r (e0 h0), fun hr => ?_, ?_, ?_, ?_⟩
  · intro h0 v hv
    obtain ⟨w, hm, rfl | ⟨_, rfl⟩⟩ := hw.mem hv
    · exact h.w (e0 h0) v hm
    · simp
  · rw [el]; rw [er] at hr; exact h.l hr
  · rw [en, countP_sameHold _ (fun w hp => by simp [hp]) _ _ hw]; exact h.num
  · rw [en]; exact hj
  · rw [en]; exact hf

theorem Live.master {s : St} (h : Live s) (acc : Bool) (k : Nat) : Live (masterStep s acc k) := by
  have same := SameHold.refl s.workers
  have hm := h.m
  unfold masterStep
  cases hpc : s.master <;> rw [hpc] at hm <;> dsimp only
  case loop =>
    split
    · exact h.same same id rfl rfl rfl (fun _ => by simp) (fun x => by simp at x) (fun x => by simp at x)
    · rename_i h0
      exact h.same same id rfl rfl rfl (fun x => absurd x h0) (fun x => by simp at x)
        (fun x => by simp at x)
  case accept =>
    split <;>
    exact h.same same id rfl rfl rfl (fun _ => by simp) (fun x => by simp at x) (fun x => by simp at x)
  case failed =>
    split
    · exact h.same same id rfl rfl rfl (fun _ => by simp) (fun x => by simp at x) (fun x => by simp at x)
    · rename_i h0
      exact h.same same id rfl rfl rfl (fun x => absurd x h0) (fun x => by simp at x)
        (fun x => by simp at x)
  case got =>
    split <;>
    exact h.same same id rfl rfl rfl (fun _ => by simp) (fun x => by simp at x) (fun x => by simp at x)
  case lock | woken =>
    split
    · exact h.same same id rfl rfl rfl (fun _ => by simp) (fun x => by simp at x) (fun x => by simp at x)
    · exact h
  case check =>
    split <;>
    exact h.same same id rfl rfl rfl (fun _ => by simp) (fun x => by simp at x) (fun x => by simp at x)
  case toWait =>
    exact h.same same id rfl rfl rfl (fun _ => by simp) (fun x => by simp at x) (fun x => by simp at x)
  case waiting => exact h
  case put c =>
    have hp : ∀ x : St, x = putOn s c → x.stop = s.stop ∧ x.returned = s.returned ∧
        x.late = s.late ∧ x.num = s.num := by
      rintro x rfl; unfold putOn; split <;> exact ⟨rfl, rfl, rfl, rfl⟩
    obtain ⟨p1, p2, p3, p4⟩ := hp _ rfl
    exact h.same (SameHold.signal _ _) (fun e => p1 ▸ e) p2 p3 p4 (fun _ => by simp)
      (fun x => by simp at x) (fun x => by simp at x)
  case bcast =>
    exact h.same (SameHold.broadcast _) id rfl rfl rfl (fun e => absurd rfl (hm e).1)
      (fun x => by simp at x) (fun x => by simp at x)
  case join =>
    split
    · split
      · rename_i hn
        exact h.same same id rfl rfl rfl (fun e => absurd rfl (hm e).2.1) (fun _ => hn)
          (fun x => by simp at x)
      · rename_i hn
        exact h.same same (fun x => by simp at x) rfl rfl rfl (fun e => by simp at e)
          (fun x => by simp at x) (fun _ => by omega)
    · exact h
  case joinWait => exact h
  case fin => exact h

/-- Everything known about a state the server can reach. -/
structure Inv (g t : Nat) (s : St) : Prop where
  own : Own s
  ring : Ring g t s
  acct : Acct t s
  quiet : Quiet g t s
  live : Live s

theorem Inv.init (n : Nat) : Inv 0 0 (init n) :=
  ⟨Own.init n, Ring.init n, Acct.init n, fun _ _ => rfl, Live.init n⟩

theorem masterStep_logs (s : St) (acc : Bool) (k : Nat) :
    (masterStep s acc k).served = s.served ∧ (masterStep s acc k).closed = s.closed ∧
      ((masterStep s acc k).stop = s.stop ∨ (masterStep s acc k).stop ≠ 0) ∧
      SameHold s.workers (masterStep s acc k).workers := by
  have same := SameHold.refl s.workers
  have hp : ∀ c, (putOn s c).served = s.served ∧ (putOn s c).closed = s.closed ∧
      (putOn s c).stop = s.stop := by
    intro c; unfold putOn; split <;> exact ⟨rfl, rfl, rfl⟩
  unfold masterStep
  cases hpc : s.master <;> dsimp only
  case put c => exact ⟨(hp c).1, (hp c).2.1, .inl (hp c).2.2, SameHold.signal _ _⟩
  case bcast => exact ⟨rfl, rfl, .inl rfl, SameHold.broadcast _⟩
  case join =>
    split
    · split
      · exact ⟨rfl, rfl, .inl rfl, same⟩
      · exact ⟨rfl, rfl, .inr (by simp), same⟩
    · exact ⟨rfl, rfl, .inl rfl, same⟩
  all_goals first | exact ⟨rfl, rfl, .inl rfl, same⟩ | (split <;> exact ⟨rfl, rfl, .inl rfl, same⟩)

theorem Inv.worker {g t : Nat} {s : St} (h : Inv g t s) {i : Nat} {w : Worker}
    (hi : s.workers[i]? = some w) :
    ∃ t', Inv g t' (workerStep s i w) ∧
      (t' = t ∧ (w.pc = .take → t = g) ∨ t' = t + 1 ∧ w.pc = .take ∧ t < g) := by
  obtain ⟨t', hr, ht⟩ := h.ring.worker h.own hi
  refine ⟨t', ⟨h.own.worker hi, hr, h.acct.worker h.ring hi ht, h.quiet.worker h.ring hi ?_,
    h.live.worker hi⟩, ht⟩
  rcases ht with ⟨e, _⟩ | ⟨e, hp, _⟩
  · exact .inl e
  · exact .inr ⟨e, hp⟩

theorem Inv.step {g t : Nat} {s : St} (h : Inv g t s) (m : Move) :
    ∃ g' t', g ≤ g' ∧ t ≤ t' ∧ Inv g' t' (step s m) := by
  have hown := h.own.step m
  cases m with
  | worker i =>
    unfold Queue.step at hown ⊢
    dsimp only at hown ⊢
    cases hi : s.workers[i]? with
    | none => exact ⟨g, t, Nat.le_refl _, Nat.le_refl _, h⟩
    | some w =>
      obtain ⟨t', h', ht⟩ := h.worker hi
      exact ⟨g, t', Nat.le_refl _, by omega, h'⟩
  | master acc k =>
    unfold Queue.step at hown ⊢
    dsimp only at hown ⊢
    obtain ⟨g', hr, hg⟩ := h.ring.master h.own acc k
    obtain ⟨l1, l2, l3, l4⟩ := masterStep_logs s acc k
    refine ⟨g', t, by omega, Nat.le_refl _, hown, hr, h.acct.same l4 l1 l2 l3, ?_,
      h.live.master acc k⟩
    rcases hg with rfl | ⟨_, _, e⟩
    · exact h.quiet.same l4
    · exact Quiet.signal e
  | sig =>
    refine ⟨g, t, Nat.le_refl _, Nat.le_refl _, hown, h.ring.sig,
      h.acct.same (SameHold.refl _) rfl rfl (.inr (by simp [Queue.step])), h.quiet, ?_⟩
    exact h.live.same (SameHold.refl _) (fun e => by simp [Queue.step] at e) rfl rfl rfl
      (fun e => by simp [Queue.step] at e) h.live.jw h.live.fin
  | spurW i =>
    unfold Queue.step at hown ⊢
    dsimp only at hown ⊢
    cases hi : s.workers[i]? with
    | none => exact ⟨g, t, Nat.le_refl _, Nat.le_refl _, h⟩
    | some w =>
      rw [hi] at hown
      dsimp only at hown ⊢
      by_cases hp : w.pc = .waiting
      · rw [if_pos hp] at hown ⊢
        have sh := SameHold.setWoken hi hp
        exact ⟨g, t, Nat.le_refl _, Nat.le_refl _, hown,
          h.ring.same rfl rfl rfl id sh h.ring.full h.ring.pt h.ring.mine h.ring.none h.ring.acc,
          h.acct.same sh rfl rfl (.inl rfl), h.quiet.same sh,
          h.live.same sh id rfl rfl rfl h.live.m h.live.jw h.live.fin⟩
      · rw [if_neg hp]; exact ⟨g, t, Nat.le_refl _, Nat.le_refl _, h⟩
  | spurM =>
    refine ⟨g, t, Nat.le_refl _, Nat.le_refl _, ?_⟩
    unfold Queue.step at hown ⊢
    dsimp only at hown ⊢
    cases hpc : s.master <;> rw [hpc] at hown <;> dsimp only at hown ⊢
    case waiting c =>
      exact ⟨hown, h.ring.keep rfl rfl rfl rfl (.inr ⟨c, hpc, rfl⟩) id h.ring.tk h.ring.tw,
        h.acct.same (SameHold.refl _) rfl rfl (.inl rfl), h.quiet,
        h.live.same (SameHold.refl _) id rfl rfl rfl (fun _ => by simp) (fun x => by simp at x)
          (fun x => by simp at x)⟩
    case joinWait =>
      have hm := h.live.m
      rw [hpc] at hm
      exact ⟨hown, h.ring.same rfl rfl rfl id (SameHold.refl _) (fun c hc => by simp at hc)
        (fun c hc => by simp at hc) (fun c hc => by simp [hand] at hc) (fun hc => by simp at hc)
        h.ring.acc,
        h.acct.same (SameHold.refl _) rfl rfl (.inl rfl), h.quiet,
        h.live.same (SameHold.refl _) id rfl rfl rfl (fun e => absurd rfl (hm e).2.2.1)
          (fun x => by simp at x) (fun x => by simp at x)⟩
    all_goals exact h
  | ret =>
    refine ⟨g, t, Nat.le_refl _, Nat.le_refl _, ?_⟩
    unfold Queue.step at hown ⊢
    dsimp only at hown ⊢
    by_cases h0 : s.stop = 0
    · rw [if_pos h0]; exact h
    · rw [if_neg h0] at hown ⊢
      exact ⟨hown, h.ring.keep rfl rfl rfl rfl (.inl rfl) id h.ring.tk h.ring.tw,
        h.acct.same (SameHold.refl _) rfl rfl (.inl rfl), h.quiet,
        ⟨h.live.w, h.live.m, fun e => absurd e h0, fun e => by simp at e, h.live.num, h.live.jw,
          h.live.fin⟩⟩

theorem Inv.run : ∀ (ms : List Move) (g t : Nat) (s : St), Inv g t s →
    ∃ g' t', g ≤ g' ∧ t ≤ t' ∧ Inv g' t' (run s ms)
  | [], g, t, s, h => ⟨g, t, Nat.le_refl _, Nat.le_refl _, h⟩
  | m :: ms, g, t, s, h => by
    obtain ⟨g1, t1, a1, b1, h1⟩ := h.step m
    obtain ⟨g2, t2, a2, b2, h2⟩ := Inv.run ms g1 t1 _ h1
    exact ⟨g2, t2, by omega, by omega, h2⟩

theorem reach (n : Nat) (ms : List Move) : ∃ g t, Inv g t (run (init n) ms) := by
  obtain ⟨g, t, _, _, h⟩ := Inv.run ms 0 0 _ (Inv.init n)
  exact ⟨g, t, h⟩

end Verif.Queue
