import Verif.QueueCount

/-!
# C126: every connection the sample server accepts is served once, in order, and closed

Stated for every interleaving of the accepting thread, any number of workers, signals and
spurious wake-ups.
-/

namespace Verif.Queue

/-- Connection `k` lies on the queue with `j` connections before it. -/
def Queued (s : St) (k j : Nat) : Prop :=
  (j : Int) < s.head - s.tail ∧ s.queue[(s.tail.toNat + j) % 20]? = some k

/-- A worker has taken connection `k` and will hand it to the library next. -/
def InHand (s : St) (k : Nat) : Prop :=
  ∃ w ∈ s.workers, w.sock = some k ∧ (w.pc = .ret ∨ w.pc = .serve)

/-- The accepting thread has not put connection `k` on the queue yet. -/
def Accepting (s : St) (k : Nat) : Prop :=
  s.master = .got k ∨ s.master = .lock k ∨ s.master = .check k ∨ s.master = .toWait k ∨
    s.master = .waiting k ∨ s.master = .woken k ∨ s.master = .put k

theorem queued_iff {g t : Nat} {s : St} (h : Ring g t s) (k j : Nat) :
    Queued s k j ↔ k = t + j ∧ k < g := by
  have hht := h.ht
  have hle := h.le
  unfold Queued
  constructor
  · rintro ⟨h1, h2⟩
    have := h.val (t + j) (by omega) (by omega)
    rw [show t + j - t = j by omega, h2] at this
    have := Option.some.inj this
    exact ⟨this, by omega⟩
  · rintro ⟨rfl, h2⟩
    have := h.val (t + j) (by omega) h2
    rw [show t + j - t = j by omega] at this
    exact ⟨by omega, this⟩

/-- C126: no connection is handed to the library twice, nothing is handed over that was not
accepted before, and in particular never the descriptor 0 a worker starts with. -/
theorem C126_at_most_once (n : Nat) (ms : List Move) :
    (∀ k, (run (init n) ms).served.count (some k) ≤ 1) ∧
      ∀ x ∈ (run (init n) ms).served, ∃ k, x = some k ∧ k < (run (init n) ms).accepted := by
  obtain ⟨g, t, h⟩ := reach n ms
  refine ⟨fun k => ?_, fun x hx => ?_⟩
  · have := h.acct.le1 k
    unfold cnt at this
    omega
  · cases x with
    | none => exact absurd hx h.acct.sv
    | some k =>
      refine ⟨k, rfl, ?_⟩
      have hc := List.count_pos_iff.mpr hx
      by_cases hk : k < t
      · have := h.ring.le
        have := h.ring.acc
        omega
      · have := h.acct.eq0 k (by omega)
        unfold cnt at this
        omega

example : (run (init 2) [.master true 0, .master true 0, .master true 0, .master true 0,
    .master true 0, .master true 0, .worker 1, .worker 1, .worker 1, .worker 1, .worker 1]).served =
    [some 0] := by decide +kernel

/-- C126: only what was handed to the library is closed, and once. -/
theorem C126_closed_once (n : Nat) (ms : List Move) :
    none ∉ (run (init n) ms).closed ∧ ∀ k, (run (init n) ms).closed.count (some k) ≤
      (run (init n) ms).served.count (some k) := by
  obtain ⟨g, t, h⟩ := reach n ms
  exact ⟨h.acct.cn, fun k => by have := h.acct.cl k; omega⟩

/-- C126: until it is told to stop the server forgets nothing: each connection it accepted was
handed over, or is in the hands of a worker or of the accepting thread, or lies on the queue. -/
theorem C126_nothing_forgotten (n : Nat) (ms : List Move) (k : Nat)
    (hs : (run (init n) ms).stop = 0) (hk : k < (run (init n) ms).accepted) :
    some k ∈ (run (init n) ms).served ∨ InHand (run (init n) ms) k ∨
      (∃ j, Queued (run (init n) ms) k j) ∨ Accepting (run (init n) ms) k := by
  obtain ⟨g, t, h⟩ := reach n ms
  generalize run (init n) ms = s at *
  by_cases hkt : k < t
  · have hc := h.acct.eq1 hs k hkt
    unfold cnt at hc
    by_cases hm : some k ∈ s.served
    · exact .inl hm
    · right; left
      rw [List.count_eq_zero.mpr hm] at hc
      have : 0 < s.workers.countP (fresh (decide (s.stop = 0)) k) := by omega
      rw [List.countP_pos_iff] at this
      obtain ⟨w, hw, hf⟩ := this
      simp [fresh, hs] at hf
      exact ⟨w, hw, hf.1, hf.2.symm⟩
  · by_cases hkg : k < g
    · right; right; left
      exact ⟨k - t, (queued_iff h.ring k _).mpr ⟨by omega, hkg⟩⟩
    · right; right; right
      have hm := h.live.m hs
      have hn := h.ring.none
      have hmine := h.ring.mine
      have key : ∀ c, hand s.master = some c → c = k := by
        intro c hc
        have := hmine c hc
        omega
      cases hpc : s.master <;> rw [hpc] at hm hn key
      case loop => have := hn (.inr (.inr ⟨rfl, hs⟩)); omega
      case accept => have := hn (.inl rfl); omega
      case failed => have := hn (.inr (.inl rfl)); omega
      case bcast => exact absurd rfl hm.1
      case join => exact absurd rfl hm.2.1
      case joinWait => exact absurd rfl hm.2.2.1
      case fin => exact absurd rfl hm.2.2.2
      all_goals
        have e := key _ rfl
        subst e
        unfold Accepting
        rw [hpc]
        simp

example : (run (init 1) [.master true 0, .master true 0]).stop = 0 ∧
    0 < (run (init 1) [.master true 0, .master true 0]).accepted := by decide

/-- C126: first come, first served.  The queue holds the connections in the order they were
accepted, and whatever was handed over came before all that is still on the queue. -/
theorem C126_first_come (n : Nat) (ms : List Move) (k j : Nat)
    (hq : Queued (run (init n) ms) k j) :
    (∀ k' j', Queued (run (init n) ms) k' j' → (j < j' ↔ k < k')) ∧
      ∀ k', some k' ∈ (run (init n) ms).served ∨
        (InHand (run (init n) ms) k' ∧ (run (init n) ms).stop = 0) → k' < k := by
  obtain ⟨g, t, h⟩ := reach n ms
  generalize run (init n) ms = s at *
  have h1 := (queued_iff h.ring k j).mp hq
  refine ⟨fun k' j' hq' => ?_, fun k' hk' => ?_⟩
  · have h2 := (queued_iff h.ring k' j').mp hq'
    omega
  · by_cases hlt : k' < t
    · omega
    · have h0 := h.acct.eq0 k' (by omega)
      unfold cnt at h0
      rcases hk' with hm | ⟨⟨w, hw, hs, hp⟩, hst⟩
      · have := List.count_pos_iff.mpr hm
        omega
      · have : 0 < s.workers.countP (fresh (decide (s.stop = 0)) k') := by
          rw [List.countP_pos_iff]
          refine ⟨w, hw, ?_⟩
          rcases hp with hp | hp <;> simp [fresh, hst, hs, hp]
        omega

example : Queued (run (init 0) [.master true 0, .master true 0, .master true 0, .master true 0,
    .master true 0, .master true 0]) 0 0 := ⟨by decide, by decide⟩

/-- C126: the counters of the ring stay small and every index is one of the twenty. -/
theorem C126_counters (n : Nat) (ms : List Move) :
    0 ≤ (run (init n) ms).tail ∧ (run (init n) ms).tail ≤ 20 ∧
      (run (init n) ms).tail ≤ (run (init n) ms).head ∧
      (run (init n) ms).head ≤ (run (init n) ms).tail + 20 ∧
      (run (init n) ms).queue.length = 20 := by
  obtain ⟨g, t, h⟩ := reach n ms
  have hht := h.ring.ht
  have hle := h.ring.le
  have hro := h.ring.room
  exact ⟨h.ring.lo, h.ring.hi, by omega, by omega, h.ring.len⟩

/-- C126: two threads are never inside the mutex. -/
theorem C126_mutual_exclusion (n : Nat) (ms : List Move) (i j : Nat) (w v : Worker)
    (hi : (run (init n) ms).workers[i]? = some w) (hj : (run (init n) ms).workers[j]? = some v)
    (hw : w.pc = .check ∨ w.pc = .toWait ∨ w.pc = .take) :
    ((v.pc = .check ∨ v.pc = .toWait ∨ v.pc = .take) → i = j) ∧
      ∀ k, (run (init n) ms).master ≠ .check k ∧ (run (init n) ms).master ≠ .toWait k ∧
        (run (init n) ms).master ≠ .put k := by
  obtain ⟨g, t, h⟩ := reach n ms
  generalize run (init n) ms = s at *
  have hh : ∀ p : WPc, (p = .check ∨ p = .toWait ∨ p = .take) → holds p = true := by
    rintro p (rfl | rfl | rfl) <;> rfl
  have h1 := (h.own.w i w hi).mp (hh _ hw)
  refine ⟨fun hv => ?_, fun k => ?_⟩
  · have h2 := (h.own.w j v hj).mp (hh _ hv)
    rw [h1] at h2
    cases h2; rfl
  · refine ⟨fun e => ?_, fun e => ?_, fun e => ?_⟩ <;>
    · have := h.own.m.mp (by rw [e]; rfl)
      rw [h1] at this; cases this

example : (run (init 1) [.worker 0]).workers[0]? = some ⟨.check, none⟩ := by decide

/-! ### Nobody waits in vain -/

/-- A move of a thread that runs, with no new connection. -/
def plain : Move → Prop
  | .worker _ => True
  | .master acc _ => acc = false
  | _ => False

/-- The threads can get from here to there, without new connections, signals or luck. -/
def Can (s : St) (P : St → Prop) : Prop := ∃ ms, (∀ m ∈ ms, plain m) ∧ P (run s ms)

theorem Can.now {s : St} {P : St → Prop} (h : P s) : Can s P := ⟨[], by simp, h⟩

theorem Can.step {s : St} {P : St → Prop} (m : Move) (hm : plain m) (h : Can (step s m) P) :
    Can s P := by
  obtain ⟨ms, h1, h2⟩ := h
  refine ⟨m :: ms, ?_, h2⟩
  intro x hx
  rcases List.mem_cons.mp hx with rfl | hx
  · exact hm
  · exact h1 x hx

theorem run_append : ∀ (ms ms' : List Move) (s : St), run s (ms ++ ms') = run (run s ms) ms'
  | [], _, _ => rfl
  | m :: ms, ms', s => run_append ms ms' (step s m)

theorem Can.trans {s : St} {P Q : St → Prop} (h : Can s P) (hq : ∀ s', P s' → Can s' Q) :
    Can s Q := by
  obtain ⟨ms, h1, h2⟩ := h
  obtain ⟨ms', h3, h4⟩ := hq _ h2
  refine ⟨ms ++ ms', ?_, by rw [run_append]; exact h4⟩
  intro x hx
  rcases List.mem_append.mp hx with hx | hx
  · exact h1 x hx
  · exact h3 x hx

theorem step_worker {s : St} {i : Nat} {w : Worker} (hi : s.workers[i]? = some w) :
    step s (.worker i) = workerStep s i w := by
  unfold step; dsimp only; rw [hi]

/-- A running server with `a` connections accepted, of which `t` were taken off the queue. -/
structure Good (a g t : Nat) (s : St) : Prop where
  inv : Inv g t s
  up : s.stop = 0
  acc : s.accepted = a
  ne : s.workers ≠ []

/-- One more connection was taken off. -/
def More (a t : Nat) (s : St) : Prop := ∃ g' t', t < t' ∧ Good a g' t' s

theorem workerStep_accepted (s : St) (i : Nat) (w : Worker) :
    (workerStep s i w).accepted = s.accepted := by
  obtain ⟨pc, sock⟩ := w
  unfold workerStep
  cases pc <;> dsimp only
  case take => split <;> rfl
  all_goals first | rfl | (split <;> rfl)

theorem Good.worker {a g t : Nat} {s : St} (h : Good a g t s) {i : Nat} {w : Worker}
    (hi : s.workers[i]? = some w) :
    ∃ t', Good a g t' (workerStep s i w) ∧
      (t' = t ∧ (w.pc = .take → t = g) ∨ t' = t + 1 ∧ w.pc = .take ∧ t < g) := by
  obtain ⟨t', h', ht⟩ := h.inv.worker hi
  refine ⟨t', ⟨h', by rw [(workerStep_stop s i w).1]; exact h.up,
    by rw [workerStep_accepted]; exact h.acc, ?_⟩, ht⟩
  rcases workerStep_workers s i w with e | ⟨f, e, -⟩
  · rw [e]; exact h.ne
  · rw [e]; intro he
    have := congrArg List.length he
    rw [List.length_modify] at this
    exact h.ne (List.eq_nil_of_length_eq_zero this)

theorem Good.same {a g t : Nat} {s : St} (h : Good a g t s) {i : Nat} {w : Worker}
    (hi : s.workers[i]? = some w) (hp : w.pc ≠ .take) : Good a g t (workerStep s i w) := by
  obtain ⟨t', h', ht⟩ := h.worker hi
  rcases ht with ⟨rfl, _⟩ | ⟨_, e, _⟩
  · exact h'
  · exact absurd e hp

theorem at_take {a g t : Nat} {s : St} (h : Good a g t s) {i : Nat} {k : Option Nat}
    (hi : s.workers[i]? = some ⟨.take, k⟩) : Can s (More a t) := by
  have hlt := h.inv.ring.tk _ (List.mem_of_getElem? hi) rfl h.up
  refine Can.step (.worker i) trivial (Can.now ?_)
  rw [step_worker hi]
  obtain ⟨t', h', ht⟩ := h.worker hi
  rcases ht with ⟨_, e⟩ | ⟨e, _⟩
  · have := e rfl; omega
  · exact ⟨g, t', by omega, h'⟩

theorem get_setPc {s : St} {i : Nat} {p : WPc} {k : Option Nat} (hi : s.workers[i]? = some ⟨p, k⟩)
    (q : WPc) : (setPc s.workers i q)[i]? = some ⟨q, k⟩ := by
  rw [getElem?_setPc, if_pos rfl, hi]; rfl

theorem at_check {a g t : Nat} {s : St} (h : Good a g t s) {i : Nat} {k : Option Nat}
    (hi : s.workers[i]? = some ⟨.check, k⟩) (hlt : t < g) : Can s (More a t) := by
  have hg := h.same hi (by simp)
  have hht := h.inv.ring.ht
  have e : workerStep s i ⟨.check, k⟩ = { s with workers := setPc s.workers i .take } := by
    unfold workerStep; dsimp only; rw [if_neg (by intro x; have := x.1; omega)]
  refine Can.step (.worker i) trivial ?_
  rw [step_worker hi, e]
  rw [e] at hg
  exact at_take hg (get_setPc hi .take)

theorem at_start {a g t : Nat} {s : St} (h : Good a g t s) {i : Nat} {p : WPc} {k : Option Nat}
    (hi : s.workers[i]? = some ⟨p, k⟩) (hp : p = .start ∨ p = .woken) (hlt : t < g)
    (hf : s.mutex = .free) : Can s (More a t) := by
  have hg := h.same hi (by rcases hp with rfl | rfl <;> simp)
  have e : workerStep s i ⟨p, k⟩ =
      { s with mutex := .worker i, workers := setPc s.workers i .check } := by
    rcases hp with rfl | rfl <;> (unfold workerStep; dsimp only; rw [if_pos hf])
  refine Can.step (.worker i) trivial ?_
  rw [step_worker hi, e]
  rw [e] at hg
  exact at_check hg (get_setPc hi .check) hlt

theorem at_close {a g t : Nat} {s : St} (h : Good a g t s) {i : Nat} {k : Option Nat}
    (hi : s.workers[i]? = some ⟨.close, k⟩) (hlt : t < g)
    (hf : s.mutex = .free) : Can s (More a t) := by
  have hg := h.same hi (by simp)
  refine Can.step (.worker i) trivial ?_
  rw [step_worker hi]
  exact at_start hg (get_setPc hi .start) (.inl rfl) hlt hf

theorem at_serve {a g t : Nat} {s : St} (h : Good a g t s) {i : Nat} {k : Option Nat}
    (hi : s.workers[i]? = some ⟨.serve, k⟩) (hlt : t < g)
    (hf : s.mutex = .free) : Can s (More a t) := by
  have hg := h.same hi (by simp)
  refine Can.step (.worker i) trivial ?_
  rw [step_worker hi]
  exact at_close hg (get_setPc hi .close) hlt hf

theorem at_ret {a g t : Nat} {s : St} (h : Good a g t s) {i : Nat} {k : Option Nat}
    (hi : s.workers[i]? = some ⟨.ret, k⟩) (hlt : t < g)
    (hf : s.mutex = .free) : Can s (More a t) := by
  have hg := h.same hi (by simp)
  have e : workerStep s i ⟨.ret, k⟩ = { s with workers := setPc s.workers i .serve } := by
    unfold workerStep; dsimp only; rw [if_pos h.up]
  refine Can.step (.worker i) trivial ?_
  rw [step_worker hi, e]
  rw [e] at hg
  exact at_serve hg (get_setPc hi .serve) hlt hf

/-- With work on the queue and the mutex free some worker takes it. -/
theorem take_queued {a g t : Nat} {s : St} (h : Good a g t s) (hlt : t < g)
    (hf : s.mutex = .free) : Can s (More a t) := by
  have : ∃ w ∈ s.workers, w.pc ≠ .waiting := by
    refine Classical.byContradiction fun hn => ?_
    have := h.inv.quiet h.ne (fun w hw => Classical.byContradiction fun hp => hn ⟨w, hw, hp⟩)
    omega
  obtain ⟨⟨p, k⟩, hw, hp⟩ := this
  obtain ⟨i, hi⟩ := List.mem_iff_getElem?.mp hw
  have hold := (h.inv.own.w i _ hi).mp
  rw [hf] at hold
  have hl := h.inv.live.w h.up _ hw
  cases p
  case start => exact at_start h hi (.inl rfl) hlt hf
  case woken => exact at_start h hi (.inr rfl) hlt hf
  case check => exact absurd (hold rfl) (by simp)
  case toWait => exact absurd (hold rfl) (by simp)
  case take => exact absurd (hold rfl) (by simp)
  case waiting => exact absurd rfl hp
  case ret => exact at_ret h hi hlt hf
  case serve => exact at_serve h hi hlt hf
  case close => exact at_close h hi hlt hf
  case leave => exact absurd rfl hl.1
  case done => exact absurd rfl hl.2

theorem Good.master {a g t : Nat} {s : St} (h : Good a g t s) (k : Nat) :
    (masterStep s false k).stop = 0 → ∃ g', Good a g' t (masterStep s false k) ∧
      (g' = g ∨ g' = g + 1 ∧ s.master = .put g) := by
  intro h0
  obtain ⟨g', hr, hg⟩ := h.inv.ring.master h.inv.own false k
  obtain ⟨l1, l2, l3, l4⟩ := masterStep_logs s false k
  refine ⟨g', ⟨⟨h.inv.own.master _ _, hr, h.inv.acct.same l4 l1 l2 l3, ?_, h.inv.live.master _ _⟩,
    h0, ?_, ?_⟩, ?_⟩
  · rcases hg with rfl | ⟨_, _, e⟩
    · exact h.inv.quiet.same l4
    · exact Quiet.signal e
  · rw [← h.acc]
    unfold masterStep
    cases hpc : s.master <;> dsimp only
    case put c => unfold putOn; split <;> rfl
    case join => split; · split <;> rfl
                 · rfl
    all_goals first | rfl | (split <;> first | rfl | (rename_i x; cases x))
  · intro e
    have := l4.1
    rw [e] at this
    exact h.ne (List.eq_nil_of_length_eq_zero (by simpa using this.symm))
  · rcases hg with e | ⟨e, hp, _⟩
    · exact .inl e
    · exact .inr ⟨e, hp⟩

/-- The accepting thread puts its connection on the queue, then a worker takes one off. -/
theorem put_taken {a g t : Nat} {s : St} (h : Good a g t s) (hpc : s.master = .put g)
    (hlt : g < t + 20) : Can s (More a t) := by
  have hst : (masterStep s false 0).stop = 0 := by
    unfold masterStep; rw [hpc]; dsimp only; unfold putOn; split <;> exact h.up
  obtain ⟨g', hg, hc⟩ := h.master 0 hst
  have hmx : (masterStep s false 0).mutex = .free := by
    unfold masterStep; rw [hpc]
  refine Can.step (.master false 0) rfl ?_
  have hgt : t < g' := by
    have h1 := hg.inv.ring.ht
    have h2 := h.inv.ring.ht
    have h3 := h.inv.ring.le
    have h4 := hg.inv.ring.le
    have e : (masterStep s false 0).head = s.head + 1 ∧ (masterStep s false 0).tail = s.tail := by
      unfold masterStep; rw [hpc]; dsimp only; unfold putOn
      rw [if_pos (by simp only [slots]; omega)]
      exact ⟨rfl, rfl⟩
    rw [e.1, e.2] at h1
    omega
  exact take_queued hg hgt hmx

theorem check_taken {a g t : Nat} {s : St} (h : Good a g t s) (hpc : s.master = .check g) :
    Can s (More a t) := by
  have hht := h.inv.ring.ht
  have hle := h.inv.ring.le
  have hro := h.inv.ring.room
  by_cases hfull : g = t + 20
  · -- the queue is full: the accepting thread goes to sleep, a worker has work
    have e : masterStep s false 0 = { s with master := .toWait g } := by
      unfold masterStep; rw [hpc]; dsimp only
      rw [if_pos ⟨h.up, by simp only [slots]; omega⟩]
    obtain ⟨g', hg, hc⟩ := h.master 0 (by rw [e]; exact h.up)
    have hgg : g' = g := by
      rcases hc with e' | ⟨_, e'⟩
      · exact e'
      · rw [hpc] at e'; cases e'
    subst hgg
    refine Can.step (.master false 0) rfl ?_
    show Can (masterStep s false 0) _
    rw [e] at hg ⊢
    have e2 : masterStep { s with master := .toWait g' } false 0 =
        { s with master := .waiting g', mutex := .free } := rfl
    obtain ⟨g2, hg2, hc2⟩ := hg.master 0 (by rw [e2]; exact h.up)
    have hgg : g2 = g' := by
      rcases hc2 with e' | ⟨_, e'⟩
      · exact e'
      · cases e'
    subst hgg
    refine Can.step (.master false 0) rfl ?_
    show Can (masterStep { s with master := .toWait g2 } false 0) _
    rw [e2] at hg2 ⊢
    exact take_queued hg2 (by omega) rfl
  · have e : masterStep s false 0 = { s with master := .put g } := by
      unfold masterStep; rw [hpc]; dsimp only
      rw [if_neg (by simp only [slots]; omega)]
    obtain ⟨g', hg, hc⟩ := h.master 0 (by rw [e]; exact h.up)
    have hgg : g' = g := by
      rcases hc with e' | ⟨_, e'⟩
      · exact e'
      · rw [hpc] at e'; cases e'
    subst hgg
    refine Can.step (.master false 0) rfl ?_
    show Can (masterStep s false 0) _
    rw [e] at hg ⊢
    exact put_taken hg rfl (by omega)

theorem lock_taken {a g t : Nat} {s : St} (h : Good a g t s)
    (hpc : s.master = .lock g ∨ s.master = .woken g) (hf : s.mutex = .free) :
    Can s (More a t) := by
  have e : masterStep s false 0 = { s with mutex := .master, master := .check g } := by
    unfold masterStep
    rcases hpc with hpc | hpc <;> (rw [hpc]; dsimp only; rw [if_pos hf])
  obtain ⟨g', hg, hc⟩ := h.master 0 (by rw [e]; exact h.up)
  have hgg : g' = g := by
    rcases hc with e' | ⟨_, e'⟩
    · exact e'
    · rcases hpc with hpc | hpc <;> (rw [hpc] at e'; cases e')
  subst hgg
  refine Can.step (.master false 0) rfl ?_
  show Can (masterStep s false 0) _
  rw [e] at hg ⊢
  exact check_taken hg rfl

/-- With the mutex free, whatever was accepted and not yet taken gets nearer. -/
theorem free_taken {a g t : Nat} {s : St} (h : Good a g t s) (hta : t < a)
    (hf : s.mutex = .free) : Can s (More a t) := by
  by_cases hlt : t < g
  · exact take_queued h hlt hf
  · have hle := h.inv.ring.le
    have hm := h.inv.live.m h.up
    have hn := h.inv.ring.none
    have hmine := h.inv.ring.mine
    have hacc := h.acc
    have hom := h.inv.own.m.mp
    rw [hf] at hom
    have hfull := h.inv.ring.full
    cases hpc : s.master <;> rw [hpc] at hm hn hmine hom hfull
    case loop => have := hn (.inr (.inr ⟨rfl, h.up⟩)); omega
    case accept => have := hn (.inl rfl); omega
    case failed => have := hn (.inr (.inl rfl)); omega
    case bcast => exact absurd rfl hm.1
    case join => exact absurd rfl hm.2.1
    case joinWait => exact absurd rfl hm.2.2.1
    case fin => exact absurd rfl hm.2.2.2
    case check => exact absurd (hom rfl) (by simp)
    case toWait => exact absurd (hom rfl) (by simp)
    case put => exact absurd (hom rfl) (by simp)
    case waiting c => have := hfull c (.inr rfl); omega
    case lock c =>
      obtain ⟨rfl, _⟩ := hmine c rfl
      exact lock_taken h (.inl hpc) hf
    case woken c =>
      obtain ⟨rfl, _⟩ := hmine c rfl
      exact lock_taken h (.inr hpc) hf
    case got c =>
      obtain ⟨rfl, _⟩ := hmine c rfl
      have e : masterStep s false 0 = { s with master := .lock c } := by
        unfold masterStep; rw [hpc]; dsimp only; rw [if_pos h.up]
      obtain ⟨g', hg, hc⟩ := h.master 0 (by rw [e]; exact h.up)
      have hgg : g' = c := by
        rcases hc with e' | ⟨_, e'⟩
        · exact e'
        · rw [hpc] at e'; cases e'
      subst hgg
      refine Can.step (.master false 0) rfl ?_
      show Can (masterStep s false 0) _
      rw [e] at hg ⊢
      exact lock_taken hg (.inl rfl) hf

/-- One more connection is taken off, or handed over, from any state. -/
theorem one_taken {a g t : Nat} {s : St} (h : Good a g t s) (hta : t < a) : Can s (More a t) := by
  cases hmx : s.mutex with
  | free => exact free_taken h hta hmx
  | master =>
    have hh := h.inv.own.m.mpr hmx
    have hmine := h.inv.ring.mine
    cases hpc : s.master <;> rw [hpc] at hh hmine <;> simp [holdsM] at hh
    case check c => obtain ⟨rfl, _⟩ := hmine c rfl; exact check_taken h hpc
    case put c =>
      obtain ⟨rfl, _⟩ := hmine c rfl
      exact put_taken h hpc (h.inv.ring.pt c hpc h.up)
    case toWait c =>
      have hfull := h.inv.ring.full c (.inl hpc)
      have e : masterStep s false 0 = { s with master := .waiting c, mutex := .free } := by
        unfold masterStep; rw [hpc]
      obtain ⟨g', hg, hc⟩ := h.master 0 (by rw [e]; exact h.up)
      have hgg : g' = g := by
        rcases hc with e' | ⟨_, e'⟩
        · exact e'
        · rw [hpc] at e'; cases e'
      subst hgg
      refine Can.step (.master false 0) rfl ?_
      show Can (masterStep s false 0) _
      rw [e] at hg ⊢
      exact take_queued hg (by omega) rfl
  | worker i =>
    have hlt := h.inv.own.lt i hmx
    have hi := List.getElem?_eq_getElem hlt
    have hh := (h.inv.own.w i _ hi).mpr hmx
    generalize s.workers[i] = w at hi hh
    obtain ⟨p, k⟩ := w
    cases p <;> simp [holds] at hh
    case take => exact at_take h hi
    case toWait =>
      have hg := h.same hi (by simp)
      refine Can.step (.worker i) trivial ?_
      rw [step_worker hi]
      exact free_taken hg hta rfl
    case check =>
      by_cases hlt : t < g
      · exact at_check h hi hlt
      · have hht := h.inv.ring.ht
        have hle := h.inv.ring.le
        have hg := h.same hi (by simp)
        have e : workerStep s i ⟨.check, k⟩ = { s with workers := setPc s.workers i .toWait } := by
          unfold workerStep; dsimp only; rw [if_pos ⟨by omega, h.up⟩]
        refine Can.step (.worker i) trivial ?_
        rw [step_worker hi, e]
        rw [e] at hg
        have hi2 := get_setPc hi .toWait
        have hg2 := hg.same (i := i) (w := ⟨.toWait, k⟩) hi2 (by simp)
        refine Can.step (.worker i) trivial ?_
        rw [step_worker (s := { s with workers := setPc s.workers i .toWait }) hi2]
        exact free_taken hg2 hta rfl

theorem all_taken {a : Nat} (k : Nat) (hk : k < a) : ∀ (d g t : Nat) (s : St), k + 1 - t ≤ d →
    Good a g t s → Can s (fun s' => ∃ g' t', k < t' ∧ Good a g' t' s')
  | 0, g, t, s, hd, h => Can.now ⟨g, t, by omega, h⟩
  | d + 1, g, t, s, hd, h => by
    by_cases hkt : k < t
    · exact Can.now ⟨g, t, hkt, h⟩
    · refine (one_taken h (by omega)).trans ?_
      rintro s' ⟨g', t', hlt, h'⟩
      exact all_taken k hk d g' t' s' (by omega) h'

/-- C126: until it is told to stop, no connection waits in vain: whatever the threads have done so
far, they can go on, without spurious wake-ups and without another connection, so that a connection
that was accepted is handed to the library.  No wake-up is lost and nobody is shut out. -/
theorem C126_no_deadlock (n : Nat) (ms : List Move) (k : Nat) (hn : 0 < n)
    (hs : (run (init n) ms).stop = 0) (hk : k < (run (init n) ms).accepted) :
    ∃ ms', (∀ m ∈ ms', plain m) ∧ some k ∈ (run (run (init n) ms) ms').served := by
  obtain ⟨g, t, h⟩ := reach n ms
  have hne : (run (init n) ms).workers ≠ [] := by
    have hlen : ∀ (ms : List Move) (s : St), (run s ms).workers.length = s.workers.length := by
      intro ms
      induction ms with
      | nil => intro s; rfl
      | cons m ms ih =>
        intro s
        show (run (step s m) ms).workers.length = _
        rw [ih]
        unfold step
        cases m with
        | worker i =>
          dsimp only
          cases hi : s.workers[i]? with
          | none => rfl
          | some w =>
            dsimp only
            rcases workerStep_workers s i w with e | ⟨f, e, -⟩
            · rw [e]
            · rw [e, List.length_modify]
        | master acc k => exact (masterStep_logs s acc k).2.2.2.1
        | sig => rfl
        | spurW i =>
          dsimp only
          split
          · split
            · exact length_setPc _ _ _
            · rfl
          · rfl
        | spurM => dsimp only; split <;> rfl
        | ret => dsimp only; split <;> rfl
    intro e
    have := hlen ms (init n)
    rw [e] at this
    simp [init] at this
    omega
  have hgood : Good (run (init n) ms).accepted g t (run (init n) ms) := ⟨h, hs, rfl, hne⟩
  show Can (run (init n) ms) fun s => some k ∈ s.served
  refine (all_taken k hk _ g t _ (Nat.le_refl _) hgood).trans ?_
  rintro s' ⟨g', t', hlt, h'⟩
  have hc := h'.inv.acct.eq1 h'.up k hlt
  unfold cnt at hc
  by_cases hm : some k ∈ s'.served
  · exact Can.now hm
  · rw [List.count_eq_zero.mpr hm] at hc
    have : 0 < s'.workers.countP (fresh (decide (s'.stop = 0)) k) := by omega
    rw [List.countP_pos_iff] at this
    obtain ⟨⟨p, q⟩, hw, hf⟩ := this
    simp [fresh, h'.up] at hf
    obtain ⟨rfl, hp⟩ := hf
    obtain ⟨i, hi⟩ := List.mem_iff_getElem?.mp hw
    have serve : ∀ s : St, s.workers[i]? = some ⟨.serve, some k⟩ →
        Can s (fun s => some k ∈ s.served) := by
      intro s hi
      refine Can.step (.worker i) trivial (Can.now ?_)
      rw [step_worker hi]
      unfold workerStep
      simp
    rcases hp with rfl | rfl
    · exact serve s' hi
    · refine Can.step (.worker i) trivial ?_
      rw [step_worker hi]
      have e : workerStep s' i ⟨.ret, some k⟩ = { s' with workers := setPc s'.workers i .serve } := by
        unfold workerStep; dsimp only; rw [if_pos h'.up]
      rw [e]
      exact serve _ (get_setPc hi .serve)

example : 0 < 5 ∧ (run (init 5) [.master true 0, .master true 0]).stop = 0 ∧
    0 < (run (init 5) [.master true 0, .master true 0]).accepted := by decide

/-! ### Stopping -/

/-- C126: until it is told to stop, the context the workers use is there. -/
theorem C126_context_alive (n : Nat) (ms : List Move) (hs : (run (init n) ms).stop = 0) :
    (run (init n) ms).returned = false ∧ (run (init n) ms).late = false := by
  obtain ⟨g, t, h⟩ := reach n ms
  have := h.live.r hs
  exact ⟨this, h.live.l this⟩

example : (run (init 5) [.ret]).stop = 0 := by decide

/-- C126: when the accepting thread says the server has stopped, every worker has returned and
everything that was handed over is closed. -/
theorem C126_stopped (n : Nat) (ms : List Move) (hf : (run (init n) ms).master = .fin) :
    (∀ w ∈ (run (init n) ms).workers, w.pc = .done) ∧
      ∀ k, (run (init n) ms).closed.count (some k) = (run (init n) ms).served.count (some k) := by
  obtain ⟨g, t, h⟩ := reach n ms
  generalize run (init n) ms = s at *
  have h1 := h.live.fin hf
  have h2 := h.live.num
  have h3 : s.workers.countP (fun w => decide (w.pc ≠ .done)) = 0 := by omega
  rw [List.countP_eq_zero] at h3
  have hd : ∀ w ∈ s.workers, w.pc = .done := fun w hw => by simpa using h3 w hw
  refine ⟨hd, fun k => ?_⟩
  have h4 := h.acct.cl k
  have h5 : s.workers.countP (open' k) = 0 := by
    rw [List.countP_eq_zero]
    intro w hw
    simp [open', hd w hw]
  omega

example : (run (init 1) [.sig, .worker 0, .worker 0, .worker 0, .worker 0, .worker 0,
    .master false 0, .master false 0, .master false 0]).master = .fin := by decide

/-- How much a worker has left to do before it returns. -/
def rk : WPc → Nat
  | .serve => 8
  | .close => 7
  | .start => 6
  | .woken => 6
  | .check => 5
  | .take => 4
  | .ret => 3
  | .leave => 2
  | .done => 0
  | .toWait => 0
  | .waiting => 0

/-- The server is on its way down and nobody has missed it. -/
structure Down (s : St) : Prop where
  inv : ∃ g t, Inv g t s
  stop : s.stop ≠ 0
  m : s.master = .bcast ∨ s.master = .join ∨ s.master = .joinWait ∨ s.master = .fin
  tw : ∀ w ∈ s.workers, w.pc ≠ .toWait
  wt : s.master ≠ .bcast → ∀ w ∈ s.workers, w.pc ≠ .waiting

theorem workerStep_down (s : St) (i : Nat) (w : Worker) (hs : s.stop ≠ 0) (hp : w.pc ≠ .toWait) :
    workerStep s i w = s ∧ (w.pc = .waiting ∨ w.pc = .done ∨
        (w.pc = .start ∨ w.pc = .woken ∨ w.pc = .leave) ∧ s.mutex ≠ .free) ∨
      ∃ f, (workerStep s i w).workers = s.workers.modify i f ∧
        (f w).pc ≠ .toWait ∧ (f w).pc ≠ .waiting ∧ rk (f w).pc < rk w.pc ∧
        ((workerStep s i w).master = s.master ∨
          (workerStep s i w).master = signalEmpty s.master ∨
          (workerStep s i w).master = signalCond s.master) := by
  obtain ⟨pc, sock⟩ := w
  unfold workerStep
  cases pc <;> dsimp only
  case start =>
    split
    · exact .inr ⟨_, rfl, by simp, by simp, by simp [rk], .inl rfl⟩
    · rename_i h; exact .inl ⟨rfl, .inr (.inr ⟨.inl rfl, h⟩)⟩
  case woken =>
    split
    · exact .inr ⟨_, rfl, by simp, by simp, by simp [rk], .inl rfl⟩
    · rename_i h; exact .inl ⟨rfl, .inr (.inr ⟨.inr (.inl rfl), h⟩)⟩
  case check =>
    rw [if_neg (by intro h; exact hs h.2)]
    exact .inr ⟨_, rfl, by simp, by simp, by simp [rk], .inl rfl⟩
  case toWait => exact absurd rfl hp
  case waiting => exact .inl ⟨rfl, .inl rfl⟩
  case take =>
    split <;> exact .inr ⟨_, rfl, by simp, by simp, by simp [rk], .inr (.inl rfl)⟩
  case ret =>
    rw [if_neg hs]
    exact .inr ⟨_, rfl, by simp, by simp, by simp [rk], .inl rfl⟩
  case serve => exact .inr ⟨_, rfl, by simp, by simp, by simp [rk], .inl rfl⟩
  case close => exact .inr ⟨_, rfl, by simp, by simp, by simp [rk], .inl rfl⟩
  case leave =>
    split
    · exact .inr ⟨_, rfl, by simp, by simp, by simp [rk], .inr (.inr rfl)⟩
    · rename_i h; exact .inl ⟨rfl, .inr (.inr ⟨.inr (.inr rfl), h⟩)⟩
  case done => exact .inl ⟨rfl, .inr (.inl rfl)⟩

theorem mem_mod {ws : List Worker} {i : Nat} {f : Worker → Worker} {w : Worker}
    (hi : ws[i]? = some w) {v : Worker} (hv : v ∈ ws.modify i f) : v = f w ∨ v ∈ ws := by
  obtain ⟨j, hj⟩ := List.mem_iff_getElem?.mp hv
  rw [List.getElem?_modify] at hj
  by_cases hij : i = j
  · subst hij
    rw [hi] at hj
    simp at hj
    exact .inl hj.symm
  · right
    exact List.mem_iff_getElem?.mpr ⟨j, by simpa [hij] using hj⟩

theorem sum_modify (f : Worker → Worker) : ∀ (ws : List Worker) (i : Nat) (w : Worker),
    ws[i]? = some w → ((ws.modify i f).map fun v => rk v.pc).sum + rk w.pc =
      (ws.map fun v => rk v.pc).sum + rk (f w).pc
  | [], i, w, h => by simp at h
  | v :: ws, 0, w, h => by
    simp at h; subst h
    simp [List.modify_zero_cons]; omega
  | v :: ws, i + 1, w, h => by
    have := sum_modify f ws i w (by simpa using h)
    simp [List.modify_succ_cons]; omega

theorem Down.worker {s : St} (h : Down s) {i : Nat} {w : Worker} (hi : s.workers[i]? = some w) :
    Down (workerStep s i w) := by
  have hmem := List.mem_of_getElem? hi
  obtain ⟨g, t, hinv⟩ := h.inv
  obtain ⟨t', hinv', _⟩ := hinv.worker hi
  have hst := (workerStep_stop s i w).1
  rcases workerStep_down s i w h.stop (h.tw w hmem) with ⟨e, _⟩ | ⟨f, e, h1, h2, _, h4⟩
  · rw [e]; exact h
  · have hm : (workerStep s i w).master = s.master ∨
        (s.master = .joinWait ∧ (workerStep s i w).master = .join) := by
      rcases h4 with h4 | h4 | h4
      · exact .inl h4
      · left; rw [h4]
        rcases h.m with e | e | e | e <;> rw [e] <;> rfl
      · rcases h.m with e | e | e | e
        · left; rw [h4, e]; rfl
        · left; rw [h4, e]; rfl
        · right; exact ⟨e, by rw [h4, e]; rfl⟩
        · left; rw [h4, e]; rfl
    refine ⟨⟨g, t', hinv'⟩, by rw [hst]; exact h.stop, ?_, ?_, ?_⟩
    · rcases hm with hm | ⟨_, hm⟩
      · rw [hm]; exact h.m
      · exact .inr (.inl hm)
    · intro v hv
      rw [e] at hv
      rcases mem_mod hi hv with rfl | hv
      · exact h1
      · exact h.tw v hv
    · intro hb v hv
      rw [e] at hv
      rcases mem_mod hi hv with rfl | hv
      · exact h2
      · refine h.wt ?_ v hv
        rcases hm with hm | ⟨hm, _⟩
        · rwa [hm] at hb
        · rw [hm]; simp

theorem Down.step {s : St} (h : Down s) (m : Move) : Down (step s m) := by
  obtain ⟨g, t, hinv⟩ := h.inv
  obtain ⟨g', t', _, _, hinv'⟩ := hinv.step m
  have hI : ∃ g t, Inv g t (Queue.step s m) := ⟨g', t', hinv'⟩
  cases m with
  | worker i =>
    unfold Queue.step
    dsimp only
    cases hi : s.workers[i]? with
    | none => exact h
    | some w => exact h.worker hi
  | master acc k =>
    unfold Queue.step at hI ⊢
    dsimp only at hI ⊢
    unfold masterStep at hI ⊢
    rcases h.m with e | e | e | e <;> rw [e] at hI ⊢ <;> dsimp only at hI ⊢
    · refine ⟨hI, h.stop, .inr (.inl rfl), ?_, ?_⟩
      · intro v hv
        obtain ⟨w, hw, rfl⟩ := List.mem_map.mp hv
        split
        · simp
        · exact h.tw w hw
      · intro _ v hv
        obtain ⟨w, hw, rfl⟩ := List.mem_map.mp hv
        split
        · simp
        · assumption
    · have hwt := h.wt (by rw [e]; simp)
      split at hI
      · split at hI
        · rename_i h1 h2
          rw [if_pos h1, if_pos h2]
          exact ⟨hI, h.stop, .inr (.inr (.inl rfl)), h.tw, fun _ => hwt⟩
        · rename_i h1 h2
          rw [if_pos h1, if_neg h2]
          exact ⟨hI, by simp, .inr (.inr (.inr rfl)), h.tw, fun _ => hwt⟩
      · rename_i h1
        rw [if_neg h1]; exact h
    · exact h
    · exact h
  | sig => exact ⟨hI, by simp [Queue.step], h.m, h.tw, h.wt⟩
  | spurW i =>
    unfold Queue.step at hI ⊢
    dsimp only at hI ⊢
    cases hi : s.workers[i]? with
    | none => exact h
    | some w =>
      rw [hi] at hI
      dsimp only at hI ⊢
      by_cases hp : w.pc = .waiting
      · rw [if_pos hp] at hI ⊢
        refine ⟨hI, h.stop, h.m, ?_, fun hb => ?_⟩
        · intro v hv
          rcases mem_mod hi hv with rfl | hv
          · simp
          · exact h.tw v hv
        · exact absurd hp (h.wt hb w (List.mem_of_getElem? hi))
      · rw [if_neg hp]; exact h
  | spurM =>
    unfold Queue.step at hI ⊢
    dsimp only at hI ⊢
    rcases h.m with e | e | e | e <;> rw [e] at hI ⊢ <;> dsimp only at hI ⊢
    · exact h
    · exact h
    · exact ⟨hI, h.stop, .inr (.inl rfl), h.tw, fun _ => h.wt (by rw [e]; simp)⟩
    · exact h
  | ret =>
    unfold Queue.step at hI ⊢
    dsimp only at hI ⊢
    rw [if_neg h.stop] at hI ⊢
    exact ⟨hI, h.stop, h.m, h.tw, h.wt⟩

theorem Down.run : ∀ (ms : List Move) (s : St), Down s → Down (run s ms)
  | [], _, h => h
  | m :: ms, _, h => Down.run ms _ (h.step m)

/-- All workers return, then the accepting thread. -/
theorem Down.finish : ∀ (d : Nat) (s : St), Down s → s.master ≠ .bcast →
    (s.workers.map fun v => rk v.pc).sum ≤ d → Can s fun s => s.master = .fin := by
  intro d
  induction d with
  | zero =>
    intro s h hb hd
    have hdone : ∀ w ∈ s.workers, w.pc = .done := by
      intro w hw
      have h1 : rk w.pc = 0 := by
        have := List.sum_eq_zero_iff_forall_eq_nat.mp (Nat.le_zero.mp hd) (rk w.pc)
          (List.mem_map.mpr ⟨w, hw, rfl⟩)
        exact this
      have h2 := h.tw w hw
      have h3 := h.wt hb w hw
      cases hp : w.pc <;> rw [hp] at h1 h2 h3 <;> simp [rk] at h1 h2 h3 ⊢
    obtain ⟨g, t, hinv⟩ := h.inv
    have hnum : s.num = 0 := by
      rw [hinv.live.num]
      have : s.workers.countP (fun w => decide (w.pc ≠ .done)) = 0 := by
        rw [List.countP_eq_zero]; intro w hw; simp [hdone w hw]
      omega
    rcases h.m with e | e | e | e
    · exact absurd e hb
    · have hf : s.mutex = .free := by
        cases hmx : s.mutex with
        | free => rfl
        | master => have := hinv.own.m.mpr hmx; rw [e] at this; simp [holdsM] at this
        | worker i =>
          have hlt := hinv.own.lt i hmx
          have hi := List.getElem?_eq_getElem hlt
          have := (hinv.own.w i _ hi).mpr hmx
          rw [hdone _ (List.mem_of_getElem? hi)] at this
          simp [holds] at this
      refine Can.step (.master false 0) rfl (Can.now ?_)
      show (masterStep s false 0).master = .fin
      unfold masterStep
      rw [e]; dsimp only
      rw [if_pos hf, if_neg (by omega)]
    · have := hinv.live.jw e; omega
    · exact Can.now e
  | succ d ih =>
    intro s h hb hd
    obtain ⟨g, t, hinv⟩ := h.inv
    -- a move of worker `i` that is not blocked
    have go : ∀ (i : Nat) (w : Worker), s.workers[i]? = some w → w.pc ≠ .done →
        (s.mutex = .free ∨ holds w.pc = true) → Can s fun s => s.master = .fin := by
      intro i w hi hp hx
      have hmem := List.mem_of_getElem? hi
      refine Can.step (.worker i) trivial ?_
      rw [step_worker hi]
      have hdn := h.worker hi
      rcases workerStep_down s i w h.stop (h.tw w hmem) with ⟨_, e⟩ | ⟨f, e, _, _, h3, h4⟩
      · rcases e with e | e | ⟨e, e'⟩
        · exact absurd e (h.wt hb w hmem)
        · exact absurd e hp
        · rcases hx with hx | hx
          · exact absurd hx e'
          · rcases e with e | e | e <;> rw [e] at hx <;> simp [holds] at hx
      · refine ih _ hdn ?_ ?_
        · rcases h4 with h4 | h4 | h4 <;> rw [h4]
          · exact hb
          · rcases h.m with e | e | e | e
            · exact absurd e hb
            all_goals rw [e]; simp [signalEmpty]
          · rcases h.m with e | e | e | e
            · exact absurd e hb
            all_goals rw [e]; simp [signalCond]
        · rw [e]
          have := sum_modify f s.workers i w hi
          omega
    by_cases hall : ∀ w ∈ s.workers, w.pc = .done
    · refine ih s h hb ?_
      have : (s.workers.map fun v => rk v.pc).sum = 0 := by
        rw [List.sum_eq_zero_iff_forall_eq_nat]
        intro x hx
        obtain ⟨w, hw, rfl⟩ := List.mem_map.mp hx
        rw [hall w hw]; rfl
      omega
    · have : ∃ w ∈ s.workers, w.pc ≠ .done := Classical.byContradiction fun hn =>
        hall fun w hw => Classical.byContradiction fun hp => hn ⟨w, hw, hp⟩
      obtain ⟨w, hw, hp⟩ := this
      obtain ⟨i, hi⟩ := List.mem_iff_getElem?.mp hw
      cases hmx : s.mutex with
      | free => exact go i w hi hp (.inl hmx)
      | master =>
        have := hinv.own.m.mpr hmx
        rcases h.m with e | e | e | e <;> rw [e] at this <;> simp [holdsM] at this
      | worker j =>
        have hlt := hinv.own.lt j hmx
        have hj := List.getElem?_eq_getElem hlt
        have hh := (hinv.own.w j _ hj).mpr hmx
        exact go j _ hj (by intro e; rw [e] at hh; simp [holds] at hh) (.inr hh)

/-- C126, what holds of stopping: if no worker is just about to fall asleep when the accepting
thread wakes them all, then whatever happens afterwards the server can still come to its end.
What is missing is a worker between its test of `stop_flag` and its wait, see
`C126_lost_wakeup_false`. -/
theorem C126_shutdown_partial (n : Nat) (ms ms' : List Move)
    (hb : (run (init n) ms).master = .bcast)
    (hw : ∀ w ∈ (run (init n) ms).workers, w.pc ≠ .toWait) :
    ∃ ms2, (∀ m ∈ ms2, plain m) ∧ (run (run (run (init n) ms) ms') ms2).master = .fin := by
  obtain ⟨g, t, h⟩ := reach n ms
  have hd : Down (run (init n) ms) := by
    refine ⟨⟨g, t, h⟩, fun e => (h.live.m e).1 hb, .inl hb, hw, fun e => absurd hb e⟩
  have hd' := Down.run ms' _ hd
  show Can (run (run (init n) ms) ms') fun s => s.master = .fin
  generalize run (run (init n) ms) ms' = s at hd'
  by_cases hbs : s.master = .bcast
  · refine Can.step (.master false 0) rfl ?_
    refine Down.finish _ _ (hd'.step _) ?_ (Nat.le_refl _)
    show (masterStep s false 0).master ≠ .bcast
    unfold masterStep; rw [hbs]; simp
  · exact Down.finish _ _ hd' hbs (Nat.le_refl _)

example : (run (init 2) [.worker 0, .worker 0, .worker 0, .sig, .master false 0]).master = .bcast ∧
    ∀ w ∈ (run (init 2) [.worker 0, .worker 0, .worker 0, .sig, .master false 0]).workers,
      w.pc ≠ .toWait := by decide +kernel

/-- A move that is not a wake-up out of nothing. -/
def honest : Move → Prop
  | .spurW _ => False
  | .spurM => False
  | _ => True

theorem stuck_step {s : St} (hm : s.master = .joinWait)
    (hw : ∀ w ∈ s.workers, w.pc = .waiting ∨ w.pc = .done) (m : Move) (hh : honest m) :
    (step s m).master = .joinWait ∧ ∀ w ∈ (step s m).workers, w.pc = .waiting ∨ w.pc = .done := by
  unfold step
  cases m with
  | worker i =>
    dsimp only
    cases hi : s.workers[i]? with
    | none => exact ⟨hm, hw⟩
    | some w =>
      have e : workerStep s i w = s := by
        unfold workerStep
        rcases hw w (List.mem_of_getElem? hi) with e | e <;> rw [e]
      dsimp only
      rw [e]; exact ⟨hm, hw⟩
  | master acc k =>
    have e : masterStep s acc k = s := by unfold masterStep; rw [hm]
    dsimp only
    rw [e]; exact ⟨hm, hw⟩
  | sig => exact ⟨hm, hw⟩
  | spurW i => exact absurd hh (by simp [honest])
  | spurM => exact absurd hh (by simp [honest])
  | ret => dsimp only; split <;> exact ⟨hm, hw⟩

theorem stuck_run : ∀ (ms : List Move) (s : St), s.master = .joinWait →
    (∀ w ∈ s.workers, w.pc = .waiting ∨ w.pc = .done) → (∀ m ∈ ms, honest m) →
    (run s ms).master = .joinWait
  | [], _, hm, _, _ => hm
  | m :: ms, _, hm, hw, hh => by
    obtain ⟨h1, h2⟩ := stuck_step hm hw m (hh m (by simp))
    exact stuck_run ms _ h1 h2 fun x hx => hh x (by simp [hx])

/-- Worker `i` is told to stop before it has taken the mutex: it returns. -/
def leaving (i : Nat) : List Move := List.replicate 5 (.worker i)

/-- C126, false of the code: the server does not always come to its end.  `stop_flag` is set and
the condition broadcast without the mutex, so a worker between its test and its wait sleeps for
ever, and with it the accepting thread that waits for all workers. -/
theorem C126_lost_wakeup_false :
    ∃ ms, (run (init 5) ms).stop ≠ 0 ∧ (∀ m ∈ ms, honest m) ∧
      ∀ ms', (∀ m ∈ ms', honest m) → (run (run (init 5) ms) ms').master = .joinWait := by
  refine ⟨[.worker 0, .worker 0, .sig, .master false 0, .master false 0, .worker 0] ++
    leaving 1 ++ leaving 2 ++ leaving 3 ++ leaving 4 ++ [.master false 0], by decide +kernel,
    ?_, fun ms' h => ?_⟩
  · intro m hm
    simp [leaving] at hm
    rcases hm with h | h | h | h | h | h | h | h | h <;> subst h <;> trivial
  · exact stuck_run ms' _ (by decide +kernel) (by decide +kernel) h

/-- Everybody leaves. -/
def leavingAll : List Move := leaving 0 ++ leaving 1 ++ leaving 2 ++ leaving 3 ++ leaving 4

/-- C126, false of the code: a connection that was accepted is neither handed over nor closed when
the server has stopped.  It is dropped by the accepting thread (`got`), it stays on the queue, or
a worker takes it off and then sees that it has to stop. -/
theorem C126_left_open_false :
    (∃ ms, (run (init 5) ms).master = .fin ∧ (run (init 5) ms).accepted = 1 ∧
      (run (init 5) ms).served = [] ∧ (run (init 5) ms).closed = [] ∧
      (run (init 5) ms).head = 0 ∧ (run (init 5) ms).workers[0]? = some ⟨.done, none⟩) ∧
    (∃ ms, (run (init 5) ms).master = .fin ∧ (run (init 5) ms).accepted = 1 ∧
      (run (init 5) ms).served = [] ∧ (run (init 5) ms).closed = [] ∧
      (run (init 5) ms).head = 1 ∧ (run (init 5) ms).tail = 0) ∧
    ∃ ms, (run (init 5) ms).master = .fin ∧ (run (init 5) ms).accepted = 1 ∧
      (run (init 5) ms).served = [] ∧ (run (init 5) ms).closed = [] ∧
      (run (init 5) ms).workers[0]? = some ⟨.done, some 0⟩ := by
  refine ⟨⟨[.master true 0, .master true 0, .sig] ++ leavingAll ++
      List.replicate 4 (.master false 0), by decide +kernel⟩,
    ⟨[.master true 0, .master true 0, .master true 0, .sig] ++ leavingAll ++
      List.replicate 6 (.master false 0), by decide +kernel⟩,
    ⟨List.replicate 6 (.master true 0) ++ [.sig] ++ leavingAll ++
      List.replicate 3 (.master false 0), by decide +kernel⟩⟩

/-- C126, false of the code: `start_simple_server` returns as soon as it sees `stop_flag`, its
caller gives the context back, and a worker then hands a connection over with it. -/
theorem C126_use_after_return_false :
    ∃ ms, (run (init 5) ms).returned = true ∧ (run (init 5) ms).late = true ∧
      (run (init 5) ms).served = [some 0] :=
  ⟨List.replicate 6 (.master true 0) ++ [.worker 0, .worker 0, .worker 0, .worker 0, .sig, .ret,
    .worker 0], by decide +kernel⟩

end Verif.Queue
