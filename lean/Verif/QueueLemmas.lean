import Verif.QueueModel

/-!
# Invariants of the work queue

Facts about every state the sample server can reach, used by `QueueProps`.
-/

namespace Verif.Queue

/-- The worker at this point holds the mutex. -/
def holds : WPc → Bool
  | .check | .toWait | .take => true
  | _ => false

/-- The accepting thread at this point holds the mutex. -/
def holdsM : MPc → Bool
  | .check _ | .toWait _ | .put _ => true
  | _ => false

theorem getElem?_setPc (ws : List Worker) (i j : Nat) (pc : WPc) :
    (setPc ws i pc)[j]? = if i = j then ws[j]?.map (fun w => { w with pc := pc }) else ws[j]? := by
  unfold setPc
  rw [List.getElem?_modify]
  split <;> simp

theorem length_setPc (ws : List Worker) (i : Nat) (pc : WPc) :
    (setPc ws i pc).length = ws.length := by
  unfold setPc; simp

/-- Who owns the mutex is where its program counter says. -/
structure Own (s : St) : Prop where
  w : ∀ (i : Nat) (w : Worker), s.workers[i]? = some w → (holds w.pc = true ↔ s.mutex = .worker i)
  m : holdsM s.master = true ↔ s.mutex = .master
  lt : ∀ i, s.mutex = .worker i → i < s.workers.length

theorem Own.init (n : Nat) : Own (init n) := by
  constructor
  · intro i w h
    have : w = ⟨.start, none⟩ := by
      simp only [Queue.init, List.getElem?_replicate] at h
      split at h
      · exact (Option.some.inj h).symm
      · cases h
    subst this
    simp [Queue.init, holds]
  · simp [Queue.init, holdsM]
  · intro i h; simp [Queue.init] at h

/-- Workers change place, the mutex goes from `a` to `b`, nobody else is touched. -/
theorem Own.move {s : St} (h : Own s) {i : Nat} {w : Worker} (hi : s.workers[i]? = some w)
    {s' : St} {f : Worker → Worker} (hw : s'.workers = s.workers.modify i f)
    (hm : holdsM s'.master = holdsM s.master)
    (hx : (s'.mutex = s.mutex ∧ holds (f w).pc = holds w.pc) ∨
      (s.mutex = .free ∧ s'.mutex = .worker i ∧ holds (f w).pc = true) ∨
      (s.mutex = .worker i ∧ s'.mutex = .free ∧ holds (f w).pc = false)) : Own s' := by
  have hlt : i < s.workers.length := by
    by_cases hl : i < s.workers.length
    · exact hl
    · rw [List.getElem?_eq_none (by omega)] at hi; cases hi
  constructor
  · intro j v hv
    rw [hw, List.getElem?_modify] at hv
    by_cases hij : i = j
    · subst hij
      rw [hi] at hv
      simp at hv
      subst hv
      rcases hx with ⟨e, e2⟩ | ⟨_, e, e2⟩ | ⟨_, e, e2⟩
      · rw [e, e2]; exact h.w i w hi
      · simp [e, e2]
      · simp [e, e2]
    · have hv' : s.workers[j]? = some v := by simpa [hij] using hv
      have := h.w j v hv'
      rcases hx with ⟨e, _⟩ | ⟨e0, e, _⟩ | ⟨e0, e, _⟩
      · rw [e]; exact this
      · rw [e0] at this; rw [e]
        exact ⟨fun x => absurd (this.mp x) (by simp), fun x => absurd x (by simp [hij])⟩
      · rw [e0] at this; rw [e]
        exact ⟨fun x => absurd (this.mp x) (by simp [hij]), fun x => absurd x (by simp)⟩
  · rw [hm, h.m]
    rcases hx with ⟨e, _⟩ | ⟨e0, e, _⟩ | ⟨e0, e, _⟩ <;> rw [e] <;> simp [e0]
  · intro j hj
    rw [hw, List.length_modify]
    rcases hx with ⟨e, _⟩ | ⟨e0, e, _⟩ | ⟨e0, e, _⟩
    · exact h.lt j (by rw [← e]; exact hj)
    · rw [e] at hj; cases hj; exact hlt
    · rw [e] at hj; cases hj

theorem holdsM_signalEmpty (m : MPc) : holdsM (signalEmpty m) = holdsM m := by
  cases m <;> rfl

theorem holdsM_signalCond (m : MPc) : holdsM (signalCond m) = holdsM m := by
  cases m <;> rfl

theorem Own.worker {s : St} (h : Own s) {i : Nat} {w : Worker} (hi : s.workers[i]? = some w) :
    Own (workerStep s i w) := by
  have hh := h.w i w hi
  obtain ⟨pc, sock⟩ := w
  unfold workerStep
  cases pc <;> dsimp only at hh ⊢
  case start | woken =>
    split
    · rename_i hf
      exact h.move hi rfl rfl (.inr (.inl ⟨hf, rfl, rfl⟩))
    · exact h
  case check =>
    split <;> exact h.move hi rfl rfl (.inl ⟨rfl, rfl⟩)
  case toWait => exact h.move hi rfl rfl (.inr (.inr ⟨hh.mp rfl, rfl, rfl⟩))
  case waiting => exact h
  case take =>
    split
    · exact h.move hi rfl (holdsM_signalEmpty _) (.inr (.inr ⟨hh.mp rfl, rfl, rfl⟩))
    · exact h.move hi rfl (holdsM_signalEmpty _) (.inr (.inr ⟨hh.mp rfl, rfl, rfl⟩))
  case ret => split <;> exact h.move hi rfl rfl (.inl ⟨rfl, rfl⟩)
  case serve => exact h.move hi rfl rfl (.inl ⟨rfl, rfl⟩)
  case close => exact h.move hi rfl rfl (.inl ⟨rfl, rfl⟩)
  case leave =>
    split
    · exact h.move hi rfl (holdsM_signalCond _) (.inl ⟨rfl, rfl⟩)
    · exact h
  case done => exact h

/-- The workers are woken or not, which changes nobody's hold on the mutex. -/
def SameHold (ws ws' : List Worker) : Prop :=
  ws'.length = ws.length ∧ ∀ (i : Nat) (w' : Worker), ws'[i]? = some w' →
    ∃ w, ws[i]? = some w ∧ (w' = w ∨ w.pc = .waiting ∧ w' = { w with pc := .woken })

theorem SameHold.refl (ws : List Worker) : SameHold ws ws :=
  ⟨rfl, fun _ w h => ⟨w, h, .inl rfl⟩⟩

theorem sleepers_waiting {ws : List Worker} {i : Nat} (h : i ∈ sleepers ws) :
    ∃ w, ws[i]? = some w ∧ w.pc = .waiting := by
  unfold sleepers at h
  rw [List.mem_filter] at h
  cases hw : ws[i]? with
  | none => rw [hw] at h; simp at h
  | some w => rw [hw] at h; exact ⟨w, rfl, by simpa using h.2⟩

theorem sleepers_mem {ws : List Worker} {i : Nat} {w : Worker} (hi : ws[i]? = some w)
    (hp : w.pc = .waiting) : i ∈ sleepers ws := by
  unfold sleepers
  rw [List.mem_filter]
  refine ⟨?_, by rw [hi]; simpa using hp⟩
  rw [List.mem_range]
  by_cases hl : i < ws.length
  · exact hl
  · rw [List.getElem?_eq_none (by omega)] at hi; cases hi

/-- A signal wakes nobody only when nobody waits. -/
theorem signalFull_cases (ws : List Worker) (k : Nat) :
    (signalFull ws k = ws ∧ sleepers ws = []) ∨
      ∃ i w, ws[i]? = some w ∧ w.pc = .waiting ∧ signalFull ws k = setPc ws i .woken := by
  unfold signalFull
  by_cases he : sleepers ws = []
  · left; rw [he]; simp
  · right
    have hlt : k % (sleepers ws).length < (sleepers ws).length :=
      Nat.mod_lt _ (List.length_pos_iff.mpr he)
    rw [List.getElem?_eq_getElem hlt]
    obtain ⟨w, h1, h2⟩ := sleepers_waiting (List.getElem_mem hlt)
    exact ⟨_, w, h1, h2, rfl⟩

theorem SameHold.setWoken {ws : List Worker} {i : Nat} {w : Worker} (hi : ws[i]? = some w)
    (hp : w.pc = .waiting) : SameHold ws (setPc ws i .woken) := by
  refine ⟨length_setPc _ _ _, ?_⟩
  intro j v hv
  rw [getElem?_setPc] at hv
  by_cases hij : i = j
  · subst hij
    rw [hi] at hv
    simp at hv
    exact ⟨w, hi, .inr ⟨hp, hv.symm⟩⟩
  · rw [if_neg hij] at hv; exact ⟨v, hv, .inl rfl⟩

theorem SameHold.signal (ws : List Worker) (k : Nat) : SameHold ws (signalFull ws k) := by
  rcases signalFull_cases ws k with ⟨h, _⟩ | ⟨i, w, h1, h2, h3⟩
  · rw [h]; exact SameHold.refl ws
  · rw [h3]; exact SameHold.setWoken h1 h2

theorem SameHold.broadcast (ws : List Worker) : SameHold ws (broadcastFull ws) := by
  refine ⟨by unfold broadcastFull; simp, ?_⟩
  intro j v hv
  unfold broadcastFull at hv
  rw [List.getElem?_map] at hv
  cases hw : ws[j]? with
  | none => rw [hw] at hv; cases hv
  | some w =>
    rw [hw] at hv
    simp only [Option.map_some, Option.some.injEq] at hv
    refine ⟨w, rfl, ?_⟩
    by_cases hp : w.pc = .waiting
    · rw [if_pos hp] at hv; exact .inr ⟨hp, hv.symm⟩
    · rw [if_neg hp] at hv; exact .inl hv.symm

theorem SameHold.mem {ws ws' : List Worker} (h : SameHold ws ws') {w' : Worker} (hm : w' ∈ ws') :
    ∃ w ∈ ws, w' = w ∨ w.pc = .waiting ∧ w' = { w with pc := .woken } := by
  obtain ⟨i, hi, rfl⟩ := List.mem_iff_getElem.mp hm
  obtain ⟨w, h1, h2⟩ := h.2 i _ (List.getElem?_eq_getElem hi)
  exact ⟨w, List.mem_of_getElem? h1, h2⟩

theorem Own.masterMove {s : St} (h : Own s) {s' : St} (hw : SameHold s.workers s'.workers)
    (hx : (s'.mutex = s.mutex ∧ holdsM s'.master = holdsM s.master) ∨
      (s.mutex = .free ∧ s'.mutex = .master ∧ holdsM s'.master = true) ∨
      (s.mutex = .master ∧ s'.mutex = .free ∧ holdsM s'.master = false)) : Own s' := by
  constructor
  · intro j v hv
    obtain ⟨w, h1, h2⟩ := hw.2 j v hv
    have hold : holds v.pc = holds w.pc := by
      rcases h2 with rfl | ⟨hp, rfl⟩
      · rfl
      · rw [hp]; rfl
    rw [hold, h.w j w h1]
    rcases hx with ⟨e, _⟩ | ⟨e0, e, _⟩ | ⟨e0, e, _⟩
    · rw [e]
    · rw [e0, e]; simp
    · rw [e0, e]; simp
  · rcases hx with ⟨e, e2⟩ | ⟨e0, e, e2⟩ | ⟨e0, e, e2⟩
    · rw [e, e2]; exact h.m
    · simp [e, e2]
    · simp [e, e2]
  · intro j hj
    rw [hw.1]
    rcases hx with ⟨e, e2⟩ | ⟨e0, e, e2⟩ | ⟨e0, e, e2⟩
    · rw [e] at hj; exact h.lt j hj
    · rw [e] at hj; cases hj
    · rw [e] at hj; cases hj

theorem putOn_workers (s : St) (c : Nat) : (putOn s c).workers = s.workers := by
  unfold putOn; split <;> rfl

theorem Own.master {s : St} (h : Own s) (acc : Bool) (k : Nat) : Own (masterStep s acc k) := by
  have hm := h.m
  have same := SameHold.refl s.workers
  unfold masterStep
  cases hpc : s.master <;> rw [hpc] at hm <;> dsimp only
  case loop => split <;> exact h.masterMove same (.inl ⟨rfl, by rw [hpc]; rfl⟩)
  case accept => split <;> exact h.masterMove same (.inl ⟨rfl, by rw [hpc]; rfl⟩)
  case failed => split <;> exact h.masterMove same (.inl ⟨rfl, by rw [hpc]; rfl⟩)
  case got => split <;> exact h.masterMove same (.inl ⟨rfl, by rw [hpc]; rfl⟩)
  case lock | woken =>
    split
    · rename_i hf; exact h.masterMove same (.inr (.inl ⟨hf, rfl, rfl⟩))
    · exact h
  case check => split <;> exact h.masterMove same (.inl ⟨rfl, by rw [hpc]; rfl⟩)
  case toWait => exact h.masterMove same (.inr (.inr ⟨hm.mp rfl, rfl, rfl⟩))
  case waiting => exact h
  case put => exact h.masterMove (SameHold.signal _ _) (.inr (.inr ⟨hm.mp rfl, rfl, rfl⟩))
  case bcast => exact h.masterMove (SameHold.broadcast _) (.inl ⟨rfl, by rw [hpc]; rfl⟩)
  case join =>
    split
    · split <;> exact h.masterMove same (.inl ⟨rfl, by rw [hpc]; rfl⟩)
    · exact h
  case joinWait => exact h
  case fin => exact h

theorem Own.step {s : St} (h : Own s) (m : Move) : Own (step s m) := by
  unfold Queue.step
  cases m with
  | worker i =>
    dsimp only
    cases hi : s.workers[i]? with
    | none => exact h
    | some w => exact h.worker hi
  | master acc k => exact h.master acc k
  | sig => exact ⟨h.w, h.m, h.lt⟩
  | spurW i =>
    dsimp only
    cases hi : s.workers[i]? with
    | none => exact h
    | some w =>
      dsimp only
      split
      · rename_i hp
        exact h.masterMove (SameHold.setWoken hi hp) (.inl ⟨rfl, rfl⟩)
      · exact h
  | spurM =>
    dsimp only
    split
    · rename_i hpc
      exact h.masterMove (SameHold.refl _) (.inl ⟨rfl, by rw [hpc]; rfl⟩)
    · rename_i hpc
      exact h.masterMove (SameHold.refl _) (.inl ⟨rfl, by rw [hpc]; rfl⟩)
    · exact h
  | ret =>
    dsimp only
    split
    · exact h
    · exact ⟨h.w, h.m, h.lt⟩

theorem mem_modify {l : List Worker} {i : Nat} {f : Worker → Worker} {v : Worker}
    (h : v ∈ l.modify i f) : (∃ w, l[i]? = some w ∧ v = f w) ∨ v ∈ l := by
  obtain ⟨j, hv⟩ := List.mem_iff_getElem?.mp h
  rw [List.getElem?_modify] at hv
  by_cases hij : i = j
  · subst hij
    cases hw : l[i]? with
    | none => rw [hw] at hv; simp at hv
    | some w => rw [hw] at hv; left; exact ⟨w, rfl, by simpa using hv.symm⟩
  · right; exact List.mem_of_getElem? (by simpa [hij] using hv)

/-- The connection in the hands of the accepting thread. -/
def hand : MPc → Option Nat
  | .got c | .lock c | .check c | .toWait c | .waiting c | .woken c | .put c => some c
  | _ => none

/-- The first `t` of the `g` connections put on the queue have been taken off. -/
structure Ring (g t : Nat) (s : St) : Prop where
  le : t ≤ g
  room : g ≤ t + 20
  ht : s.head = s.tail + ((g - t : Nat) : Int)
  lo : 0 ≤ s.tail
  hi : s.tail ≤ 20
  len : s.queue.length = 20
  val : ∀ k, t ≤ k → k < g → s.queue[(s.tail.toNat + (k - t)) % 20]? = some k
  tk : ∀ w ∈ s.workers, w.pc = .take → s.stop = 0 → t < g
  tw : ∀ w ∈ s.workers, w.pc = .toWait → t = g
  full : ∀ c, s.master = .toWait c ∨ s.master = .waiting c → g = t + 20
  pt : ∀ c, s.master = .put c → s.stop = 0 → g < t + 20
  mine : ∀ c, hand s.master = some c → c = g ∧ s.accepted = g + 1
  none : s.master = .accept ∨ s.master = .failed ∨ s.master = .loop ∧ s.stop = 0 →
    s.accepted = g
  acc : g ≤ s.accepted

theorem Ring.init (n : Nat) : Ring 0 0 (init n) := by
  have hs : ∀ w ∈ (Queue.init n).workers, w = ⟨.start, Option.none⟩ := by
    intro w hw; exact List.eq_of_mem_replicate hw
  refine ⟨Nat.le_refl _, by omega, rfl, by simp [Queue.init], by simp [Queue.init],
    by simp [Queue.init, slots], fun k _ h => by omega, ?_, ?_, ?_, ?_, ?_, fun _ => rfl,
    Nat.zero_le _⟩
  · intro w hw hp; rw [hs w hw] at hp; cases hp
  · intro w hw hp; rfl
  · intro c h; simp [Queue.init] at h
  · intro c h; simp [Queue.init] at h
  · intro c h; simp [Queue.init, hand] at h

/-- Nobody touches the counters; the workers that are new at `take` or `toWait` have
seen them. -/
theorem Ring.keep {g t : Nat} {s s' : St} (h : Ring g t s) (e1 : s'.head = s.head)
    (e2 : s'.tail = s.tail) (e3 : s'.queue = s.queue) (e4 : s'.accepted = s.accepted)
    (e5 : s'.master = s.master ∨ ∃ c, s.master = .waiting c ∧ s'.master = .woken c)
    (e6 : s'.stop = 0 → s.stop = 0)
    (htk : ∀ w ∈ s'.workers, w.pc = .take → s'.stop = 0 → t < g)
    (htw : ∀ w ∈ s'.workers, w.pc = .toWait → t = g) : Ring g t s' := by
  refine ⟨h.le, h.room, by rw [e1, e2]; exact h.ht, by rw [e2]; exact h.lo,
    by rw [e2]; exact h.hi, by rw [e3]; exact h.len, by rw [e3, e2]; exact h.val, htk, htw,
    ?_, ?_, ?_, ?_, by rw [e4]; exact h.acc⟩
  · intro c hc
    rcases e5 with e | ⟨d, _, e⟩
    · rw [e] at hc; exact h.full c hc
    · rw [e] at hc; simp at hc
  · intro c hc h0
    rcases e5 with e | ⟨d, _, e⟩
    · rw [e] at hc; exact h.pt c hc (e6 h0)
    · rw [e] at hc; simp at hc
  · intro c hc
    rw [e4]
    rcases e5 with e | ⟨d, e', e⟩
    · rw [e] at hc; exact h.mine c hc
    · rw [e] at hc; exact h.mine c (by rw [e']; exact hc)
  · intro hc
    rw [e4]
    rcases e5 with e | ⟨d, _, e⟩
    · rw [e] at hc
      exact h.none (by
        rcases hc with hc | hc | ⟨hc, h0⟩
        · exact .inl hc
        · exact .inr (.inl hc)
        · exact .inr (.inr ⟨hc, e6 h0⟩))
    · rw [e] at hc; simp at hc

theorem signalEmpty_eq (m : MPc) :
    signalEmpty m = m ∧ (∀ c, m ≠ .waiting c) ∨ ∃ c, m = .waiting c ∧ signalEmpty m = .woken c := by
  cases m with
  | waiting c => right; exact ⟨c, rfl, rfl⟩
  | _ => left; exact ⟨rfl, by intro c h; cases h⟩

theorem signalCond_eq (m : MPc) :
    signalCond m = m ∨ m = .joinWait ∧ signalCond m = .join := by
  cases m <;> simp [signalCond]

theorem align_one {h t : Int} (f : Nat) (hf : 1 ≤ f) (hi : t ≤ 40) :
    align f h t = if t > 20 then (h - 20, t - 20) else (h, t) := by
  obtain ⟨f, rfl⟩ : ∃ n, f = n + 1 := ⟨f - 1, by omega⟩
  unfold align
  by_cases ht : t > (slots : Int)
  · rw [if_pos ht]
    have h20 : t > 20 := ht
    rw [if_pos h20]
    cases f with
    | zero => rfl
    | succ f =>
      unfold align
      rw [if_neg (by simp only [slots]; omega)]
      rfl
  · rw [if_neg ht]
    have h20 : ¬ t > 20 := ht
    rw [if_neg h20]

/-- What taking a connection off the queue gives. -/
theorem takeOff_some {g t : Nat} {s : St} (h : Ring g t s) (hlt : t < g) :
    ∃ a b : Int, takeOff s = some (t, a, b) ∧ 0 ≤ b ∧ b ≤ 20 ∧
      a = b + ((g - (t + 1) : Nat) : Int) ∧ b.toNat % 20 = (s.tail.toNat + 1) % 20 := by
  have hgt : s.head > s.tail := by rw [h.ht]; omega
  have hq : s.queue[(s.tail % (slots : Int)).toNat]? = some t := by
    have := h.val t (Nat.le_refl _) hlt
    rw [show (s.tail.toNat + (t - t)) % 20 = (s.tail % (slots : Int)).toNat from ?_] at this
    · exact this
    · have := h.lo; have := h.hi; simp only [slots]; omega
  have hal := align_one (h := s.head) (s.tail + 1).toNat (t := s.tail + 1)
    (by have := h.lo; omega) (by have := h.hi; omega)
  have hht := h.ht
  have hlo := h.lo
  have hhi := h.hi
  unfold takeOff
  rw [if_pos hgt, hal, hq]
  by_cases hc : s.tail + 1 > 20
  · rw [if_pos hc]
    exact ⟨_, _, rfl, by omega, by omega, by dsimp only; omega, by dsimp only; omega⟩
  · rw [if_neg hc]
    exact ⟨_, _, rfl, by omega, by omega, by dsimp only; omega, by dsimp only; omega⟩

theorem takeOff_none {g t : Nat} {s : St} (h : Ring g t s) (he : t = g) : takeOff s = none := by
  have := h.ht
  unfold takeOff
  rw [if_neg (by omega)]

/-- A connection is taken off. -/
theorem Ring.pop {g t : Nat} {s s' : St} (h : Ring g t s) (hlt : t < g) {a b : Int}
    (hb0 : 0 ≤ b) (hb : b ≤ 20) (ha : a = b + ((g - (t + 1) : Nat) : Int))
    (hm : b.toNat % 20 = (s.tail.toNat + 1) % 20)
    (e1 : s'.head = a) (e2 : s'.tail = b) (e3 : s'.queue = s.queue)
    (e4 : s'.accepted = s.accepted) (e5 : s'.master = signalEmpty s.master)
    (e6 : s'.stop = s.stop) (hnt : ∀ c, s.master ≠ .toWait c)
    (htk : ∀ w ∈ s'.workers, w.pc ≠ .take) (htw : ∀ w ∈ s'.workers, w.pc ≠ .toWait) :
    Ring g (t + 1) s' := by
  have hroom := h.room
  refine ⟨hlt, by omega, by rw [e1, e2]; exact ha, by rw [e2]; exact hb0, by rw [e2]; exact hb,
    by rw [e3]; exact h.len, ?_, fun w hw hp => absurd hp (htk w hw),
    fun w hw hp => absurd hp (htw w hw), ?_, ?_, ?_, ?_, by rw [e4]; exact h.acc⟩
  · intro k hk1 hk2
    rw [e3, e2, show (b.toNat + (k - (t + 1))) % 20 = (s.tail.toNat + (k - t)) % 20 by omega]
    exact h.val k (by omega) hk2
  · intro c hc
    rw [e5] at hc
    rcases signalEmpty_eq s.master with ⟨e, hne⟩ | ⟨d, e', e⟩
    · rw [e] at hc
      rcases hc with hc | hc
      · exact absurd hc (hnt c)
      · exact absurd hc (hne c)
    · rw [e] at hc; simp at hc
  · intro c hc h0
    omega
  · intro c hc
    rw [e4]; rw [e5] at hc
    refine h.mine c ?_
    rcases signalEmpty_eq s.master with ⟨e, hne⟩ | ⟨d, e', e⟩
    · rw [e] at hc; exact hc
    · rw [e] at hc; rw [e']; exact hc
  · intro hc
    rw [e4]; rw [e5, e6] at hc
    rcases signalEmpty_eq s.master with ⟨e, hne⟩ | ⟨d, e', e⟩
    · rw [e] at hc; exact h.none hc
    · rw [e] at hc; simp at hc

/-- Nobody else is inside a critical section. -/
theorem Own.alone {s : St} (h : Own s) {i : Nat} (hi : s.mutex = .worker i)
    {f : Worker → Worker} (hf : ∀ w, holds (f w).pc = false) :
    ∀ w ∈ s.workers.modify i f, holds w.pc = false := by
  intro v hv
  obtain ⟨j, he⟩ := List.mem_iff_getElem?.mp hv
  rw [List.getElem?_modify] at he
  by_cases hij : i = j
  · subst hij
    cases hw : s.workers[i]? with
    | none => rw [hw] at he; simp at he
    | some w =>
      rw [hw] at he
      have : f w = v := by simpa using he
      rw [← this]; exact hf w
  · have he' : s.workers[j]? = some v := by simpa [hij] using he
    have := h.w j _ he'
    cases hh : holds v.pc with
    | false => rfl
    | true =>
      have := this.mp hh
      rw [hi] at this
      cases this
      exact absurd rfl hij

/-- No worker is inside a critical section when the accepting thread is. -/
theorem Own.none {s : St} (h : Own s) (hi : s.mutex = .master) :
    ∀ w ∈ s.workers, holds w.pc = false := by
  intro v hv
  obtain ⟨j, hj, rfl⟩ := List.mem_iff_getElem.mp hv
  have := h.w j _ (List.getElem?_eq_getElem hj)
  cases hh : holds s.workers[j].pc with
  | false => rfl
  | true => rw [hi] at this; exact absurd (this.mp hh) (by simp)

theorem Ring.worker {g t : Nat} {s : St} (h : Ring g t s) (o : Own s) {i : Nat} {w : Worker}
    (hi : s.workers[i]? = some w) :
    ∃ t', Ring g t' (workerStep s i w) ∧
      (t' = t ∧ (w.pc = .take → t = g) ∨ t' = t + 1 ∧ w.pc = .take ∧ t < g) := by
  have hown := o.w i w hi
  have hmem := List.mem_of_getElem? hi
  -- the worker goes to a place that is neither `take` nor `toWait`
  have plain : ∀ (s' : St) (f : Worker → Worker), s'.workers = s.workers.modify i f →
      s'.head = s.head → s'.tail = s.tail → s'.queue = s.queue → s'.accepted = s.accepted →
      s'.stop = s.stop →
      (s'.master = s.master ∨ ∃ c, s.master = .waiting c ∧ s'.master = .woken c) →
      ((f w).pc = .take → s.stop = 0 → t < g) → ((f w).pc = .toWait → t = g) → Ring g t s' := by
    intro s' f e0 e1 e2 e3 e4 e5 e6 htk htw
    refine h.keep e1 e2 e3 e4 e6 (by rw [e5]; exact id) ?_ ?_
    · intro v hv hp h0
      rw [e0] at hv; rw [e5] at h0
      rcases mem_modify hv with ⟨w', hw', rfl⟩ | hv
      · rw [hi] at hw'; cases hw'; exact htk hp h0
      · exact h.tk v hv hp h0
    · intro v hv hp
      rw [e0] at hv
      rcases mem_modify hv with ⟨w', hw', rfl⟩ | hv
      · rw [hi] at hw'; cases hw'; exact htw hp
      · exact h.tw v hv hp
  obtain ⟨pc, sock⟩ := w
  unfold workerStep
  cases pc <;> dsimp only at hown ⊢
  case start | woken =>
    refine ⟨t, ?_, .inl ⟨rfl, fun x => by cases x⟩⟩
    split
    · exact plain _ _ rfl rfl rfl rfl rfl rfl (.inl rfl) (fun x => by cases x) (fun x => by cases x)
    · exact h
  case check =>
    refine ⟨t, ?_, .inl ⟨rfl, fun x => by cases x⟩⟩
    have hht := h.ht
    have hle := h.le
    split
    · rename_i hc
      exact plain _ _ rfl rfl rfl rfl rfl rfl (.inl rfl) (fun x => by cases x)
        (fun _ => by have := hc.1; omega)
    · rename_i hc
      exact plain _ _ rfl rfl rfl rfl rfl rfl (.inl rfl)
        (fun _ h0 => by
          have : s.head ≠ s.tail := fun e => hc ⟨e, h0⟩
          omega) (fun x => by cases x)
  case toWait =>
    exact ⟨t, plain _ _ rfl rfl rfl rfl rfl rfl (.inl rfl) (fun x => by cases x)
      (fun x => by cases x), .inl ⟨rfl, fun x => by cases x⟩⟩
  case waiting => exact ⟨t, h, .inl ⟨rfl, fun x => by cases x⟩⟩
  case take =>
    have hmx := hown.mp rfl
    have hnt : ∀ c, s.master ≠ .toWait c := by
      intro c e
      have := o.m.mp (by rw [e]; rfl)
      rw [hmx] at this; cases this
    by_cases hlt : t < g
    · obtain ⟨a, b, e, hb0, hb, ha, hm⟩ := takeOff_some h hlt
      have alone := o.alone hmx (f := fun _ => ⟨.ret, some t⟩) (fun _ => rfl)
      refine ⟨t + 1, ?_, .inr ⟨rfl, rfl, hlt⟩⟩
      rw [e]
      refine h.pop hlt hb0 hb ha hm rfl rfl rfl rfl rfl rfl hnt ?_ ?_
      · intro v hv hp
        have := alone v hv
        rw [hp] at this; cases this
      · intro v hv hp
        have := alone v hv
        rw [hp] at this; cases this
    · refine ⟨t, ?_, .inl ⟨rfl, fun _ => by have := h.le; omega⟩⟩
      rw [takeOff_none h (by have := h.le; omega)]
      refine plain _ _ rfl rfl rfl rfl rfl rfl ?_ (fun x => by cases x) (fun x => by cases x)
      rcases signalEmpty_eq s.master with ⟨e, _⟩ | ⟨c, e1, e2⟩
      · exact .inl e
      · exact .inr ⟨c, e1, e2⟩
  case ret =>
    refine ⟨t, ?_, .inl ⟨rfl, fun x => by cases x⟩⟩
    split
    · exact plain _ _ rfl rfl rfl rfl rfl rfl (.inl rfl) (fun x => by cases x) (fun x => by cases x)
    · exact plain _ _ rfl rfl rfl rfl rfl rfl (.inl rfl) (fun x => by cases x) (fun x => by cases x)
  case serve =>
    exact ⟨t, plain _ _ rfl rfl rfl rfl rfl rfl (.inl rfl) (fun x => by cases x)
      (fun x => by cases x), .inl ⟨rfl, fun x => by cases x⟩⟩
  case close =>
    exact ⟨t, plain _ _ rfl rfl rfl rfl rfl rfl (.inl rfl) (fun x => by cases x)
      (fun x => by cases x), .inl ⟨rfl, fun x => by cases x⟩⟩
  case leave =>
    refine ⟨t, ?_, .inl ⟨rfl, fun x => by cases x⟩⟩
    split
    · rename_i hf
      -- the signal can only change `joinWait`
      have k := plain { s with num := s.num - 1, workers := setPc s.workers i .done }
        (fun w => { w with pc := .done }) rfl rfl rfl rfl rfl rfl (.inl rfl)
        (fun x => by cases x) (fun x => by cases x)
      rcases signalCond_eq s.master with e | ⟨e1, e2⟩
      · rw [e]; exact k
      · rw [e2]
        exact ⟨k.le, k.room, k.ht, k.lo, k.hi, k.len, k.val, k.tk, k.tw,
          fun c hc => by simp at hc, fun c hc => by simp at hc, fun c hc => by simp [hand] at hc,
          fun hc => by simp at hc, k.acc⟩
    · exact h
  case done => exact ⟨t, h, .inl ⟨rfl, fun x => by cases x⟩⟩

theorem Ring.same {g t : Nat} {s s' : St} (h : Ring g t s) (e1 : s'.head = s.head)
    (e2 : s'.tail = s.tail) (e3 : s'.queue = s.queue) (e6 : s'.stop = 0 → s.stop = 0)
    (hw : SameHold s.workers s'.workers)
    (full : ∀ c, s'.master = .toWait c ∨ s'.master = .waiting c → g = t + 20)
    (pt : ∀ c, s'.master = .put c → s'.stop = 0 → g < t + 20)
    (mine : ∀ c, hand s'.master = some c → c = g ∧ s'.accepted = g + 1)
    (nn : s'.master = .accept ∨ s'.master = .failed ∨ s'.master = .loop ∧ s'.stop = 0 →
      s'.accepted = g) (acc : g ≤ s'.accepted) : Ring g t s' := by
  refine ⟨h.le, h.room, by rw [e1, e2]; exact h.ht, by rw [e2]; exact h.lo,
    by rw [e2]; exact h.hi, by rw [e3]; exact h.len, by rw [e3, e2]; exact h.val, ?_, ?_,
    full, pt, mine, nn, acc⟩
  · intro v hv hp h0
    obtain ⟨w, hm, rfl | ⟨_, rfl⟩⟩ := hw.mem hv
    · exact h.tk v hm hp (e6 h0)
    · cases hp
  · intro v hv hp
    obtain ⟨w, hm, rfl | ⟨_, rfl⟩⟩ := hw.mem hv
    · exact h.tw v hm hp
    · cases hp

/-- A connection is put on. -/
theorem Ring.push {g t : Nat} {s s' : St} (h : Ring g t s) (o : Own s) (hpc : s.master = .put g)
    (hlt : g < t + 20) (e1 : s'.head = s.head + 1) (e2 : s'.tail = s.tail)
    (e3 : s'.queue = s.queue.set (s.head % 20).toNat g) (e4 : s'.accepted = s.accepted)
    (e5 : s'.master = .loop) (hw : SameHold s.workers s'.workers) : Ring (g + 1) t s' := by
  have hle := h.le
  have hht := h.ht
  have hlo := h.lo
  have hhi := h.hi
  have hmine := h.mine g (by rw [hpc]; rfl)
  have hno := o.none (o.m.mp (by rw [hpc]; rfl))
  have hidx : (s.head % 20).toNat = (s.tail.toNat + (g - t)) % 20 := by omega
  have nohold : ∀ v ∈ s'.workers, holds v.pc = false := by
    intro v hv
    obtain ⟨w, hm, rfl | ⟨_, rfl⟩⟩ := hw.mem hv
    · exact hno v hm
    · rfl
  refine ⟨by omega, by omega, by rw [e1, e2]; omega, by rw [e2]; exact hlo, by rw [e2]; exact hhi,
    by rw [e3, List.length_set]; exact h.len, ?_, ?_, ?_, ?_, ?_, ?_, ?_, by rw [e4]; omega⟩
  · intro k hk1 hk2
    rw [e3, e2, hidx, List.getElem?_set]
    by_cases hk : k = g
    · subst hk
      rw [if_pos rfl, if_pos (by rw [h.len]; omega)]
    · rw [if_neg (by have := h.room; omega)]
      exact h.val k hk1 (by omega)
  · intro v hv hp; have := nohold v hv; rw [hp] at this; cases this
  · intro v hv hp; have := nohold v hv; rw [hp] at this; cases this
  · intro c hc; rw [e5] at hc; simp at hc
  · intro c hc; rw [e5] at hc; simp at hc
  · intro c hc; rw [e5] at hc; simp [hand] at hc
  · intro _; rw [e4]; omega

theorem Ring.master {g t : Nat} {s : St} (h : Ring g t s) (o : Own s) (acc : Bool) (k : Nat) :
    ∃ g', Ring g' t (masterStep s acc k) ∧ (g' = g ∨ g' = g + 1 ∧ s.master = .put g ∧
      (masterStep s acc k).workers = signalFull s.workers k) := by
  have same := SameHold.refl s.workers
  have hacc := h.acc
  unfold masterStep
  cases hpc : s.master <;> dsimp only
  case loop =>
    have hn := h.none
    rw [hpc] at hn
    refine ⟨g, ?_, .inl rfl⟩
    split
    · rename_i h0
      have := hn (.inr (.inr ⟨rfl, h0⟩))
      exact h.same rfl rfl rfl id same (fun c hc => by simp at hc) (fun c hc => by simp at hc)
        (fun c hc => by simp [hand] at hc) (fun _ => this) hacc
    · exact h.same rfl rfl rfl id same (fun c hc => by simp at hc) (fun c hc => by simp at hc)
        (fun c hc => by simp [hand] at hc) (fun hc => by simp at hc) hacc
  case accept =>
    have hn := h.none
    rw [hpc] at hn
    have := hn (.inl rfl)
    refine ⟨g, ?_, .inl rfl⟩
    split
    · exact h.same rfl rfl rfl id same (fun c hc => by simp at hc) (fun c hc => by simp at hc)
        (fun c hc => by
          simp only [hand, Option.some.injEq] at hc
          exact ⟨by omega, by dsimp only; omega⟩) (fun hc => by simp at hc) (by dsimp only; omega)
    · exact h.same rfl rfl rfl id same (fun c hc => by simp at hc) (fun c hc => by simp at hc)
        (fun c hc => by simp [hand] at hc) (fun _ => this) hacc
  case failed =>
    have hn := h.none
    rw [hpc] at hn
    have := hn (.inr (.inl rfl))
    refine ⟨g, ?_, .inl rfl⟩
    split
    · exact h.same rfl rfl rfl id same (fun c hc => by simp at hc) (fun c hc => by simp at hc)
        (fun c hc => by simp [hand] at hc) (fun _ => this) hacc
    · exact h.same rfl rfl rfl id same (fun c hc => by simp at hc) (fun c hc => by simp at hc)
        (fun c hc => by simp [hand] at hc) (fun hc => by simp at hc) hacc
  case got c =>
    have hm := h.mine c (by rw [hpc]; rfl)
    refine ⟨g, ?_, .inl rfl⟩
    split
    · exact h.same rfl rfl rfl id same (fun c hc => by simp at hc) (fun c hc => by simp at hc)
        (fun d hd => by simp only [hand, Option.some.injEq] at hd; exact ⟨by omega, hm.2⟩)
        (fun hc => by simp at hc) hacc
    · rename_i h0
      exact h.same rfl rfl rfl id same (fun c hc => by simp at hc) (fun c hc => by simp at hc)
        (fun c hc => by simp [hand] at hc) (fun hc => by simp [h0] at hc) hacc
  case lock c | woken c =>
    have hm := h.mine c (by rw [hpc]; rfl)
    refine ⟨g, ?_, .inl rfl⟩
    split
    · exact h.same rfl rfl rfl id same (fun c hc => by simp at hc) (fun c hc => by simp at hc)
        (fun d hd => by simp only [hand, Option.some.injEq] at hd; exact ⟨by omega, hm.2⟩)
        (fun hc => by simp at hc) hacc
    · exact h
  case check c =>
    have hm := h.mine c (by rw [hpc]; rfl)
    have hht := h.ht
    have hle := h.le
    have hro := h.room
    refine ⟨g, ?_, .inl rfl⟩
    split
    · rename_i hc
      have h20 : s.head - s.tail ≥ 20 := hc.2
      exact h.same rfl rfl rfl id same (fun _ _ => by omega) (fun c hc => by simp at hc)
        (fun d hd => by simp only [hand, Option.some.injEq] at hd; exact ⟨by omega, hm.2⟩)
        (fun hc => by simp at hc) hacc
    · rename_i hc
      exact h.same rfl rfl rfl id same (fun c hc => by simp at hc)
        (fun d _ h0 => by
          have h20 : ¬ s.head - s.tail ≥ 20 := fun e => hc ⟨h0, e⟩
          omega)
        (fun d hd => by simp only [hand, Option.some.injEq] at hd; exact ⟨by omega, hm.2⟩)
        (fun hc => by simp at hc) hacc
  case toWait c =>
    have hm := h.mine c (by rw [hpc]; rfl)
    have hf := h.full c (.inl hpc)
    exact ⟨g, h.same rfl rfl rfl id same (fun _ _ => hf) (fun c hc => by simp at hc)
        (fun d hd => by simp only [hand, Option.some.injEq] at hd; exact ⟨by omega, hm.2⟩)
        (fun hc => by simp at hc) hacc, .inl rfl⟩
  case waiting => exact ⟨g, h, .inl rfl⟩
  case put c =>
    have hm := h.mine c (by rw [hpc]; rfl)
    obtain ⟨rfl, hm2⟩ := hm
    have hht := h.ht
    have hle := h.le
    have hro := h.room
    by_cases hlt : c < t + 20
    · have hp : putOn s c = { s with queue := s.queue.set (s.head % (slots : Int)).toNat c,
                                     head := s.head + 1 } := by
        unfold putOn
        rw [if_pos (by simp only [slots]; omega)]
      rw [hp]
      exact ⟨c + 1, h.push o hpc hlt rfl rfl rfl rfl rfl (SameHold.signal _ _),
        .inr ⟨rfl, rfl, rfl⟩⟩
    · have hp : putOn s c = s := by
        unfold putOn
        rw [if_neg (by simp only [slots]; omega)]
      rw [hp]
      have h0 : s.stop ≠ 0 := fun e => hlt (h.pt c hpc e)
      exact ⟨c, h.same rfl rfl rfl id (SameHold.signal _ _) (fun c hc => by simp at hc)
        (fun c hc => by simp at hc) (fun c hc => by simp [hand] at hc)
        (fun hc => by simp [h0] at hc) hacc, .inl rfl⟩
  case bcast =>
    exact ⟨g, h.same rfl rfl rfl id (SameHold.broadcast _) (fun c hc => by simp at hc)
      (fun c hc => by simp at hc) (fun c hc => by simp [hand] at hc)
      (fun hc => by simp at hc) hacc, .inl rfl⟩
  case join =>
    refine ⟨g, ?_, .inl rfl⟩
    split
    · split
      · exact h.same rfl rfl rfl id same (fun c hc => by simp at hc) (fun c hc => by simp at hc)
          (fun c hc => by simp [hand] at hc) (fun hc => by simp at hc) hacc
      · exact h.same rfl rfl rfl (fun x => by simp at x) same (fun c hc => by simp at hc)
          (fun c hc => by simp at hc)
          (fun c hc => by simp [hand] at hc) (fun hc => by simp at hc) hacc
    · exact h
  case joinWait => exact ⟨g, h, .inl rfl⟩
  case fin => exact ⟨g, h, .inl rfl⟩

theorem Ring.sig {g t : Nat} {s : St} (h : Ring g t s) : Ring g t { s with stop := 1 } :=
  h.keep rfl rfl rfl rfl (.inl rfl) (fun e => by simp at e)
    (fun w hw hp e => by simp at e) h.tw

theorem Ring.step {g t : Nat} {s : St} (h : Ring g t s) (o : Own s) (m : Move) :
    ∃ g' t', Ring g' t' (step s m) := by
  unfold Queue.step
  cases m with
  | worker i =>
    dsimp only
    cases hi : s.workers[i]? with
    | none => exact ⟨g, t, h⟩
    | some w => obtain ⟨t', h', _⟩ := h.worker o hi; exact ⟨g, t', h'⟩
  | master acc k => obtain ⟨g', h', _⟩ := h.master o acc k; exact ⟨g', t, h'⟩
  | sig => exact ⟨g, t, h.sig⟩
  | spurW i =>
    dsimp only
    cases hi : s.workers[i]? with
    | none => exact ⟨g, t, h⟩
    | some w =>
      dsimp only
      split
      · rename_i hp
        exact ⟨g, t, h.same rfl rfl rfl id (SameHold.setWoken hi hp) h.full h.pt h.mine h.none h.acc⟩
      · exact ⟨g, t, h⟩
  | spurM =>
    dsimp only
    refine ⟨g, t, ?_⟩
    split
    · rename_i c hpc
      exact h.keep rfl rfl rfl rfl (.inr ⟨c, hpc, rfl⟩) id h.tk h.tw
    · rename_i hpc
      exact h.same rfl rfl rfl id (SameHold.refl _) (fun c hc => by simp at hc)
        (fun c hc => by simp at hc) (fun c hc => by simp [hand] at hc) (fun hc => by simp at hc)
        h.acc
    · exact h
  | ret =>
    dsimp only
    refine ⟨g, t, ?_⟩
    split
    · exact h
    · exact h.keep rfl rfl rfl rfl (.inl rfl) id h.tk h.tw

end Verif.Queue
