import Verif.TimerModel
import Verif.CoapAllProps

/-!
# C113: the performance timers
-/
namespace Verif.Timer
open Verif.Coap (Path)

/-! ## What should be logged -/

/-- A request of a session: its kind, when it began, and when the last part of the answer was
sent if that happened. -/
structure Served where
  kind : Path
  begun : Nat
  fin : Option Nat

/-- The words for the kinds of requests. -/
def name : Path → List Nat
  | .crts => [99, 114, 116, 115]
  | .att => [97, 116, 116]
  | .sen => [115, 101, 110]
  | .sren => [115, 114, 101, 110]
  | .skg => [115, 107, 103]

/-- The line for the time a request was handled. -/
def handled (key : List Nat) (k : Path) (b e : Nat) : Log :=
  .line ⟨[67, 111, 65, 80, 32, 104, 97, 110, 100, 108, 101, 95, 114, 101, 113, 95, 116, 105, 109, 101, 114, 32] ++ name k, some key, b, e⟩

/-- The same for a request that may have been answered. -/
def answered (key : List Nat) (k : Path) (b : Nat) : Option Nat → List Log
  | some e => [handled key k b e]
  | none => []

/-- What a session is doing: waiting since some time, with the tag for it, or handling a request. -/
inductive Now
  | waiting (tag : List Nat) (since : Nat)
  | busy (k : Path) (since : Nat)

/-- What is logged when that ends. -/
def Now.ends (key : List Nat) (t : Nat) : Now → List Log
  | .waiting g s => [.line ⟨g, some key, s, t⟩]
  | .busy k s => [.error, handled key k s t]

/-- What a session does after a request. -/
def Served.next (q : Served) : Now :=
  match q.fin with
  | some e => .waiting ([67, 111, 65, 80, 32, 114, 101, 113, 95, 103, 97, 112, 95, 116, 105, 109, 101, 114, 32] ++ name q.kind) e
  | none => .busy q.kind q.begun

/-- The log of a session that began at `b` and is closed at `e`. -/
def story (key : List Nat) (b e : Nat) : Now → List Served → List Log
  | w, [] => .line ⟨[67, 111, 65, 80, 32, 115, 101, 115, 115, 105, 111, 110, 95, 116, 105, 109, 101, 114], some key, b, e⟩ :: w.ends key e
  | w, q :: qs =>
    w.ends key q.begun ++ answered key q.kind q.begun q.fin ++
      story key b e q.next qs

/-- Further messages of a request that has begun, up to the last part of the answer. -/
inductive Rest (k : Path) : Option Nat → List Op → Prop
  | stop : Rest k none []
  | last (t e : Nat) : Rest k (some e) [.turn true true k false true t e]
  | more (t t' : Nat) {f l} : Rest k f l → Rest k f (.turn true true k false false t t' :: l)

/-- The messages of a request that the server can tell from the one before: it is of another kind,
or its first message starts over. -/
inductive Request (cur : Option Path) (q : Served) : List Op → Prop
  | short (again : Bool) (e : Nat) : q.fin = some e → cur ≠ some q.kind ∨ again = true →
      Request cur q [.turn true true q.kind again true q.begun e]
  | long (again : Bool) (t' : Nat) {l} : cur ≠ some q.kind ∨ again = true → Rest q.kind q.fin l →
      Request cur q (.turn true true q.kind again false q.begun t' :: l)

/-- The messages of several requests, one after the other. -/
inductive Requests : Option Path → List Served → List Op → Prop
  | nil (c) : Requests c [] []
  | cons {c q qs l l'} : Request c q l → Requests (some q.kind) qs l' → Requests c (q :: qs) (l ++ l')

/-- The clock does not show the start of the epoch. -/
def Served.Dated (q : Served) : Prop := q.begun ≠ 0 ∧ ∀ e, q.fin = some e → e ≠ 0

/-! ## A session with timers -/

theorem name_word (k : Path) : name k = word k := by cases k <;> rfl

theorem pathOf_req (k : Path) : pathOf k.req = some k := by cases k <;> rfl

theorem pathOf_some {r : Coap.Req} {k : Path} (h : pathOf r = some k) : r = k.req := by
  revert h
  cases r <;> cases k <;> decide

theorem req_ne_reset (k : Path) : k.req ≠ .reset := by cases k <;> (intro h; cases h)

theorem req_inj {a b : Path} : a.req = b.req ↔ a = b := by
  cases a <;> cases b <;> decide

/-- The record of a session, as far as its timers are concerned. -/
inductive Doing (key : List Nat) (b : Nat) : Option Path → Now → Node → Prop
  | waiting {c : Option Path} {r : Coap.Req} {g : List Nat} {s : Nat} {h : Timer} :
      pathOf r = c → s ≠ 0 → isRunning h = false → (c.isSome = true → isStarted h = true) →
      Doing key b c (.waiting g s) ⟨key, r, ⟨true, some sessionTag, b, 0⟩, h, ⟨true, some g, s, 0⟩⟩
  | busy {k : Path} {s : Nat} : s ≠ 0 →
      Doing key b (some k) (.busy k s)
        ⟨key, k.req, ⟨true, some sessionTag, b, 0⟩, ⟨true, some (handleTag k), s, 0⟩, nullTimer⟩

theorem started {g : List Nat} {s e : Nat} (h : s ≠ 0) : isStarted ⟨true, some g, s, e⟩ = true := by
  simp [isStarted, h]

theorem not_started_null : isStarted nullTimer = false := rfl

theorem stopOpen_doing {key b c w n} (h : Doing key b c w n) (t : Nat) :
    stopOpen true t n = w.ends key t := by
  cases h with
  | waiting hr hs hh hc =>
    simp only [stopOpen, hh, started hs, Now.ends, stopTimer]
    rfl
  | @busy k s hs =>
    simp only [stopOpen, isRunning, started hs, isStopped, not_started_null, Now.ends, stopTimer,
      handled, name_word, handleTag]
    rfl

theorem reinit_doing {key b c w n} (h : Doing key b c w n) (t : Nat) (k : Path) (ht : t ≠ 0) :
    ∃ n', reinit true t k.req n = (n', w.ends key t) ∧ Doing key b (some k) (.busy k t) n' := by
  have hsess : n.session = ⟨true, some sessionTag, b, 0⟩ ∧ n.key = key := by
    cases h <;> exact ⟨rfl, rfl⟩
  refine ⟨⟨key, k.req, ⟨true, some sessionTag, b, 0⟩, ⟨true, some (handleTag k), t, 0⟩, nullTimer⟩, ?_,
    .busy ht⟩
  simp only [reinit, stopOpen_doing h, startReqTimers, pathOf_req, not_started_null, startTimer,
    hsess.1, hsess.2, Bool.not_true, Bool.not_false, Bool.false_eq_true, if_false, if_true,
    List.append_nil]

theorem fresh_step {key b c w n} (h : Doing key b c w n) (t : Nat) (k : Path) (again : Bool)
    (hg : c ≠ some k ∨ again = true) (ht : t ≠ 0) :
    ∃ n', turnStart true t key k again (some n) = (n', w.ends key t) ∧
      Doing key b (some k) (.busy k t) n' := by
  simp only [turnStart]
  by_cases h1 : n.cur = k.req ∧ again = true
  · rw [if_pos h1]; exact reinit_doing h t k ht
  · rw [if_neg h1]
    have hcur : n.cur ≠ k.req := by
      intro hk
      rcases hg with hg | hg
      · apply hg
        cases h with
        | waiting hr _ _ _ => dsimp only at hk; rw [hk, pathOf_req] at hr; exact hr.symm
        | busy _ => dsimp only at hk; rw [req_inj.1 hk]
      · exact h1 ⟨hk, hg⟩
    simp only [getReq]
    rw [if_pos ⟨hcur, req_ne_reset k⟩]
    exact reinit_doing h t k ht

theorem same_step {key b w n} {k : Path} (h : Doing key b (some k) w n) (t : Nat) :
    turnStart true t key k false (some n) = (n, []) := by
  have hcur : n.cur = k.req := by
    cases h with
    | waiting hr _ _ _ =>
      rename_i r _ _ _
      exact pathOf_some hr
    | busy _ => rfl
  simp only [turnStart]
  rw [if_neg (by simp)]
  simp only [getReq]
  rw [if_neg (by simp [hcur])]

theorem enterWait_busy {key b n} {k : Path} {s : Nat} (h : Doing key b (some k) (.busy k s) n) (e : Nat)
    (he : e ≠ 0) :
    ∃ n', enterWait true e n = (n', [handled key k s e]) ∧
      Doing key b (some k) (.waiting ([67, 111, 65, 80, 32, 114, 101, 113, 95, 103, 97, 112, 95, 116, 105, 109, 101, 114, 32] ++ name k) e) n' := by
  cases h with
  | busy hs =>
  refine ⟨⟨key, k.req, ⟨true, some sessionTag, b, 0⟩, ⟨true, some (handleTag k), s, e⟩,
    ⟨true, some (gapTag k), e, 0⟩⟩, ?_, ?_⟩
  · simp only [enterWait, pathOf_req, started hs, not_started_null, stopTimer, startTimer, handled,
      name_word, handleTag, Bool.not_true, Bool.not_false, Bool.false_eq_true, if_false, if_true]
  · rw [name_word]
    refine .waiting (pathOf_req k) he ?_ (fun _ => started hs)
    simp [isRunning, isStopped, he]

theorem rest_run {key b} {k : Path} {f : Option Nat} {l : List Op} (hr : Rest k f l) :
    ∀ {n : Node} {s : Nat}, Doing key b (some k) (.busy k s) n → (∀ e, f = some e → e ≠ 0) →
      ∀ l', ∃ n', run key (some n) (l ++ l') =
          answered key k s f ++ run key (some n') l' ∧
        Doing key b (some k) (Served.next ⟨k, s, f⟩) n' := by
  induction hr with
  | stop => intro n s hn _ l'; exact ⟨n, rfl, hn⟩
  | last t e =>
    intro n s hn hf l'
    obtain ⟨n', h1, h2⟩ := enterWait_busy hn e (hf e rfl)
    refine ⟨n', ?_, h2⟩
    simp only [List.cons_append, List.nil_append, run, step]
    rw [same_step hn t]
    simp only [h1, if_true, List.nil_append]
    rfl
  | more t t' _ ih =>
    intro n s hn hf l'
    obtain ⟨n', h1, h2⟩ := ih hn hf l'
    refine ⟨n', ?_, h2⟩
    simp only [List.cons_append, run, step]
    rw [same_step hn t]
    simpa using h1

theorem request_run {key b c w} {q : Served} {l : List Op} (hq : Request c q l) (hd : q.Dated) {n : Node}
    (hn : Doing key b c w n) (l' : List Op) :
    ∃ n', run key (some n) (l ++ l') = w.ends key q.begun ++
        answered key q.kind q.begun q.fin ++
        run key (some n') l' ∧
      Doing key b (some q.kind) q.next n' := by
  cases hq with
  | short again e hf hg =>
    obtain ⟨n1, h1, h2⟩ := fresh_step hn q.begun q.kind again hg hd.1
    obtain ⟨n', h3, h4⟩ := enterWait_busy h2 e (hd.2 e hf)
    refine ⟨n', ?_, by rw [Served.next, hf]; exact h4⟩
    simp only [List.cons_append, List.nil_append, run, step]
    rw [h1]
    simp only [h3, if_true, hf, answered]
  | @long again t' l hg hr =>
    obtain ⟨n1, h1, h2⟩ := fresh_step hn q.begun q.kind again hg hd.1
    obtain ⟨n', h3, h4⟩ := rest_run hr h2 hd.2 l'
    refine ⟨n', ?_, h4⟩
    simp only [List.cons_append, run, step]
    rw [h1]
    simp only [Bool.false_eq_true, if_false, h3, List.append_assoc]

theorem requests_run {key b} {c : Option Path} {qs : List Served} {l : List Op} (hq : Requests c qs l) :
    ∀ {w : Now} {n : Node}, (∀ q ∈ qs, q.Dated) → Doing key b c w n → ∀ e,
      run key (some n) (l ++ [.close true e]) = story key b e w qs := by
  induction hq with
  | nil c =>
    intro w n _ hn e
    have hs : stopTimer true e (some n.key) n.session =
        (1, ⟨true, some sessionTag, b, e⟩, [.line ⟨sessionTag, some key, b, e⟩]) := by
      cases hn <;> rfl
    have hg : getReq true e key .reset (some n) = (n, []) := by simp [getReq]
    simp only [List.nil_append, run, step, hg, story, remove, stopOpen_doing hn, hs, List.append_nil]
    rfl
  | cons h1 _ ih =>
    intro w n hd hn e
    rw [List.append_assoc]
    obtain ⟨n', h2, h3⟩ := request_run h1 (hd _ (List.mem_cons_self ..)) hn _
    rw [h2, ih (fun q hq => hd q (List.mem_cons_of_mem _ hq)) h3 e]
    simp only [story]

/-- With timers enabled the log of a CoAP session has, for every request the server can tell from
the one before, a line with its kind and the time from its first message to the last part of the
answer; a line for the time before each request, and one for the whole session.  A request
that was never answered is reported when the next one begins or the session ends. -/
theorem C113_session (key : List Nat) (b e : Nat) (hb : b ≠ 0) (qs : List Served)
    (hd : ∀ q ∈ qs, q.Dated) (ops : List Op) (h : Requests none qs ops) :
    run key none (.connect true b :: ops ++ [.close true e]) =
      story key b e (.waiting [67, 111, 65, 80, 32, 114, 101, 113, 95, 103, 97, 112, 95, 116, 105, 109, 101, 114] b) qs := by
  have := requests_run (key := key) (b := b) h (w := .waiting firstGapTag b)
    (n := ⟨key, .reset, ⟨true, some sessionTag, b, 0⟩, nullTimer, ⟨true, some firstGapTag, b, 0⟩⟩) hd
    (.waiting rfl hb rfl (fun h => by cases h)) e
  rw [show (Op.connect true b :: ops ++ [Op.close true e]) =
    Op.connect true b :: (ops ++ [Op.close true e]) from rfl]
  simp only [run, step, getReq, newNode, startReqTimers, pathOf, not_started_null, startTimer,
    Bool.not_true, Bool.not_false, Bool.false_eq_true, if_false, if_true, List.nil_append]
  exact this

/-- How long a line says something took; only lines for parts of a session count. -/
def share : Log → Int
  | .line l => if l.tag = [67, 111, 65, 80, 32, 115, 101, 115, 115, 105, 111, 110, 95, 116, 105, 109, 101, 114] then 0 else (l.stop : Int) - l.start
  | _ => 0

/-- The shares of a log together. -/
def total (l : List Log) : Int := (l.map share).sum

theorem total_append (a b : List Log) : total (a ++ b) = total a + total b := by
  simp [total]

/-- When it began. -/
def Now.since : Now → Nat
  | .waiting _ s => s
  | .busy _ s => s

/-- The tag is not that of the session. -/
def Now.Part : Now → Prop
  | .waiting g _ => g ≠ [67, 111, 65, 80, 32, 115, 101, 115, 115, 105, 111, 110, 95, 116, 105, 109, 101, 114]
  | .busy _ _ => True

theorem handled_share (key : List Nat) (k : Path) (b e : Nat) : share (handled key k b e) = (e : Int) - b := by
  unfold handled share
  dsimp only
  rw [if_neg]
  cases k <;> decide

theorem ends_total (key : List Nat) (t : Nat) (w : Now) (hw : w.Part) : total (w.ends key t) = (t : Int) - w.since := by
  cases w with
  | waiting g s =>
    simp only [Now.Part] at hw
    simp [Now.ends, total, share, hw, Now.since]
  | busy k s =>
    simp only [Now.ends, total, List.map, handled_share, Now.since, List.sum_cons, List.sum_nil]
    simp [share]

theorem next_part (q : Served) : q.next.Part := by
  unfold Served.next
  cases q.fin with
  | none => trivial
  | some e =>
    show _ ≠ _
    cases q.kind <;> decide

theorem story_total (key : List Nat) (b e : Nat) : ∀ (qs : List Served) (w : Now), w.Part →
    total (story key b e w qs) = (e : Int) - w.since
  | [], w, hw => by
    simp only [story]
    rw [show ∀ (x : Log) (l : List Log), x :: l = [x] ++ l from fun _ _ => rfl, total_append,
      ends_total key e w hw]
    simp [total, share]
  | q :: qs, w, hw => by
    simp only [story, total_append, ends_total key _ w hw, story_total key b e qs q.next (next_part q)]
    cases hf : q.fin with
    | none => simp only [answered, total, List.map, Served.next, hf, Now.since, List.sum_nil]; omega
    | some f => simp only [answered, total, List.map, handled_share, Served.next, hf, Now.since, List.sum_cons, List.sum_nil]; omega

/-- The times of waiting and of handling requests in the log add up to the length of the session. -/
theorem C113_parts_add_up (key : List Nat) (b e : Nat) (hb : b ≠ 0) (qs : List Served)
    (hd : ∀ q ∈ qs, q.Dated) (ops : List Op) (h : Requests none qs ops) :
    total (run key none (.connect true b :: ops ++ [.close true e])) = (e : Int) - b := by
  rw [C113_session key b e hb qs hd ops h, story_total]
  · rfl
  · show _ ≠ _
    decide

/-- Three requests, the second in two messages, the third not answered. -/
def exServed : List Served := [⟨.crts, 20, some 25⟩, ⟨.sen, 40, some 70⟩, ⟨.sen, 80, none⟩]

def exOps : List Op :=
  [.turn true true .crts false true 20 25] ++
  ([.turn true true .sen false false 40 45, .turn true true .sen false true 60 70] ++
  ([.turn true true .sen true false 80 85] ++ []))

theorem exRequests : Requests none exServed exOps :=
  .cons (.short false 25 rfl (.inl (by decide)))
    (.cons (.long false 45 (.inl (by decide)) (.last 60 70))
      (.cons (.long true 85 (.inr rfl) .stop) (.nil _)))

example : run [107] none (.connect true 10 :: exOps ++ [.close true 100]) = [
    .line ⟨[67, 111, 65, 80, 32, 114, 101, 113, 95, 103, 97, 112, 95, 116, 105, 109, 101, 114], some [107], 10, 20⟩,
    .line ⟨[67, 111, 65, 80, 32, 104, 97, 110, 100, 108, 101, 95, 114, 101, 113, 95, 116, 105, 109, 101, 114, 32, 99, 114, 116, 115], some [107], 20, 25⟩,
    .line ⟨[67, 111, 65, 80, 32, 114, 101, 113, 95, 103, 97, 112, 95, 116, 105, 109, 101, 114, 32, 99, 114, 116, 115], some [107], 25, 40⟩,
    .line ⟨[67, 111, 65, 80, 32, 104, 97, 110, 100, 108, 101, 95, 114, 101, 113, 95, 116, 105, 109, 101, 114, 32, 115, 101, 110], some [107], 40, 70⟩,
    .line ⟨[67, 111, 65, 80, 32, 114, 101, 113, 95, 103, 97, 112, 95, 116, 105, 109, 101, 114, 32, 115, 101, 110], some [107], 70, 80⟩,
    .line ⟨[67, 111, 65, 80, 32, 115, 101, 115, 115, 105, 111, 110, 95, 116, 105, 109, 101, 114], some [107], 10, 100⟩, .error,
    .line ⟨[67, 111, 65, 80, 32, 104, 97, 110, 100, 108, 101, 95, 114, 101, 113, 95, 116, 105, 109, 101, 114, 32, 115, 101, 110], some [107], 80, 100⟩] ∧
    total (run [107] none (.connect true 10 :: exOps ++ [.close true 100])) = 90 := by
  decide +kernel

/-- The second of two requests for CA certificates in a session is not told from the first: its line
counts from the beginning of the first, and the waiting time between them is missing. -/
theorem C113_repeated_false :
    run [107] none [.connect true 10, .turn true true .crts false true 20 25,
        .turn true true .crts false true 90 95, .close true 100] = [
      .line ⟨[67, 111, 65, 80, 32, 114, 101, 113, 95, 103, 97, 112, 95, 116, 105, 109, 101, 114], some [107], 10, 20⟩,
      .line ⟨[67, 111, 65, 80, 32, 104, 97, 110, 100, 108, 101, 95, 114, 101, 113, 95, 116, 105, 109, 101, 114, 32, 99, 114, 116, 115], some [107], 20, 25⟩,
      .line ⟨[67, 111, 65, 80, 32, 104, 97, 110, 100, 108, 101, 95, 114, 101, 113, 95, 116, 105, 109, 101, 114, 32, 99, 114, 116, 115], some [107], 20, 95⟩, .warn,
      .line ⟨[67, 111, 65, 80, 32, 115, 101, 115, 115, 105, 111, 110, 95, 116, 105, 109, 101, 114], some [107], 10, 100⟩,
      .line ⟨[67, 111, 65, 80, 32, 114, 101, 113, 95, 103, 97, 112, 95, 116, 105, 109, 101, 114, 32, 99, 114, 116, 115], some [107], 25, 100⟩] ∧
    total (run [107] none [.connect true 10, .turn true true .crts false true 20 25,
        .turn true true .crts false true 90 95, .close true 100]) ≠ 100 - 10 := by
  decide +kernel

/-! ## Every answer has its line -/

/-- The clock does not show the start of the epoch while an operation runs, and timers are enabled. -/
def Op.Timed : Op → Prop
  | .connect f t => f = true ∧ t ≠ 0
  | .turn f f' _ _ _ t t' => f = true ∧ f' = true ∧ t ≠ 0 ∧ t' ≠ 0
  | .close f t => f = true ∧ t ≠ 0

/-- A record that is used for a request has that request's timer. -/
def Busy (key : List Nat) (n : Node) : Prop :=
  n.key = key ∧ ∀ k, pathOf n.cur = some k →
    n.handle.ctx = true ∧ n.handle.tag = some (handleTag k) ∧ n.handle.start ≠ 0

theorem start_busy {key : List Nat} {n : Node} (h : n.key = key) (hn : n.handle = nullTimer) {t : Nat} (ht : t ≠ 0) :
    Busy key (startReqTimers true t n).1 := by
  unfold startReqTimers
  simp only [Bool.not_true, Bool.false_eq_true, if_false, hn, not_started_null, Bool.not_false, if_true]
  cases hp : pathOf n.cur with
  | none =>
    dsimp only
    split
    · exact ⟨h, fun k hk => by dsimp only at hk; rw [hp] at hk; cases hk⟩
    · exact ⟨h, fun k hk => by dsimp only at hk; rw [hp] at hk; cases hk⟩
  | some p =>
    refine ⟨h, fun k hk => ?_⟩
    dsimp only at hk
    rw [hp] at hk
    cases hk
    exact ⟨rfl, rfl, ht⟩

theorem reinit_busy {key : List Nat} {n : Node} (h : n.key = key) (r : Coap.Req) {t : Nat} (ht : t ≠ 0) :
    Busy key (reinit true t r n).1 :=
  start_busy (n := { n with cur := r, handle := nullTimer, gap := nullTimer }) h rfl ht

theorem get_busy {key : List Nat} {s : Option Node} (h : ∀ n, s = some n → Busy key n) {t : Nat} (ht : t ≠ 0)
    (r : Coap.Req) : Busy key (getReq true t key r s).1 := by
  unfold getReq
  split
  · exact start_busy rfl rfl ht
  · split
    · exact reinit_busy (h _ rfl).1 _ ht
    · exact h _ rfl

theorem get_cur {key : List Nat} {s : Option Node} (t : Nat) (p : Path) :
    (getReq true t key p.req s).1.cur = p.req := by
  have hs : ∀ on t n, (startReqTimers on t n).1.cur = n.cur := by
    intro on t n
    unfold startReqTimers
    split
    · rfl
    · split
      · split <;> rfl
      · split <;> rfl
  unfold getReq
  split
  · rw [hs]; rfl
  · rename_i n
    split
    · simp only [reinit, hs]
    · rename_i hn
      by_cases hc : n.cur = p.req
      · exact hc
      · exact absurd ⟨hc, req_ne_reset p⟩ hn

theorem turn_busy {key : List Nat} {s : Option Node} (h : ∀ n, s = some n → Busy key n) (p : Path) (again : Bool)
    {t : Nat} (ht : t ≠ 0) : Busy key (turnStart true t key p again s).1 ∧
      (turnStart true t key p again s).1.cur = p.req := by
  unfold turnStart
  cases s with
  | none => exact ⟨get_busy h ht _, get_cur t p⟩
  | some n =>
    dsimp only
    by_cases hc : n.cur = p.req ∧ again = true
    · rw [if_pos hc]
      refine ⟨reinit_busy (h n rfl).1 _ ht, ?_⟩
      simp only [reinit, startReqTimers, pathOf_req, not_started_null, Bool.not_true, Bool.not_false,
        Bool.false_eq_true, if_false, if_true]
    · rw [if_neg hc]
      exact ⟨get_busy h ht _, get_cur t p⟩

theorem wait_busy {key : List Nat} {n : Node} (h : Busy key n) {p : Path} (hp : n.cur = p.req) (e : Nat) :
    (∃ b, handled key p b e ∈ (enterWait true e n).2) ∧ Busy key (enterWait true e n).1 := by
  obtain ⟨hk, hb⟩ := h
  have hpp : pathOf n.cur = some p := by rw [hp, pathOf_req]
  obtain ⟨h1, h2, h3⟩ := hb p hpp
  have hst : isStarted n.handle = true := by simp [isStarted, h2, h3]
  have hstop : stopTimer true e (some n.key) n.handle =
      (1, { n.handle with stop := e }, [handled key p n.handle.start e]) := by
    simp only [stopTimer, h1, h2, hk, handled, name_word, handleTag, Bool.not_true, Bool.false_eq_true,
      if_false]
  unfold enterWait
  simp only [hpp, hst, hstop, Bool.not_true, Bool.false_eq_true, if_false, if_true]
  by_cases hg : isStarted n.gap = true
  · simp only [hg, Bool.not_true, Bool.false_eq_true, if_false]
    refine ⟨⟨_, List.mem_append_left _ (List.mem_singleton.2 rfl)⟩, hk, fun k hk' => ?_⟩
    exact hb k hk'
  · simp only [Bool.not_eq_true] at hg
    simp only [hg, Bool.not_false, if_true]
    exact ⟨⟨_, List.mem_singleton.2 rfl⟩, hk, fun k hk' => hb k hk'⟩

theorem step_busy {key : List Nat} {s : Option Node} (h : ∀ n, s = some n → Busy key n) {o : Op} (ho : o.Timed) :
    ∀ n, (step key s o).1 = some n → Busy key n := by
  cases o with
  | connect f t =>
    obtain ⟨rfl, ht⟩ := ho
    intro n hn
    simp only [step, Option.some.injEq] at hn
    rw [← hn]
    exact get_busy h ht _
  | close f t => intro n hn; simp [step] at hn
  | turn f f' p again last t t' =>
    obtain ⟨rfl, rfl, ht, _⟩ := ho
    intro n hn
    obtain ⟨hx, hc⟩ := turn_busy h p again ht
    simp only [step] at hn
    cases last with
    | false =>
      simp only [Bool.false_eq_true, if_false, Option.some.injEq] at hn
      rw [← hn]; exact hx
    | true =>
      simp only [if_true, Option.some.injEq] at hn
      rw [← hn]; exact (wait_busy hx hc t').2

theorem last_logged {key : List Nat} : ∀ (ops : List Op) (s : Option Node), (∀ n, s = some n → Busy key n) →
    (∀ o ∈ ops, o.Timed) → ∀ p again t t', Op.turn true true p again true t t' ∈ ops →
    ∃ b, handled key p b t' ∈ run key s ops
  | [], _, _, _, _, _, _, _, h => by cases h
  | o :: os, s, hs, ho, p, again, t, t', h => by
    rcases List.mem_cons.1 h with h | h
    · have hot := ho o (List.mem_cons_self ..)
      subst h
      obtain ⟨hx, hc⟩ := turn_busy hs p again hot.2.2.1
      obtain ⟨b, hb⟩ := (wait_busy hx hc t').1
      refine ⟨b, ?_⟩
      simp only [run, step, if_true]
      exact List.mem_append_left _ (List.mem_append_right _ hb)
    · obtain ⟨b, hb⟩ := last_logged os _ (step_busy hs (ho o (List.mem_cons_self ..)))
        (fun o' h' => ho o' (List.mem_cons_of_mem _ h')) p again t t' h
      exact ⟨b, List.mem_append_right _ hb⟩

/-- The operations on the timers of a session, given what happens to it and when. -/
def opsOf (odd : Bool → List Nat → List Nat) (cut : Coap.Cut) :
    Option Coap.Node → List (Coap.Act × Nat × Nat) → List Op
  | _, [] => []
  | s, (a, t, t') :: l =>
    (opOf odd cut true true t t' s a).toList ++ opsOf odd cut (Coap.ownStep odd cut s a).2 l

/-- The record of a session after some actions. -/
def recordAfter (odd : Bool → List Nat → List Nat) (cut : Coap.Cut) :
    Option Coap.Node → List (Coap.Act × Nat × Nat) → Option Coap.Node
  | s, [] => s
  | s, (a, _, _) :: l => recordAfter odd cut (Coap.ownStep odd cut s a).2 l

theorem ownRecord_eq (s : Option Coap.Node) (k : List Nat) (p : Path) :
    Coap.ownRecord s k p.req = coapRecord s k p.req := by
  cases s with
  | none => rfl
  | some n => simp [Coap.ownRecord, coapRecord, req_ne_reset p]

theorem opsOf_append (odd cut) : ∀ (l l' : List (Coap.Act × Nat × Nat)) (s : Option Coap.Node),
    opsOf odd cut s (l ++ l') = opsOf odd cut s l ++ opsOf odd cut (recordAfter odd cut s l) l'
  | [], _, _ => rfl
  | (a, t, t') :: l, l', s => by
    simp only [List.cons_append, opsOf, recordAfter, opsOf_append odd cut l l', List.append_assoc]

theorem opsOf_timed (odd cut) : ∀ (l : List (Coap.Act × Nat × Nat)) (s : Option Coap.Node),
    (∀ x ∈ l, x.2.1 ≠ 0 ∧ x.2.2 ≠ 0) → ∀ o ∈ opsOf odd cut s l, o.Timed
  | [], _, _, _, h => by cases h
  | (a, t, t') :: l, s, hl, o, h => by
    rcases List.mem_append.1 h with h | h
    · have ht := hl _ (List.mem_cons_self ..)
      cases a with
      | connect k => simp [opOf] at h; subst h; exact ⟨rfl, ht.1⟩
      | close k => simp [opOf] at h; subst h; exact ⟨rfl, ht.1⟩
      | msg est peer path m =>
        simp only [opOf] at h
        cases hp : Coap.precheck peer path m with
        | some r => simp [hp] at h
        | none =>
          simp only [hp, Option.toList, List.mem_singleton] at h
          subst h
          exact ⟨rfl, rfl, ht.1, ht.2⟩
    · exact opsOf_timed odd cut l _ (fun x hx => hl x (List.mem_cons_of_mem _ hx)) o h

/-- With timers enabled, every message of a session that gets as far as its record and is answered
with an error or with the last part of an answer has a line with the kind of its request, up to
that time. -/
theorem C113_every_end (odd) (cut : Coap.Cut) (key : List Nat) (past rest : List (Coap.Act × Nat × Nat))
    (est : Coap.Est) (peer : Coap.Peer) (path : Path) (m : Coap.Msg) (t t' : Nat)
    (hl : ∀ x ∈ past ++ (.msg est peer path m, t, t') :: rest, x.2.1 ≠ 0 ∧ x.2.2 ≠ 0)
    (hp : Coap.precheck peer path m = none)
    (hd : .done ∈ (Coap.ownStep odd cut (recordAfter odd cut none past) (.msg est peer path m)).1.2) :
    ∃ b, handled key path b t' ∈
      run key none (opsOf odd cut none (past ++ (.msg est peer path m, t, t') :: rest)) := by
  refine Exists.elim ?_ fun again h => last_logged _ none (fun _ h => by cases h)
    (opsOf_timed odd cut _ _ hl) path again t t' h
  rw [opsOf_append]
  simp only [opsOf, opOf, hp, Option.toList, List.mem_append, List.mem_cons]
  have : decide (Coap.Phase.done ∈ (Coap.nodeStep odd cut est path m
      (coapRecord (recordAfter odd cut none past) peer.key path.req)).evs) = true := by
    apply decide_eq_true
    simp only [Coap.ownStep, hp] at hd
    rw [ownRecord_eq] at hd
    exact hd
  rw [this]
  exact ⟨_, .inr (.inl (.inl rfl))⟩

/-- A history of the server with times: CA certificates, then an enrolment. -/
def exTimed : List (Coap.Act × Nat × Nat) :=
  [(.connect [65], 10, 11), (.msg Coap.exEst (Coap.exPeer 65) .crts Coap.exGet, 20, 25),
   (.msg Coap.exEst (Coap.exPeer 65) .sen Coap.exPost, 40, 70), (.close [65], 90, 91)]

example : opsOf (fun _ l => l) Coap.exCut none exTimed =
    [.connect true 10, .turn true true .crts false true 20 25, .turn true true .sen false true 40 70,
      .close true 90] := by
  decide +kernel

/-! ## Switching timers on and off -/

/-- Whether timers are enabled when an operation begins and when it ends. -/
def Op.flags : Op → Bool × Bool
  | .connect f _ => (f, f)
  | .turn f f' _ _ _ _ _ => (f, f')
  | .close f _ => (f, f)

/-- Timers may be switched off, but they are not switched on again. -/
def Falling : Bool → List Op → Prop
  | _, [] => True
  | f, o :: os => (o.flags.1 = true → f = true) ∧ (o.flags.2 = true → o.flags.1 = true) ∧
      Falling o.flags.2 os

/-- A record of a session that has always had its timers. -/
def Tagged (n : Node) : Prop := ∀ k, pathOf n.cur = some k → n.handle.tag.isSome = true

theorem stop_no_ub (on now id t) : Log.ub ∉ (stopTimer on now id t).2.2 := by
  unfold stopTimer
  split
  · simp
  · split
    · simp
    · split <;> simp

theorem open_no_ub (on now n) : Log.ub ∉ stopOpen on now n := by
  unfold stopOpen
  simp only [List.mem_append, not_or]
  constructor
  · split
    · simp [stop_no_ub]
    · simp
  · split
    · exact stop_no_ub _ _ _ _
    · simp

theorem start_no_ub (on now n) : Log.ub ∉ (startReqTimers on now n).2 := by
  unfold startReqTimers
  split
  · simp
  · split
    · split <;> simp
    · split <;> simp

theorem reinit_no_ub (on now r n) : Log.ub ∉ (reinit on now r n).2 := by
  simp [reinit, open_no_ub, start_no_ub]

theorem get_no_ub (on now key r s) : Log.ub ∉ (getReq on now key r s).2 := by
  unfold getReq
  split
  · exact start_no_ub _ _ _
  · split
    · exact reinit_no_ub _ _ _ _
    · simp

theorem wait_no_ub {on now n} (h : on = true → Tagged n) : Log.ub ∉ (enterWait on now n).2 := by
  unfold enterWait
  cases on with
  | false => simp
  | true =>
    simp only [Bool.not_true, Bool.false_eq_true, if_false]
    split
    · simp
    · rename_i p hp
      have ht : n.handle.tag.isNone = false := by
        have := h rfl p hp
        cases hh : n.handle.tag <;> simp_all
      have h1 : Log.ub ∉ (if isStarted n.handle then (stopTimer true now (some n.key) n.handle).2
        else (n.handle, [if n.handle.tag.isNone then Log.ub else Log.warn])).2 := by
        split
        · exact stop_no_ub _ _ _ _
        · simp [ht]
      split
      · exact h1
      · simp only [List.mem_append, not_or]; exact ⟨h1, by simp⟩

theorem start_tagged (now : Nat) (n : Node) : Tagged (startReqTimers true now n).1 := by
  intro k hk
  unfold startReqTimers at hk ⊢
  simp only [Bool.not_true, Bool.false_eq_true, if_false] at hk ⊢
  split at hk
  · rename_i hn
    split at hk <;> (dsimp only at hk; rw [hn] at hk; cases hk)
  · rename_i p hn
    by_cases hs : isStarted n.handle = true
    · simp only [hs, Bool.not_true, Bool.false_eq_true, if_false]
      unfold isStarted at hs
      simp only [Bool.and_eq_true] at hs
      exact hs.1
    · simp only [Bool.not_eq_true] at hs
      simp [hs, startTimer]

theorem get_tagged (now : Nat) (key : List Nat) (r : Coap.Req) (s : Option Node) (h : ∀ n, s = some n → Tagged n) :
    Tagged (getReq true now key r s).1 := by
  unfold getReq
  split
  · exact start_tagged _ _
  · split
    · exact start_tagged _ _
    · exact h _ rfl

theorem wait_tagged (on now) {n : Node} (h : Tagged n) : Tagged (enterWait on now n).1 := by
  intro k hk
  have hcur : (enterWait on now n).1.cur = n.cur := by
    unfold enterWait
    split
    · rfl
    · split
      · rfl
      · dsimp only; split <;> rfl
  rw [hcur] at hk
  have := h k hk
  have hs : ∀ id, (stopTimer on now id n.handle).2.1.tag = n.handle.tag := by
    intro id
    unfold stopTimer
    split
    · rfl
    · split
      · rfl
      · split <;> rfl
  unfold enterWait
  split
  · exact this
  · split
    · exact this
    · dsimp only
      split
      · split
        · rw [hs]; exact this
        · exact this
      · split
        · rw [hs]; exact this
        · exact this

theorem step_no_ub {key : List Nat} {s : Option Node} {o : Op} {f : Bool}
    (hf : o.flags.1 = true → f = true) (hf2 : o.flags.2 = true → o.flags.1 = true)
    (h : f = true → ∀ n, s = some n → Tagged n) :
    Log.ub ∉ (step key s o).2 ∧ (o.flags.2 = true → ∀ n, (step key s o).1 = some n → Tagged n) := by
  cases o with
  | connect on t =>
    simp only [Op.flags] at hf hf2 ⊢
    refine ⟨get_no_ub _ _ _ _ _, fun ho n hn => ?_⟩
    subst ho
    simp only [step, Option.some.injEq] at hn
    subst hn
    exact get_tagged _ _ _ _ (h (hf rfl))
  | close on t =>
    refine ⟨?_, fun _ n hn => by simp [step] at hn⟩
    simp only [step, remove, List.mem_append, not_or]
    exact ⟨get_no_ub _ _ _ _ _, stop_no_ub _ _ _ _, open_no_ub _ _ _⟩
  | turn on on' p again last t t' =>
    simp only [Op.flags] at hf hf2 ⊢
    have hx : Log.ub ∉ (turnStart on t key p again s).2 ∧
        (on = true → Tagged (turnStart on t key p again s).1) := by
      unfold turnStart
      cases s with
      | none =>
        refine ⟨get_no_ub _ _ _ _ _, fun ho => ?_⟩
        subst ho
        exact get_tagged _ _ _ _ (h (hf rfl))
      | some n =>
        dsimp only
        split
        · refine ⟨reinit_no_ub _ _ _ _, fun ho => ?_⟩
          subst ho
          exact start_tagged _ _
        · refine ⟨get_no_ub _ _ _ _ _, fun ho => ?_⟩
          subst ho
          exact get_tagged _ _ _ _ (h (hf rfl))
    obtain ⟨h1, h2⟩ := hx
    simp only [step]
    cases last with
    | false =>
      simp only [Bool.false_eq_true, if_false]
      refine ⟨h1, fun ho n hn => ?_⟩
      simp only [Option.some.injEq] at hn
      rw [← hn]
      exact h2 (hf2 ho)
    | true =>
      simp only [if_true, List.mem_append, not_or]
      refine ⟨⟨h1, wait_no_ub fun ho => h2 (hf2 ho)⟩, fun ho n hn => ?_⟩
      simp only [Option.some.injEq] at hn
      rw [← hn]
      exact wait_tagged _ _ (h2 (hf2 ho))

theorem run_no_ub {key : List Nat} : ∀ (ops : List Op) (s : Option Node) (f : Bool), Falling f ops →
    (f = true → ∀ n, s = some n → Tagged n) → Log.ub ∉ run key s ops
  | [], _, _, _, _ => by simp [run]
  | o :: os, s, f, hf, h => by
    obtain ⟨h1, h2, h3⟩ := hf
    obtain ⟨h4, h5⟩ := step_no_ub (key := key) h1 h2 h
    simp only [run, List.mem_append, not_or]
    exact ⟨h4, run_no_ub os _ _ h3 h5⟩

/-- As long as timers are not switched on during a session, no message of the log has a null pointer
for a text. -/
theorem C113_not_switched_on_partial (key : List Nat) (ops : List Op) (h : Falling true ops) :
    Log.ub ∉ run key none ops :=
  run_no_ub ops none true h (fun _ _ hn => by cases hn)

example : Falling true [.connect true 10, .turn true false .sen false true 20 25, .close false 30] := by
  simp [Falling, Op.flags]

/-- Timers that are switched on while a request is handled: a null pointer is printed with `%s`. -/
theorem C113_switched_on_false :
    Log.ub ∈ run [107] none [.connect false 10, .turn false true .sen false true 20 25] := by
  decide +kernel

/-- A record of a session that has never had its timers. -/
def Untimed (n : Node) : Prop :=
  n.session.ctx = true ∧ n.session.tag = none ∧ n.handle.tag = none ∧ n.gap.tag = none

theorem untimed_open {n : Node} (h : Untimed n) (t : Nat) : stopOpen false t n = [] := by
  simp [stopOpen, isRunning, isStarted, h.2.2.1, h.2.2.2]

theorem untimed_get (t key r) (s : Option Node) (h : ∀ n, s = some n → Untimed n) :
    (getReq false t key r s).2 = [] ∧ Untimed (getReq false t key r s).1 := by
  cases s with
  | none => exact ⟨rfl, rfl, rfl, rfl, rfl⟩
  | some n =>
    simp only [getReq]
    split
    · simp only [reinit, untimed_open (h n rfl)]
      exact ⟨rfl, rfl, (h n rfl).2.1, rfl, rfl⟩
    · exact ⟨rfl, h n rfl⟩

theorem untimed_step {key : List Nat} {s : Option Node} {o : Op} (ho : o.flags = (false, false))
    (h : ∀ n, s = some n → Untimed n) :
    (step key s o).2 = [] ∧ ∀ n, (step key s o).1 = some n → Untimed n := by
  cases o with
  | connect on t =>
    simp only [Op.flags, Prod.mk.injEq] at ho
    rw [ho.1]
    obtain ⟨h1, h2⟩ := untimed_get t key .reset s h
    exact ⟨h1, fun n hn => by simp only [step, Option.some.injEq] at hn; rw [← hn]; exact h2⟩
  | close on t =>
    simp only [Op.flags, Prod.mk.injEq] at ho
    rw [ho.1]
    obtain ⟨h1, h2⟩ := untimed_get t key .reset s h
    refine ⟨?_, fun n hn => by simp [step] at hn⟩
    simp only [step, h1, remove, untimed_open h2, stopTimer, h2.1]
    rfl
  | turn on on' p again last t t' =>
    simp only [Op.flags, Prod.mk.injEq] at ho
    obtain ⟨rfl, rfl⟩ := ho
    have hx : (turnStart false t key p again s).2 = [] ∧ Untimed (turnStart false t key p again s).1 := by
      unfold turnStart
      cases s with
      | none => exact untimed_get _ _ _ _ h
      | some n =>
        dsimp only
        split
        · simp only [reinit, untimed_open (h n rfl)]
          exact ⟨rfl, rfl, (h n rfl).2.1, rfl, rfl⟩
        · exact untimed_get _ _ _ _ h
    obtain ⟨h1, h2⟩ := hx
    simp only [step]
    cases last with
    | false =>
      simp only [Bool.false_eq_true, if_false]
      exact ⟨h1, fun n hn => by simp only [Option.some.injEq] at hn; rw [← hn]; exact h2⟩
    | true =>
      simp only [if_true]
      exact ⟨List.append_eq_nil_iff.2 ⟨h1, rfl⟩, fun n hn => by simp only [Option.some.injEq] at hn; rw [← hn]; exact h2⟩

/-- With timers disabled, as they are by default, nothing is logged. -/
theorem C113_disabled (key : List Nat) (ops : List Op) (h : ∀ o ∈ ops, o.flags = (false, false)) :
    run key none ops = [] := by
  have : ∀ (ops : List Op) (s : Option Node), (∀ o ∈ ops, o.flags = (false, false)) →
      (∀ n, s = some n → Untimed n) → run key s ops = [] := by
    intro ops
    induction ops with
    | nil => intro s _ _; rfl
    | cons o os ih =>
      intro s ho hs
      obtain ⟨h1, h2⟩ := untimed_step (key := key) (ho o (List.mem_cons_self ..)) hs
      simp only [run, h1, List.nil_append]
      exact ih _ (fun o' ho' => ho o' (List.mem_cons_of_mem _ ho')) h2
  exact this ops none h (fun _ hn => by cases hn)

example : ∀ o ∈ [Op.connect false 10, .turn false false .sen false true 20 25, .close false 30],
    o.flags = (false, false) := by decide

/-! ## The time between two calls of the application -/

/-- With timers enabled every call but the first logs how long the server was not called. -/
theorem C113_down_time (d : Down) (hd : d.init = false) (t0 e0 : Nat) : ∀ (l : List (Nat × Nat)),
    runMany d ((true, true, t0, e0) :: l.map fun x => (true, true, x.1, x.2)) =
      (((t0, e0) :: l).zip l).map fun x =>
        .line ⟨[67, 111, 65, 80, 32, 68, 111, 119, 110, 32, 84, 105, 109, 101, 32, 84, 105, 109, 101, 114], none, x.1.2, x.2.1⟩ := by
  have h : ∀ (l : List (Nat × Nat)) (p : Nat × Nat),
      runMany ⟨⟨true, some [67, 111, 65, 80, 32, 68, 111, 119, 110, 32, 84, 105, 109, 101, 32, 84, 105, 109, 101, 114], p.2, 0⟩, true⟩ (l.map fun x => (true, true, x.1, x.2)) =
        ((p :: l).zip l).map fun x => .line ⟨[67, 111, 65, 80, 32, 68, 111, 119, 110, 32, 84, 105, 109, 101, 32, 84, 105, 109, 101, 114], none, x.1.2, x.2.1⟩ := by
    intro l
    induction l with
    | nil => intro p; rfl
    | cons a l ih =>
      intro p
      have := ih a
      simp only [List.map_cons, runMany, List.zip_cons_cons]
      simp only [runOnce, if_true, stopTimer, Bool.not_true, Bool.false_eq_true, if_false, startTimer,
        Bool.true_or]
      rw [this]
      rfl
  intro l
  simp only [runMany, runOnce, hd, Bool.false_eq_true, if_false, startTimer, if_true, Bool.false_or,
    List.nil_append]
  exact h l (t0, e0)

/-- Whatever the flag is at each time, no message of these calls has a null pointer for a text. -/
theorem C113_down_time_safe : ∀ (l : List (Bool × Bool × Nat × Nat)) (d : Down), Log.ub ∉ runMany d l
  | [], _ => by simp [runMany]
  | (a, b, t, t') :: l, d => by
    simp only [runMany, List.mem_append, not_or]
    refine ⟨?_, C113_down_time_safe l _⟩
    simp only [runOnce]
    split
    · exact stop_no_ub _ _ _ _
    · simp

/-- What is logged about the time between calls when the timers are switched on and off: the time since
the last call if they were on at its end and are on now; a complaint if they are on now and were on at
some time, but not at the end of the last call.  `was`: on at the end of some call; `prev`: when the last
call ended, if they were on then. -/
def gaps : Bool → Option Nat → List (Bool × Bool × Nat × Nat) → List Log
  | _, _, [] => []
  | was, prev, (a, b, t, t') :: l =>
    (if a then match prev with
      | some e => [.line ⟨[67, 111, 65, 80, 32, 68, 111, 119, 110, 32, 84, 105, 109, 101, 32, 84, 105, 109, 101, 114], none, e, t⟩]
      | none => if was then [.error] else []
     else []) ++ gaps (was || b) (if b then some t' else none) l

/-- The log of any sequence of calls, with the timers on or off at the beginning and the end of each. -/
theorem C113_down_time_switched (l : List (Bool × Bool × Nat × Nat)) :
    runMany ⟨nullTimer, false⟩ l = gaps false none l := by
  have h : ∀ (l : List (Bool × Bool × Nat × Nat)) (was b : Bool) (e : Nat),
      runMany ⟨startTimer b e [67, 111, 65, 80, 32, 68, 111, 119, 110, 32, 84, 105, 109, 101, 32, 84, 105, 109, 101, 114], was || b⟩ l =
        gaps (was || b) (if b then some e else none) l := by
    intro l
    induction l with
    | nil => intros; rfl
    | cons x l ih =>
      obtain ⟨a, b', t, t'⟩ := x
      intro was b e
      have := ih (was || b) b' t'
      simp only [runMany, gaps]
      have e2 : (runOnce a b' t t' ⟨startTimer b e [67, 111, 65, 80, 32, 68, 111, 119, 110, 32, 84, 105, 109, 101, 32, 84, 105, 109, 101, 114], was || b⟩).1 =
          ⟨startTimer b' t' [67, 111, 65, 80, 32, 68, 111, 119, 110, 32, 84, 105, 109, 101, 32, 84, 105, 109, 101, 114], (was || b) || b'⟩ := rfl
      rw [e2, this]
      congr 1
      cases a <;> cases b <;> cases was <;> simp [runOnce, stopTimer, startTimer]
  cases l with
  | nil => rfl
  | cons x l =>
    obtain ⟨a, b, t, t'⟩ := x
    have := h l false b t'
    simp only [Bool.false_or] at this
    cases a <;> simp [runMany, gaps, runOnce, this]

example : runMany ⟨nullTimer, false⟩ [(true, true, 5, 7), (true, false, 12, 20), (true, true, 21, 22), (false, true, 30, 31)] =
    [.line ⟨[67, 111, 65, 80, 32, 68, 111, 119, 110, 32, 84, 105, 109, 101, 32, 84, 105, 109, 101, 114], none, 7, 12⟩, .error] := by
  decide +kernel

example : runMany ⟨nullTimer, false⟩ [(true, true, 5, 7), (true, true, 12, 20), (true, true, 21, 22)] =
    [.line ⟨[67, 111, 65, 80, 32, 68, 111, 119, 110, 32, 84, 105, 109, 101, 32, 84, 105, 109, 101, 114], none, 7, 12⟩, .line ⟨[67, 111, 65, 80, 32, 68, 111, 119, 110, 32, 84, 105, 109, 101, 32, 84, 105, 109, 101, 114], none, 20, 21⟩] := by
  decide +kernel

/-! ## HTTP requests -/

/-- The name of an operation in the log; BRSKI requests have none. -/
def opName : EstUri.Op → Option (List Nat)
  | .cacerts => some [99, 97, 99, 101, 114, 116, 115]
  | .csrattrs => some [99, 115, 114, 97, 116, 116, 114, 115]
  | .simpleEnroll => some [115, 105, 109, 112, 108, 101, 101, 110, 114, 111, 108, 108]
  | .simpleReenroll => some [115, 105, 109, 112, 108, 101, 114, 101, 101, 110, 114, 111, 108, 108]
  | .serverKeygen => some [115, 101, 114, 118, 101, 114, 107, 101, 121, 103, 101, 110]
  | _ => none

/-- What stands for the kind of an enrolment. -/
def enrolName : EstUri.Op → Option (List Nat)
  | .simpleEnroll => some [83, 73, 77, 80, 76, 69, 95, 69, 78, 82, 79, 76, 76, 95, 82, 69, 81]
  | .simpleReenroll => some [82, 69, 69, 78, 82, 79, 76, 76, 95, 82, 69, 81]
  | .serverKeygen => some [83, 69, 82, 86, 69, 82, 75, 69, 89, 71, 69, 78, 95, 82, 69, 81]
  | _ => none

/-- A line with the number of the process. -/
def lineOf (pid tag : List Nat) (b e : Nat) : Log := .line ⟨tag, some pid, b, e⟩

/-- Two lines are for the endpoint events, one is for the request, an error takes its place for BRSKI
requests. -/
def httpStory (pid : List Nat) (t : Nat → Nat) : Way → List Log
  | .badUri => [lineOf pid [72, 84, 84, 80, 32, 101, 115, 116, 95, 105, 110, 118, 111, 107, 101, 95, 101, 110, 100, 112, 111, 105, 110, 116, 95, 114, 101, 113, 95, 101, 118, 101, 110, 116, 95, 99, 98, 32, 82, 69, 81, 95, 83, 84, 65, 82, 84] (t 0) (t 2)]
  | .refused op =>
    lineOf pid [72, 84, 84, 80, 32, 101, 115, 116, 95, 105, 110, 118, 111, 107, 101, 95, 101, 110, 100, 112, 111, 105, 110, 116, 95, 114, 101, 113, 95, 101, 118, 101, 110, 116, 95, 99, 98, 32, 82, 69, 81, 95, 83, 84, 65, 82, 84] (t 0) (t 2) ::
    match opName op with
    | some g => [lineOf pid ([72, 84, 84, 80, 32] ++ g ++ [32, 114, 101, 113]) (t 3) (t 8)]
    | none => [.error]
  | .handled op reqCb rspCb good =>
    [lineOf pid [72, 84, 84, 80, 32, 101, 115, 116, 95, 105, 110, 118, 111, 107, 101, 95, 101, 110, 100, 112, 111, 105, 110, 116, 95, 114, 101, 113, 95, 101, 118, 101, 110, 116, 95, 99, 98, 32, 82, 69, 81, 95, 83, 84, 65, 82, 84] (t 0) (t 2)] ++
    (match enrolName op with
    | some g =>
      (if reqCb then [lineOf pid ([72, 84, 84, 80, 32, 101, 115, 116, 95, 105, 110, 118, 111, 107, 101, 95, 101, 110, 114, 111, 108, 108, 95, 114, 101, 113, 95, 101, 118, 101, 110, 116, 95, 99, 98, 32] ++ g) (t 4) (t 5)] else []) ++
      (if rspCb then [lineOf pid ([72, 84, 84, 80, 32, 101, 115, 116, 95, 105, 110, 118, 111, 107, 101, 95, 101, 110, 114, 111, 108, 108, 95, 114, 115, 112, 95, 101, 118, 101, 110, 116, 95, 99, 98, 32] ++ g) (t 6) (t 7)] else [])
    | none => []) ++
    (match opName op with
    | some g => [lineOf pid ([72, 84, 84, 80, 32] ++ g ++ [32, 114, 101, 113]) (t 3) (t 8)]
    | none => [.error]) ++
    (if good then [lineOf pid [72, 84, 84, 80, 32, 101, 115, 116, 95, 105, 110, 118, 111, 107, 101, 95, 101, 110, 100, 112, 111, 105, 110, 116, 95, 114, 101, 113, 95, 101, 118, 101, 110, 116, 95, 99, 98, 32, 82, 69, 81, 95, 69, 78, 68] (t 9) (t 10)] else [])

theorem around_on (pid : List Nat) (t t' : Nat) (e : Event) :
    around true true t t' (some pid) e = [lineOf pid e.tag t t'] := rfl

/-- With timers enabled an HTTP request logs a line for itself, from the time its URI was understood to
the time the handler is done, and one for every event callback. -/
theorem C113_http (pid : List Nat) (on : Nat → Bool) (h : ∀ i, on i = true) (t : Nat → Nat) (w : Way) :
    request pid on t w = httpStory pid t w := by
  cases w with
  | badUri => simp only [request, h]; rfl
  | refused op => simp only [request, h]; cases op <;> rfl
  | handled op a b c =>
    simp only [request, h]
    cases op <;> cases a <;> cases b <;> cases c <;> rfl

/-- With timers disabled it logs nothing. -/
theorem C113_http_disabled (pid : List Nat) (on : Nat → Bool) (h : ∀ i, on i = false) (t : Nat → Nat) (w : Way) :
    request pid on t w = [] := by
  cases w with
  | badUri => simp only [request, h]; rfl
  | refused op => simp only [request, h]; cases op <;> rfl
  | handled op a b c =>
    simp only [request, h]
    cases op <;> cases a <;> cases b <;> cases c <;> rfl

theorem around_safe {f f' : Bool} (hf : f' = true → f = true) (t t' : Nat) (id : Option (List Nat)) (e : Event)
    (hid : f' = true → id.isSome = true) : Log.ub ∉ around f f' t t' id e := by
  unfold around stopVar
  cases id with
  | some i => exact stop_no_ub _ _ _ _
  | none =>
    cases f' with
    | true => cases hid rfl
    | false => simp; exact stop_no_ub _ _ _ _

/-- As long as timers are not switched on during a request, its log is well-formed. -/
theorem C113_http_not_switched_on_partial (pid : List Nat) (on : Nat → Bool)
    (h : ∀ i j, i ≤ j → on j = true → on i = true) (t : Nat → Nat) (w : Way) :
    Log.ub ∉ request pid on t w := by
  have hid : ∀ i, 1 ≤ i → on i = true → (if on 1 = true then some pid else none).isSome = true := by
    intro i hi ho
    rw [if_pos (h 1 i hi ho)]; rfl
  have har : ∀ i j e, i ≤ j → 1 ≤ j →
      Log.ub ∉ around (on i) (on j) (t i) (t j) (if on 1 = true then some pid else none) e := by
    intro i j e hij hj
    exact around_safe (h i j hij) _ _ _ _ (hid j hj)
  have hstart : ∀ op, Log.ub ∉ (startHttp (on 3) (t 3) op).2 := by
    intro op
    unfold startHttp
    split
    · simp
    · split <;> simp
  have hstop : ∀ op, (httpTag op).isSome = true →
      Log.ub ∉ stopVar (on 8) (t 8) (if on 1 = true then some pid else none) (startHttp (on 3) (t 3) op).1 := by
    intro op hop
    obtain ⟨g, hg⟩ := Option.isSome_iff_exists.1 hop
    cases h8 : on 8 with
    | false =>
      cases h3 : on 3 with
      | false => simp [startHttp, stopVar]
      | true =>
        rw [if_pos (h 1 3 (by omega) h3)]
        simp only [startHttp, hg, stopVar]
        exact stop_no_ub _ _ _ _
    | true =>
      rw [if_pos (h 1 8 (by omega) h8), h 3 8 (by omega) h8]
      simp only [startHttp, hg, stopVar]
      exact stop_no_ub _ _ _ _
  cases w with
  | badUri => exact har 0 2 _ (by omega) (by omega)
  | refused op =>
    simp only [request, List.mem_append, not_or]
    refine ⟨⟨har 0 2 _ (by omega) (by omega), hstart op⟩, ?_⟩
    split
    · exact hstop op ‹_›
    · simp
  | handled op a b c =>
    simp only [request, List.mem_append, not_or]
    refine ⟨⟨⟨⟨⟨har 0 2 _ (by omega) (by omega), hstart op⟩, ?_⟩, ?_⟩, ?_⟩, ?_⟩
    · split
      · exact har 4 5 _ (by omega) (by omega)
      · simp
    · split
      · exact har 6 7 _ (by omega) (by omega)
      · simp
    · split
      · exact hstop op ‹_›
      · simp
    · split
      · exact har 9 10 _ (by omega) (by omega)
      · simp

example : ∀ i j, i ≤ j → (decide (j < 5)) = true → (decide (i < 5)) = true := by
  intro i j h; simp; omega

/-- Timers that are switched on while an HTTP request is handled: the tag of a timer that was
never initialised is read. -/
theorem C113_http_switched_on_false :
    Log.ub ∈ request [55, 55] (fun i => decide (8 ≤ i)) (fun i => i + 1) (.handled .cacerts false false true) := by
  decide +kernel

/-! ## The text of a line -/

/-- The number a text of decimal digits stands for. -/
def number (l : List Nat) : Nat := l.foldl (fun a d => 10 * a + (d - 48)) 0

theorem number_decimal : ∀ n, number (ClientResp.decimal n) = n := by
  intro n
  induction n using Nat.strongRecOn with
  | ind n ih =>
    rw [ClientResp.decimal]
    split
    · simp [number]
    · rename_i hn
      have := ih (n / 10) (by omega)
      unfold number at this ⊢
      rw [List.foldl_append, this]
      simp only [List.foldl]
      omega

theorem number_six (n : Nat) (h : n < 1000000) : number (six n) = n := by
  simp only [number, six, List.foldl]
  omega

/-- The text of a line has its tag, the identification if there is one, and the time in seconds with
six digits after the point. -/
theorem C113_text (l : Line) (h : l.start ≤ l.stop) :
    ∃ a b, l.text = l.tag ++ (match l.id with | none => [] | some i => [45, 45] ++ i) ++ [32, 61, 62, 32] ++ a ++
        [46] ++ b ++ [32, 115, 101, 99, 111, 110, 100, 115] ∧
      b.length = 6 ∧ number a * 1000000 + number b = l.stop - l.start := by
  refine ⟨signed (secs l), six (usecs l), rfl, rfl, ?_⟩
  have h1 : secs l = ((l.stop - l.start) / 1000000 : Nat) := by
    unfold secs
    omega
  have h2 : usecs l = (l.stop - l.start) % 1000000 := by
    unfold usecs
    omega
  rw [h1, h2]
  unfold signed
  rw [if_neg (by omega), Int.natAbs_natCast, number_decimal, number_six _ (by omega)]
  omega

example : Line.text ⟨[67, 111, 65, 80, 32, 115, 101, 115, 115, 105, 111, 110, 95, 116, 105, 109, 101, 114], some [53, 54, 56, 52, 58, 58, 49], 1500000, 3750042⟩ =
    [67, 111, 65, 80, 32, 115, 101, 115, 115, 105, 111, 110, 95, 116, 105, 109, 101, 114, 45, 45, 53, 54, 56, 52, 58, 58, 49, 32, 61, 62, 32, 50, 46, 50, 53, 48, 48, 52, 50, 32, 115, 101, 99, 111, 110, 100, 115] := by
  decide +kernel

end Verif.Timer
