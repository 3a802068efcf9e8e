import Verif.IoModel

/-!
# C123: waiting and reading end in time, and what is read and written is complete

The specifications speak about the answers of the operating system and of the TLS library in
the order of the calls, the bytes the peer sent, and the bytes that arrive.
-/
namespace Verif.Io

/-! ### The server waits -/

/-- A quiet poll with nothing inside the TLS library and no request to stop. -/
def idle : Pass := ⟨.quiet 0, false⟩

/-- A pass that ends the waiting whatever the time: something to read, a failure other than a
signal, or the server is told to stop. -/
def Decides (p : Pass) : Prop := p.stop = true ∨ p.poll = .ready ∨ p.poll = .fail ∨
  ∃ n, p.poll = .quiet (n + 1)

theorem idle_or_decides (p : Pass) (h : p.poll ≠ .intr) : p = idle ∨ Decides p := by
  obtain ⟨q, s⟩ := p
  cases s
  · cases q with
    | quiet n => cases n with
      | zero => exact Or.inl rfl
      | succ n => exact Or.inr (Or.inr (Or.inr (Or.inr ⟨n, rfl⟩)))
    | ready => exact Or.inr (Or.inr (Or.inl rfl))
    | intr => exact absurd rfl h
    | fail => exact Or.inr (Or.inr (Or.inr (Or.inl rfl)))
  · exact Or.inr (Or.inl rfl)

theorem waitLoop_idle (limit total : Nat) (ps : List Pass) (h : total + 250 ≤ limit) :
    waitLoop limit total (idle :: ps) = waitLoop limit (total + 250) ps := by
  have h1 : ¬ (limit < total + 250 ∧ idle.poll.result = 0) := fun x => by omega
  rw [waitLoop, if_neg h1, if_pos ⟨Or.inl rfl, rfl⟩]

theorem waitLoop_late (limit total : Nat) (ps : List Pass) (h : limit < total + 250) :
    waitLoop limit total (idle :: ps) = (.giveUp true, ps) := by
  rw [waitLoop, if_pos ⟨h, rfl⟩]

/-- Whether a deciding pass lets the reading go on. -/
def ok (p : Pass) : Bool :=
  !p.stop && (match p.poll with | .ready => true | .quiet (_ + 1) => true | _ => false)

theorem waitLoop_decides (limit total : Nat) (p : Pass) (ps : List Pass) (h : Decides p) :
    ∃ w, waitLoop limit total (p :: ps) = (w, ps) ∧ w ≠ .blocked ∧
      (w = .readable ↔ ok p = true) := by
  obtain ⟨q, s⟩ := p
  rw [waitLoop]
  by_cases h1 : limit < total + 250 ∧ (Pass.mk q s).poll.result = 0
  · rw [if_pos h1]
    refine ⟨_, rfl, by simp, ?_⟩
    have h2 := h1.2
    cases q with
    | quiet n => cases n with
      | zero => simp [ok]
      | succ n => simp [Poll.result] at h2; omega
    | ready => simp [Poll.result] at h2
    | intr => simp [Poll.result] at h2
    | fail => simp [Poll.result] at h2
  · rw [if_neg h1]
    cases s
    · cases q with
      | quiet n => cases n with
        | zero => rcases h with h | h | h | ⟨n, h⟩ <;> simp at h
        | succ n =>
          have e : ¬ ((n : Int) + 1 = 0) := by omega
          have e' : ¬ ((n : Int) + 1 < 0) := by omega
          refine ⟨.readable, ?_, by simp, by simp [ok]⟩
          simp [Poll.result, e, e']
      | ready => exact ⟨.readable, by simp [Poll.result], by simp, by simp [ok]⟩
      | intr => rcases h with h | h | h | ⟨n, h⟩ <;> simp at h
      | fail => exact ⟨.giveUp false, by simp [Poll.result], by simp, by simp [ok]⟩
    · exact ⟨.giveUp false, by simp, by simp, by simp [ok]⟩

theorem waitLoop_run (limit : Nat) : ∀ (n total : Nat) (ps : List Pass), total + n * 250 ≤ limit →
    waitLoop limit total (List.replicate n idle ++ ps) = waitLoop limit (total + n * 250) ps := by
  intro n
  induction n with
  | zero => intro total ps _; simp
  | succ n ih =>
    intro total ps h
    rw [List.replicate_succ, List.cons_append, waitLoop_idle _ _ _ (by omega),
      ih _ _ (by omega)]
    congr 1; omega

/-- C123: with a read time-out of `t` seconds the server gives up on a silent connection after
exactly `4t + 1` polls of a quarter of a second, and marks it to be closed. -/
theorem C123_server_time_out (t : Nat) (ps : List Pass) :
    waitReadable t (List.replicate (4 * t + 1) idle ++ ps) = (.giveUp true, ps) := by
  have h := waitLoop_run (t * 1000) (4 * t) 0 (idle :: ps) (by omega)
  have e : List.replicate (4 * t + 1) idle ++ ps = List.replicate (4 * t) idle ++ idle :: ps := by
    rw [List.replicate_succ']; simp
  unfold waitReadable
  rw [e, h, waitLoop_late _ _ _ (by omega)]

/-- C123: within those `4t + 1` polls the first one that is not quiet decides: the server reads
if there is something to read, and gives up if the poll fails or the server was told to stop. -/
theorem C123_server_wait_decided (t n : Nat) (p : Pass) (ps : List Pass) (hn : n ≤ 4 * t)
    (hp : Decides p) :
    ∃ w, waitReadable t (List.replicate n idle ++ p :: ps) = (w, ps) ∧ w ≠ .blocked ∧
      (w = .readable ↔ ok p = true) := by
  unfold waitReadable
  rw [waitLoop_run (t * 1000) n 0 _ (by omega)]
  exact waitLoop_decides _ _ _ _ hp

/-- The hypotheses hold for a peer that starts to send in the third quarter of a second. -/
example : waitReadable 10 [idle, idle, ⟨.ready, false⟩, idle] = (.readable, [idle]) := by decide

/-- … and for a server that is told to stop meanwhile. -/
example : waitReadable 10 [idle, ⟨.quiet 0, true⟩, idle] = (.giveUp false, [idle]) := by decide

theorem split_idle (n : Nat) : ∀ ps : List Pass, (∀ p ∈ ps, p.poll ≠ .intr) → n ≤ ps.length →
    (∃ rest, ps = List.replicate n idle ++ rest) ∨
    ∃ k p rest, k < n ∧ ps = List.replicate k idle ++ p :: rest ∧ Decides p := by
  induction n with
  | zero => intro ps _ _; exact Or.inl ⟨ps, by simp⟩
  | succ n ih =>
    intro ps hp hl
    cases ps with
    | nil => simp at hl
    | cons p ps =>
      rcases idle_or_decides p (hp p (by simp)) with h | h
      · rcases ih ps (fun q hq => hp q (by simp [hq])) (by simpa using hl) with
          ⟨rest, hr⟩ | ⟨k, q, rest, hk, hr, hd⟩
        · exact Or.inl ⟨rest, by rw [List.replicate_succ, hr, h]; rfl⟩
        · exact Or.inr ⟨k + 1, q, rest, by omega, by rw [List.replicate_succ, hr, h]; rfl, hd⟩
      · exact Or.inr ⟨0, p, ps, by omega, by simp, h⟩

/-- C123 (partial): as long as no signal interrupts a poll, the waiting is over after at most
`4t + 1` polls, whatever the peer does.  Missing: polls interrupted by signals, see
`C123_signals_false`. -/
theorem C123_server_wait_bounded_partial (t : Nat) (ps : List Pass)
    (hi : ∀ p ∈ ps, p.poll ≠ .intr) (hl : 4 * t + 1 ≤ ps.length) :
    ∃ used rest w, ps = used ++ rest ∧ used.length ≤ 4 * t + 1 ∧
      waitReadable t ps = (w, rest) ∧ w ≠ .blocked := by
  rcases split_idle (4 * t + 1) ps hi hl with ⟨rest, hr⟩ | ⟨k, p, rest, hk, hr, hd⟩
  · refine ⟨List.replicate (4 * t + 1) idle, rest, .giveUp true, hr, by simp, ?_, by simp⟩
    rw [hr]; exact C123_server_time_out t rest
  · obtain ⟨w, hw, hb, -⟩ := C123_server_wait_decided t k p rest (by omega) hd
    refine ⟨List.replicate k idle ++ [p], rest, w, by simp [hr], by simp; omega, ?_, hb⟩
    rw [hr]; exact hw

example : (∀ p ∈ List.replicate 5 idle, p.poll ≠ .intr) ∧
    4 * 1 + 1 ≤ (List.replicate 5 idle).length ∧
    waitReadable 1 (List.replicate 5 idle) = (.giveUp true, []) := by decide

/-- Which passes were used: all but the last leave the stop flag alone. -/
theorem waitLoop_stop (limit : Nat) : ∀ (ps : List Pass) (total : Nat) (w : Wait)
    (rest : List Pass), waitLoop limit total ps = (w, rest) → w ≠ .blocked →
    ∃ pre last, ps = pre ++ last :: rest ∧ (∀ p ∈ pre, p.stop = false) ∧
      (last.stop = true → w ≠ .readable) := by
  intro ps
  induction ps with
  | nil => intro total w rest h hb; simp [waitLoop] at h; exact absurd h.1.symm hb
  | cons p ps ih =>
    intro total w rest h hb
    rw [waitLoop] at h
    by_cases h1 : limit < total + 250 ∧ p.poll.result = 0
    · rw [if_pos h1] at h; cases h
      exact ⟨[], p, by simp, by simp, fun _ => by simp⟩
    · rw [if_neg h1] at h
      by_cases h2 : (p.poll.result = 0 ∨ (p.poll.result < 0 ∧ p.poll = .intr)) ∧ p.stop = false
      · rw [if_pos h2] at h
        obtain ⟨pre, last, e, hs, hl⟩ := ih _ _ _ h hb
        refine ⟨p :: pre, last, by simp [e], ?_, hl⟩
        intro q hq
        rcases List.mem_cons.mp hq with rfl | hq
        · exact h2.2
        · exact hs q hq
      · rw [if_neg h2] at h
        by_cases h3 : p.stop = true ∨ p.poll.result < 0
        · rw [if_pos h3] at h; cases h
          exact ⟨[], p, by simp, by simp, fun _ => by simp⟩
        · rw [if_neg h3] at h; cases h
          exact ⟨[], p, by simp, by simp, fun hs => absurd (Or.inl hs) h3⟩

/-- C123: a server that is told to stop leaves the waiting with the poll that is under way,
signals or not, and does not go on to read. -/
theorem C123_stop_is_honoured (t : Nat) (ps rest : List Pass) (w : Wait)
    (h : waitReadable t ps = (w, rest)) (hb : w ≠ .blocked) :
    ∃ pre last, ps = pre ++ last :: rest ∧ (∀ p ∈ pre, p.stop = false) ∧
      (last.stop = true → w ≠ .readable) :=
  waitLoop_stop _ ps 0 w rest h hb

example : waitReadable 1 [⟨.intr, false⟩, ⟨.ready, true⟩, idle] = (.giveUp false, [idle]) := by
  decide

theorem waitLoop_intr (limit : Nat) : ∀ (n total : Nat) (ps : List Pass),
    waitLoop limit total (List.replicate n ⟨.intr, false⟩ ++ ps) =
      waitLoop limit (total + n * 250) ps := by
  intro n
  induction n with
  | zero => intro total ps; simp
  | succ n ih =>
    intro total ps
    rw [List.replicate_succ, List.cons_append, waitLoop, if_neg (by simp [Poll.result]),
      if_pos ⟨Or.inr ⟨by simp [Poll.result], rfl⟩, rfl⟩, ih]
    congr 1; omega

/-- C123 is false with signals: polls that are interrupted count as a quarter of a second each,
so after `4t` of them a single quiet poll is a time-out; and while they keep coming the time-out
never strikes, however many there are. -/
theorem C123_signals_false (t : Nat) :
    waitReadable t (List.replicate (4 * t) ⟨.intr, false⟩ ++ [idle]) = (.giveUp true, []) ∧
    ∀ n, waitReadable t (List.replicate n ⟨.intr, false⟩) = (.blocked, []) := by
  constructor
  · unfold waitReadable
    rw [waitLoop_intr, waitLoop_late _ _ _ (by omega)]
  · intro n
    unfold waitReadable
    have h := waitLoop_intr (t * 1000) n 0 []
    rw [List.append_nil] at h
    rw [h]; rfl

/-! ### The server reads -/

theorem before_blocked {t must ps ps'} (h : before t must ps = (.blocked, ps')) :
    must = false := by
  unfold before at h
  cases must
  · rfl
  · simp at h

theorem afterRead_got {len sock r bs} (h : afterRead len sock r = .got bs) (hl : len ≠ 0) :
    r.stop = false ∧ ((bs = [] ∧ r.rd = .wantRead) ∨
      ∃ k, r.rd = .data k ∧ bs = sock.take (min (k + 1) len) ∧ bs ≠ []) := by
  obtain ⟨rd, s⟩ := r
  unfold afterRead at h
  cases rd with
  | data k =>
    simp only at h
    split at h
    · cases h
    · rename_i hc
      cases h
      refine ⟨by cases s <;> simp at hc ⊢, Or.inr ⟨k, rfl, rfl, ?_⟩⟩
      intro e
      have : sock ≠ [] := fun e => hc (Or.inr e)
      cases sock with
      | nil => exact this rfl
      | cons a l =>
        cases len with
        | zero => exact hl rfl
        | succ m => rw [show min (k + 1) (m + 1) = min k m + 1 by omega] at e; simp at e
  | wantRead =>
    simp only at h
    split at h
    · cases h
    · rename_i hc
      cases h
      exact ⟨by cases s <;> simp at hc ⊢, Or.inl ⟨rfl, rfl⟩⟩
  | lookup => cases h
  | fail => cases h
  | stuck => cases h

theorem got_prefix {len sock r bs} (h : afterRead len sock r = .got bs) (hl : len ≠ 0) :
    bs <+: sock ∧ bs.length ≤ len ∧ bs = sock.take bs.length := by
  obtain ⟨-, ⟨rfl, -⟩ | ⟨k, -, rfl, -⟩⟩ := afterRead_got h hl
  · simp
  · refine ⟨List.take_prefix _ _, ?_, ?_⟩
    · rw [List.length_take]; omega
    · rw [List.length_take, List.take_eq_take_iff]; omega

/-- C123: whatever happens on the connection, the body the server stores is a beginning of what
the client sent after the header, never more than was asked for, and all of it when the reading
is reported as complete. -/
theorem C123_server_body_exact (t : Nat) : ∀ (rs : List Read) (len : Nat) (must : Bool)
    (sock : List Nat) (ps : List Pass),
    (bodyLoop t len must sock ps rs).bytes <+: sock ∧
    (bodyLoop t len must sock ps rs).bytes.length ≤ len ∧
    ((bodyLoop t len must sock ps rs).fin = .done ↔
      (bodyLoop t len must sock ps rs).bytes.length = len) := by
  intro rs
  induction rs with
  | nil =>
    intro len must sock ps
    unfold bodyLoop
    by_cases h0 : len = 0
    · simp [h0]
    · simp only [if_neg h0]
      split <;> exact ⟨List.nil_prefix, by simp, by simp; omega⟩
  | cons r rs ih =>
    intro len must sock ps
    unfold bodyLoop
    by_cases h0 : len = 0
    · simp [h0]
    · simp only [if_neg h0]
      split
      · exact ⟨List.nil_prefix, by simp, by simp; omega⟩
      · exact ⟨List.nil_prefix, by simp, by simp; omega⟩
      · rename_i ps' hb
        split
        · exact ⟨List.nil_prefix, by simp, by simp; omega⟩
        · exact ⟨List.nil_prefix, by simp, by simp; omega⟩
        · rename_i bs hg
          obtain ⟨h1, h2, h3⟩ := ih (len - bs.length) must (sock.drop bs.length) ps'
          obtain ⟨-, g2, g3⟩ := got_prefix hg h0
          dsimp only
          refine ⟨?_, ?_, ?_⟩
          · have e : sock = bs ++ sock.drop bs.length := by
              conv => lhs; rw [← List.take_append_drop bs.length sock]
              rw [← g3]
            conv => rhs; rw [e]
            exact (List.prefix_append_right_inj bs).mpr h1
          · rw [List.length_append]; omega
          · rw [h3, List.length_append]; omega

example : (bodyLoop 10 4 false [1, 2, 3, 4, 5] [⟨.ready, false⟩, idle, ⟨.ready, false⟩]
    [⟨.data 2, false⟩, ⟨.data 7, false⟩]) = ⟨[1, 2, 3, 4], .done, false, []⟩ := by decide

/-- How the end of a run appears in the model of the connection loop. -/
def endOf : End → HttpConn.PullEnd
  | .done => .done
  | .failed => .err
  | .blocked => .blocked

/-- C123: the connection loop of the other properties (C12–C14, C51), which takes what `pull`
delivers as given, covers everything the real `pull` does with polls, time-outs, stop flag and
TLS errors: each run of the detailed loop for the body is one of its runs. -/
theorem C123_body_refines (t : Nat) : ∀ (rs : List Read) (len : Nat) (must : Bool)
    (sock : List Nat) (ps : List Pass),
    ∃ evs, (HttpConn.pullLoop len sock evs).1 = (bodyLoop t len must sock ps rs).bytes ∧
      (HttpConn.pullLoop len sock evs).2.1 = endOf (bodyLoop t len must sock ps rs).fin := by
  intro rs
  induction rs with
  | nil =>
    intro len must sock ps
    unfold bodyLoop
    by_cases h0 : len = 0
    · exact ⟨[], by simp [h0, HttpConn.pullLoop, endOf]⟩
    · simp only [if_neg h0]
      split
      · exact ⟨[.err], by simp [h0, HttpConn.pullLoop, endOf]⟩
      · exact ⟨[], by simp [h0, HttpConn.pullLoop, endOf]⟩
  | cons r rs ih =>
    intro len must sock ps
    unfold bodyLoop
    by_cases h0 : len = 0
    · exact ⟨[], by simp [h0, HttpConn.pullLoop, endOf]⟩
    · simp only [if_neg h0]
      split
      · exact ⟨[.err], by simp [h0, HttpConn.pullLoop, endOf]⟩
      · exact ⟨[], by simp [h0, HttpConn.pullLoop, endOf]⟩
      · rename_i ps' hb
        split
        · exact ⟨[.err], by simp [h0, HttpConn.pullLoop, endOf]⟩
        · exact ⟨[], by simp [h0, HttpConn.pullLoop, endOf]⟩
        · rename_i bs hg
          obtain ⟨evs, e1, e2⟩ := ih (len - bs.length) must (sock.drop bs.length) ps'
          obtain ⟨-, g2, g3⟩ := got_prefix hg h0
          refine ⟨.avail bs.length :: evs, ?_⟩
          have hm : min bs.length len = bs.length := by omega
          rw [HttpConn.pullLoop, if_neg h0]
          simp only [hm]
          rw [← g3]
          exact ⟨by rw [e1], e2⟩

/-- C123: the same for the loop that reads the header. -/
theorem C123_header_refines (t siz : Nat) : ∀ (rs : List Read) (must : Bool)
    (buf sock : List Nat) (ps : List Pass),
    ∃ evs, (HttpConn.readRequest siz buf sock evs).buf = (headLoop t siz must buf sock ps rs).bytes ∧
      (HttpConn.readRequest siz buf sock evs).res =
        match (headLoop t siz must buf sock ps rs).fin with
        | .done => .ret (HttpConn.getRequestLen (headLoop t siz must buf sock ps rs).bytes)
        | .failed => .ret (-1)
        | .blocked => .blocked := by
  intro rs
  induction rs with
  | nil =>
    intro must buf sock ps
    unfold headLoop
    by_cases h0 : buf.length < siz ∧ HttpConn.getRequestLen buf = 0
    · simp only [if_pos h0]
      split
      · exact ⟨[.err], by rw [HttpConn.readRequest, if_pos h0]; exact ⟨rfl, rfl⟩⟩
      · exact ⟨[], by rw [HttpConn.readRequest, if_pos h0]; exact ⟨rfl, rfl⟩⟩
    · simp only [if_neg h0]
      exact ⟨[], by rw [HttpConn.readRequest, if_neg h0]; exact ⟨rfl, rfl⟩⟩
  | cons r rs ih =>
    intro must buf sock ps
    unfold headLoop
    by_cases h0 : buf.length < siz ∧ HttpConn.getRequestLen buf = 0
    · simp only [if_pos h0]
      split
      · exact ⟨[.err], by rw [HttpConn.readRequest, if_pos h0]; exact ⟨rfl, rfl⟩⟩
      · exact ⟨[], by rw [HttpConn.readRequest, if_pos h0]; exact ⟨rfl, rfl⟩⟩
      · rename_i ps' hb
        split
        · exact ⟨[.err], by rw [HttpConn.readRequest, if_pos h0]; exact ⟨rfl, rfl⟩⟩
        · exact ⟨[], by rw [HttpConn.readRequest, if_pos h0]; exact ⟨rfl, rfl⟩⟩
        · rename_i bs hg
          obtain ⟨evs, e1, e2⟩ := ih must (buf ++ bs) (sock.drop bs.length) ps'
          obtain ⟨-, g2, g3⟩ := got_prefix hg (by omega)
          refine ⟨.avail bs.length :: evs, ?_⟩
          have hm : min bs.length (siz - buf.length) = bs.length := by omega
          rw [HttpConn.readRequest, if_pos h0]
          simp only [hm]
          rw [← g3]
          exact ⟨e1, e2⟩
    · simp only [if_neg h0]
      exact ⟨[], by rw [HttpConn.readRequest, if_neg h0]; exact ⟨rfl, rfl⟩⟩

example : (headLoop 10 16384 false [] [71, 13, 10, 13, 10, 120] [⟨.ready, false⟩, ⟨.quiet 2, false⟩]
    [⟨.data 2, false⟩, ⟨.data 1, false⟩]) = ⟨[71, 13, 10, 13, 10], .done, false, []⟩ := by decide

/-- Number of polls a run used. -/
def polls (ps : List Pass) (r : Run) : Nat := ps.length - r.passes.length

/-- The rest of the polls after a wait: a tail, at most `4t + 1` shorter when nothing interrupts. -/
theorem wait_used (t : Nat) (must : Bool) (ps ps' : List Pass) (w : Wait)
    (hi : ∀ p ∈ ps, p.poll ≠ .intr) (h : before t must ps = (w, ps')) :
    ps.length ≤ ps'.length + (4 * t + 1) ∧ (∀ p ∈ ps', p.poll ≠ .intr) ∧
      ps'.length ≤ ps.length := by
  unfold before at h
  cases must
  · simp only [Bool.false_eq_true, if_false] at h
    by_cases hl : 4 * t + 1 ≤ ps.length
    · obtain ⟨used, rest, w', e, hu, hw, -⟩ := C123_server_wait_bounded_partial t ps hi hl
      rw [hw] at h
      cases h
      subst e
      refine ⟨by simp; omega, fun p hp => hi p (by simp [hp]), by simp⟩
    · have : ∀ (ps : List Pass) (limit total : Nat),
          (waitLoop limit total ps).2 <:+ ps := by
        intro ps
        induction ps with
        | nil => intro limit total; exact List.suffix_refl _
        | cons p ps ih =>
          intro limit total
          rw [waitLoop]
          split
          · exact List.suffix_cons _ _
          · split
            · exact (ih _ _).trans (List.suffix_cons _ _)
            · split <;> exact List.suffix_cons _ _
      have hs := this ps (t * 1000) 0
      unfold waitReadable at h
      rw [h] at hs
      exact ⟨by omega, fun p hp => hi p (hs.subset hp), hs.length_le⟩
  · simp only [if_true] at h
    cases h
    exact ⟨by omega, hi, Nat.le_refl _⟩

/-- C123 (partial): reading a body of `len` bytes takes at most `len` waits, `len · (4t + 1)`
polls of a quarter of a second, as long as no signal interrupts a poll and the TLS library does
not ask for another read.  Missing: those two, and a bound on the whole request, see
`C123_slow_body_false`. -/
theorem C123_server_body_time_partial (t : Nat) : ∀ (rs : List Read) (len : Nat) (must : Bool)
    (sock : List Nat) (ps : List Pass), (∀ p ∈ ps, p.poll ≠ .intr) →
    (∀ r ∈ rs, r.rd ≠ .wantRead) →
    polls ps (bodyLoop t len must sock ps rs) ≤ len * (4 * t + 1) := by
  intro rs
  induction rs with
  | nil =>
    intro len must sock ps hi hw
    unfold bodyLoop
    by_cases h0 : len = 0
    · simp [h0, polls]
    · simp only [if_neg h0]
      have hm : 4 * t + 1 ≤ len * (4 * t + 1) := Nat.le_mul_of_pos_left _ (by omega)
      split
      · rename_i hb; have := (wait_used t must ps _ _ hi hb).1; simp only [polls]; omega
      · rename_i hb; have := (wait_used t must ps _ _ hi hb).1; simp only [polls]; omega
  | cons r rs ih =>
    intro len must sock ps hi hw
    unfold bodyLoop
    by_cases h0 : len = 0
    · simp [h0, polls]
    · simp only [if_neg h0]
      have hm : 4 * t + 1 ≤ len * (4 * t + 1) := Nat.le_mul_of_pos_left _ (by omega)
      split
      · rename_i hb; have := (wait_used t must ps _ _ hi hb).1; simp only [polls]; omega
      · rename_i hb; have := (wait_used t must ps _ _ hi hb).1; simp only [polls]; omega
      · rename_i ps' hb
        obtain ⟨u1, u2, u3⟩ := wait_used t must ps _ _ hi hb
        split
        · simp only [polls]; omega
        · simp only [polls]; omega
        · rename_i bs hg
          have ih' := ih (len - bs.length) must (sock.drop bs.length) ps' u2
            (fun q hq => hw q (by simp [hq]))
          obtain ⟨-, ⟨-, hr⟩ | ⟨k, -, -, hne⟩⟩ := afterRead_got hg h0
          · exact absurd hr (hw r (by simp))
          · obtain ⟨-, g2, -⟩ := got_prefix hg h0
            have hpos : 0 < bs.length := List.length_pos_iff.mpr hne
            have e : len * (4 * t + 1) = (len - 1) * (4 * t + 1) + (4 * t + 1) := by
              rw [← Nat.succ_mul]; congr 1; omega
            have hle : (len - bs.length) * (4 * t + 1) ≤ (len - 1) * (4 * t + 1) :=
              Nat.mul_le_mul_right _ (by omega)
            simp only [polls] at ih' ⊢
            omega

/-- A client that sends one byte just before each time-out. -/
def slow (t n : Nat) : List Pass :=
  (List.replicate n (List.replicate (4 * t) idle ++ [⟨.ready, false⟩])).flatten

theorem slow_run (t : Nat) : ∀ (sock : List Nat), 
    bodyLoop t sock.length false sock (slow t sock.length)
      (List.replicate sock.length ⟨.data 0, false⟩) = ⟨sock, .done, false, []⟩ := by
  intro sock
  induction sock with
  | nil => rfl
  | cons b bs ih =>
    have hs : slow t (bs.length + 1) =
        List.replicate (4 * t) idle ++ ⟨.ready, false⟩ :: slow t bs.length := by
      simp [slow, List.replicate_succ]
    have hw : before t false (slow t (bs.length + 1)) = (.readable, slow t bs.length) := by
      rw [hs]
      show waitReadable t _ = _
      obtain ⟨w, h, -, hr⟩ := C123_server_wait_decided t (4 * t) ⟨.ready, false⟩
        (slow t bs.length) (by omega) (Or.inr (Or.inl rfl))
      rw [h, hr.mpr rfl]
    have hg : afterRead (bs.length + 1) (b :: bs) ⟨.data 0, false⟩ = .got [b] := by
      simp [afterRead, show min 1 (bs.length + 1) = 1 by omega]
    rw [List.length_cons, List.replicate_succ, bodyLoop, if_neg (by omega), hw]
    simp only [hg]
    simp only [List.length_cons, List.length_nil, Nat.zero_add, List.drop_succ_cons, List.drop_zero,
      Nat.add_sub_cancel, ih]
    rfl

/-- C123 is false of a whole request: the time-out counts anew for every byte, so a client that
sends one byte just before it strikes is served, and a body of `n` bytes keeps the server for
`n · 4t` quiet quarters of a second: with the default of 10 seconds and the 8192 bytes a request
may have, for 22 hours. -/
theorem C123_slow_body_false (t : Nat) (body : List Nat) :
    bodyLoop t body.length false body (slow t body.length)
      (List.replicate body.length ⟨.data 0, false⟩) = ⟨body, .done, false, []⟩ ∧
    (slow t body.length).length = body.length * (4 * t + 1) := by
  refine ⟨slow_run t body, ?_⟩
  simp [slow]

/-- C123 is false of a TLS record that arrives in part: the poll reports something to read, and
the read that follows has no time-out at all. -/
theorem C123_incomplete_record_false (t len : Nat) (sock : List Nat) (ps : List Pass)
    (rs : List Read) (hl : len ≠ 0) :
    bodyLoop t len false sock (⟨.ready, false⟩ :: ps) (⟨.stuck, false⟩ :: rs) =
      ⟨[], .blocked, false, ps⟩ := by
  have hw : before t false (⟨.ready, false⟩ :: ps) = (.readable, ps) := by
    obtain ⟨w, h, -, hr⟩ := C123_server_wait_decided t 0 ⟨.ready, false⟩ ps (by omega)
      (Or.inr (Or.inl rfl))
    rw [hr.mpr rfl] at h
    exact h
  rw [bodyLoop, if_neg hl, hw]
  rfl

example : (1 : Nat) ≠ 0 := by decide

/-! ### The server writes -/

/-- C123: what reaches the client is a beginning of the response, without gaps; the count that
is reported is the number of bytes sent. -/
theorem C123_written_exact (buf : List Nat) (ws : List Wr) :
    (mgWrite buf ws).out <+: buf ∧
    (∀ n, (mgWrite buf ws).ret = some n → n = (mgWrite buf ws).out.length) := by
  constructor
  · show (push buf ws).out <+: buf
    induction ws generalizing buf with
    | nil => cases buf <;> simp [push]
    | cons w ws ih =>
      cases buf with
      | nil => simp [push]
      | cons b bs =>
        cases w with
        | took k =>
          rw [push]
          dsimp only
          conv => rhs; rw [← List.take_append_drop (k + 1) (b :: bs)]
          exact (List.prefix_append_right_inj _).mpr (ih _)
        | zero => rw [push]; exact ih _
        | fail => simp [push]
        | stuck => simp [push]
  · intro n h
    unfold mgWrite at h ⊢
    dsimp only at h ⊢
    split at h
    · cases h; rfl
    · cases h

/-- C123: if no write fails, a response is sent completely before the call returns. -/
theorem C123_written_all (ws : List Wr) : ∀ buf : List Nat, (mgWrite buf ws).ret ≠ none →
    .fail ∉ ws → (mgWrite buf ws).out = buf := by
  have key : ∀ buf : List Nat, (push buf ws).returned = true → .fail ∉ ws →
      (push buf ws).out = buf := by
    induction ws with
    | nil => intro buf h _; cases buf <;> simp [push] at h ⊢
    | cons w ws ih =>
      intro buf h hf
      cases buf with
      | nil => simp [push]
      | cons b bs =>
        cases w with
        | took k =>
          rw [push] at h ⊢
          dsimp only at h ⊢
          rw [ih _ h (fun x => hf (by simp [x])), List.take_append_drop]
        | zero => rw [push] at h ⊢; exact ih _ h (fun x => hf (by simp [x]))
        | fail => simp at hf
        | stuck => simp [push] at h
  intro buf h hf
  refine key buf ?_ hf
  unfold mgWrite at h
  dsimp only at h
  cases hr : (push buf ws).returned
  · rw [hr] at h; simp at h
  · rfl

example : mgWrite [1, 2, 3, 4] [.took 0, .took 1, .took 9] = ⟨[1, 2, 3, 4], some 4⟩ := by decide
example : mgWrite [1, 2, 3, 4] [.took 0, .fail] = ⟨[1], some 1⟩ := by decide

/-- C123: each write that takes something brings the call nearer to its end: as many writes as
there are bytes are enough. -/
theorem C123_written_in_time (ws : List Wr) : ∀ buf : List Nat, buf.length ≤ ws.length →
    (∀ w ∈ ws, ∃ k, w = .took k) → (mgWrite buf ws).ret ≠ none := by
  have key : ∀ buf : List Nat, buf.length ≤ ws.length → (∀ w ∈ ws, ∃ k, w = .took k) →
      (push buf ws).returned = true := by
    induction ws with
    | nil => intro buf h _; cases buf <;> simp [push] at h ⊢
    | cons w ws ih =>
      intro buf h hw
      cases buf with
      | nil => simp [push]
      | cons b bs =>
        obtain ⟨k, rfl⟩ := hw w (by simp)
        rw [push]
        refine ih _ ?_ (fun x hx => hw x (by simp [hx]))
        simp only [List.length_drop, List.length_cons] at h ⊢
        omega
  intro buf h hw
  unfold mgWrite
  simp [key buf h hw]

example : ∀ w ∈ [Wr.took 3, .took 0], ∃ k, w = .took k := by
  intro w hw
  simp at hw
  rcases hw with rfl | rfl
  · exact ⟨3, rfl⟩
  · exact ⟨0, rfl⟩

/-- C123 is false of a connection on which the write returns zero, which the TLS library does
when the connection is closed: the value is taken for a short write and the loop tries again
for ever. -/
theorem C123_write_zero_false (b : Nat) (bs : List Nat) (n : Nat) :
    mgWrite (b :: bs) (List.replicate n .zero) = ⟨[], none⟩ := by
  have : push (b :: bs) (List.replicate n .zero) = ⟨[], false⟩ := by
    induction n with
    | zero => rfl
    | succ n ih => rw [List.replicate_succ, push]; exact ih
  unfold mgWrite
  rw [this]
  rfl

/-- C123 (partial): a formatted text is sent as it is, whatever its length, if no write fails and
the memory for a long one is there.  Missing: a text of exactly the size of the local buffer, see
`C123_printed_text_false`. -/
theorem C123_printed_text_partial (mem : Bool) (text : List Nat) (ws : List Wr) (n : Int)
    (hl : text.length ≠ 8192) (hf : .fail ∉ ws)
    (hr : (mgPrintf mem text ws).ret = some n) (hn : 0 ≤ n) :
    (mgPrintf mem text ws).out = text ∧ n = text.length := by
  unfold mgPrintf at hr ⊢
  by_cases h0 : text.length = 0
  · simp only [if_pos h0] at hr ⊢
    cases hr
    exact ⟨(List.eq_nil_of_length_eq_zero h0).symm, by omega⟩
  · simp only [if_neg h0] at hr ⊢
    have key : (mgWrite text ws).ret = some n →
        (mgWrite text ws).out = text ∧ n = text.length := by
      intro h
      have ha := C123_written_all ws text (by rw [h]; simp) hf
      have hb := (C123_written_exact text ws).2 n h
      rw [ha] at hb
      exact ⟨ha, hb⟩
    by_cases h1 : 8192 < text.length
    · simp only [if_pos h1] at hr ⊢
      cases mem
      · simp at hr; omega
      · simp only [if_true] at hr ⊢; exact key hr
    · simp only [if_neg h1] at hr ⊢
      have : localBuf 8192 text = text := by
        unfold localBuf; rw [if_pos (by omega)]
      rw [this] at hr ⊢
      exact key hr

example : mgPrintf false [72, 105] [.took 5] = ⟨[72, 105], some 2⟩ := by decide

/-- C123 is false of a text of 8192 bytes: the length is compared with the size of the local
buffer as if no terminating NUL were needed, and the last byte goes out as NUL. -/
theorem C123_printed_text_false (mem : Bool) (text : List Nat) (hl : text.length = 8192) :
    mgPrintf mem text [.took 8191] = ⟨text.take 8191 ++ [0], some 8192⟩ := by
  have gen : ∀ (m : Nat) (l : List Nat), l.length = m + 1 →
      push (l.take m ++ [0]) [.took m] = ⟨l.take m ++ [0], true⟩ := by
    intro m l h
    have hlen : (l.take m ++ [0]).length = m + 1 := by simp; omega
    cases hq : l.take m ++ [0] with
    | nil => simp at hq
    | cons a q =>
      rw [hq] at hlen
      rw [push, List.drop_of_length_le (by omega), List.take_of_length_le (by omega)]
      simp [push]
  have hb : localBuf 8192 text = text.take 8191 ++ [0] := by
    unfold localBuf; rw [if_neg (by omega)]
  unfold mgPrintf
  rw [if_neg (by omega), if_neg (by omega), hb]
  unfold mgWrite
  rw [gen 8191 text hl]
  have : (text.take 8191 ++ [0]).length = 8192 := by
    rw [List.length_append, List.length_take, hl]; rfl
  simp only [this, if_true]
  rfl

example : (List.replicate 8192 65).length = 8192 := List.length_replicate

end Verif.Io
