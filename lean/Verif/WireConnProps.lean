import Verif.WireConnModel
import Verif.WireGateProps

/-!
# C100: several requests on one connection
-/
namespace Verif.Wire
open Verif.HttpConn (readRequest pullLoop mgRead getRequestLen IsHeader)
open Verif.Server (BEv Ev CaReq CaRes)

/-! ## Arrival of a stream of any length -/

/-- No read fails, every read gives something as long as there is something, and there are at
least `n` reads. -/
structure Flows (sched : List HttpConn.Ev) (n : Nat) : Prop where
  noErr : HttpConn.Ev.err ∉ sched
  some : ∀ k, HttpConn.Ev.avail k ∈ sched → 1 ≤ k
  many : n ≤ sched.length

theorem header_len {hd : List Nat} (h : IsHeader hd) (rest : List Nat) :
    getRequestLen (hd ++ rest) = hd.length := by
  simpa [getRequestLen] using HttpConn.pos_of_isHeader hd h rest 0

theorem header_ne {hd : List Nat} (h : IsHeader hd) : 0 < hd.length := by
  cases hd with
  | nil => exact absurd h.ends HttpConn.endsBlank_nil
  | cons _ _ => simp

/-- The header of a request at the front of the stream is read. -/
theorem readRequest_flows (n : Nat) (hd rest : List Nat) (hh : IsHeader hd) (hn : hd.length ≤ n)
    (evs : List HttpConn.Ev) : ∀ (buf sock : List Nat), buf ++ sock = hd ++ rest →
    Flows evs sock.length →
    (readRequest n buf sock evs).res = .ret hd.length ∧
    (readRequest n buf sock evs).buf ++ (readRequest n buf sock evs).sock = hd ++ rest ∧
    hd.length ≤ (readRequest n buf sock evs).buf.length ∧
    Flows (readRequest n buf sock evs).evs (readRequest n buf sock evs).sock.length := by
  have hpos := header_ne hh
  -- the header is complete or the buffer is shorter than it
  have key : ∀ buf sock : List Nat, buf ++ sock = hd ++ rest →
      (getRequestLen buf = hd.length ∧ hd.length ≤ buf.length) ∨
      (getRequestLen buf = 0 ∧ buf.length < hd.length ∧ sock ≠ []) := by
    intro buf sock h
    by_cases h0 : getRequestLen buf = 0
    · right
      have hlt : buf.length < hd.length := by
        by_cases hle : hd.length ≤ buf.length
        · exfalso
          obtain ⟨t, rfl⟩ : ∃ t, buf = hd ++ t := by
            refine ⟨buf.drop hd.length, ?_⟩
            have := congrArg (List.take hd.length) h
            rw [List.take_append_of_le_length hle, List.take_left] at this
            rw [← this, List.length_take, Nat.min_eq_left hle, List.take_append_drop]
          rw [header_len hh] at h0
          omega
        · omega
      refine ⟨h0, hlt, ?_⟩
      rintro rfl
      have := congrArg List.length h
      simp at this
      omega
    · left
      have := HttpConn.C12_stable buf sock h0
      rw [h, header_len hh] at this
      have hw := HttpConn.C12_within_buffer buf
      exact ⟨this.symm, by omega⟩
  induction evs with
  | nil =>
    intro buf sock h ha
    have hs : sock = [] := by
      have := ha.many
      simp at this
      exact this
    subst hs
    rcases key buf [] h with ⟨h1, h2⟩ | ⟨_, _, h3⟩
    · unfold readRequest
      rw [if_neg (by omega)]
      exact ⟨by simp [h1], h, h2, ha⟩
    · exact absurd rfl h3
  | cons e es ih =>
    intro buf sock h ha
    rcases key buf sock h with ⟨h1, h2⟩ | ⟨h1, h2, h3⟩
    · unfold readRequest
      rw [if_neg (by omega)]
      exact ⟨by simp [h1], h, h2, ha⟩
    · cases e with
      | err => exact absurd List.mem_cons_self ha.noErr
      | avail k =>
        have hk := ha.some k List.mem_cons_self
        unfold readRequest
        rw [if_pos ⟨by omega, h1⟩]
        simp only
        refine ih _ _ (by simpa using h)
          ⟨fun he => ha.noErr (List.mem_cons_of_mem _ he),
            fun j hj => ha.some j (List.mem_cons_of_mem _ hj), ?_⟩
        have := ha.many
        have hs : 0 < sock.length := List.length_pos_iff.2 h3
        simp at this ⊢
        omega

theorem pullLoop_flows (evs : List HttpConn.Ev) : ∀ (len : Nat) (sock : List Nat),
    len ≤ sock.length → Flows evs sock.length → (pullLoop len sock evs).2.1 = .done ∧
      Flows (pullLoop len sock evs).2.2.2 (pullLoop len sock evs).2.2.1.length := by
  induction evs with
  | nil =>
    intro len sock h ha
    have := ha.many
    simp at this
    subst this
    simp at h
    subst h
    exact ⟨rfl, ha⟩
  | cons e es ih =>
    intro len sock h ha
    unfold pullLoop
    by_cases hl : len = 0
    · rw [if_pos hl]
      exact ⟨rfl, ha⟩
    · rw [if_neg hl]
      cases e with
      | err => exact absurd List.mem_cons_self ha.noErr
      | avail k =>
        have hk := ha.some k List.mem_cons_self
        have hm := ha.many
        simp only
        refine ih _ _ (by simp; omega) ⟨fun he => ha.noErr (List.mem_cons_of_mem _ he),
            fun j hj => ha.some j (List.mem_cons_of_mem _ hj), ?_⟩
        simp at hm ⊢
        omega

/-! ## Requests -/

/-- A request as it is sent: header, body, and what the header says. -/
structure Rq where
  hd : List Nat
  body : List Nat
  q : HttpHdr.Req

def Rq.bytes (r : Rq) : List Nat := r.hd ++ r.body

/-- A request that gets to the handlers (C92): the header has allowed characters, fits the buffer,
parses to a request for a path in HTTP 1.0 or 1.1, and announces the length of the body, which is
at most 8192. -/
structure Rq.Ok (r : Rq) : Prop where
  header : IsHeader r.hd
  fits : r.hd.length ≤ 16384
  parsed : HttpHdr.parseRequest r.hd = some r.q
  path : PathOk r.q.uri
  version : VersionOk r.q.version
  length : contentLen r.q = r.body.length
  bound : r.body.length ≤ 8192

/-- The requests one after the other: the answer to each is that of the handler, which knows the
user name left by the requests before; nothing is answered any more after the first one for which
the connection is not kept. -/
def answers (s : Site) : List Nat → List Rq → Option (List Served)
  | _, [] => some []
  | u, r :: rs =>
    match handleOn s u r.q r.body with
    | none => none
    | some (sv, u') =>
      if keepAfter s r.q (status sv.evs) then (answers s u' rs).map (sv :: ·) else some [sv]

theorem discard_ok (rl n dl : Nat) (h : n ≤ 8192) (hr : rl ≤ dl) (hd : dl ≤ 16384) :
    ∃ d, HttpConn.discardLen rl n dl = some d ∧ d = min (rl + n) dl := by
  unfold HttpConn.discardLen
  rw [if_pos (by omega), if_neg (by omega)]
  split
  · exact ⟨_, rfl, by simp; omega⟩
  · exact ⟨_, rfl, by omega⟩

/-- One pass over a request that gets to the handlers. -/
theorem pass_ok (s : Site) (c : CState) (r : Rq) (rest : List Nat) (hr : r.Ok)
    (hst : c.buf ++ c.sock = r.bytes ++ rest) (hb : c.buf.length ≤ 16384)
    (hf : Flows c.evs c.sock.length) :
    (handleOn s c.user r.q r.body = none → pass s c = none) ∧
    ∀ sv u, handleOn s c.user r.q r.body = some (sv, u) →
      ∃ c', c'.buf ++ c'.sock = rest ∧ c'.buf.length ≤ 16384 ∧ Flows c'.evs c'.sock.length ∧
        c'.user = u ∧
        pass s c = some ⟨some sv, if keepAfter s r.q (status sv.evs) then some c' else none⟩ := by
  obtain ⟨h1, h2, h3, h4⟩ := readRequest_flows bufSize r.hd (r.body ++ rest) hr.header
    (by unfold bufSize; exact hr.fits) c.evs c.buf c.sock
    (by rw [hst, Rq.bytes, List.append_assoc]) hf
  have h5 := (HttpConn.readRequest_spec bufSize c.evs c.buf c.sock).2.1 (by unfold bufSize; exact hb)
  have hpos := header_ne hr.header
  unfold pass
  simp only [h1]
  generalize readRequest bufSize c.buf c.sock c.evs = rr at h2 h3 h4 h5
  have htake : rr.buf.take r.hd.length = r.hd := by
    have := congrArg (List.take r.hd.length) h2
    rw [List.take_append_of_le_length h3, List.take_left] at this
    exact this
  have hcl := hr.length
  have hbd := hr.bound
  rw [if_neg (by omega), if_neg (by omega), Int.toNat_natCast, htake, hr.parsed]
  simp only
  rw [if_neg (by simp [(validUri_iff _).2 hr.path]),
    if_neg (by rw [(versionOk_iff _).2 hr.version]; simp), hcl,
    if_neg (by unfold HttpConn.maxContentLen; omega), if_neg (by omega), Int.toNat_natCast]
  have hdrop : rr.buf.drop r.hd.length ++ rr.sock = r.body ++ rest := by
    have := congrArg (List.drop r.hd.length) h2
    rw [List.drop_append_of_le_length h3, List.drop_left] at this
    exact this
  have hm : (mgRead ⟨rr.buf, r.hd.length, r.body.length, 0⟩ r.body.length rr.sock rr.evs).fin = .done ∧
      Flows (mgRead ⟨rr.buf, r.hd.length, r.body.length, 0⟩ r.body.length rr.sock rr.evs).evs
        (mgRead ⟨rr.buf, r.hd.length, r.body.length, 0⟩ r.body.length rr.sock rr.evs).sock.length := by
    unfold mgRead
    by_cases h0 : (0 : Nat) < r.body.length
    · simp only
      rw [if_pos (by omega)]
      simp only
      refine pullLoop_flows _ _ _ ?_ h4
      have := congrArg List.length hdrop
      simp at this ⊢
      omega
    · simp only
      rw [if_neg (by omega)]
      exact ⟨rfl, h4⟩
  have hby := HttpConn.C14_complete_read _ _ _ _ hm.1
  simp only [Nat.add_zero, hdrop] at hby
  have hby' : (mgRead ⟨rr.buf, r.hd.length, r.body.length, 0⟩ r.body.length rr.sock rr.evs).bytes =
      r.body := by
    rw [hby]
    simp
  have hrem := (HttpConn.mgRead_spec ⟨rr.buf, r.hd.length, r.body.length, 0⟩ r.body.length rr.sock
    rr.evs).1
  have hconn := (HttpConn.mgRead_spec ⟨rr.buf, r.hd.length, r.body.length, 0⟩ r.body.length rr.sock
    rr.evs).2.2.1
  generalize mgRead ⟨rr.buf, r.hd.length, r.body.length, 0⟩ r.body.length rr.sock rr.evs = m
    at hm hby' hrem hconn
  rw [if_neg (by rw [hm.1]; decide), hby', if_neg (by omega)]
  refine ⟨fun hx => by rw [hx], fun sv u hx => ?_⟩
  obtain ⟨d, d1, d2⟩ := discard_ok r.hd.length r.body.length rr.buf.length hr.bound h3
    (by unfold bufSize at h5; exact h5)
  refine ⟨⟨rr.buf.drop d, m.sock, m.evs, u⟩, ?_, ?_, hm.2, rfl, ?_⟩
  · simp only [HttpConn.remaining, hconn, Nat.zero_add, hby', Nat.add_zero, hdrop] at hrem
    have hrem := List.append_cancel_left hrem
    rw [← hrem]
    congr 1
    by_cases hc : r.hd.length + r.body.length ≤ rr.buf.length
    · rw [d2, Nat.min_eq_left hc]
    · rw [List.drop_eq_nil_of_le (by rw [d2]; omega), List.drop_eq_nil_of_le (by omega)]
  · simp only [List.length_drop]
    unfold bufSize at h5
    omega
  · rw [hx]
    simp only [d1, Option.map_some]

/-- Nothing more arrives: the loop waits. -/
theorem pass_end (s : Site) (c : CState) (hb : c.buf = []) (hs : c.sock = [])
    (hf : HttpConn.Ev.err ∉ c.evs) : pass s c = some ⟨none, none⟩ := by
  have h : ∀ evs, HttpConn.Ev.err ∉ evs → (readRequest bufSize [] [] evs).res = .blocked := by
    intro evs
    induction evs with
    | nil => intro _; rfl
    | cons e es ih =>
      intro he
      cases e with
      | err => simp at he
      | avail k =>
        unfold readRequest
        rw [if_pos ⟨by decide, rfl⟩]
        simp only [List.take_nil, List.drop_nil, List.append_nil]
        exact ih (by simpa using he)
  unfold pass
  rw [hb, hs]
  simp only [h _ hf]

theorem loop_answers (s : Site) (rs : List Rq) : ∀ (n : Nat) (c : CState), rs.length < n →
    (∀ r ∈ rs, r.Ok) → c.buf ++ c.sock = rs.flatMap Rq.bytes → c.buf.length ≤ 16384 →
    Flows c.evs c.sock.length → loop s n c = answers s c.user rs := by
  induction rs with
  | nil =>
    intro n c hn _ hst _ hf
    cases n with
    | zero => simp at hn
    | succ n =>
      simp only [List.flatMap_nil, List.append_eq_nil_iff] at hst
      simp only [loop, pass_end s c hst.1 hst.2 hf.noErr, Option.toList_none, answers]
  | cons r rs ih =>
    intro n c hn hok hst hb hf
    cases n with
    | zero => simp at hn
    | succ n =>
      rw [List.flatMap_cons] at hst
      obtain ⟨p1, p2⟩ := pass_ok s c r _ (hok r List.mem_cons_self) hst hb hf
      cases hx : handleOn s c.user r.q r.body with
      | none => simp only [loop, answers, p1 hx, hx]
      | some x =>
        obtain ⟨sv, u⟩ := x
        obtain ⟨c', c1, c2, c3, c4, c5⟩ := p2 sv u hx
        simp only [loop, answers, c5, hx]
        by_cases hk : keepAfter s r.q (status sv.evs) = true
        · rw [if_pos hk, if_pos hk]
          simp only [List.length_cons] at hn
          simp only
          rw [ih n c' (by omega) (fun r' hr' => hok r' (List.mem_cons_of_mem _ hr')) c1 c2 c3, c4]
          rfl
        · rw [if_neg hk, if_neg hk]
          rfl

/-- C100: requests sent one after the other on one connection, in whatever pieces they arrive,
are answered one after the other, each by the handler for that request with its own body; the
only thing that one request leaves to the next is the user name. -/
theorem C100_one_after_the_other (s : Site) (rs : List Rq) (hok : ∀ r ∈ rs, r.Ok)
    (sched : List HttpConn.Ev) (hf : Flows sched (rs.flatMap Rq.bytes).length) (n : Nat)
    (hn : rs.length < n) :
    connection s n sched (rs.flatMap Rq.bytes) = answers s [] rs :=
  loop_answers s rs n _ hn hok (by simp) (by simp) hf

/-! ### Example: three requests in two pieces -/

def exRq1 : Rq := ⟨[71, 69, 84, 32, 47, 46, 119, 101, 108, 108, 45, 107, 110, 111, 119, 110, 47, 101, 115, 116, 47, 99, 97, 99, 101, 114, 116, 115, 32, 72, 84, 84, 80, 47, 49, 46, 49, 13, 10, 13, 10], [],
  (HttpHdr.parseRequest [71, 69, 84, 32, 47, 46, 119, 101, 108, 108, 45, 107, 110, 111, 119, 110, 47, 101, 115, 116, 47, 99, 97, 99, 101, 114, 116, 115, 32, 72, 84, 84, 80, 47, 49, 46, 49, 13, 10, 13, 10]).getD ⟨[], [], [], []⟩⟩
def exEnrol (re auth body : List Nat) : List Nat :=
  [80, 79, 83, 84, 32, 47, 46, 119, 101, 108, 108, 45, 107, 110, 111, 119, 110, 47, 101, 115, 116, 47, 115, 105, 109, 112, 108, 101] ++ re ++
  [101, 110, 114, 111, 108, 108, 32, 72, 84, 84, 80, 47, 49, 46, 49, 13, 10, 67, 111, 110, 116, 101, 110, 116, 45, 84, 121, 112, 101, 58, 32, 97, 112, 112, 108, 105, 99, 97, 116, 105, 111, 110, 47, 112, 107, 99, 115, 49, 48, 13, 10, 67, 111, 110, 116, 101, 110, 116, 45, 76, 101, 110, 103, 116, 104, 58, 32, 52, 13, 10] ++ auth ++
  [13, 10] ++ body
def exRq2 : Rq := ⟨exEnrol [] [65, 117, 116, 104, 111, 114, 105, 122, 97, 116, 105, 111, 110, 58, 32, 66, 97, 115, 105, 99, 32, 100, 84, 112, 119, 13, 10] [], [77, 73, 73, 61],
  (HttpHdr.parseRequest (exEnrol [] [65, 117, 116, 104, 111, 114, 105, 122, 97, 116, 105, 111, 110, 58, 32, 66, 97, 115, 105, 99, 32, 100, 84, 112, 119, 13, 10] [])).getD ⟨[], [], [], []⟩⟩
def exRq3 : Rq := ⟨exEnrol [114, 101] [65, 117, 116, 104, 111, 114, 105, 122, 97, 116, 105, 111, 110, 58, 32, 110, 111, 110, 101, 13, 10] [], [77, 73, 73, 61],
  (HttpHdr.parseRequest (exEnrol [114, 101] [65, 117, 116, 104, 111, 114, 105, 122, 97, 116, 105, 111, 110, 58, 32, 110, 111, 110, 101, 13, 10] [])).getD ⟨[], [], [], []⟩⟩

theorem exRq1_ok : exRq1.Ok := ⟨header_of _ (by decide +kernel) (by decide), by decide +kernel,
  by decide +kernel, (validUri_iff _).1 (by decide +kernel), (versionOk_iff _).1 (by decide +kernel),
  by decide +kernel, by decide⟩
theorem exRq2_ok : exRq2.Ok := ⟨header_of _ (by decide +kernel) (by decide), by decide +kernel,
  by decide +kernel, (validUri_iff _).1 (by decide +kernel), (versionOk_iff _).1 (by decide +kernel),
  by decide +kernel, by decide⟩
theorem exRq3_ok : exRq3.Ok := ⟨header_of _ (by decide +kernel) (by decide), by decide +kernel,
  by decide +kernel, (validUri_iff _).1 (by decide +kernel), (versionOk_iff _).1 (by decide +kernel),
  by decide +kernel, by decide⟩

/-- Everything arrives in pieces of 200 bytes. -/
def exFlow : List HttpConn.Ev := List.replicate 1000 (.avail 200)
theorem exFlow_ok (n : Nat) (h : n ≤ 1000) : Flows exFlow n :=
  ⟨fun h => by simpa using List.eq_of_mem_replicate h,
    fun k hk => by have := List.eq_of_mem_replicate hk; injection this with this; omega, by
      unfold exFlow; rw [List.length_replicate]; exact h⟩

/-- A server that asks for user name and password; the client has a certificate also. -/
def exSite3 : Site :=
  { exSite with
    srv := { exSrv with
      cfg := { exSrv.cfg with
        authCb := some fun c => c.user == [117] && c.pwd == [112]
        requireHttpAuth := true
        reenrollCb := some exCa } } }

example : ((connection exSite3 4 exFlow ([exRq1, exRq2, exRq3].flatMap Rq.bytes)).map
    (·.map fun sv => sv.evs.length)) = some [2, 4, 3] := by
  rw [C100_one_after_the_other exSite3 [exRq1, exRq2, exRq3] (by
    intro r hr
    rcases List.mem_cons.1 hr with rfl | hr
    · exact exRq1_ok
    rcases List.mem_cons.1 hr with rfl | hr
    · exact exRq2_ok
    rcases List.mem_cons.1 hr with rfl | hr
    · exact exRq3_ok
    cases hr) exFlow (exFlow_ok _ (by decide +kernel)) 4 (by decide)]
  decide +kernel

/-- What C100 says is carried over is carried over: the second enrolment has no credentials
(its Authorization header is not understood, and the client's certificate is accepted instead),
the application is not asked about any, and still the CA is told the user name of the first one
and answers accordingly; on a connection of its own the same request gets another certificate. -/
theorem C100_name_carried_over :
    ((connection exSite3 4 exFlow ([exRq2, exRq3].flatMap Rq.bytes)).map fun l =>
      (l[1]?.map Served.evs)) = some (some [.ev (.ca .reenroll ⟨[77, 73, 73, 61], [117], true, none⟩),
        .ev (.head 200), .ev (.body [77, 73, 73, 67])]) ∧
    ((connection exSite3 4 exFlow exRq3.bytes).map fun l =>
      (l[0]?.map Served.evs)) = some (some [.ev (.ca .reenroll ⟨[77, 73, 73, 61], [], true, none⟩),
        .ev (.head 200), .ev (.body [77, 73, 73, 68])]) := by
  decide +kernel

/-! ## Whatever the client sends -/

theorem refusal_some {sv : Served} {r : Nat} {cl : Int} {dl : Nat} {p : Pass}
    (h : refusal sv r cl dl = some p) : p = ⟨some sv, none⟩ := by
  unfold refusal at h
  simp only [Option.map_eq_some_iff] at h
  obtain ⟨_, _, rfl⟩ := h
  rfl

/-- The loop that reads a header ends with 0 only if there is no header in the buffer. -/
theorem readRequest_zero (n : Nat) (evs : List HttpConn.Ev) : ∀ (buf sock : List Nat),
    (readRequest n buf sock evs).res = .ret 0 → getRequestLen (readRequest n buf sock evs).buf = 0 := by
  induction evs with
  | nil =>
    intro buf sock
    unfold readRequest
    split
    · intro h; cases h
    · intro h
      injection h
  | cons e es ih =>
    intro buf sock
    unfold readRequest
    split
    · cases e with
      | err => intro h; simp at h
      | avail k => exact ih _ _
    · intro h
      injection h

/-- The stream begins with the header of a request that would be handled. -/
def FrontOk (stream : List Nat) : Prop :=
  ∃ (hd rest : List Nat) (q : HttpHdr.Req), stream = hd ++ rest ∧ IsHeader hd ∧ hd.length ≤ 16384 ∧
    HttpHdr.parseRequest hd = some q ∧ PathOk q.uri ∧ VersionOk q.version ∧
    0 ≤ contentLen q ∧ contentLen q ≤ 8192

/-- The header at the front of a stream is unique. -/
theorem header_unique {hd hd' rest rest' : List Nat} (h : IsHeader hd) (h' : IsHeader hd')
    (e : hd ++ rest = hd' ++ rest') : hd = hd' := by
  have hl : hd.length = hd'.length := by
    have h1 := header_len h rest
    rw [e, header_len h' rest'] at h1
    omega
  exact List.append_inj_left e hl

/-- What a pass does with whatever arrives. -/
theorem pass_cases (s : Site) (c : CState) (p : Pass) (hb : c.buf.length ≤ 16384)
    (he : HttpConn.Ev.err ∉ c.evs) (h : pass s c = some p) :
    (p.next = none ∧ (p.sv = none ∨ ∃ sv st, p.sv = some sv ∧ Refused st sv ∧ 400 ≤ st ∧
      ¬ FrontOk (c.buf ++ c.sock))) ∨
    ∃ (r : Rq) (rest : List Nat) (sv : Served) (u : List Nat), r.Ok ∧ c.buf ++ c.sock = r.bytes ++ rest ∧
      handleOn s c.user r.q r.body = some (sv, u) ∧ p.sv = some sv ∧
      (keepAfter s r.q (status sv.evs) = false → p.next = none) ∧
      (keepAfter s r.q (status sv.evs) = true → ∃ c', p.next = some c' ∧ c'.user = u ∧
        c'.buf ++ c'.sock = rest ∧ c'.buf.length ≤ 16384 ∧ HttpConn.Ev.err ∉ c'.evs) := by
  unfold pass at h
  obtain ⟨⟨t, h1, h2⟩, h3, h4, ⟨w, h5⟩⟩ := HttpConn.readRequest_spec bufSize c.evs c.buf c.sock
  have hfull := readRequest_zero bufSize c.evs c.buf c.sock
  simp only at h
  generalize readRequest bufSize c.buf c.sock c.evs = rr at h h1 h2 h3 h4 h5 hfull
  have hstream : c.buf ++ c.sock = rr.buf ++ rr.sock := by
    rw [h1, List.append_assoc, ← h2]
  cases hr : rr.res with
  | blocked =>
    simp only [hr, Option.some.injEq] at h
    subst h
    exact .inl ⟨rfl, .inl rfl⟩
  | ret r =>
    simp only [hr] at h
    by_cases hc1 : r = 0 ∧ rr.buf.length = bufSize
    · rw [if_pos hc1] at h
      simp only [Option.some.injEq] at h
      subst h
      refine .inl ⟨rfl, .inr ⟨_, 413, rfl, refuse_refused _ _ _, by decide, ?_⟩⟩
      rintro ⟨hd, rest, q, f1, f2, f3, _⟩
      have hz := hfull (by rw [hr, hc1.1])
      obtain ⟨t', ht'⟩ : ∃ t', rr.buf = hd ++ t' := by
        refine ⟨rr.buf.drop hd.length, ?_⟩
        have hle : hd.length ≤ rr.buf.length := by rw [hc1.2]; unfold bufSize; exact f3
        have := congrArg (List.take hd.length) (hstream.symm.trans f1)
        rw [List.take_append_of_le_length hle, List.take_left] at this
        rw [← this, List.length_take, Nat.min_eq_left hle, List.take_append_drop]
      rw [ht', header_len f2] at hz
      have := header_ne f2
      omega
    rw [if_neg hc1] at h
    by_cases hc2 : r ≤ 0
    · rw [if_pos hc2] at h
      simp only [Option.some.injEq] at h
      subst h
      exact .inl ⟨rfl, .inl rfl⟩
    rw [if_neg hc2] at h
    have hg := h4 r hr (by omega)
    obtain ⟨hd, rest, e1, e2, e3⟩ := (HttpConn.C12_positive_iff_header rr.buf r.toNat).1
      ⟨by rw [← hg]; omega, by omega⟩
    have htk : rr.buf.take r.toNat = hd := by rw [e1, ← e3, List.take_left]
    rw [htk] at h
    have hfront : FrontOk (c.buf ++ c.sock) → ∃ q, HttpHdr.parseRequest hd = some q ∧
        PathOk q.uri ∧ VersionOk q.version ∧ 0 ≤ contentLen q ∧ contentLen q ≤ 8192 := by
      rintro ⟨hd', rest', q, f1, f2, _, f4⟩
      have hu := header_unique e2 f2 (rest := rest ++ rr.sock) (rest' := rest')
        (by rw [← f1, hstream, e1, List.append_assoc])
      subst hu
      exact ⟨q, f4⟩
    cases hq : HttpHdr.parseRequest hd with
    | none =>
      simp only [hq] at h
      rw [refusal_some h]
      exact .inl ⟨rfl, .inr ⟨_, 400, rfl, refuse_refused _ _ _, by decide, (by
        intro hf; obtain ⟨_, x, _⟩ := hfront hf; rw [hq] at x; cases x)⟩⟩
    | some q =>
      simp only [hq] at h
      by_cases hv : validUri q.uri = true
      case neg =>
        rw [if_pos (by simpa using hv)] at h
        rw [refusal_some h]
        exact .inl ⟨rfl, .inr ⟨_, 400, rfl, refuse_refused _ _ _, by decide, (by
          intro hf; obtain ⟨_, x, y, _⟩ := hfront hf; rw [hq] at x; cases x
          exact hv ((validUri_iff _).2 y))⟩⟩
      rw [if_neg (by simp [hv])] at h
      by_cases hx : ([49, 46, 48].isPrefixOf q.version || [49, 46, 49].isPrefixOf q.version) = true
      case neg =>
        rw [if_pos (by rw [Bool.eq_false_iff.2 hx]; rfl)] at h
        rw [refusal_some h]
        exact .inl ⟨rfl, .inr ⟨_, 505, rfl, refuse_refused _ _ _, by decide, (by
          intro hf; obtain ⟨_, x, _, y, _⟩ := hfront hf; rw [hq] at x; cases x
          exact hx ((versionOk_iff _).2 y))⟩⟩
      rw [if_neg (by rw [hx]; simp)] at h
      by_cases hm : contentLen q > HttpConn.maxContentLen
      · rw [if_pos hm] at h
        rw [refusal_some h]
        exact .inl ⟨rfl, .inr ⟨_, 413, rfl, refuse_refused _ _ _, by decide, (by
          intro hf; obtain ⟨_, x, _, _, _, y⟩ := hfront hf; rw [hq] at x; cases x
          unfold HttpConn.maxContentLen at hm; omega)⟩⟩
      rw [if_neg hm] at h
      by_cases hn : contentLen q < 0
      · rw [if_pos hn] at h
        rw [refusal_some h]
        exact .inl ⟨rfl, .inr ⟨_, 400, rfl, refuse_refused _ _ _, by decide, (by
          intro hf; obtain ⟨_, x, _, _, y, _⟩ := hfront hf; rw [hq] at x; cases x
          omega)⟩⟩
      rw [if_neg hn] at h
      obtain ⟨m1, m2, m3, m4, m5, m6, ⟨v, m7⟩⟩ := HttpConn.mgRead_spec
        ⟨rr.buf, r.toNat, contentLen q, 0⟩ (contentLen q).toNat rr.sock rr.evs
      generalize mgRead ⟨rr.buf, r.toNat, contentLen q, 0⟩ (contentLen q).toNat rr.sock rr.evs = m
        at h m1 m2 m3 m4 m5 m6 m7
      by_cases hbk : m.fin = .blocked
      · rw [if_pos hbk, Option.some.injEq] at h
        subst h
        exact .inl ⟨rfl, .inl rfl⟩
      rw [if_neg hbk] at h
      by_cases hl : m.bytes.length < (contentLen q).toNat
      · rw [if_pos hl] at h
        simp at h
      rw [if_neg hl] at h
      unfold HttpConn.maxContentLen at hm
      have hbuf := h3 (by unfold bufSize; exact hb)
      unfold bufSize at hbuf
      have elen := congrArg List.length e1
      simp only [List.length_append] at elen
      unfold HttpConn.remaining at m1
      simp only [Nat.add_zero] at m1
      cases hho : handleOn s c.user q m.bytes with
      | none => simp [hho] at h
      | some x =>
        obtain ⟨sv, u⟩ := x
        simp only [hho, Option.map_eq_some_iff] at h
        obtain ⟨d, hd1, rfl⟩ := h
        have hle : m.bytes.length = (contentLen q).toNat := by omega
        have hd2 := (HttpConn.C13_discard_within_buffer _ _ _ _ hd1).2 (by omega)
        refine .inr ⟨⟨hd, m.bytes, q⟩, m.conn.buf.drop (m.conn.requestLen + m.conn.consumed) ++ m.sock,
          sv, u, ⟨e2, by simp only; omega, hq, (validUri_iff _).1 hv, (versionOk_iff _).1 hx,
            by simp only; omega, by simp only; omega⟩, ?_, hho, rfl, ?_, ?_⟩
        · rw [hstream, Rq.bytes, List.append_assoc, m1, ← e3, e1, List.drop_left, List.append_assoc]
        · intro hk
          simp [hk]
        · intro hk
          have hev : HttpConn.Ev.err ∉ m.evs := fun hm =>
            he (by rw [h5, m7]; exact List.mem_append_right _ (List.mem_append_right _ hm))
          refine ⟨⟨rr.buf.drop d, m.sock, m.evs, u⟩, by simp [hk], rfl, ?_,
            by simp only [List.length_drop]; omega, hev⟩
          simp only [m3, Nat.zero_add]
          congr 1
          by_cases hc : r.toNat + m.bytes.length ≤ rr.buf.length
          · congr 1; omega
          · rw [List.drop_eq_nil_of_le (by omega), List.drop_eq_nil_of_le (by omega)]

/-- All these requests are answered, and after each of them the connection is kept. -/
def AllKept (s : Site) : List Nat → List Rq → Prop
  | _, [] => True
  | u, r :: rs => ∃ sv u', handleOn s u r.q r.body = some (sv, u') ∧
      keepAfter s r.q (status sv.evs) = true ∧ AllKept s u' rs

/-- The responses of a whole connection in terms of the bytes that arrived: good requests
at the front of the stream, each answered by its handler, then possibly one refusal. -/
def Explained (s : Site) (u : List Nat) (stream : List Nat) (svs : List Served) : Prop :=
  ∃ (rs : List Rq) (rest : List Nat) (last : List Served), (∀ r ∈ rs, r.Ok) ∧
    stream = rs.flatMap Rq.bytes ++ rest ∧
    (∃ l, answers s u rs = some l ∧ l.length = rs.length ∧ svs = l ++ last) ∧
    (last = [] ∨ ∃ sv st, last = [sv] ∧ Refused st sv ∧ 400 ≤ st ∧ ¬ FrontOk rest ∧ AllKept s u rs)

theorem loop_explained (s : Site) : ∀ (n : Nat) (c : CState) (svs : List Served),
    c.buf.length ≤ 16384 → HttpConn.Ev.err ∉ c.evs → loop s n c = some svs →
    Explained s c.user (c.buf ++ c.sock) svs := by
  intro n
  induction n with
  | zero =>
    intro c svs _ _ h
    simp only [loop, Option.some.injEq] at h
    subst h
    exact ⟨[], _, [], by simp, rfl, ⟨[], rfl, rfl, rfl⟩, .inl rfl⟩
  | succ n ih =>
    intro c svs hb he h
    simp only [loop] at h
    cases hp : pass s c with
    | none => simp [hp] at h
    | some p =>
      simp only [hp] at h
      rcases pass_cases s c p hb he hp with ⟨p1, p2⟩ | ⟨r, rest, sv, u, p1, p2, p3, p4, p5, p6⟩
      · simp only [p1, Option.some.injEq] at h
        subst h
        refine ⟨[], _, p.sv.toList, by simp, rfl, ⟨[], rfl, rfl, by simp⟩, ?_⟩
        rcases p2 with p2 | ⟨sv, st, p2, p3, p4, p5⟩
        · left; rw [p2]; rfl
        · right; exact ⟨sv, st, by rw [p2]; rfl, p3, p4, p5, trivial⟩
      · by_cases hk : keepAfter s r.q (status sv.evs) = true
        · obtain ⟨c', k1, k2, k3, k4, k5⟩ := p6 hk
          simp only [k1, Option.map_eq_some_iff] at h
          obtain ⟨tail, t1, rfl⟩ := h
          obtain ⟨rs, rest', last, g1, g2, ⟨l, g3, g4, g5⟩, g6⟩ := ih c' tail k4 k5 t1
          rw [k2] at g3
          refine ⟨r :: rs, rest', last, ?_, ?_, ⟨sv :: l, ?_, by simp [g4], ?_⟩, ?_⟩
          · intro x hx
            rcases List.mem_cons.1 hx with rfl | hx
            · exact p1
            · exact g1 x hx
          · rw [p2, ← k3, g2, List.flatMap_cons, List.append_assoc]
          · simp only [answers, p3, hk, if_true, g3, Option.map_some]
          · rw [p4, g5]; rfl
          · rcases g6 with g6 | ⟨sv', st, g6, g7, g8, g9, g10⟩
            · exact .inl g6
            · rw [k2] at g10
              exact .inr ⟨sv', st, g6, g7, g8, g9, sv, u, p3, hk, g10⟩
        · have hk' := Bool.eq_false_iff.2 hk
          simp only [p5 hk', Option.some.injEq] at h
          subst h
          refine ⟨[r], rest, [], by simpa using p1, by simp [p2], ⟨[sv], ?_, rfl, by rw [p4]; rfl⟩,
            .inl rfl⟩
          simp only [answers, p3, hk', Bool.false_eq_true, if_false]

/-- C100, for whatever a client sends, in whatever pieces, as long as no read fails: every
response of the connection is the handler's answer to a well-formed request at its place in the
stream, with exactly the bytes that the header announces as its body, or it is a refusal, which
is the last response and is given only if what comes next in the stream is no request that could
be handled.  In particular no byte of a body is ever taken for a part of a request. -/
theorem C100_every_answer_explained (s : Site) (n : Nat) (sched : List HttpConn.Ev)
    (he : HttpConn.Ev.err ∉ sched) (sock : List Nat) (svs : List Served)
    (h : connection s n sched sock = some svs) : Explained s [] sock svs :=
  loop_explained s n ⟨[], sock, sched, []⟩ svs (by simp) he h

/-- The first answer of a connection is the one `serve` of C92 gives. -/
theorem handleOn_first (s : Site) (q : HttpHdr.Req) (body : List Nat) :
    (handleOn s [] q body).map (·.1) = handle s q body := by
  unfold handleOn handle
  cases Url.requestPath q.uri with
  | none => rfl
  | some p =>
    simp only
    cases hdrOf (AuthHdr.parseAuthHeader s.odd (toMode s.srv.cfg.authMode)
        (HttpHdr.getHeader q.hdrs [65, 117, 116, 104, 111, 114, 105, 122, 97, 116, 105, 111, 110])) with
    | none => rfl
    | some hdr => simp only [Option.map_map]; rfl

/-! ## The same request on a connection of its own -/

/-- An effect without the user name that the CA gets. -/
def blankE : Ev → Ev
  | .ca k q => .ca k { q with user := [] }
  | e => e

def blank : BEv → BEv
  | .ev e => .ev (blankE e)
  | e => e

/-- The CA's answer does not depend on the user name. -/
structure NameFree (s : Server.Server) : Prop where
  enroll : ∀ ca, s.cfg.enrollCb = some ca → ∀ q u, ca { q with user := u } = ca q
  reenroll : ∀ ca, s.cfg.reenrollCb = some ca → ∀ q u, ca { q with user := u } = ca q
  keygen : ∀ ca, s.kg.caCb = some ca → ∀ q u key, ca { q with user := u } key = ca q key

def outOf (o : Server.Out) : EstErr × List Ev := (o.rc, o.evs.map blankE)

theorem enrollAnswer_blank (cfg net r) (es es' : List Ev) (u u' : List Nat)
    (h : es.map blankE = es'.map blankE) :
    outOf (Server.enrollAnswer cfg net r es u) = outOf (Server.enrollAnswer cfg net r es' u') := by
  unfold Server.enrollAnswer
  repeat' split
  all_goals simp [outOf, h]

theorem keygenAnswer_blank (cfg mp net bo r) (es es' : List Ev) (u u' : List Nat)
    (h : es.map blankE = es'.map blankE) :
    outOf (Server.keygenAnswer cfg mp net bo r es u) =
      outOf (Server.keygenAnswer cfg mp net bo r es' u') := by
  unfold Server.keygenAnswer
  repeat' split
  all_goals simp [outOf, h]

theorem simpleEnroll_blank (cfg tls net parse re) (rq : Server.Req) (u u' : List Nat)
    (hc : ∀ ca, (if re then cfg.reenrollCb else cfg.enrollCb) = some ca →
      ∀ q u, ca { q with user := u } = ca q) :
    (Server.simpleEnroll cfg tls net parse re { rq with connUser := u }).map outOf =
      (Server.simpleEnroll cfg tls net parse re { rq with connUser := u' }).map outOf := by
  unfold Server.simpleEnroll
  cases hca : (if re then cfg.reenrollCb else cfg.enrollCb) with
  | none => rfl
  | some ca =>
    simp only
    split
    · rfl
    · cases Server.enrollAuth cfg tls rq.hdr parse (if re then .reenroll else .enroll) rq.body with
      | none => rfl
      | some a =>
        simp only
        have hcsr : ∀ kind, (Server.enrollCsr cfg tls net parse kind ca
              { rq with connUser := u } a).map outOf =
            (Server.enrollCsr cfg tls net parse kind ca
              { rq with connUser := u' } a).map outOf := by
          intro kind
          unfold Server.enrollCsr
          simp only
          repeat' split
          all_goals first | rfl | skip
          simp only [Option.map_some, Option.some.injEq]
          have hq : ca (Server.caReqOf cfg tls { rq with connUser := u } a) =
              ca (Server.caReqOf cfg tls { rq with connUser := u' } a) := by
            rw [← hc ca hca (Server.caReqOf cfg tls { rq with connUser := u } a) [],
              ← hc ca hca (Server.caReqOf cfg tls { rq with connUser := u' } a) []]
            rfl
          rw [hq]
          exact enrollAnswer_blank _ _ _ _ _ _ _ (by simp [blankE, Server.caReqOf])
        cases a.st with
        | httpAuthPending => rfl
        | csrParseFail => rfl
        | unauthorized => rfl
        | httpAuth => exact hcsr _
        | srpAuth => exact hcsr _
        | certAuth => exact hcsr _

theorem serverKeygen_blank (cfg : Server.Cfg) (k : Server.KeygenCfg) (mp tls net bo parse)
    (rq : Server.Req) (u u' : List Nat)
    (hc : ∀ ca, k.caCb = some ca → ∀ q u key, ca { q with user := u } key = ca q key) :
    (Server.serverKeygen cfg k mp tls net bo parse { rq with connUser := u }).map outOf =
      (Server.serverKeygen cfg k mp tls net bo parse { rq with connUser := u' }).map outOf := by
  unfold Server.serverKeygen
  cases hca : k.caCb with
  | none => rfl
  | some ca =>
    simp only
    cases k.keygenCb with
    | none => rfl
    | some g =>
    simp only
    split
    · rfl
    · cases Server.enrollAuth cfg tls rq.hdr parse .keygen rq.body with
      | none => rfl
      | some a =>
        simp only
        have hcsr : (Server.keygenCsr cfg k mp tls net bo parse ca g
              { rq with connUser := u } a).map outOf =
            (Server.keygenCsr cfg k mp tls net bo parse ca g
              { rq with connUser := u' } a).map outOf := by
          unfold Server.keygenCsr
          simp only
          cases a.csr.or (parse rq.body) with
          | none => rfl
          | some csr =>
            simp only
            cases Server.rekey k g csr with
            | error e => rfl
            | ok x =>
              obtain ⟨key, csr2⟩ := x
              simp only
              repeat' split
              all_goals first | rfl | skip
              simp only [Option.map_some, Option.some.injEq]
              have hq : ∀ body, ca (Server.keygenReq cfg tls { rq with connUser := u } a body) key =
                  ca (Server.keygenReq cfg tls { rq with connUser := u' } a body) key := by
                intro body
                rw [← hc ca hca (Server.keygenReq cfg tls { rq with connUser := u } a body) [],
                  ← hc ca hca (Server.keygenReq cfg tls { rq with connUser := u' } a body) []]
                rfl
              rw [hq]
              exact keygenAnswer_blank _ _ _ _ _ _ _ _ _ (by simp [blankE, Server.keygenReq])
        cases a.st with
        | httpAuthPending => rfl
        | csrParseFail => rfl
        | unauthorized => rfl
        | httpAuth => exact hcsr
        | srpAuth => exact hcsr
        | certAuth => exact hcsr

def doutOf (d : Server.DOut) : EstErr × List BEv × Option Server.Handler :=
  (d.rc, d.evs.map blank, d.handler)

theorem out_dout (net h) (o o' : Option Server.Out) (e : o.map outOf = o'.map outOf) :
    (o.map fun o => if o.rc ≠ .none ∧ o.rc ≠ .authPending then
        Server.orError net h o.rc (o.evs.map BEv.ev) o.rc
      else (⟨.none, o.evs.map BEv.ev, some h⟩ : Server.DOut)).map doutOf =
    (o'.map fun o => if o.rc ≠ .none ∧ o.rc ≠ .authPending then
        Server.orError net h o.rc (o.evs.map BEv.ev) o.rc
      else (⟨.none, o.evs.map BEv.ev, some h⟩ : Server.DOut)).map doutOf := by
  cases o with
  | none =>
    cases o' with
    | none => rfl
    | some _ => cases e
  | some o =>
    cases o' with
    | none => cases e
    | some o' =>
      simp only [Option.map_some, Option.some.injEq, outOf, Prod.mk.injEq] at e ⊢
      have h2 : (o.evs.map BEv.ev).map blank = (o'.evs.map BEv.ev).map blank := by
        have := congrArg (List.map BEv.ev) e.2
        simpa [List.map_map, Function.comp_def, blank] using this
      rw [e.1]
      split
      · simp only [doutOf, Server.orError, List.map_append, h2]
      · simp only [doutOf, h2]

theorem httpRequest_blank (s : Server.Server) (hn : NameFree s) (ssl tls net bo method uri ct)
    (rq : Server.Req) (u u' : List Nat) :
    (Server.httpRequest s ssl tls net bo method uri ct { rq with connUser := u }).map doutOf =
      (Server.httpRequest s ssl tls net bo method uri ct { rq with connUser := u' }).map doutOf := by
  unfold Server.httpRequest
  split
  · rfl
  cases uri with
  | ub => rfl
  | err e => cases e <;> rfl
  | ok op seg =>
    cases op with
    | cacerts => rfl
    | csrattrs => rfl
    | simpleEnroll =>
      simp only
      split
      · rfl
      · cases ct with
        | none => rfl
        | some c =>
          refine out_dout _ _ _ _ ?_
          exact (simpleEnroll_blank _ _ _ _ false { rq with ct := c, seg := seg } u u' hn.enroll)
    | simpleReenroll =>
      simp only
      split
      · rfl
      · cases ct with
        | none => rfl
        | some c =>
          refine out_dout _ _ _ _ ?_
          exact (simpleEnroll_blank _ _ _ _ true { rq with ct := c, seg := seg } u u' hn.reenroll)
    | serverKeygen =>
      simp only
      split
      · rfl
      · cases ct with
        | none => rfl
        | some c =>
          refine out_dout _ _ _ _ ?_
          exact (serverKeygen_blank _ _ _ _ _ _ _ { rq with ct := c, seg := seg } u u' hn.keygen)
    | reqVoucher => rfl
    | voucherStatus => rfl
    | enrollStatus => rfl

theorem bodyOf_blank (es : List BEv) : bodyOf (es.map blank) = bodyOf es := by
  induction es with
  | nil => rfl
  | cons e es ih =>
    rcases e with e | _
    · cases e <;> simp [bodyOf, blank, blankE, ih]
    · simp [bodyOf, blank, ih]

theorem text_blank (s : Site) (q : HttpHdr.Req) (d d' : Server.DOut) (h : doutOf d = doutOf d') :
    d.evs.flatMap (render s q d) = d'.evs.flatMap (render s q d') := by
  simp only [doutOf, Prod.mk.injEq] at h
  have hb : bodyOf d.evs = bodyOf d'.evs := by rw [← bodyOf_blank, h.2.1, bodyOf_blank]
  have hr : render s q d = render s q d' := by
    funext e
    rcases e with e | _
    · cases e <;> simp [render, h.1, h.2.2, hb]
    · rfl
  have hbl : ∀ es : List BEv, es.flatMap (render s q d') = (es.map blank).flatMap (render s q d') := by
    intro es
    induction es with
    | nil => rfl
    | cons e es ih =>
      simp only [List.flatMap_cons, List.map_cons, ih]
      congr 1
      rcases e with e | _
      · cases e <;> rfl
      · rfl
  rw [hr, hbl, h.2.1, ← hbl]

/-- The bytes of an answer do not depend on the user name left on the connection, nor do the
effects but for the name that the CA gets. -/
theorem handleOn_name (s : Site) (hn : NameFree s.srv) (q : HttpHdr.Req) (body u u' : List Nat) :
    (handleOn s u q body).map (fun x => (x.1.text, x.1.evs.map blank)) =
      (handleOn s u' q body).map (fun x => (x.1.text, x.1.evs.map blank)) := by
  unfold handleOn
  cases Url.requestPath q.uri with
  | none => rfl
  | some p =>
    simp only
    cases hdrOf (AuthHdr.parseAuthHeader s.odd (toMode s.srv.cfg.authMode)
        (HttpHdr.getHeader q.hdrs [65, 117, 116, 104, 111, 114, 105, 122, 97, 116, 105, 111, 110])) with
    | none => rfl
    | some hdr =>
      simp only
      have h := httpRequest_blank s.srv hn true s.tls ⟨true, s.out, true⟩ (fun _ => s.out) q.method
        (s.uri p) (HttpHdr.getHeader q.hdrs [67, 111, 110, 116, 101, 110, 116, 45, 84, 121, 112, 101]) ⟨[], body, none, hdr, []⟩ u u'
      simp only at h
      generalize Server.httpRequest s.srv true s.tls ⟨true, s.out, true⟩ (fun _ => s.out) q.method
        (s.uri p) (HttpHdr.getHeader q.hdrs [67, 111, 110, 116, 101, 110, 116, 45, 84, 121, 112, 101]) ⟨[], body, none, hdr, u⟩ = d at h ⊢
      generalize Server.httpRequest s.srv true s.tls ⟨true, s.out, true⟩ (fun _ => s.out) q.method
        (s.uri p) (HttpHdr.getHeader q.hdrs [67, 111, 110, 116, 101, 110, 116, 45, 84, 121, 112, 101]) ⟨[], body, none, hdr, u'⟩ = d' at h ⊢
      cases d with
      | none =>
        cases d' with
        | none => rfl
        | some _ => cases h
      | some d =>
        cases d' with
        | none => cases h
        | some d' =>
          simp only [Option.map_some, Option.some.injEq] at h ⊢
          rw [text_blank s q d d' h]
          simp only [doutOf, Prod.mk.injEq] at h
          rw [h.2.1]

theorem answers_alone (s : Site) (hn : NameFree s.srv) (rs : List Rq) : ∀ (u : List Nat)
    (l : List Served), answers s u rs = some l → l.length ≤ rs.length ∧
    ∀ (i : Nat) (sv : Served), l[i]? = some sv → ∃ r sv', rs[i]? = some r ∧
      answers s [] [r] = some [sv'] ∧ sv'.text = sv.text ∧
      sv'.evs.map blank = sv.evs.map blank := by
  induction rs with
  | nil =>
    intro u l h
    simp only [answers, Option.some.injEq] at h
    subst h
    simp
  | cons r rs ih =>
    intro u l h
    simp only [answers] at h
    cases hx : handleOn s u r.q r.body with
    | none => simp [hx] at h
    | some x =>
      obtain ⟨sv, u'⟩ := x
      simp only [hx] at h
      have hal : ∃ sv', answers s [] [r] = some [sv'] ∧ sv'.text = sv.text ∧
          sv'.evs.map blank = sv.evs.map blank := by
        have := handleOn_name s hn r.q r.body u []
        rw [hx] at this
        cases hy : handleOn s [] r.q r.body with
        | none => rw [hy] at this; cases this
        | some y =>
          rw [hy] at this
          simp only [Option.map_some, Option.some.injEq, Prod.mk.injEq] at this
          obtain ⟨sv', u''⟩ := y
          refine ⟨sv', ?_, this.1.symm, this.2.symm⟩
          simp only [answers, hy]
          split <;> rfl
      by_cases hk : keepAfter s r.q (status sv.evs) = true
      · simp only [hk, if_true, Option.map_eq_some_iff] at h
        obtain ⟨tail, t1, rfl⟩ := h
        obtain ⟨i1, i2⟩ := ih u' tail t1
        refine ⟨by simpa using i1, ?_⟩
        intro i sv1 hi
        cases i with
        | zero =>
          simp only [List.getElem?_cons_zero, Option.some.injEq] at hi
          subst hi
          obtain ⟨sv', a1, a2⟩ := hal
          exact ⟨r, sv', by simp, a1, a2⟩
        | succ i => simpa using i2 i sv1 (by simpa using hi)
      · rw [if_neg hk, Option.some.injEq] at h
        subst h
        refine ⟨by simp, ?_⟩
        intro i sv1 hi
        cases i with
        | zero =>
          simp only [List.getElem?_cons_zero, Option.some.injEq] at hi
          subst hi
          obtain ⟨sv', a1, a2⟩ := hal
          exact ⟨r, sv', by simp, a1, a2⟩
        | succ i => simp at hi

/-- C100: with a CA whose answer does not depend on the user name, every answer on a connection
is, byte for byte, the one that the same request gets alone on a connection of its own, and its
effects are the same except for the user name shown to the CA. -/
theorem C100_as_if_alone (s : Site) (hn : NameFree s.srv) (rs : List Rq) (hok : ∀ r ∈ rs, r.Ok)
    (sched : List HttpConn.Ev) (hf : Flows sched (rs.flatMap Rq.bytes).length) (n : Nat)
    (hlen : rs.length < n) (l : List Served)
    (h : connection s n sched (rs.flatMap Rq.bytes) = some l) :
    l.length ≤ rs.length ∧ ∀ (i : Nat) (sv : Served), l[i]? = some sv → ∃ r, rs[i]? = some r ∧
      ∀ sched', Flows sched' r.bytes.length → ∃ sv', connection s 2 sched' r.bytes = some [sv'] ∧
        sv'.text = sv.text ∧ sv'.evs.map blank = sv.evs.map blank := by
  rw [C100_one_after_the_other s rs hok sched hf n hlen] at h
  obtain ⟨h1, h2⟩ := answers_alone s hn rs [] l h
  refine ⟨h1, fun i sv hi => ?_⟩
  obtain ⟨r, sv', r1, r2, r3⟩ := h2 i sv hi
  refine ⟨r, r1, fun sched' hf' => ⟨sv', ?_, r3⟩⟩
  have := C100_one_after_the_other s [r] (by
    intro x hx
    rw [List.mem_singleton] at hx
    subst hx
    exact hok _ (List.mem_of_getElem? r1)) sched' (by simpa using hf') 2 (by simp)
  rw [← r2, ← this]
  simp

/-- The example server with a CA that does not look at the name. -/
def exSite4 : Site :=
  { exSite3 with
    srv := { exSite3.srv with
      cfg := { exSite3.srv.cfg with
        enrollCb := some fun q => ⟨.none, q.body⟩
        reenrollCb := some fun q => ⟨.none, q.body⟩ } } }

example : NameFree exSite4.srv :=
  ⟨fun ca h q u => by cases h; rfl, fun ca h q u => by cases h; rfl, fun ca h q u k => by cases h; rfl⟩

/-- A body that looks like a request is not taken for one; then a refusal. -/
def exTrap : List Nat := exEnrol [] [65, 117, 116, 104, 111, 114, 105, 122, 97, 116, 105, 111, 110, 58, 32, 66, 97, 115, 105, 99, 32, 100, 84, 112, 119, 13, 10] [71, 69, 84, 32] ++ exRq1.hd ++
  [72, 69, 76, 79, 13, 10, 13, 10] ++ exRq1.hd

example : ((connection exSite3 9 exFlow exTrap).map (·.map fun sv => (sv.text.take 12, sv.evs.length)))
    = some [([72, 84, 84, 80, 47, 49, 46, 49, 32, 50, 48, 48], 4), ([72, 84, 84, 80, 47, 49, 46, 49, 32, 50, 48, 48], 2), ([72, 84, 84, 80, 47, 49, 46, 49, 32, 52, 48, 48], 0)] := by decide +kernel

end Verif.Wire
