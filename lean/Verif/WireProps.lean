import Verif.WireModel
import Verif.HttpConnProps
import Verif.ClientReqProps
import Verif.ChallengeProps
import Verif.AuthHdrProps
import Verif.ClientRespProps
import Verif.ClientFlowProps
import Verif.EnrollProps
import Verif.EstUriProps

/-!
# Property C89: an enrolment, from the client's API to the server's CA callback and back

The client of `Verif.Flow` and the server of `Verif.Wire` are put together: the bytes the one
writes are the bytes the other reads.
-/
namespace Verif.Wire
open Verif.HttpHdr (getHeader caseEq)
open Verif.HttpConn (readRequest pullLoop mgRead getRequestLen)
open Verif.ClientResp (Mode decimal errorText retryText getResponse clientSees)
open Verif.ClientReq (HeaderText requestText toAuth path postHeaders)
open Verif.Server (AuthMode Cred HdrRes DOut BEv Ev CaReq CaRes)

/-! ## Arrival -/

/-- The number of bytes that can be read in the course of a schedule. -/
def total : List HttpConn.Ev → Nat
  | [] => 0
  | .err :: es => total es
  | .avail k :: es => k + total es

/-- The connection does not fail, and `n` bytes can be read. -/
def Arrives (sched : List HttpConn.Ev) (n : Nat) : Prop := HttpConn.Ev.err ∉ sched ∧ n ≤ total sched

theorem readRequest_arrives (n : Nat) (evs : List HttpConn.Ev) : ∀ (buf sock : List Nat) (r : Nat),
    getRequestLen (buf ++ sock) = r → 0 < r → buf.length + sock.length ≤ n →
    Arrives evs sock.length →
    (readRequest n buf sock evs).res = .ret r ∧
    (readRequest n buf sock evs).buf ++ (readRequest n buf sock evs).sock = buf ++ sock ∧
    r ≤ (readRequest n buf sock evs).buf.length ∧
    Arrives (readRequest n buf sock evs).evs (readRequest n buf sock evs).sock.length := by
  induction evs with
  | nil =>
    intro buf sock r h hr hl ⟨_, ha⟩
    have hs : sock = [] := by cases sock with | nil => rfl | cons _ _ => simp [total] at ha
    subst hs
    simp only [List.append_nil] at h
    unfold readRequest
    rw [if_neg (by omega)]
    have := HttpConn.C12_within_buffer buf
    refine ⟨by simp [h], rfl, ?_, by simp [Arrives, total]⟩
    show r ≤ buf.length
    omega
  | cons e es ih =>
    intro buf sock r h hr hl ⟨he, ha⟩
    by_cases hz : buf.length < n ∧ getRequestLen buf = 0
    · cases e with
      | err => simp at he
      | avail k =>
        unfold readRequest
        rw [if_pos hz]
        simp only
        have hd : buf ++ sock.take (min k (n - buf.length)) ++ sock.drop (min k (n - buf.length)) =
            buf ++ sock := by simp
        have := ih (buf ++ sock.take (min k (n - buf.length))) (sock.drop (min k (n - buf.length))) r
          (by rw [hd]; exact h) hr (by simp; omega)
          ⟨by simp at he; exact he, by simp [total] at ha ⊢; omega⟩
        rw [hd] at this
        exact this
    · have hg : getRequestLen buf = r := by
        by_cases h0 : getRequestLen buf = 0
        · have hs : sock = [] := by
            have : sock.length = 0 := by
              have := Decidable.not_and_iff_or_not.1 hz
              omega
            exact List.length_eq_zero_iff.1 this
          subst hs
          simpa using h
        · rw [← h, HttpConn.C12_stable _ _ h0]
      unfold readRequest
      rw [if_neg hz]
      have := HttpConn.C12_within_buffer buf
      refine ⟨by simp [hg], rfl, ?_, he, ha⟩
      show r ≤ buf.length
      omega

theorem pullLoop_arrives (evs : List HttpConn.Ev) : ∀ (len : Nat) (sock : List Nat),
    len ≤ sock.length → Arrives evs sock.length → (pullLoop len sock evs).2.1 = .done := by
  induction evs with
  | nil =>
    intro len sock h ⟨_, ha⟩
    simp [total] at ha
    subst ha
    simp at h
    simp [pullLoop, h]
  | cons e es ih =>
    intro len sock h ⟨he, ha⟩
    unfold pullLoop
    by_cases hl : len = 0
    · simp [hl]
    · rw [if_neg hl]
      cases e with
      | err => simp at he
      | avail k =>
        simp only
        by_cases hk : len ≤ k
        · have hz : len - (sock.take (min k len)).length = 0 := by simp; omega
          rw [hz]
          cases es <;> simp [pullLoop]
        · refine ih _ _ (by simp; omega) ⟨by simp at he; exact he, ?_⟩
          simp [total] at ha ⊢
          omega

theorem strtoll_decimal (n : Nat) (h : n < 2 ^ 63) : strtoll (decimal n) = n := by
  have hd := ClientResp.decimal_digits n
  have hne := ClientResp.decimal_ne_nil n
  have hv := ClientResp.numVal_decimal n
  revert hd hne hv
  generalize decimal n = t
  intro hd hne hv
  have htw : t.takeWhile ClientResp.isDigit = t := by
    have h1 : (t ++ []).takeWhile ClientResp.isDigit =
        t ++ ([] : List Nat).takeWhile ClientResp.isDigit :=
      List.takeWhile_append_of_pos
        (fun c hc => by have := hd c hc; simp [ClientResp.isDigit]; omega)
    simpa using h1
  cases t with
  | nil => exact absurd rfl hne
  | cons c r =>
    have hc := hd c (by simp)
    have hs : (c :: r).dropWhile HttpHdr.isSpace = c :: r := by
      rw [List.dropWhile_cons_of_neg]
      simp [HttpHdr.isSpace]; omega
    have h45 : c ≠ 45 := by omega
    have h43 : c ≠ 43 := by omega
    have hsp : ClientResp.splitSign (c :: r) = (false, c :: r) := by
      simp [ClientResp.splitSign, h45, h43]
    unfold strtoll
    simp only [hs, hsp, htw, hv]
    simp
    omega

/-- A request whose header is understood and whose body arrives is handled. -/
theorem serveWith_request {β : Type} (early : Served → β)
    (h : HttpHdr.Req → List Nat → Option β) (sched : List HttpConn.Ev) (hd body rest : List Nat)
    (q : HttpHdr.Req) (hlen : getRequestLen (hd ++ (body ++ rest)) = hd.length)
    (hne : hd ≠ []) (hq : HttpHdr.parseRequest hd = some q) (hu : validUri q.uri = true)
    (hv : q.version = [49, 46, 49]) (hc : contentLen q = body.length) (hb : body.length ≤ 8192)
    (hl : (hd ++ (body ++ rest)).length ≤ bufSize)
    (ha : Arrives sched (hd ++ (body ++ rest)).length) :
    serveWith early h sched (hd ++ (body ++ rest)) = h q body := by
  have hpos : 0 < hd.length := List.length_pos_iff.2 hne
  obtain ⟨h1, h2, h3, h4⟩ := readRequest_arrives bufSize sched [] (hd ++ (body ++ rest)) hd.length
    (by simpa using hlen) hpos (by simpa using hl) ha
  unfold serveWith
  simp only [h1]
  generalize readRequest bufSize [] (hd ++ (body ++ rest)) sched = rr at h2 h3 h4
  rw [List.nil_append] at h2
  have htake : rr.buf.take hd.length = hd := by
    have := congrArg (List.take hd.length) h2
    rw [List.take_append_of_le_length h3, List.take_left] at this
    exact this
  rw [if_neg (by omega), if_neg (by omega), Int.toNat_natCast, htake, hq]
  simp only
  rw [hu, hv]
  simp only [Bool.not_true, Bool.false_eq_true, if_false]
  rw [if_neg (by decide), hc, if_neg (by unfold HttpConn.maxContentLen; omega), if_neg (by omega),
    Int.toNat_natCast]
  have hdrop : rr.buf.drop hd.length ++ rr.sock = body ++ rest := by
    have := congrArg (List.drop hd.length) h2
    rw [List.drop_append_of_le_length h3, List.drop_left] at this
    exact this
  have hm : (mgRead ⟨rr.buf, hd.length, body.length, 0⟩ body.length rr.sock rr.evs).fin = .done := by
    unfold mgRead
    by_cases h0 : (0 : Nat) < body.length
    · simp only
      rw [if_pos (by omega)]
      simp only
      refine pullLoop_arrives _ _ _ ?_ h4
      have := congrArg List.length hdrop
      simp at this ⊢
      omega
    · simp only
      rw [if_neg (by omega)]
  rw [if_neg (by rw [hm]; decide), HttpConn.C14_complete_read _ _ _ _ hm]
  simp only [Nat.add_zero]
  rw [hdrop]
  simp

/-- The same for the server. -/
theorem serve_request (s : Site) (sched : List HttpConn.Ev) (hd body rest : List Nat)
    (q : HttpHdr.Req) (hlen : getRequestLen (hd ++ (body ++ rest)) = hd.length)
    (hne : hd ≠ []) (hq : HttpHdr.parseRequest hd = some q) (hu : validUri q.uri = true)
    (hv : q.version = [49, 46, 49]) (hc : contentLen q = body.length) (hb : body.length ≤ 8192)
    (hl : (hd ++ (body ++ rest)).length ≤ bufSize)
    (ha : Arrives sched (hd ++ (body ++ rest)).length) :
    serve s sched (hd ++ (body ++ rest)) = handle s q body :=
  serveWith_request id (handle s) sched hd body rest q hlen hne hq hu hv hc hb hl ha

/-! ## What the server writes for an enrolment -/

/-- What the handler for enrolment or re-enrolment does with a request that comes with the
content type of a PKCS#10 request. -/
def outcome (s : Site) (re : Bool) (seg : Option (List Nat)) (body : List Nat)
    (hdr : HdrRes × Cred) : Option Server.Out :=
  Server.simpleEnroll s.srv.cfg s.tls ⟨true, s.out, true⟩ s.srv.parse re
    ⟨[97, 112, 112, 108, 105, 99, 97, 116, 105, 111, 110, 47, 112, 107, 99, 115, 49, 48], body, seg, hdr, []⟩

/-- The CA was asked for this CSR text, under this path segment, and returned this
certificate. -/
def Issued (s : Site) (re : Bool) (seg : Option (List Nat)) (csr : List Nat) (o : Server.Out)
    (cert : List Nat) : Prop :=
  ∃ (ca : CaReq → CaRes) (rq : CaReq), (if re then s.srv.cfg.reenrollCb else s.srv.cfg.enrollCb) =
      some ca ∧
    Ev.ca (if re then .reenroll else .enroll) rq ∈ o.evs ∧ rq.body = csr ∧
    rq.seg = seg ∧ (ca rq).rc = .none ∧ (ca rq).cert = cert ∧ cert ≠ []

theorem render_asks (s : Site) (q : HttpHdr.Req) (d : DOut) (pre : List Ev)
    (h : ∀ e ∈ pre, ∃ c, e = Ev.askApp c) : (pre.map BEv.ev).flatMap (render s q d) = [] := by
  induction pre with
  | nil => rfl
  | cons e es ih =>
    obtain ⟨c, rfl⟩ := h e (by simp)
    simp only [List.map_cons, List.flatMap_cons]
    rw [ih (fun e he => h e (by simp [he]))]
    rfl

theorem bodyOf_asks (pre : List Ev) (t : List BEv)
    (h : ∀ e ∈ pre, ∃ c, e = Ev.askApp c) : bodyOf (pre.map BEv.ev ++ t) = bodyOf t := by
  induction pre with
  | nil => rfl
  | cons e es ih =>
    obtain ⟨c, rfl⟩ := h e (by simp)
    simp only [List.map_cons, List.cons_append, bodyOf]
    exact ih (fun e he => h e (by simp [he]))

theorem errStatus_plain (e : EstErr) (h : e ≠ .caEnrollRetry) :
    Server.errStatus e ≠ 200 ∧ Server.errStatus e ≠ 202 := by
  cases e <;> first | exact absurd rfl h | (simp [Server.errStatus]; done)

/-- The four kinds of answers of the handlers for enrolment. -/
theorem handle_enroll (s : Site) (re : Bool) (q : HttpHdr.Req) (body p : List Nat)
    (seg : Option (List Nat)) (hdr : HdrRes × Cred) (o : Server.Out)
    (hm : q.method = [80, 79, 83, 84]) (hp : Url.requestPath q.uri = some p)
    (hu : s.uri p = .ok (if re then .simpleReenroll else .simpleEnroll) seg)
    (hct : getHeader q.hdrs [67, 111, 110, 116, 101, 110, 116, 45, 84, 121, 112, 101] = some [97, 112, 112, 108, 105, 99, 97, 116, 105, 111, 110, 47, 112, 107, 99, 115, 49, 48])
    (hh : hdrOf (AuthHdr.parseAuthHeader s.odd (toMode s.srv.cfg.authMode)
        (getHeader q.hdrs [65, 117, 116, 104, 111, 114, 105, 122, 97, 116, 105, 111, 110])) = some hdr)
    (ht : s.srv.cfg.transport = .http) (ho : outcome s re seg body hdr = some o)
    (hca : ∀ ca rq, (if re then s.srv.cfg.reenrollCb else s.srv.cfg.enrollCb) = some ca →
      (ca rq).cert.length ≤ s.out) :
    ∃ sv, handle s q body = some sv ∧ (∀ e ∈ o.evs, BEv.ev e ∈ sv.evs) ∧
      ((∃ cert, o.rc = .none ∧ Issued s re seg body o cert ∧
          sv.text = Proxy.head200 Proxy.ctCert cert.length ++ cert) ∨
       (o.rc = .caEnrollRetry ∧ sv.text = retryText s.srv.cfg.retryPeriod) ∨
       (o.rc = .authPending ∧
          sv.text = Challenge.challengeText (toMode s.srv.cfg.authMode) s.realm s.time) ∨
       (o.rc ≠ .none ∧ o.rc ≠ .caEnrollRetry ∧ o.rc ≠ .authPending ∧
          ∃ keep, sv.text = errorText (Server.errStatus o.rc) (explain o.rc) keep)) := by
  have hd : handle s q body = some
      (let d : DOut := if o.rc ≠ .none ∧ o.rc ≠ .authPending then
          Server.orError ⟨true, s.out, true⟩ (if re then .reenroll else .enroll) o.rc
            (o.evs.map BEv.ev) o.rc
        else ⟨.none, o.evs.map BEv.ev, some (if re then .reenroll else .enroll)⟩
       ⟨d.evs.flatMap (render s q d), d.evs⟩) := by
    unfold handle
    simp only [hp, hh, hu, hct]
    unfold outcome at ho
    cases re
    · simp only [Bool.false_eq_true, if_false] at ho ⊢
      unfold Server.httpRequest
      simp only [hm]
      rw [if_neg (by decide), if_neg (by decide)]
      simp only [ho, Option.map_some]
    · simp only [if_true] at ho ⊢
      unfold Server.httpRequest
      simp only [hm]
      rw [if_neg (by decide), if_neg (by decide)]
      simp only [ho, Option.map_some]
  refine ⟨_, hd, ?_, ?_⟩
  · intro e he
    simp only
    split
    · simp [Server.orError, he]
    · simp [he]
  -- a run that ended with an error
  have hfail : ∀ (pre : List Ev) (t : List Ev), o.evs = pre ++ t → (∀ e ∈ pre, ∃ c, e = Ev.askApp c) →
      (t = [] ∨ ∃ k rq, t = [Ev.ca k rq]) → o.rc ≠ .none → o.rc ≠ .authPending →
      o.rc ≠ .caEnrollRetry →
      ∃ keep, ((o.evs.map BEv.ev ++ (Server.sendError true o.rc).map BEv.ev).flatMap
        (render s q (Server.orError ⟨true, s.out, true⟩ (if re then .reenroll else .enroll) o.rc
            (o.evs.map BEv.ev) o.rc))) = errorText (Server.errStatus o.rc) (explain o.rc) keep := by
    intro pre t hev hpre ht h1 h2 h3
    obtain ⟨h4, h5⟩ := errStatus_plain o.rc h3
    refine ⟨keepAfter s q (Server.errStatus o.rc), ?_⟩
    have ht' : ∀ d, (t.map BEv.ev).flatMap (render s q d) = [] := by
      intro d
      rcases ht with rfl | ⟨k, rq, rfl⟩ <;> rfl
    rw [List.flatMap_append, hev, List.map_append, List.flatMap_append, render_asks _ _ _ _ hpre, ht']
    unfold Server.sendError
    rw [if_neg h3]
    simp only [List.map_cons, List.map_nil, List.flatMap_cons, List.flatMap_nil, List.append_nil,
      List.nil_append, render, Server.orError]
    rw [if_neg h4, if_neg h5, if_neg (by simp [h1])]
  rcases Server.simpleEnroll_cases ho with hs | ⟨ca, a, csr, hr, hoa⟩
  · rcases hs with ⟨hrc, hev⟩ | ⟨h1, h2, h3, hev⟩
    · right; right; left
      refine ⟨hrc, ?_⟩
      simp only
      rw [if_neg (by simp [hrc])]
      simp only [hev]
      cases hmode : s.srv.cfg.authMode <;>
        simp [Server.challenge, render, toMode, hmode, Challenge.challengeText]
    · right; right; right
      refine ⟨h1, h2, h3, ?_⟩
      simp only
      rw [if_pos ⟨h1, h3⟩]
      exact hfail o.evs [] (by simp) hev (.inl rfl) h1 h3 h2
  · have hpre : ∀ e ∈ a.evs, ∃ c, e = Ev.askApp c := by
      rcases Server.enrollAuth_pending hr.auth with ⟨hp, _⟩ | ⟨_, hp⟩
      · have := hr.ok; simp [Server.Authorised, hp] at this
      · exact hp
    have hcb := hr.cb
    obtain ⟨_, hA⟩ := Server.enrollAnswer_cases s.srv.cfg ⟨true, s.out, true⟩
        (ca (Server.caReqOf s.srv.cfg s.tls ⟨[97, 112, 112, 108, 105, 99, 97, 116, 105, 111, 110, 47, 112, 107, 99, 115, 49, 48], body, seg, hdr, []⟩ a))
        (a.evs ++ [.ca (Server.kindOf re)
          (Server.caReqOf s.srv.cfg s.tls ⟨[97, 112, 112, 108, 105, 99, 97, 116, 105, 111, 110, 47, 112, 107, 99, 115, 49, 48], body, seg, hdr, []⟩ a)])
        (a.user.getD [])
    replace hoa : o = Server.enrollAnswer s.srv.cfg ⟨true, s.out, true⟩
        (ca (Server.caReqOf s.srv.cfg s.tls ⟨[97, 112, 112, 108, 105, 99, 97, 116, 105, 111, 110, 47, 112, 107, 99, 115, 49, 48], body, seg, hdr, []⟩ a))
        (a.evs ++ [.ca (Server.kindOf re)
          (Server.caReqOf s.srv.cfg s.tls ⟨[97, 112, 112, 108, 105, 99, 97, 116, 105, 111, 110, 47, 112, 107, 99, 115, 49, 48], body, seg, hdr, []⟩ a)])
        (a.user.getD []) := hoa
    rw [← hoa] at hA
    have hbody : (Server.caReqOf s.srv.cfg s.tls ⟨[97, 112, 112, 108, 105, 99, 97, 116, 105, 111, 110, 47, 112, 107, 99, 115, 49, 48], body, seg, hdr, []⟩ a).body =
        body := rfl
    have hseg : (Server.caReqOf s.srv.cfg s.tls ⟨[97, 112, 112, 108, 105, 99, 97, 116, 105, 111, 110, 47, 112, 107, 99, 115, 49, 48], body, seg, hdr, []⟩ a).seg =
        seg := rfl
    generalize Server.caReqOf s.srv.cfg s.tls ⟨[97, 112, 112, 108, 105, 99, 97, 116, 105, 111, 110, 47, 112, 107, 99, 115, 49, 48], body, seg, hdr, []⟩ a = rq at hA hoa hbody hseg
    have hbo := hca ca rq hcb
    rcases hA with ⟨h1, h2, ⟨h4, _⟩ | ⟨_, h4, _⟩ | ⟨_, _, h3, h4⟩⟩ | ⟨h1, h3, h4⟩
    · simp [ht] at h4
    · simp at h4
    · left
      have hw : Server.writeBody s.out (ca rq).cert = ([Ev.body (ca rq).cert], true) := by
        simp [Server.writeBody, List.take_of_length_le hbo, h2]
      simp only [hw] at h3 h4
      rw [if_pos trivial] at h4
      refine ⟨(ca rq).cert, h4, ⟨ca, rq, hcb, ?_, hbody, hseg, h1, rfl, h2⟩, ?_⟩
      · rw [h3]; simp [Server.kindOf]
      · simp only
        rw [if_neg (by simp [h4])]
        simp only [h3, List.map_append, List.flatMap_append, render_asks _ _ _ _ hpre]
        simp only [List.append_assoc, bodyOf_asks _ _ hpre, List.map_cons, List.map_nil,
          List.flatMap_cons, List.flatMap_nil, render, List.append_nil, List.nil_append, bodyOf,
          List.cons_append, if_true]
        congr 1
        cases re <;> rfl
    · by_cases hx : (ca rq).rc = .caEnrollRetry
      · rw [if_pos hx] at h4
        right; left
        refine ⟨h4, ?_⟩
        simp only
        rw [if_pos (by simp [h4])]
        simp only [Server.orError, h3, List.map_append, List.flatMap_append,
          render_asks _ _ _ _ hpre, h4]
        simp [Server.sendError, render]
      · rw [if_neg hx] at h4
        right; right; right
        refine ⟨by simp [h4], by simp [h4], by simp [h4], ?_⟩
        simp only
        rw [if_pos (by simp [h4])]
        exact hfail a.evs _ h3 hpre (.inr ⟨_, _, rfl⟩) (by simp [h4]) (by simp [h4]) (by simp [h4])

/-! ## What the client reads -/

theorem read_error (tok) (ctx : ClientResp.Ctx) (op : ClientResp.Op) (e : EstErr) (text : List Nat)
    (keep : Bool) (he : e ≠ .caEnrollRetry) :
    getResponse tok ctx op (errorText (Server.errStatus e) text keep) =
      ⟨clientSees e, if clientSees e = .authFail then .fail else ctx.mode, ctx.delay, none⟩ := by
  have hmem : Server.errStatus e ∈ [202, 204, 400, 401, 404, 423, 500, 502, 504] := by
    cases e <;> simp [Server.errStatus]
  have hlen : 12 ≤ (ClientResp.statusLine (Server.errStatus e)).length := by
    have h3 := @ClientResp.decimal3 (Server.errStatus e) (by simp at hmem; omega)
      (by simp at hmem; omega)
    unfold ClientResp.statusLine
    rw [h3]; simp
  rw [ClientResp.errorText_eq, ClientResp.getResponse_good (ClientResp.errorText_good _ _ _)
    (ClientResp.statusCode_line _ hmem) hlen]
  have h200 : Server.errStatus e ≠ 200 := by simp at hmem; omega
  rw [if_neg h200]
  have hauth : ∀ n, ClientResp.authRequest tok ([((⟨[67, 111, 110, 116, 101, 110, 116, 45, 76, 101, 110, 103, 116, 104], decimal n⟩ : HttpHdr.Hdr), 1),
       (⟨[67, 111, 110, 110, 101, 99, 116, 105, 111, 110], if keep then [107, 101, 101, 112, 45, 97, 108, 105, 118, 101] else [99, 108, 111, 115, 101]⟩, 1)].map (·.1)) = .fail := by
    intro n
    simp [ClientResp.authRequest, List.isPrefixOf]
  have h401 : ∀ hs, ClientResp.authRequest tok hs = .fail →
      ClientResp.statusErr tok ctx hs (some 401) = (.authFail, .fail, ctx.delay) := by
    intro hs h
    simp only [ClientResp.statusErr, h]
    split <;> rfl
  generalize hH : ([((⟨[67, 111, 110, 116, 101, 110, 116, 45, 76, 101, 110, 103, 116, 104], decimal (ClientResp.errorBody (Server.errStatus e) text).length⟩ :
       HttpHdr.Hdr), 1), (⟨[67, 111, 110, 110, 101, 99, 116, 105, 111, 110], if keep then [107, 101, 101, 112, 45, 97, 108, 105, 118, 101] else [99, 108, 111, 115, 101]⟩, 1)].map (·.1)) = H
  have hA : ClientResp.authRequest tok H = .fail := by rw [← hH]; exact hauth _
  have h4 := h401 H hA
  clear hH hA hauth h401 hlen hmem h200
  cases e <;> first
    | exact absurd rfl he
    | (simp only [Server.errStatus, clientSees, h4]; rfl)
    | (simp [Server.errStatus, ClientResp.statusErr, clientSees]; done)

theorem read_retry (tok) (ctx : ClientResp.Ctx) (op : ClientResp.Op) (d : Nat) (hd : d ≤ 172800) :
    getResponse tok ctx op (retryText d) = ⟨.caEnrollRetry, ctx.mode, d, none⟩ := by
  have h := ClientResp.C25_server_retry tok ctx op d hd
  simp only [ClientResp.copyRetryAfter] at h
  obtain ⟨h1, h2, h3, h4, _⟩ := h
  revert h1 h2 h3 h4
  generalize getResponse tok ctx op (retryText d) = r
  intro h1 h2 h3 h4
  cases r
  simp_all

/-- The client reads what a server writes with status 200. -/
theorem read_200 (tok) (ctx : ClientResp.Ctx) (op : ClientResp.Op) (ct : List Nat)
    (hop : op ≠ .voucherStatus ∧ op ≠ .enrollStatus) (hct : ClientResp.opType op <+: ct)
    (hcc : ∀ c ∈ ct, 32 ≤ c) (hch : ct.head? ≠ some 32) (body : List Nat) (hne : body ≠ [])
    (hl : body.length ≤ 2000000) (hcr : body.head? ≠ some 13 ∧ body.head? ≠ some 10) :
    getResponse tok ctx op (Proxy.head200 ct body.length ++ body) =
      ⟨.none, ctx.mode, ctx.delay, some body⟩ := by
  have e0 : Proxy.head200 ct body.length ++ body = ClientResp.response [72, 84, 84, 80, 47, 49, 46, 49, 32, 50, 48, 48, 32, 79, 75]
      [(⟨[83, 116, 97, 116, 117, 115], [50, 48, 48, 32, 79, 75]⟩, 1), (⟨[67, 111, 110, 116, 101, 110, 116, 45, 84, 121, 112, 101], ct⟩, 1),
       (⟨[67, 111, 110, 116, 101, 110, 116, 45, 84, 114, 97, 110, 115, 102, 101, 114, 45, 69, 110, 99, 111, 100, 105, 110, 103], [98, 97, 115, 101, 54, 52]⟩, 1),
       (⟨[67, 111, 110, 116, 101, 110, 116, 45, 76, 101, 110, 103, 116, 104], decimal body.length⟩, 1)] body := by
    simp [Proxy.head200, ClientResp.response, HttpHdr.lines, HttpHdr.line]
  have hdd := ClientResp.decimal_ok body.length
  have g : ClientResp.Good [72, 84, 84, 80, 47, 49, 46, 49, 32, 50, 48, 48, 32, 79, 75]
      [(⟨[83, 116, 97, 116, 117, 115], [50, 48, 48, 32, 79, 75]⟩, 1), (⟨[67, 111, 110, 116, 101, 110, 116, 45, 84, 121, 112, 101], ct⟩, 1),
       (⟨[67, 111, 110, 116, 101, 110, 116, 45, 84, 114, 97, 110, 115, 102, 101, 114, 45, 69, 110, 99, 111, 100, 105, 110, 103], [98, 97, 115, 101, 54, 52]⟩, 1),
       (⟨[67, 111, 110, 116, 101, 110, 116, 45, 76, 101, 110, 103, 116, 104], decimal body.length⟩, 1)] body := by
    constructor
    · decide
    · intro p hp
      simp only [List.mem_cons, List.not_mem_nil, or_false] at hp
      rcases hp with rfl | rfl | rfl | rfl
      · exact ClientResp.wf_of (by decide) (by decide) (by decide) (by decide)
      · exact ClientResp.wf_of (by decide) (by decide)
          (fun c h => ⟨by have := hcc c h; omega, by have := hcc c h; omega⟩) hch
      · exact ClientResp.wf_of (by decide) (by decide) (by decide) (by decide)
      · exact ClientResp.wf_of (by decide) (by decide) (fun c h => ⟨(hdd c h).1, (hdd c h).2.1⟩)
          (ClientResp.decimal_head _)
    · intro p hp
      simp only [List.mem_cons, List.not_mem_nil, or_false] at hp
      rcases hp with rfl | rfl | rfl | rfl
      · exact ⟨by decide, by decide⟩
      · have q : ∀ c ∈ [67, 111, 110, 116, 101, 110, 116, 45, 84, 121, 112, 101], c ≠ 0 := by decide
        exact ⟨q, fun c h => by have := hcc c h; omega⟩
      · exact ⟨by decide, by decide⟩
      · have q : ∀ c ∈ [67, 111, 110, 116, 101, 110, 116, 45, 76, 101, 110, 103, 116, 104], c ≠ 0 := by decide
        exact ⟨q, fun c h => (hdd c h).2.2.1⟩
    · simp
    · simp
    · exact hcr
  have := ClientResp.C28_complete_response_accepted tok ctx op _ _ body g ⟨[32, 79, 75], rfl⟩ hop
    (by
      intro p hp hname
      simp only [List.mem_cons, List.not_mem_nil, or_false] at hp
      rcases hp with rfl | rfl | rfl | rfl
      · exact absurd hname (by simp)
      · exact hct
      · exact absurd hname (by simp)
      · exact absurd hname (by simp))
    ⟨(⟨[67, 111, 110, 116, 101, 110, 116, 45, 84, 121, 112, 101], ct⟩, 1), by simp, rfl⟩
    (by
      intro p hp hname
      simp only [List.mem_cons, List.not_mem_nil, or_false] at hp
      rcases hp with rfl | rfl | rfl | rfl
      · exact absurd hname (by simp)
      · exact absurd hname (by simp)
      · exact absurd hname (by simp)
      · rfl)
    ⟨(⟨[67, 111, 110, 116, 101, 110, 116, 45, 76, 101, 110, 103, 116, 104], decimal body.length⟩, 1), by simp, rfl⟩ hl
  rw [if_neg hne] at this
  rw [e0]
  exact this

theorem read_cert (tok) (ctx : ClientResp.Ctx) (op : ClientResp.Op)
    (hop : op = .enroll ∨ op = .reenroll) (cert : List Nat) (hne : cert ≠ [])
    (hl : cert.length ≤ 4096) (hcr : cert.head? ≠ some 13 ∧ cert.head? ≠ some 10) :
    getResponse tok ctx op (Proxy.head200 Proxy.ctCert cert.length ++ cert) =
      ⟨.none, ctx.mode, ctx.delay, some cert⟩ := by
  refine read_200 tok ctx op Proxy.ctCert ?_ ?_ (by decide) (by decide) cert hne (by omega) hcr
  · rcases hop with h | h <;> rw [h] <;> decide
  · rcases hop with h | h <;> rw [h] <;> exact List.prefix_rfl

/-! ## One exchange -/

/-- The client's request can be sent: its parts are texts without control characters, and it
fits into the buffer. -/
structure Sendable (cfg : ClientReq.Cfg) (op : EstUri.Op) (auth : Option (List Nat))
    (csr : List Nat) : Prop where
  ua : HeaderText cfg.ua
  host : HeaderText cfg.server
  hostSet : cfg.server ≠ []
  seg : ∀ s, cfg.seg = some s → ∀ c ∈ s, 33 ≤ c ∧ c ≤ 126
  cred : ∀ v, auth = some v → HeaderText v
  short : (requestText cfg op csr.length auth).length ≤ 1026
  small : csr.length ≤ 4096

/-- The server is one for HTTPS with sensible settings, and its CA returns certificates that
fit. -/
structure Sound (s : Site) : Prop where
  http : s.srv.cfg.transport = .http
  mode : Challenge.Asks (toMode s.srv.cfg.authMode)
  realm : Challenge.RealmText s.realm
  realmLen : s.realm.length ≤ 255
  time : s.time < 2 ^ 64
  retry : s.srv.cfg.retryPeriod ≤ 172800
  cert : ∀ ca rq, s.srv.cfg.enrollCb = some ca ∨ s.srv.cfg.reenrollCb = some ca →
    (ca rq).cert.length ≤ s.out ∧ (ca rq).cert.length ≤ 4096 ∧
    (ca rq).cert.head? ≠ some 13 ∧ (ca rq).cert.head? ≠ some 10

/-- The server understands the client's path. -/
def Routes (s : Site) (cfg : ClientReq.Cfg) (op : EstUri.Op) : Prop :=
  ∃ p, Url.requestPath (path cfg op) = some p ∧ s.uri p = .ok op cfg.seg

/-- The result of the client's function, for what the server's handler did: a certificate, a
request to come back later, a challenge, or an error. -/
structure Reported (s : Site) (re : Bool) (seg : Option (List Nat)) (csr : List Nat)
    (c : Flow.Client) (o : Server.Out) (err : EstErr) (c' : Flow.Client) : Prop where
  issued : o.rc = .none → err = .none ∧
    ∃ cert, Issued s re seg csr o cert ∧ c' = { c with cert := some cert }
  later : o.rc = .caEnrollRetry →
    err = .caEnrollRetry ∧ c' = { c with delay := s.srv.cfg.retryPeriod }
  challenged : o.rc = .authPending → err = .authFail ∧
    c' = { c with mode := if Flow.Asked c.mode then .fail else toMode s.srv.cfg.authMode }
  refused : o.rc ≠ .none → o.rc ≠ .caEnrollRetry → o.rc ≠ .authPending → err = clientSees o.rc ∧
    c' = { c with mode := if clientSees o.rc = .authFail then .fail else c.mode }

theorem clientSees_none (e : EstErr) : clientSees e ≠ .none := by cases e <;> simp [clientSees]

theorem path_valid (cfg : ClientReq.Cfg) (op : EstUri.Op) : validUri (path cfg op) = true := by
  simp [path, validUri]

/-- The server's answer to the client's request. -/
theorem reply_enroll (cfg : ClientReq.Cfg) (k : Flow.Kind) (hk : k ≠ .keygen) (s : Site)
    (sched : List HttpConn.Ev) (csr : List Nat) (auth : Option (List Nat)) (hdr : HdrRes × Cred)
    (o : Server.Out) (hS : Sendable cfg k.uri auth csr) (hV : Sound s) (hR : Routes s cfg k.uri)
    (hh : hdrOf (AuthHdr.parseAuthHeader s.odd (toMode s.srv.cfg.authMode) auth) = some hdr)
    (ho : outcome s (k == .reenroll) cfg.seg csr hdr = some o)
    (harr : Arrives sched (1028 + csr.length)) :
    ∃ b text, ClientReq.enrollRequest cfg k.uri (toAuth auth) csr = .sent b ∧
      reply s sched (.sent b) = .bytes text ∧
      ((∃ cert, o.rc = .none ∧ Issued s (k == .reenroll) cfg.seg csr o cert ∧
          text = Proxy.head200 Proxy.ctCert cert.length ++ cert) ∨
       (o.rc = .caEnrollRetry ∧ text = retryText s.srv.cfg.retryPeriod) ∨
       (o.rc = .authPending ∧
          text = Challenge.challengeText (toMode s.srv.cfg.authMode) s.realm s.time) ∨
       (o.rc ≠ .none ∧ o.rc ≠ .caEnrollRetry ∧ o.rc ≠ .authPending ∧
          ∃ keep, text = errorText (Server.errStatus o.rc) (explain o.rc) keep)) := by
  obtain ⟨hd, h1, h2, h3, h4⟩ := ClientReq.C62_server_reads_request cfg k.uri csr auth hS.ua hS.host
    hS.hostSet hS.seg hS.cred hS.short hS.small
  obtain ⟨f1, f2, f3, f4⟩ := ClientReq.C62_headers_found cfg csr.length auth
  obtain ⟨p, hp, hu⟩ := hR
  have hne : hd ≠ [] := by
    intro h
    have hn : HttpHdr.parseRequest [] = none := by decide +kernel
    rw [h, hn] at h3
    simp at h3
  have hcl : contentLen ⟨[80, 79, 83, 84], path cfg k.uri, [49, 46, 49], postHeaders cfg csr.length auth⟩ =
      csr.length := by
    unfold contentLen
    simp only [f1]
    exact strtoll_decimal _ (by have := hS.small; omega)
  have hserve := serve_request s sched hd csr [13, 10] _ h2 hne h3 (path_valid cfg k.uri) rfl hcl
    (by have := hS.small; omega) (by have := hS.small; simp [bufSize]; omega)
    ⟨harr.1, by have := harr.2; simp; omega⟩
  have hca : ∀ ca rq, (if (k == .reenroll) = true then s.srv.cfg.reenrollCb else s.srv.cfg.enrollCb) =
      some ca → (ca rq).cert.length ≤ s.out := by
    intro ca rq h
    refine (hV.cert ca rq ?_).1
    split at h
    · exact .inr h
    · exact .inl h
  have huri : s.uri p = .ok (if (k == .reenroll) = true then .simpleReenroll else .simpleEnroll)
      cfg.seg := by
    rw [hu]; cases k <;> simp_all [Flow.Kind.uri]
  obtain ⟨sv, g1, _, g2⟩ := handle_enroll s (k == .reenroll)
    ⟨[80, 79, 83, 84], path cfg k.uri, [49, 46, 49], postHeaders cfg csr.length auth⟩ csr p cfg.seg hdr o rfl hp
    huri f2 (by rw [f4]; exact hh) hV.http ho hca
  refine ⟨_, sv.text, h1, ?_, g2⟩
  unfold reply
  have hmap : ((hd ++ (csr ++ [13, 10])).map some).map (fun x : Option Nat => x.getD 0) =
      hd ++ (csr ++ [13, 10]) := by
    rw [List.map_map]; exact List.map_id _
  simp only [hmap, hserve, g1]

/-- C89, one exchange: whatever the server's handler did with the request, the client's
function reports it. -/
theorem exchange (lib : Flow.Lib) (toks : Challenge.Toks) (htok : lib.tokensOk = Challenge.tokensOk toks)
    (cfg : ClientReq.Cfg) (k : Flow.Kind) (hk : k ≠ .keygen) (s : Site) (sched : List HttpConn.Ev)
    (c : Flow.Client) (u : Flow.Up) (csr : Flow.Csr) (auth : Option (List Nat)) (hdr : HdrRes × Cred)
    (o : Server.Out) (hS : Sendable cfg k.uri auth (lib.text csr)) (hV : Sound s)
    (hR : Routes s cfg k.uri) (hau : Flow.authOf u c.mode = toAuth auth)
    (hu : u.reply = reply s sched (ClientReq.enrollRequest cfg k.uri (toAuth auth) (lib.text csr)))
    (hh : hdrOf (AuthHdr.parseAuthHeader s.odd (toMode s.srv.cfg.authMode) auth) = some hdr)
    (ho : outcome s (k == .reenroll) cfg.seg (lib.text csr) hdr = some o)
    (harr : Arrives sched (1028 + (lib.text csr).length)) :
    ∃ r, Flow.enrollReq lib cfg k c u csr = some r ∧ r.csr = csr ∧
      Reported s (k == .reenroll) cfg.seg (lib.text csr) c o r.err r.client := by
  obtain ⟨b, text, h1, h2, h3⟩ := reply_enroll cfg k hk s sched (lib.text csr) auth hdr o hS hV hR
    hh ho harr
  rw [h1, h2] at hu
  have hop : k.op = .enroll ∨ k.op = .reenroll := by cases k <;> simp_all [Flow.Kind.op]
  have hreq : ∀ e m d bd, getResponse lib.tokensOk ⟨c.mode, c.delay⟩ k.op text = ⟨e, m, d, bd⟩ →
      Flow.enrollReq lib cfg k c u csr =
        if e = .none then
          some ⟨(Flow.store lib { c with mode := m, delay := d } k (bd.getD []) []).1,
            (Flow.store lib { c with mode := m, delay := d } k (bd.getD []) []).2, csr,
            [⟨k.uri, toAuth auth, some csr, b, c.trust⟩]⟩
        else some ⟨e, { c with mode := m, delay := d }, csr,
          [⟨k.uri, toAuth auth, some csr, b, c.trust⟩]⟩ := by
    intro e m d bd h
    unfold Flow.enrollReq
    simp only [hau, h1, hu]
    unfold Flow.answer
    simp only [if_neg hk, h]
  have hfail : ∀ e m d, getResponse lib.tokensOk ⟨c.mode, c.delay⟩ k.op text = ⟨e, m, d, none⟩ →
      e ≠ .none → Flow.enrollReq lib cfg k c u csr =
        some ⟨e, { c with mode := m, delay := d }, csr,
          [⟨k.uri, toAuth auth, some csr, b, c.trust⟩]⟩ := by
    intro e m d h he
    rw [hreq e m d none h, if_neg he]
  rcases h3 with ⟨cert, hrc, hI, ht⟩ | ⟨hrc, ht⟩ | ⟨hrc, ht⟩ | ⟨r1, r2, r3, keep, ht⟩
  · obtain ⟨ca, rq, i1, i2, i3, i4, i5, i6, i7⟩ := hI
    have hc := hV.cert ca rq (by split at i1 <;> simp [i1])
    rw [i6] at hc
    have hg := read_cert lib.tokensOk ⟨c.mode, c.delay⟩ k.op hop cert i7 hc.2.1 hc.2.2
    rw [← ht] at hg
    have hcs : Flow.checkSizes k cert [] = .none := by
      unfold Flow.checkSizes
      rw [if_neg (by intro h; exact i7 (List.eq_nil_of_length_eq_zero h)),
        if_neg (by have := hc.2.1; omega), if_neg hk]
    have hst : Flow.store lib c k cert [] = (.none, { c with cert := some cert }) := by
      unfold Flow.store
      rw [hcs, if_neg (by simp), if_neg hk]
    refine ⟨_, by rw [hreq _ _ _ _ hg, if_pos rfl], rfl, ?_⟩
    simp only [Option.getD_some, hst]
    constructor
    · intro _
      exact ⟨rfl, cert, ⟨ca, rq, i1, i2, i3, i4, i5, i6, i7⟩, rfl⟩
    · intro h; rw [hrc] at h; simp at h
    · intro h; rw [hrc] at h; simp at h
    · intro h; exact absurd hrc h
  · have hg := read_retry lib.tokensOk ⟨c.mode, c.delay⟩ k.op _ hV.retry
    rw [← ht] at hg
    refine ⟨_, hfail _ _ _ hg (by simp), rfl, ?_⟩
    constructor
    · intro h; rw [hrc] at h; simp at h
    · intro _; exact ⟨rfl, rfl⟩
    · intro h; rw [hrc] at h; simp at h
    · intro _ h; exact absurd hrc h
  · by_cases hA : Flow.Asked c.mode
    · have hg := Challenge.challenge_again _ s.realm s.time lib.tokensOk ⟨c.mode, c.delay⟩ k.op
        hV.mode hV.realm hA
      rw [← ht] at hg
      refine ⟨_, hfail _ _ _ hg (by simp), rfl, ?_⟩
      constructor
      · intro h; rw [hrc] at h; simp at h
      · intro h; rw [hrc] at h; simp at h
      · intro _; rw [if_pos hA]; exact ⟨rfl, rfl⟩
      · intro _ _ h; exact absurd hrc h
    · have hm : c.mode = .none ∨ c.mode = .fail := by
        revert hA; cases c.mode <;> simp [Flow.Asked]
      have hg := Challenge.C63_mode _ s.realm s.time toks ⟨c.mode, c.delay⟩ k.op
        hV.mode hV.realm hV.realmLen hV.time hm
      rw [← ht, ← htok] at hg
      refine ⟨_, hfail _ _ _ hg (by simp), rfl, ?_⟩
      constructor
      · intro h; rw [hrc] at h; simp at h
      · intro h; rw [hrc] at h; simp at h
      · intro _; rw [if_neg hA]; exact ⟨rfl, rfl⟩
      · intro _ _ h; exact absurd hrc h
  · have hg := read_error lib.tokensOk ⟨c.mode, c.delay⟩ k.op o.rc (explain o.rc) keep r2
    rw [← ht] at hg
    refine ⟨_, hfail _ _ _ hg (clientSees_none _), rfl, ?_⟩
    constructor
    · intro h; exact absurd h r1
    · intro h; exact absurd h r2
    · intro h; exact absurd h r3
    · intro _ _ _; exact ⟨rfl, rfl⟩

/-! ## C89: the operation of the client -/

/-- The connection `u` of the client `c` leads to the server `s`: the server reads the bytes of
the request for `csr`, the client reads the bytes of the answer, and the server's handler ends
with `o`, having found `hdr` in the request. -/
structure Link (lib : Flow.Lib) (cfg : ClientReq.Cfg) (k : Flow.Kind) (c : Flow.Client)
    (u : Flow.Up) (csr : Flow.Csr) (s : Site) (hdr : HdrRes × Cred) (o : Server.Out) : Prop where
  sound : Sound s
  routes : Routes s cfg k.uri
  joined : ∃ auth sched, Sendable cfg k.uri auth (lib.text csr) ∧
    Flow.authOf u c.mode = toAuth auth ∧
    u.reply = reply s sched (ClientReq.enrollRequest cfg k.uri (toAuth auth) (lib.text csr)) ∧
    Arrives sched (1028 + (lib.text csr).length) ∧
    hdrOf (AuthHdr.parseAuthHeader s.odd (toMode s.srv.cfg.authMode) auth) = some hdr
  done : outcome s (k == .reenroll) cfg.seg (lib.text csr) hdr = some o

theorem Link.result {lib : Flow.Lib} {toks : Challenge.Toks}
    (htok : lib.tokensOk = Challenge.tokensOk toks) {cfg : ClientReq.Cfg} {k : Flow.Kind}
    (hk : k ≠ .keygen) {c : Flow.Client} {u : Flow.Up} {csr : Flow.Csr} {s : Site}
    {hdr : HdrRes × Cred} {o : Server.Out} (h : Link lib cfg k c u csr s hdr o) :
    ∃ r, Flow.enrollReq lib cfg k c u csr = some r ∧ r.csr = csr ∧
      Reported s (k == .reenroll) cfg.seg (lib.text csr) c o r.err r.client := by
  obtain ⟨auth, sched, h1, h2, h3, h4, h5⟩ := h.joined
  exact exchange lib toks htok cfg k hk s sched c u csr auth hdr o h1 h.sound h.routes h2 h3 h5 h.done h4

/-- No second attempt is made unless the server sent a challenge. -/
theorem Reported.final {s : Site} {re : Bool} {seg : Option (List Nat)} {csr : List Nat}
    {c : Flow.Client} {o : Server.Out} {err : EstErr} {c' : Flow.Client}
    (h : Reported s re seg csr c o err c') (hn : o.rc ≠ .authPending ∨ Flow.Asked c.mode) :
    ¬ (err = .authFail ∧ Flow.Asked c'.mode) := by
  rintro ⟨he, ha⟩
  by_cases h1 : o.rc = .none
  · have := (h.issued h1).1
    rw [he] at this; simp at this
  · by_cases h2 : o.rc = .caEnrollRetry
    · have := (h.later h2).1
      rw [he] at this; simp at this
    · by_cases h3 : o.rc = .authPending
      · have hA : Flow.Asked c.mode := by
          rcases hn with hn | hn
          · exact absurd h3 hn
          · exact hn
        have := (h.challenged h3).2
        rw [this, if_pos hA] at ha
        simp [Flow.Asked] at ha
      · obtain ⟨h4, h5⟩ := h.refused h1 h2 h3
        rw [h5, ← h4, if_pos he] at ha
        simp [Flow.Asked] at ha

/-- C89: if the server does not ask for credentials, `est_client_enroll` returns what the
server's handler decided. -/
theorem C89_first_attempt (lib : Flow.Lib) (toks : Challenge.Toks)
    (htok : lib.tokensOk = Challenge.tokensOk toks) (cfg : ClientReq.Cfg) (base key : Nat)
    (c : Flow.Client) (u : Flow.Up) (n2 : Flow.Conn) (id : List Nat) (csr : Flow.Csr) (s : Site)
    (hdr : HdrRes × Cred) (o : Server.Out) (hready : c.ready = true) (huid : u.uid = some id)
    (hgen : Flow.generate c u base key id = .ok csr) (hl : Link lib cfg .enroll c u csr s hdr o)
    (hn : o.rc ≠ .authPending ∨ Flow.Asked c.mode) :
    ∃ ret c', Flow.enroll lib cfg .enroll base (some key) (.up u, n2) c =
        some (ret, { c' with mode := .none }) ∧
      Reported s false cfg.seg (lib.text csr) c o ret.err c' := by
  obtain ⟨r, h1, h2, h3⟩ := hl.result htok (by decide)
  replace h3 : Reported s false cfg.seg (lib.text csr) c o r.err r.client := h3
  refine ⟨{ err := r.err, sent := r.sent }, r.client, ?_, h3⟩
  unfold Flow.enroll
  rw [if_neg (by simp [hready])]
  simp only
  have ht : Flow.twice lib.fips (.up u, n2) (Flow.enrollCn lib cfg .enroll base key) c
      ⟨base, [], none⟩ = some (r, false) := by
    unfold Flow.twice
    simp only [Flow.enrollCn, huid, hgen, h1]
    rw [if_neg (h3.final hn)]
  rw [ht]
  rfl

/-- C89: if the server asks for credentials, `est_client_enroll` sends the request again with
them and returns what the server's handler decided about the second request. -/
theorem C89_second_attempt (lib : Flow.Lib) (toks : Challenge.Toks)
    (htok : lib.tokensOk = Challenge.tokensOk toks) (cfg : ClientReq.Cfg) (base key : Nat)
    (c : Flow.Client) (u u2 : Flow.Up) (id id2 : List Nat) (csr csr2 : Flow.Csr)
    (s s2 : Site) (hdr hdr2 : HdrRes × Cred) (o o2 : Server.Out) (hready : c.ready = true)
    (huid : u.uid = some id) (huid2 : u2.uid = some id2)
    (hgen : Flow.generate c u base key id = .ok csr)
    (hgen2 : Flow.generate { c with mode := toMode s.srv.cfg.authMode } u2 base key id2 = .ok csr2)
    (hl : Link lib cfg .enroll c u csr s hdr o)
    (hl2 : Link lib cfg .enroll { c with mode := toMode s.srv.cfg.authMode } u2 csr2 s2 hdr2 o2)
    (hp : o.rc = .authPending) (hm : ¬ Flow.Asked c.mode)
    (hf : ¬ (s.srv.cfg.authMode = .digest ∧ lib.fips = true)) :
    ∃ ret c', Flow.enroll lib cfg .enroll base (some key) (.up u, .up u2) c =
        some (ret, { c' with mode := .none }) ∧
      Reported s2 false cfg.seg (lib.text csr2) { c with mode := toMode s.srv.cfg.authMode } o2
        ret.err c' := by
  obtain ⟨r, h1, h2, h3⟩ := hl.result htok (by decide)
  obtain ⟨r2, g1, g2, g3⟩ := hl2.result htok (by decide)
  replace h3 : Reported s false cfg.seg (lib.text csr) c o r.err r.client := h3
  obtain ⟨h4, h5⟩ := h3.challenged hp
  rw [if_neg hm] at h5
  refine ⟨{ err := r2.err, sent := r.sent ++ r2.sent }, r2.client, ?_, g3⟩
  unfold Flow.enroll
  rw [if_neg (by simp [hready])]
  simp only
  have hA : Flow.Asked (toMode s.srv.cfg.authMode) := by
    rcases hl.sound.mode with h | h | h <;> simp [h, Flow.Asked]
  have hd : ¬ (toMode s.srv.cfg.authMode = .digest ∧ lib.fips = true) := by
    rintro ⟨a, b⟩
    apply hf
    refine ⟨?_, b⟩
    revert a; cases s.srv.cfg.authMode <;> simp [toMode]
  have ht : Flow.twice lib.fips (.up u, .up u2) (Flow.enrollCn lib cfg .enroll base key) c
      ⟨base, [], none⟩ = some ({ r2 with sent := r.sent ++ r2.sent }, false) := by
    unfold Flow.twice
    simp only [Flow.enrollCn, huid, hgen, h1, h4, h5]
    rw [if_pos ⟨trivial, hA⟩, if_neg hd]
    simp only [huid2, hgen2, g1]
  rw [ht]
  rfl

/-! ## C89: what makes the server issue -/

/-- The CSR passes the checks of the server. -/
structure CsrAccepted (s : Site) (csr : List Nat) : Prop where
  parsed : ∃ x, s.srv.parse csr = some x ∧ x.hasPubkey = true ∧ x.verifyRc > 0 ∧
    (Server.IsRA s.tls ∨ Server.tlsUidAuth s.srv.cfg.enablePop s.tls.uid x.chal = .ok)
  attrs : s.srv.cfg.enforceAttrs = true → s.srv.cfg.attrsPresent csr = true

/-- An authorised client with an acceptable CSR gets the CA asked. -/
theorem outcome_reached (s : Site) (re : Bool) (seg : Option (List Nat)) (csr : List Nat)
    (hdr : HdrRes × Cred) (a : Server.AuthOut) (ca : CaReq → CaRes)
    (hcb : (if re then s.srv.cfg.reenrollCb else s.srv.cfg.enrollCb) = some ca)
    (ha : Server.enrollAuth s.srv.cfg s.tls hdr s.srv.parse (if re then .reenroll else .enroll) csr =
      some a) (hok : Server.Authorised a.st) (hnc : a.csr = none) (hc : CsrAccepted s csr)
    (hcert : (ca ⟨csr, a.user.getD [], s.tls.peer.isSome, seg⟩).rc = .none)
    (hne : (ca ⟨csr, a.user.getD [], s.tls.peer.isSome, seg⟩).cert ≠ [])
    (hlen : (ca ⟨csr, a.user.getD [], s.tls.peer.isSome, seg⟩).cert.length ≤ s.out)
    (ht : s.srv.cfg.transport = .http) :
    ∃ o, outcome s re seg csr hdr = some o ∧ o.rc = .none ∧
      ∀ rq, Ev.ca (if re then .reenroll else .enroll) rq ∈ o.evs →
        rq = ⟨csr, a.user.getD [], s.tls.peer.isSome, seg⟩ := by
  obtain ⟨x, hx, hpub, hver, hpop⟩ := hc.parsed
  have hq : Server.caReqOf s.srv.cfg s.tls ⟨[97, 112, 112, 108, 105, 99, 97, 116, 105, 111, 110, 47, 112, 107, 99, 115, 49, 48], csr, seg, hdr, []⟩ a =
      ⟨csr, a.user.getD [], s.tls.peer.isSome, seg⟩ := by
    unfold Server.caReqOf
    rw [if_pos ht]
  have hpre : ∀ e ∈ a.evs, ∃ c, e = Ev.askApp c := by
    rcases Server.enrollAuth_pending ha with ⟨hp, _⟩ | ⟨_, hp⟩
    · simp [Server.Authorised, hp] at hok
    · exact hp
  have hchk : Server.checkCsr x = true := by simp [Server.checkCsr, hpub, hver]
  have hp : (if (s.tls.peer.isSome && s.tls.cmcRA) = true then Server.Pop.ok
      else Server.tlsUidAuth s.srv.cfg.enablePop s.tls.uid x.chal) = .ok := by
    rcases hpop with ⟨h1, h2⟩ | h
    · rw [if_pos]
      rw [h2, Bool.and_true, Option.isSome_iff_ne_none]; exact h1
    · split
      · rfl
      · exact h
  have hat : (s.srv.cfg.enforceAttrs && !s.srv.cfg.attrsPresent csr) = false := by
    cases he : s.srv.cfg.enforceAttrs
    · rfl
    · simp [hc.attrs he]
  generalize hrq : (⟨csr, a.user.getD [], s.tls.peer.isSome, seg⟩ : CaReq) = rq at hq hcert hne hlen
  have hw : Server.writeBody s.out (ca rq).cert = ([Ev.body (ca rq).cert], true) := by
    simp [Server.writeBody, List.take_of_length_le hlen, hne]
  have hans : ∀ evs u, Server.enrollAnswer s.srv.cfg ⟨true, s.out, true⟩ (ca rq) evs u =
      ⟨.none, evs ++ [.head 200] ++ [.body (ca rq).cert], u⟩ := by
    intro evs u
    unfold Server.enrollAnswer
    rw [if_pos ⟨hcert, hne⟩]
    simp only [ht, hw]
    rfl
  have hmid : ∀ kind, Server.enrollCsr s.srv.cfg s.tls ⟨true, s.out, true⟩ s.srv.parse kind ca
      ⟨[97, 112, 112, 108, 105, 99, 97, 116, 105, 111, 110, 47, 112, 107, 99, 115, 49, 48], csr, seg, hdr, []⟩ a =
      some ⟨.none, (a.evs ++ [.ca kind rq]) ++ [.head 200] ++ [.body (ca rq).cert], a.user.getD []⟩ := by
    intro kind
    unfold Server.enrollCsr
    simp only [hnc, Option.none_or, hx, hchk, hp, hat, hq]
    simp only [Bool.not_true, Bool.false_eq_true, if_false]
    rw [hans]
  have hout : outcome s re seg csr hdr = some ⟨.none, (a.evs ++ [.ca (if re then .reenroll else .enroll) rq]) ++
      [.head 200] ++ [.body (ca rq).cert], a.user.getD []⟩ := by
    unfold outcome Server.simpleEnroll
    simp only [hcb]
    rw [if_neg (by simp [Server.ctPkcs10])]
    simp only [ha]
    rcases hok with h | h | h <;> simp only [h] <;> exact hmid _
  refine ⟨_, hout, rfl, ?_⟩
  intro r hr
  simp only [List.mem_append, List.mem_cons, List.not_mem_nil, or_false, Ev.ca.injEq,
    reduceCtorEq] at hr
  rcases hr with hr | hr
  · obtain ⟨c, hc⟩ := hpre _ hr
    cases hc
  · exact hr.2

end Verif.Wire
