import Verif.ProxyModel
import Verif.ClientFlowProps
import Verif.DispatchProps

/-!
# Properties of the EST proxy: C39, C41, C82, C84, C85

The server side of the proxy is that of `Verif.Server`; what counts as evidence for a client is
the same (`CertVerified`, `SrpLogin`, `PopHeld`), see `AuthProps` and `EnrollProps`.
-/
namespace Verif.Proxy
open Verif.Server (Ev Cred HdrRes Csr Tls AttrLib ReqType Pop CertVerified SrpLogin Authorised)
open Verif.Flow (Conn Kind Sent Lib Asked Challenged)
open Verif.ClientResp (Mode decimal errorText retryText response Good)

/-! ## Lemmas: one exchange -/

/-- The request `exchange` sends. -/
def sentAs (k : Kind) (u : Flow.Up) (pc : PClient) (b : List (Option Nat)) : Sent :=
  ⟨k.uri, Flow.authOf u pc.c.mode, none, b, pc.c.trust⟩

theorem retryLoop_ne (l : List HttpHdr.Hdr) (r : EstErr × Nat) (h : r.1 ≠ .authFail) :
    (ClientResp.retryLoop l r).1 ≠ .authFail := by
  induction l generalizing r with
  | nil => exact h
  | cons x l ih =>
    unfold ClientResp.retryLoop
    apply ih
    split <;> simp_all

theorem authRequest_asked_or_fail (tok) (hs : List HttpHdr.Hdr) :
    Asked (ClientResp.authRequest tok hs) ∨ ClientResp.authRequest tok hs = .fail := by
  induction hs with
  | nil => right; rfl
  | cons x hs ih =>
    unfold ClientResp.authRequest
    repeat' split
    all_goals first | exact ih | simp [Asked]

theorem statusErr_fail (tok) (ctx : ClientResp.Ctx) (hs) (st : Option Nat)
    (h : (ClientResp.statusErr tok ctx hs st).1 = .authFail) :
    Asked (ClientResp.statusErr tok ctx hs st).2.1 ∨
      (ClientResp.statusErr tok ctx hs st).2.1 = .fail := by
  revert h
  unfold ClientResp.statusErr
  split
  · simp
  · simp
  · intro h; exact absurd h (retryLoop_ne _ _ (by simp))
  · simp
  · split
    · intro _; exact .inr rfl
    · intro _; exact authRequest_asked_or_fail _ _
  all_goals simp

/-- After an authentication failure the client knows how to authenticate, or has given up. -/
theorem answer_fail (lib : Lib) (c : Flow.Client) (k : Kind) (raw : List Nat) (m : Mode) (d : Nat)
    (cert key : List Nat) (h : Flow.answer lib c k raw = some (.authFail, m, d, cert, key)) :
    Asked m ∨ m = .fail := by
  unfold Flow.answer at h
  split at h
  · unfold Multipart.getKeygen at h
    split at h
    · contradiction
    · next h0 =>
      split at h0
      · simp only [Multipart.KgRes.res.injEq] at h0
        simp only [Option.some.injEq, Prod.mk.injEq] at h
        rw [← h0.1] at h
        simp at h
      · simp only at h0
        split at h0
        · simp only [Multipart.KgRes.res.injEq] at h0
          simp only [Option.some.injEq, Prod.mk.injEq] at h
          rw [← h0.1] at h
          simp at h
        · split at h0
          · split at h0
            · simp only [Multipart.KgRes.res.injEq] at h0
              simp only [Option.some.injEq, Prod.mk.injEq] at h
              rw [← h0.1] at h
              simp at h
            · split at h0
              · contradiction
              · next he =>
                simp only [Multipart.KgRes.res.injEq] at h0
                simp only [Option.some.injEq, Prod.mk.injEq] at h
                rw [← h0.1] at h
                exact absurd h.1 (Flow.split_err _ _ _ _ _ he).1
              · simp only [Multipart.KgRes.res.injEq] at h0
                simp only [Option.some.injEq, Prod.mk.injEq] at h
                rw [← h0.1] at h
                simp at h
          · simp only [Multipart.KgRes.res.injEq] at h0
            simp only [Option.some.injEq, Prod.mk.injEq] at h
            rw [← h0.1, ← h0.2.1] at h
            rw [← h.2.1]
            exact statusErr_fail _ _ _ _ h.1
  · simp only [Option.some.injEq, Prod.mk.injEq] at h
    obtain ⟨h1, h2, -⟩ := h
    rw [← h2]
    revert h1
    unfold ClientResp.getResponse
    split
    · simp
    · simp only
      split
      · intro h1; exact absurd h1 (Flow.okBody_err _ _ _)
      · intro h1; exact statusErr_fail _ _ _ _ h1

/-- What an exchange with the upstream server leaves. -/
structure XFacts (cfg : Cfg) (k : Kind) (pc : PClient) (text : List Nat) (conn : Conn) (x : Xch) :
    Prop where
  sent : x.sent = [] ∨ ∃ u b, conn = .up u ∧ x.sent = [sentAs k u pc b] ∧
    ClientReq.enrollRequest { cfg.up with seg := pc.seg } k.uri (Flow.authOf u pc.c.mode) text =
      .sent b
  seg : x.pc.seg = pc.seg
  trust : x.pc.c.trust = pc.c.trust
  fail : x.err = .authFail → x.pc.c.mode ≠ .fail → ¬ Asked pc.c.mode ∧ Asked x.pc.c.mode ∧
    Challenged cfg.lib conn x.pc.c.mode ∧ x.cert = [] ∧ x.key = []
  cert : x.cert ≠ [] → x.key ≠ [] ∨ k ≠ .keygen →
    ∃ u raw m d ky, conn = .up u ∧ u.reply = .bytes raw ∧
      Flow.answer cfg.lib pc.c k raw = some (.none, m, d, x.cert, ky) ∧ x.err = .none ∧
      x.cert.length ≤ 4096 ∧ (k = .keygen → x.key = ky ∧ x.key.length ≤ 8192)
  none : x.err = .none → x.cert ≠ [] ∧ (k = .keygen → x.key ≠ [])

theorem down_err (e : Flow.ConnErr) : e.err ≠ .none ∧ e.err ≠ .authFail := by
  cases e <;> simp [Flow.ConnErr.err]

theorem accept_facts (k : Kind) (pc : PClient) (cert key : List Nat) (sent : List Sent) :
    (accept k pc cert key sent).err ≠ .authFail ∧
    ((accept k pc cert key sent).cert ≠ [] →
      (accept k pc cert key sent).key ≠ [] ∨ k ≠ .keygen →
      (accept k pc cert key sent).err = .none ∧ (accept k pc cert key sent).cert = cert ∧
      cert.length ≤ 4096 ∧
      (k = .keygen → (accept k pc cert key sent).key = key ∧ key.length ≤ 8192)) ∧
    ((accept k pc cert key sent).err = .none → (accept k pc cert key sent).cert ≠ [] ∧
      (k = .keygen → (accept k pc cert key sent).key ≠ [])) := by
  unfold accept Flow.checkSizes
  simp only
  by_cases h1 : cert.length = 0
  · simp [h1]
  · by_cases h2 : 4096 < cert.length
    · simp [h1, h2]
    · have hc : cert ≠ [] := by intro h; simp [h] at h1
      by_cases h3 : k = .keygen
      · by_cases h4 : key.length = 0
        · simp [h1, h2, h3, h4, hc]
        · have hk : key ≠ [] := by intro h; simp [h] at h4
          by_cases h5 : 8192 < key.length
          · simp [h1, h2, h3, h4, h5, hc]
          · simp [h1, h2, h3, h4, h5, hc, hk]; omega
      · simp [h1, h2, h3, hc]; omega

theorem exchange_facts (cfg : Cfg) (k : Kind) (pc : PClient) (text : List Nat) (conn : Conn)
    (x : Xch) (h : exchange cfg k pc text [] [] conn = some x) : XFacts cfg k pc text conn x := by
  unfold exchange at h
  split at h
  · next e =>
    have he := down_err e
    simp only [Option.some.injEq] at h
    subst h
    exact ⟨.inl rfl, rfl, rfl, fun h => absurd h he.2, fun h => absurd rfl h,
      fun h => absurd h he.1⟩
  · next u =>
    split at h
    · contradiction
    · simp only [Option.some.injEq] at h
      subst h
      exact ⟨.inl rfl, rfl, rfl, fun h => by simp at h, fun h => absurd rfl h,
        fun h => by simp at h⟩
    · next b hb =>
      have hs : [Sent.mk k.uri (Flow.authOf u pc.c.mode) none b pc.c.trust] = [sentAs k u pc b] := rfl
      simp only [hs] at h
      split at h
      · simp only [Option.some.injEq] at h
        subst h
        exact ⟨.inr ⟨u, b, rfl, rfl, hb⟩, rfl, rfl, fun h => by simp at h, fun h => absurd rfl h,
          fun h => by simp at h⟩
      · simp only [Option.some.injEq] at h
        subst h
        exact ⟨.inr ⟨u, b, rfl, rfl, hb⟩, rfl, rfl, fun h => by simp at h, fun h => absurd rfl h,
          fun h => by simp at h⟩
      · simp only [Option.some.injEq] at h
        subst h
        exact ⟨.inr ⟨u, b, rfl, rfl, hb⟩, rfl, rfl, fun h => by simp at h, fun h => absurd rfl h,
          fun h => by simp at h⟩
      · next raw hr =>
        split at h
        · contradiction
        · next e m d crt ky ha =>
          split at h
          · next he =>
            simp only [Option.some.injEq] at h
            subst he
            have fa := accept_facts k { pc with c := { pc.c with mode := m, delay := d } } crt ky
              [sentAs k u pc b]
            rw [h] at fa
            have hx1 : x.sent = [sentAs k u pc b] := by rw [← h]; rfl
            have hx2 : x.pc.seg = pc.seg := by rw [← h]; rfl
            have hx3 : x.pc.c.trust = pc.c.trust := by rw [← h]; rfl
            refine ⟨.inr ⟨u, b, rfl, hx1, hb⟩, hx2, hx3, fun h => absurd h fa.1, ?_, fa.2.2⟩
            intro h1 h2
            obtain ⟨f1, f2, f3, f4⟩ := fa.2.1 h1 h2
            refine ⟨u, raw, m, d, ky, rfl, hr, by rw [f2]; exact ha, f1, by rw [f2]; exact f3, ?_⟩
            intro hk
            obtain ⟨g1, g2⟩ := f4 hk
            exact ⟨g1, by rw [g1]; exact g2⟩
          · next he =>
            simp only [Option.some.injEq] at h
            subst h
            refine ⟨.inr ⟨u, b, rfl, rfl, hb⟩, rfl, rfl, ?_, fun h => absurd rfl h,
              fun h => absurd h he⟩
            intro h1 h2
            simp only at h1 h2
            subst h1
            have ha2 : Asked m := (answer_fail _ _ _ _ _ _ _ _ ha).resolve_right h2
            rcases Flow.answer_mode _ _ _ u _ hr _ _ _ _ _ ha ha2 with ⟨-, q⟩ | ⟨q1, q2, -⟩
            · exact absurd rfl q
            · exact ⟨q1, ha2, q2, rfl, rfl⟩

/-- What all attempts together leave: one exchange, or two of which the first was answered with
a challenge. -/
inductive AFacts (cfg : Cfg) (k : Kind) (pc : PClient) (text : List Nat) (conn : Nat → Conn) :
    Run Xch → Prop
  | ub1 : exchange cfg k pc text [] [] (conn 0) = none → AFacts cfg k pc text conn .ub
  | one (x : Xch) : exchange cfg k pc text [] [] (conn 0) = some x →
      again cfg.srv.authMode x.err x.pc.c.mode = false → AFacts cfg k pc text conn (.done x)
  | ub2 (x : Xch) : exchange cfg k pc text [] [] (conn 0) = some x →
      again cfg.srv.authMode x.err x.pc.c.mode = true →
      exchange cfg k x.pc text [] [] (conn 1) = none → AFacts cfg k pc text conn .ub
  | two (x y : Xch) : exchange cfg k pc text [] [] (conn 0) = some x →
      again cfg.srv.authMode x.err x.pc.c.mode = true →
      exchange cfg k x.pc text [] [] (conn 1) = some y →
      AFacts cfg k pc text conn (.done { y with sent := x.sent ++ y.sent })

theorem again_iff (m : Server.AuthMode) (e : EstErr) (cm : Mode) :
    again m e cm = true ↔
      e = .authFail ∧ (m = .digest ∨ m = .basic ∨ m = .token) ∧ cm ≠ .fail := by
  simp [again]

theorem attempts_facts (cfg : Cfg) (k : Kind) (pc : PClient) (text : List Nat) (conn : Nat → Conn)
    (n : Nat) (hn : 2 ≤ n) :
    AFacts cfg k pc text conn (attempts cfg k text conn n 0 pc [] []) := by
  obtain ⟨n, rfl⟩ := Nat.exists_eq_add_of_le' hn
  unfold attempts
  cases h1 : exchange cfg k pc text [] [] (conn 0) with
  | none => exact .ub1 h1
  | some x =>
    simp only
    by_cases ha : again cfg.srv.authMode x.err x.pc.c.mode = true
    · rw [if_pos ha]
      have f := exchange_facts _ _ _ _ _ _ h1
      rw [again_iff] at ha
      obtain ⟨a1, a2, a3⟩ := ha
      obtain ⟨f1, f2, f3, f4, f5⟩ := f.fail a1 a3
      rw [f4, f5]
      unfold attempts
      cases h2 : exchange cfg k x.pc text [] [] (conn (0 + 1)) with
      | none => exact .ub2 x h1 ((again_iff _ _ _).2 ⟨a1, a2, a3⟩) h2
      | some y =>
        have hna : ¬ again cfg.srv.authMode y.err y.pc.c.mode = true := by
          rw [again_iff]
          rintro ⟨b1, -, b3⟩
          have g := exchange_facts _ _ _ _ _ _ h2
          exact (g.fail b1 b3).1 f2
        simp only [if_neg hna]
        exact .two x y h1 ((again_iff _ _ _).2 ⟨a1, a2, a3⟩) h2
    · rw [if_neg ha]
      exact .one x h1 (by simpa using ha)

/-! ## Lemmas: the handlers -/

/-- The checks a request for a certificate has to pass.  `a` is the result of the
authentication, `csr` the parsed request. -/
structure Admitted (cfg : Cfg) (env : Env) (k : Kind) (rq : Rq) (a : Server.AuthOut) (csr : Csr) :
    Prop where
  ct : cfg.srv.transport = .http → rq.ct = [97, 112, 112, 108, 105, 99, 97, 116, 105, 111, 110, 47, 112, 107, 99, 115, 49, 48]
  auth : Server.enrollAuth cfg.srv env.tls rq.hdr cfg.parse (reqType k) rq.body = some a
  ok : Authorised a.st
  parsed : cfg.parse rq.body = some csr
  checked : Server.checkCsr csr = true
  pop : Server.tlsUidAuth cfg.srv.enablePop env.tls.uid csr.chal = .ok

theorem handleEnroll_admitted {cfg : Cfg} {env : Env} {k : Kind} {rq : Rq} {a : Server.AuthOut}
    {csr : Csr} (h : Admitted cfg env k rq a csr) (st : State) :
    handleEnroll cfg env k rq st = forward cfg env k rq (a.evs.map PEv.srv) st := by
  have hc : a.csr.or (cfg.parse rq.body) = some csr := by
    have := (Server.enrollAuth_facts h.auth).2.2.1
    cases hac : a.csr with
    | none => simpa using h.parsed
    | some c =>
      have := this c hac
      rw [h.parsed] at this
      exact this.symm
  have hct : ¬ (cfg.srv.transport = .http ∧ rq.ct ≠ [97, 112, 112, 108, 105, 99, 97, 116, 105, 111, 110, 47, 112, 107, 99, 115, 49, 48]) :=
    fun q => q.2 (h.ct q.1)
  unfold handleEnroll
  rw [if_neg hct, h.auth]
  simp only [hc, h.checked, h.pop, Bool.not_true, Bool.false_eq_true, if_false]
  rcases h.ok with q | q | q <;> rw [q]

/-- Nothing went upstream and the state is as before. -/
def Refused (st : State) (o : Out) : Prop :=
  (o.rc ≠ .none ∧ o.rc ≠ .caEnrollRetry) ∧ o.st = st ∧
    ∀ e ∈ o.evs, (∃ c, e = .srv (.askApp c)) ∨ e = .srv (.head 401)

theorem refused_of_auth {st : State} {a : Server.AuthOut} {cfg : Server.Cfg} {tls hdr parse ty buf}
    (h : Server.enrollAuth cfg tls hdr parse ty buf = some a) (e : EstErr)
    (he : e ≠ .none ∧ e ≠ .caEnrollRetry) :
    Refused st ⟨e, a.evs.map PEv.srv, st, [], []⟩ := by
  refine ⟨he, rfl, ?_⟩
  intro x hx
  simp only [List.mem_map] at hx
  obtain ⟨y, hy, rfl⟩ := hx
  rcases (Server.enrollAuth_facts h).1 y hy with ⟨c, rfl⟩ | rfl
  · exact .inl ⟨c, rfl⟩
  · exact .inr rfl

theorem handleEnroll_cases (cfg : Cfg) (env : Env) (k : Kind) (rq : Rq) (st : State) :
    handleEnroll cfg env k rq st = .ub ∨
    (∃ o, handleEnroll cfg env k rq st = .done o ∧ Refused st o) ∨
    ∃ a csr, Admitted cfg env k rq a csr ∧
      handleEnroll cfg env k rq st = forward cfg env k rq (a.evs.map PEv.srv) st := by
  by_cases hct : cfg.srv.transport = .http ∧ rq.ct ≠ [97, 112, 112, 108, 105, 99, 97, 116, 105, 111, 110, 47, 112, 107, 99, 115, 49, 48]
  · right; left
    refine ⟨⟨.badContentType, [], st, [], []⟩, ?_, by simp, rfl, by simp⟩
    unfold handleEnroll
    rw [if_pos hct]
  · cases ha : Server.enrollAuth cfg.srv env.tls rq.hdr cfg.parse (reqType k) rq.body with
    | none => left; unfold handleEnroll; rw [if_neg hct, ha]
    | some a =>
      by_cases hok : Authorised a.st
      · have hcsr := (Server.enrollAuth_facts ha).2.2.1
        have e0 : handleEnroll cfg env k rq st =
            match a.csr.or (cfg.parse rq.body) with
            | none => .done ⟨.badPkcs10, a.evs.map PEv.srv, st, [], []⟩
            | some csr =>
              if !Server.checkCsr csr then .done ⟨.badPkcs10, a.evs.map PEv.srv, st, [], []⟩
              else
                match Server.tlsUidAuth cfg.srv.enablePop env.tls.uid csr.chal with
                | .ub => .ub
                | .fail => .done ⟨.authFailTlsuid, a.evs.map PEv.srv, st, [], []⟩
                | .ok => forward cfg env k rq (a.evs.map PEv.srv) st := by
          unfold handleEnroll
          rw [if_neg hct, ha]
          simp only
          rcases hok with q | q | q <;> rw [q] <;> rfl
        rw [e0]
        cases hm : a.csr.or (cfg.parse rq.body) with
        | none => exact .inr (.inl ⟨_, rfl, refused_of_auth ha _ (by simp)⟩)
        | some csr =>
          simp only
          have hp := Server.csr_from_body hcsr hm
          cases hck : Server.checkCsr csr with
          | false => exact .inr (.inl ⟨_, rfl, refused_of_auth ha _ (by simp)⟩)
          | true =>
            simp only [Bool.not_true, Bool.false_eq_true, if_false]
            cases ht : Server.tlsUidAuth cfg.srv.enablePop env.tls.uid csr.chal with
            | ub => exact .inl rfl
            | fail => exact .inr (.inl ⟨_, rfl, refused_of_auth ha _ (by simp)⟩)
            | ok =>
              refine .inr (.inr ⟨a, csr, ⟨?_, ha, hok, hp, hck, ht⟩, rfl⟩)
              intro h1
              exact Decidable.byContradiction fun h2 => hct ⟨h1, h2⟩
      · right; left
        unfold handleEnroll
        rw [if_neg hct, ha]
        simp only
        cases hs : a.st <;> simp only
        · exact ⟨_, rfl, refused_of_auth ha _ (by simp)⟩
        all_goals first
          | exact ⟨_, rfl, refused_of_auth ha _ (by simp)⟩
          | exact absurd (by simp [Authorised, hs]) hok

/-- The HTTP request for a certificate, with the method and header lines a client has to
send. -/
def post (k : Kind) (rq : Rq) : HttpReq :=
  ⟨[80, 79, 83, 84], .ok k.uri rq.seg, some rq.ct, some rq.body, rq.hdr⟩

theorem dispatch_post (cfg : Cfg) (env : Env) (k : Kind) (rq : Rq) (st : State) :
    dispatch cfg env (post k rq) st = runTodo (handleEnroll cfg env k rq st) := by
  cases k <;> rfl

/-- The state of the proxy after the requests `x` was the last of. -/
def after (st : State) (env : Env) (x : Xch) : State :=
  { setClient st env.thread { x.pc with c := { x.pc.c with mode := .none } } with
    delay := x.pc.c.delay }

theorem forward_eq {cfg : Cfg} {env : Env} {k : Kind} {rq : Rq} {evs : List PEv} {st : State}
    {pc0 : PClient} (h : getClient cfg env st = some pc0) :
    forward cfg env k rq evs st =
      match attempts cfg k rq.body env.conn env.fuel 0 (chooseSeg cfg rq.seg pc0) [] [] with
      | .ub => .ub
      | .endless => .endless
      | .done x => .done (deliver cfg env k (evs ++ x.sent.map PEv.up) (after st env x) x) := by
  unfold forward
  rw [h]
  rfl

/-! ## C39 -/

/-- The status the proxy has to answer with if this is the result of the exchange with the
upstream server. -/
def answerStatus (e : EstErr) : Nat :=
  match e with
  | .httpNoContent => 204
  | .httpBadReq => 400
  | .authFail => 401
  | .httpNotFound => 404
  | .httpLocked => 423
  | .caEnrollRetry => 202
  | .ipGetaddr | .ipConnect | .sslRead => 504
  | .sslConnect | .fqdnMismatch | .sslWrite | .zeroLengthBuf | .multipartParse | .unknown
  | .bufExceedsMaxLen | .httpUnsupported => 502
  | _ => 500

/-- The response without a body for a result; the delay is sent with 202 only. -/
def answer (e : EstErr) (delay : Nat) : List PEv :=
  .srv (.head (answerStatus e)) :: if e = .caEnrollRetry then [.retryAfter delay] else []

theorem relay_ne (e : EstErr) (h : e ≠ .none) : relay e ≠ .none ∧ relay e ≠ .authPending := by
  cases e <;> first | exact absurd rfl h | decide

theorem sendError_relay (e : EstErr) (h : e ≠ .none) (d : Nat) :
    sendError true d (relay e) = answer e d := by
  cases e <;> first | exact absurd rfl h | rfl

/-- The whole text of a 200 response over HTTP. -/
def okWrites (k : Kind) (cert key : List Nat) : List (List Nat) :=
  if k = .keygen then keygenWrites key cert else [head200 ctCert cert.length, cert]

theorem AFacts.facts {cfg : Cfg} {k : Kind} {pc : PClient} {text : List Nat} {conn : Nat → Conn}
    {x : Xch} (h : AFacts cfg k pc text conn (.done x)) :
    (x.cert ≠ [] → x.key ≠ [] ∨ k ≠ .keygen → x.err = .none) ∧
    (x.err = .none → x.cert ≠ [] ∧ (k = .keygen → x.key ≠ [])) := by
  cases h with
  | one _ h1 _ =>
    have f := exchange_facts _ _ _ _ _ _ h1
    exact ⟨fun p q => (f.cert p q).choose_spec.choose_spec.choose_spec.choose_spec.choose_spec.2.2.2.1, f.none⟩
  | two x y _ _ h2 =>
    have f := exchange_facts _ _ _ _ _ _ h2
    exact ⟨fun p q => (f.cert p q).choose_spec.choose_spec.choose_spec.choose_spec.choose_spec.2.2.2.1, f.none⟩

/-- C39: for every request that passed the checks and every result `x` of the exchange with
the upstream server: if it failed, the response is the one status that stands for the failure,
with the delay upstream gave if it asked to wait; if it succeeded, there is a certificate, and
the writes are that of a response with this certificate. -/
theorem C39_every_outcome {cfg : Cfg} {env : Env} {k : Kind} {rq : Rq} {a : Server.AuthOut}
    {csr : Csr} {st : State} {pc0 : PClient} {x : Xch} (hA : Admitted cfg env k rq a csr)
    (hT : cfg.srv.transport = .http) (hn : 2 ≤ env.fuel) (hg : getClient cfg env st = some pc0)
    (hx : attempts cfg k rq.body env.conn env.fuel 0 (chooseSeg cfg rq.seg pc0) [] [] = .done x)
    (hr : env.retryOut = true) :
    (x.err ≠ .none →
      request cfg env (post k rq) st =
        .done (relay x.err, a.evs.map PEv.srv ++ x.sent.map PEv.up ++ answer x.err x.pc.c.delay,
          after st env x)) ∧
    (x.err = .none → x.cert ≠ [] ∧ (k = .keygen → x.key ≠ []) ∧
      ((∀ i, (okWrites k x.cert x.key).flatten.length ≤ env.out i) →
      request cfg env (post k rq) st =
        .done (.none, a.evs.map PEv.srv ++ x.sent.map PEv.up ++
          (okWrites k x.cert x.key).map PEv.write, after st env x))) := by
  have af := attempts_facts cfg k (chooseSeg cfg rq.seg pc0) rq.body env.conn env.fuel hn
  rw [hx] at af
  obtain ⟨f1, f2⟩ := af.facts
  have e1 : request cfg env (post k rq) st =
      let t := todo (deliver cfg env k (a.evs.map PEv.srv ++ x.sent.map PEv.up) (after st env x) x)
      .done (t.rc, t.evs ++ finish env t t.st, t.st) := by
    unfold request
    rw [dispatch_post, handleEnroll_admitted hA, forward_eq hg, hx]
    rfl
  constructor
  · intro he
    have hc : ¬ (x.cert ≠ [] ∧ (k = .keygen → x.key ≠ [])) := by
      rintro ⟨p, q⟩
      apply he
      apply f1 p
      by_cases hk : k = .keygen
      · exact .inl (q hk)
      · exact .inr hk
    have := relay_ne _ he
    rw [e1]
    simp only [deliver, if_neg hc, todo]
    rw [if_neg (by simp [this.1, this.2])]
    simp only [finish, hr]
    have hd : (after st env x).delay = x.pc.c.delay := rfl
    rw [hd, sendError_relay _ he]
  · intro he
    obtain ⟨g1, g2⟩ := f2 he
    refine ⟨g1, g2, ?_⟩
    intro ho
    have hw : ∀ (l : List (List Nat)) (i : Nat), (∀ b ∈ l, b ≠ []) →
        (∀ i, l.flatten.length ≤ env.out i) → writes env.out i l = (l.map PEv.write, true) := by
      intro l
      induction l with
      | nil => intro i _ _; rfl
      | cons b l ih =>
        intro i h1 h2
        have hb : b.take (env.out i) = b := by
          apply List.take_of_length_le
          have := h2 i
          simp only [List.flatten_cons, List.length_append] at this
          omega
        have hl := ih (i + 1) (fun c hc => h1 c (by simp [hc])) (by
          intro j
          have := h2 j
          simp only [List.flatten_cons, List.length_append] at this
          omega)
        unfold writes
        simp only [hb, if_neg (h1 b (by simp)), hl, List.map_cons]
    rw [e1]
    by_cases hk : k = .keygen
    · have hkw := hw (keygenWrites x.key x.cert) 0 (by
        intro b hb
        simp only [keygenWrites, List.mem_cons, List.not_mem_nil, or_false] at hb
        rcases hb with rfl | rfl | rfl | rfl | rfl | rfl
        · simp [keygenHead]
        · exact g2 hk
        · simp
        · simp
        · exact g1
        · simp) (by simpa [okWrites, hk] using ho)
      simp only [deliver, if_pos (And.intro g1 g2), hT, if_pos hk, propagateKeygen, hkw, todo,
        finish, okWrites]
      simp
    · have hkw := hw [head200 ctCert x.cert.length, x.cert] 0 (by
        intro b hb
        simp only [List.mem_cons, List.not_mem_nil, or_false] at hb
        rcases hb with rfl | rfl
        · simp [head200]
        · exact g1) (by simpa [okWrites, hk] using ho)
      simp only [deliver, if_pos (And.intro g1 g2), hT, if_neg hk, propagateCert, hkw, todo,
        finish, okWrites]
      simp

/-- A proxy without HTTP authentication for the examples, and a request on a connection with a
verified client certificate. -/
def exProxy : Cfg where
  srv := Server.demoCfg
  up := Flow.exCfg
  trust := [97, 110, 99, 104, 111, 114, 115]
  seg := none
  lib := Flow.exLib
  attrLib := ⟨fun _ => (.none, false), fun d => .ok d⟩
  parse := fun _ => some Server.demoCsr

def exEnv (thread : Nat) (c0 c1 : Conn) : Env where
  thread := thread
  setup := true
  conn := fun i => if i = 0 then c0 else c1
  tls := Server.certTls
  out := fun _ => 10000
  retryOut := true
  fuel := 2

def exRq (seg : Option (List Nat)) : Rq :=
  ⟨[97, 112, 112, 108, 105, 99, 97, 116, 105, 111, 110, 47, 112, 107, 99, 115, 49, 48], [77, 73, 73, 66], seg, (.missing, ⟨.none, [], [], []⟩)⟩

def exAuth : Server.AuthOut := { st := .certAuth, evs := [], csr := none, user := none }

theorem exAdmitted (t : Nat) (c0 c1 : Conn) (k : Kind) (seg : Option (List Nat)) :
    Admitted exProxy (exEnv t c0 c1) k (exRq seg) exAuth Server.demoCsr := by
  refine ⟨fun _ => rfl, ?_, .inr (.inr rfl), rfl, rfl, rfl⟩
  cases k <;> rfl

/-- A read-out of a run for the examples. -/
def shown (r : Run (EstErr × List PEv × State)) : Option (EstErr × List PEv) :=
  match r with
  | .done (e, evs, _) => some (e, evs)
  | _ => none

/-- What the client of the proxy gets to see. -/
def answers (r : Run (EstErr × List PEv × State)) : Option (List PEv) :=
  match r with
  | .done (_, evs, _) => some (evs.filter fun e => match e with | .up _ => false | _ => true)
  | _ => none

/-- The hypotheses of `C39_every_outcome` can be met, with both outcomes: a certificate, and a
challenge followed by a certificate. -/
example : answers (request exProxy (exEnv 1 (Flow.exUp Flow.exCert) (.down .connect))
    (post .enroll (exRq none)) (State.init none)) =
    some [.write (head200 ctCert 4), .write [77, 73, 73, 67]] := by decide +kernel

example : answers (request { exProxy with srv := { exProxy.srv with authMode := .basic } }
    (exEnv 1 (Flow.exUp Flow.ex401) (Flow.exUp Flow.exCert))
    (post .enroll (exRq none)) (State.init none)) =
    some [.write (head200 ctCert 4), .write [77, 73, 73, 67]] := by decide +kernel

example : answers (request exProxy (exEnv 1 (.down .connect) (.down .connect))
    (post .reenroll (exRq none)) (State.init none)) = some [.srv (.head 504)] := by
  decide +kernel

theorem getKeygen_error (tok) (ctx : ClientResp.Ctx) (op : ClientResp.Op) {status : List Nat}
    {hs : List (HttpHdr.Hdr × Nat)} {b : List Nat} (g : Good status hs b) {n : Nat}
    (hk : ClientResp.statusCode status = some n) (h200 : n ≠ 200) (hl : 12 ≤ status.length)
    (hm : ∀ p ∈ hs, ¬ [109, 117, 108, 116, 105, 112, 97, 114, 116] <:+: p.1.value) :
    Multipart.getKeygen tok ctx (response status hs b) =
      let r := ClientResp.getResponse tok ctx op (response status hs b)
      .res r.err r.mode r.delay [] [] := by
  obtain ⟨_, _, hs3⟩ := ClientResp.split_response g
  have g' : ClientResp.Good status hs (b.takeWhile (· != 0)) :=
    ⟨g.st, g.wf, g.nonul, g.ne, g.few, ClientResp.head_takeWhile g.body⟩
  have hn : response status hs b ≠ [] := by unfold response; simp
  have hstat : ClientResp.statusCode (response status hs (b.takeWhile (· != 0))) = some n :=
    ClientResp.statusCode_append hk hl
  have hbs : Multipart.boundaries (hs.map (·.1)) none = .ok none := by
    have := Multipart.boundaries_other (hs.map (·.1)) none [] (by
      intro x hx
      simp only [List.mem_map] at hx
      obtain ⟨p, hp, rfl⟩ := hx
      exact hm p hp)
    rw [List.append_nil] at this
    rw [this]; rfl
  have hf : (hs.map (·.1)).filter (fun h => h.name != []) = hs.map (·.1) := by
    rw [List.filter_eq_self]
    intro x hx
    simp only [List.mem_map] at hx
    obtain ⟨p, hp, rfl⟩ := hx
    simpa using (g.wf p hp).1
  rw [ClientResp.getResponse_good g hk hl]
  unfold Multipart.getKeygen
  rw [if_neg hn]
  have h2 : (some n = some 200) = False := by simp [h200]
  simp only [hs3, Multipart.kg_response g', hbs, hstat, hf, h2, if_neg h200, if_false]

/-- The answer the client code makes of a response that is not 200. -/
theorem answer_error (lib : Lib) (c : Flow.Client) (k : Kind) {status : List Nat}
    {hs : List (HttpHdr.Hdr × Nat)} {b : List Nat} (g : Good status hs b) {n : Nat}
    (hk : ClientResp.statusCode status = some n) (h200 : n ≠ 200) (hl : 12 ≤ status.length)
    (hm : ∀ p ∈ hs, ¬ [109, 117, 108, 116, 105, 112, 97, 114, 116] <:+: p.1.value) :
    let r := ClientResp.getResponse lib.tokensOk ⟨c.mode, c.delay⟩ .enroll (response status hs b)
    Flow.answer lib c k (response status hs b) = some (r.err, r.mode, r.delay, [], []) := by
  intro r
  have hr : ∀ op, ClientResp.getResponse lib.tokensOk ⟨c.mode, c.delay⟩ op (response status hs b) = r ∧
      r.body = none := by
    intro op
    simp only [r, ClientResp.getResponse_good g hk hl, if_neg h200, and_self]
  unfold Flow.answer
  by_cases hkg : k = .keygen
  · rw [if_pos hkg, getKeygen_error lib.tokensOk ⟨c.mode, c.delay⟩ .enroll g hk h200 hl hm]
  · rw [if_neg hkg]
    simp only [(hr k.op).1, (hr k.op).2, Option.getD_none]

/-- A single exchange that ends without another attempt. -/
theorem attempts_one {cfg : Cfg} {k : Kind} {pc : PClient} {text : List Nat} {conn : Nat → Conn}
    {n : Nat} (hn : 2 ≤ n) {u : Flow.Up} {raw : List Nat} {b : List (Option Nat)}
    (hc : conn 0 = .up u) (hu : u.reply = .bytes raw)
    (hb : ClientReq.enrollRequest { cfg.up with seg := pc.seg } k.uri (Flow.authOf u pc.c.mode)
      text = .sent b)
    {e : EstErr} {m : Mode} {d : Nat} {crt ky : List Nat}
    (ha : Flow.answer cfg.lib pc.c k raw = some (e, m, d, crt, ky)) (he : e ≠ .none)
    (he2 : e ≠ .authFail) :
    attempts cfg k text conn n 0 pc [] [] =
      .done ⟨e, { pc with c := { pc.c with mode := m, delay := d } }, [], [], [sentAs k u pc b]⟩ := by
  obtain ⟨n, rfl⟩ := Nat.exists_eq_add_of_le' hn
  unfold attempts exchange
  rw [hc]
  simp only [hb, hu, ha, if_neg he]
  rw [if_neg (by rw [again_iff]; simp [he2])]
  rfl

/-- What becomes of the status of an upstream server. -/
def passOn (st : Nat) : Nat :=
  if st = 204 ∨ st = 400 ∨ st = 404 ∨ st = 423 then st else 502

theorem sees_facts (e : EstErr) (he : Server.errStatus e ≠ 401) (he2 : e ≠ .caEnrollRetry) :
    ClientResp.clientSees e ≠ .none ∧ ClientResp.clientSees e ≠ .authFail ∧
    ∀ d, answer (ClientResp.clientSees e) d = [.srv (.head (passOn (Server.errStatus e)))] := by
  cases e <;> first | exact absurd rfl he | exact absurd rfl he2 | exact ⟨by decide, by decide, fun _ => rfl⟩

/-- C39, from server to client: an error response of the upstream server (as `libest` writes
it, for any error but 401 and 202, with any text) reaches the client of the proxy as the same
status if it is 204, 400, 404 or 423, and as 502 otherwise; and this is all it gets. -/
theorem C39_upstream_error {cfg : Cfg} {env : Env} {k : Kind} {rq : Rq} {a : Server.AuthOut}
    {csr : Csr} {st : State} {pc0 : PClient} (hA : Admitted cfg env k rq a csr)
    (hT : cfg.srv.transport = .http) (hn : 2 ≤ env.fuel) (hg : getClient cfg env st = some pc0)
    (hr : env.retryOut = true) {u : Flow.Up} (hc : env.conn 0 = .up u) (e : EstErr)
    (text : List Nat) (keep : Bool)
    (hu : u.reply = .bytes (errorText (Server.errStatus e) text keep))
    (he : Server.errStatus e ≠ 401) (he2 : e ≠ .caEnrollRetry) (b : List (Option Nat))
    (hb : ClientReq.enrollRequest { cfg.up with seg := (chooseSeg cfg rq.seg pc0).seg } k.uri
      (Flow.authOf u (chooseSeg cfg rq.seg pc0).c.mode) rq.body = .sent b) :
    ∃ rc st', request cfg env (post k rq) st =
      .done (rc, a.evs.map PEv.srv ++ [.up (sentAs k u (chooseSeg cfg rq.seg pc0) b),
        .srv (.head (passOn (Server.errStatus e)))], st') := by
  have hmem : Server.errStatus e ∈ [202, 204, 400, 401, 404, 423, 500, 502, 504] := by
    cases e <;> simp [Server.errStatus]
  have hlen : 12 ≤ (ClientResp.statusLine (Server.errStatus e)).length := by
    have h3 := @ClientResp.decimal3 (Server.errStatus e) (by simp at hmem; omega)
      (by simp at hmem; omega)
    unfold ClientResp.statusLine
    rw [h3]; simp
  have h200 : Server.errStatus e ≠ 200 := by simp at hmem; omega
  have g := ClientResp.errorText_good (Server.errStatus e) text keep
  have hm : ∀ p ∈ [((⟨[67, 111, 110, 116, 101, 110, 116, 45, 76, 101, 110, 103, 116, 104], decimal (ClientResp.errorBody (Server.errStatus e) text).length⟩ :
      HttpHdr.Hdr), 1), (⟨[67, 111, 110, 110, 101, 99, 116, 105, 111, 110], if keep then [107, 101, 101, 112, 45, 97, 108, 105, 118, 101] else [99, 108, 111, 115, 101]⟩, 1)],
      ¬ [109, 117, 108, 116, 105, 112, 97, 114, 116] <:+: p.1.value := by
    intro p hp
    simp only [List.mem_cons, List.not_mem_nil, or_false] at hp
    rcases hp with rfl | rfl
    · apply Multipart.not_infix_of_head
      intro h
      have := ClientResp.decimal_digits _ _ h
      omega
    · cases keep <;> exact Multipart.not_infix_of_head (by decide)
  have ha := answer_error cfg.lib (chooseSeg cfg rq.seg pc0).c k g
    (ClientResp.statusCode_line _ hmem) h200 hlen hm
  rw [← ClientResp.errorText_eq] at ha
  have hsee := (ClientResp.C24_error_round_trip cfg.lib.tokensOk
    ⟨(chooseSeg cfg rq.seg pc0).c.mode, (chooseSeg cfg rq.seg pc0).c.delay⟩ .enroll e text keep he2).1
  simp only at ha
  rw [hsee] at ha
  obtain ⟨s1, s2, s3⟩ := sees_facts e he he2
  have hx := attempts_one (conn := env.conn) hn hc hu hb ha s1 s2
  have q := (C39_every_outcome hA hT hn hg hx hr).1 s1
  simp only [s3, List.append_assoc, List.map_cons, List.map_nil, List.cons_append,
    List.nil_append] at q
  exact ⟨_, _, q⟩

/-- C39 and C85: a request to wait comes through with its delay. -/
theorem C39_upstream_retry {cfg : Cfg} {env : Env} {k : Kind} {rq : Rq} {a : Server.AuthOut}
    {csr : Csr} {st : State} {pc0 : PClient} (hA : Admitted cfg env k rq a csr)
    (hT : cfg.srv.transport = .http) (hn : 2 ≤ env.fuel) (hg : getClient cfg env st = some pc0)
    (hr : env.retryOut = true) {u : Flow.Up} (hc : env.conn 0 = .up u) (d : Nat) (hd : d ≤ 172800)
    (hu : u.reply = .bytes (retryText d)) (b : List (Option Nat))
    (hb : ClientReq.enrollRequest { cfg.up with seg := (chooseSeg cfg rq.seg pc0).seg } k.uri
      (Flow.authOf u (chooseSeg cfg rq.seg pc0).c.mode) rq.body = .sent b) :
    ∃ rc st', request cfg env (post k rq) st =
      .done (rc, a.evs.map PEv.srv ++ [.up (sentAs k u (chooseSeg cfg rq.seg pc0) b),
        .srv (.head 202), .retryAfter d], st') := by
  have e0 : retryText d = response [72, 84, 84, 80, 47, 49, 46, 49, 32, 50, 48, 50, 32, 65, 99, 99, 101, 112, 116, 101, 100]
      [(⟨[83, 116, 97, 116, 117, 115], [50, 48, 50, 32, 65, 99, 99, 101, 112, 116, 101, 100]⟩, 1), (⟨[82, 101, 116, 114, 121, 45, 65, 102, 116, 101, 114], decimal d⟩, 1)] [] := by
    simp [retryText, response, HttpHdr.lines, HttpHdr.line]
  have hdd := ClientResp.decimal_ok d
  have g : Good [72, 84, 84, 80, 47, 49, 46, 49, 32, 50, 48, 50, 32, 65, 99, 99, 101, 112, 116, 101, 100]
      [(⟨[83, 116, 97, 116, 117, 115], [50, 48, 50, 32, 65, 99, 99, 101, 112, 116, 101, 100]⟩, 1), (⟨[82, 101, 116, 114, 121, 45, 65, 102, 116, 101, 114], decimal d⟩, 1)] [] := by
    constructor
    · decide
    · intro p hp
      simp only [List.mem_cons, List.not_mem_nil, or_false] at hp
      rcases hp with rfl | rfl
      · exact ClientResp.wf_of (by decide) (by decide) (by decide) (by decide)
      · exact ClientResp.wf_of (by decide) (by decide) (fun c h => ⟨(hdd c h).1, (hdd c h).2.1⟩)
          (ClientResp.decimal_head _)
    · intro p hp
      simp only [List.mem_cons, List.not_mem_nil, or_false] at hp
      rcases hp with rfl | rfl
      · exact ⟨by decide, by decide⟩
      · have q : ∀ c ∈ [82, 101, 116, 114, 121, 45, 65, 102, 116, 101, 114], c ≠ 0 := by decide
        exact ⟨q, fun c h => (hdd c h).2.2.1⟩
    · simp
    · simp
    · simp
  have hm : ∀ p ∈ [((⟨[83, 116, 97, 116, 117, 115], [50, 48, 50, 32, 65, 99, 99, 101, 112, 116, 101, 100]⟩ : HttpHdr.Hdr), 1),
      (⟨[82, 101, 116, 114, 121, 45, 65, 102, 116, 101, 114], decimal d⟩, 1)], ¬ [109, 117, 108, 116, 105, 112, 97, 114, 116] <:+: p.1.value := by
    intro p hp
    simp only [List.mem_cons, List.not_mem_nil, or_false] at hp
    rcases hp with rfl | rfl
    · exact Multipart.not_infix_of_head (by decide)
    · apply Multipart.not_infix_of_head
      intro h
      have := ClientResp.decimal_digits _ _ h
      omega
  have ha := answer_error cfg.lib (chooseSeg cfg rq.seg pc0).c k g (n := 202)
    (by decide) (by decide) (by decide) hm
  rw [← e0] at ha
  have hsee := ClientResp.C25_server_retry cfg.lib.tokensOk
    ⟨(chooseSeg cfg rq.seg pc0).c.mode, (chooseSeg cfg rq.seg pc0).c.delay⟩ .enroll d hd
  simp only at ha hsee
  rw [hsee.1] at ha
  have hdel : (ClientResp.getResponse cfg.lib.tokensOk
      ⟨(chooseSeg cfg rq.seg pc0).c.mode, (chooseSeg cfg rq.seg pc0).c.delay⟩ .enroll
      (retryText d)).delay = d := by
    have := hsee.2.2.2.1
    simp only [ClientResp.copyRetryAfter] at this
    exact this
  rw [hdel] at ha
  have hx := attempts_one (conn := env.conn) hn hc hu hb ha (by simp) (by simp)
  have q := (C39_every_outcome hA hT hn hg hx hr).1 (by simp)
  have q2 : ∀ d, answer .caEnrollRetry d = [.srv (.head 202), .retryAfter d] := fun _ => rfl
  simp only [q2, List.append_assoc, List.map_cons, List.map_nil, List.cons_append,
    List.nil_append] at q
  exact ⟨_, _, q⟩

example : answers (request exProxy
    (exEnv 1 (Flow.exUp (errorText 423 [] false)) (.down .connect))
    (post .keygen (exRq none)) (State.init none)) = some [.srv (.head 423)] := by decide +kernel

example : answers (request exProxy (exEnv 1 (Flow.exUp (retryText 90)) (.down .connect))
    (post .keygen (exRq none)) (State.init none)) =
    some [.srv (.head 202), .retryAfter 90] := by decide +kernel

/-- The status for a connection that cannot be made. -/
def connStatus : Flow.ConnErr → Nat
  | .getaddr | .connect => 504
  | .sslConnect | .fqdn => 502
  | .sslNew => 500

/-- C39: if no connection can be made, the client is told 504, 502 if the connection is
refused by the TLS checks. -/
theorem C39_no_connection {cfg : Cfg} {env : Env} {k : Kind} {rq : Rq} {a : Server.AuthOut}
    {csr : Csr} {st : State} {pc0 : PClient} (hA : Admitted cfg env k rq a csr)
    (hT : cfg.srv.transport = .http) (hn : 2 ≤ env.fuel) (hg : getClient cfg env st = some pc0)
    (hr : env.retryOut = true) (e : Flow.ConnErr) (hc : env.conn 0 = .down e) :
    ∃ rc st', request cfg env (post k rq) st =
      .done (rc, a.evs.map PEv.srv ++ [.srv (.head (connStatus e))], st') := by
  have hx : attempts cfg k rq.body env.conn env.fuel 0 (chooseSeg cfg rq.seg pc0) [] [] =
      .done ⟨e.err, chooseSeg cfg rq.seg pc0, [], [], []⟩ := by
    obtain ⟨n, hn⟩ := Nat.exists_eq_add_of_le' hn
    rw [hn]
    unfold attempts exchange
    rw [hc]
    simp only
    rw [if_neg (by rw [again_iff]; simp [(down_err e).2])]
  have q := (C39_every_outcome hA hT hn hg hx hr).1 (down_err e).1
  have q2 : answer e.err (chooseSeg cfg rq.seg pc0).c.delay = [.srv (.head (connStatus e))] := by cases e <;> rfl
  simp only [q2, List.map_nil, List.append_nil] at q
  exact ⟨_, _, q⟩

example : answers (request exProxy (exEnv 1 (.down .fqdn) (.down .connect))
    (post .enroll (exRq none)) (State.init none)) = some [.srv (.head 502)] := by decide +kernel

/-- The requests sent upstream. -/
def ups (evs : List PEv) : List Sent := evs.filterMap fun e => match e with | .up s => some s | _ => none

theorem ups_append (a b : List PEv) : ups (a ++ b) = ups a ++ ups b := by
  simp [ups, List.filterMap_append]

theorem ups_srv (l : List Ev) : ups (l.map PEv.srv) = [] := by
  induction l with
  | nil => rfl
  | cons x l ih => exact ih

theorem ups_up (l : List Sent) : ups (l.map PEv.up) = l := by
  induction l with
  | nil => rfl
  | cons x l ih => simpa [ups] using ih

theorem ups_writes (out : Nat → Nat) (i : Nat) (l : List (List Nat)) :
    ups (writes out i l).1 = [] := by
  induction l generalizing i with
  | nil => rfl
  | cons b l ih =>
    unfold writes
    simp only
    split
    · rfl
    · exact ih (i + 1)

theorem ups_sendError (r : Bool) (d : Nat) (e : EstErr) : ups (sendError r d e) = [] := by
  unfold sendError
  rw [ups_append, ups_srv]
  split <;> rfl

theorem ups_finish (env : Env) (t : Todo) (st : State) : ups (finish env t st) = [] := by
  unfold finish
  split
  · rfl
  · exact ups_sendError _ _ _

theorem ups_deliver (cfg : Cfg) (env : Env) (k : Kind) (evs : List PEv) (st : State) (x : Xch) :
    ups (deliver cfg env k evs st x).evs = ups evs := by
  unfold deliver
  split
  · split
    · simp only [ups_append]
      split
      · simp only [propagateKeygen, ups_writes, List.append_nil]
      · simp only [propagateCert, ups_writes, List.append_nil]
    · rfl
  · rfl

theorem ups_refused {st : State} {o : Out} (h : Refused st o) : ups o.evs = [] := by
  unfold ups
  rw [List.filterMap_eq_nil_iff]
  intro e he
  rcases h.2.2 e he with ⟨c, rfl⟩ | rfl <;> rfl

theorem todo_evs (o : Out) : (todo o).evs = o.evs ∧ (todo o).st = o.st := by
  unfold todo
  split <;> exact ⟨rfl, rfl⟩

/-- A request for a certificate from the outside: what it came to. -/
theorem request_post (cfg : Cfg) (env : Env) (k : Kind) (rq : Rq) (st : State) (hn : 2 ≤ env.fuel) :
    request cfg env (post k rq) st = .ub ∨
    ∃ rc evs st', request cfg env (post k rq) st = .done (rc, evs, st') ∧
      (ups evs = [] ∨
       ∃ a csr pc0 x, Admitted cfg env k rq a csr ∧ getClient cfg env st = some pc0 ∧
        AFacts cfg k (chooseSeg cfg rq.seg pc0) rq.body env.conn (.done x) ∧
        ups evs = x.sent ∧ st' = after st env x ∧
        evs = (deliver cfg env k (a.evs.map PEv.srv ++ x.sent.map PEv.up) (after st env x) x).evs ++
          finish env (todo (deliver cfg env k (a.evs.map PEv.srv ++ x.sent.map PEv.up)
            (after st env x) x)) (after st env x)) := by
  unfold request
  rw [dispatch_post]
  rcases handleEnroll_cases cfg env k rq st with h | ⟨o, h, hr⟩ | ⟨a, csr, hA, h⟩
  · rw [h]; exact .inl rfl
  · rw [h]
    right
    refine ⟨_, _, _, rfl, .inl ?_⟩
    rw [ups_append, ups_finish, (todo_evs o).1, ups_refused hr]
    rfl
  · rw [h]
    cases hg : getClient cfg env st with
    | none =>
      right
      have : forward cfg env k rq (a.evs.map PEv.srv) st =
          .done ⟨.noCtx, a.evs.map PEv.srv, st, [], []⟩ := by
        unfold forward; rw [hg]
      rw [this]
      refine ⟨_, _, _, rfl, .inl ?_⟩
      rw [ups_append, ups_finish, (todo_evs _).1, ups_srv]
      rfl
    | some pc0 =>
      rw [forward_eq hg]
      have af := attempts_facts cfg k (chooseSeg cfg rq.seg pc0) rq.body env.conn env.fuel hn
      cases hx : attempts cfg k rq.body env.conn env.fuel 0 (chooseSeg cfg rq.seg pc0) [] [] with
      | ub => exact .inl rfl
      | endless => rw [hx] at af; cases af
      | done x =>
        rw [hx] at af
        right
        have hst : (deliver cfg env k (a.evs.map PEv.srv ++ x.sent.map PEv.up) (after st env x) x).st =
            after st env x := by
          unfold deliver
          split
          · split <;> rfl
          · rfl
        refine ⟨_, _, _, rfl, .inr ⟨a, csr, pc0, x, hA, rfl, af, ?_, ?_, ?_⟩⟩
        · rw [ups_append, ups_finish, (todo_evs _).1, ups_deliver, ups_append, ups_srv, ups_up]
          simp
        · rw [(todo_evs _).2, hst]
        · rw [(todo_evs _).1, (todo_evs _).2, hst]

/-- C39: a request for a certificate is always answered (the loop of attempts ends), and at
most two requests go upstream for it.  The second only if the proxy is configured for HTTP
authentication and the first was answered with a challenge; it carries the proxy's credentials
of the scheme asked for. -/
theorem C39_at_most_two (cfg : Cfg) (env : Env) (k : Kind) (rq : Rq) (st : State)
    (hn : 2 ≤ env.fuel) :
    request cfg env (post k rq) st = .ub ∨
    ∃ rc evs st', request cfg env (post k rq) st = .done (rc, evs, st') ∧
      (ups evs).length ≤ 2 ∧
      (∀ s, (ups evs)[1]? = some s →
        (cfg.srv.authMode = .digest ∨ cfg.srv.authMode = .basic ∨ cfg.srv.authMode = .token) ∧
        ∃ u m, env.conn 1 = .up u ∧ Asked m ∧ Challenged cfg.lib (env.conn 0) m ∧
          s.auth = u.auth m) := by
  rcases request_post cfg env k rq st hn with h | ⟨rc, evs, st', h, hh⟩
  · exact .inl h
  · refine .inr ⟨rc, evs, st', h, ?_⟩
    rcases hh with hu | ⟨a, csr, pc0, x, hA, hg, af, hu, -, -⟩
    · simp [hu]
    · rw [hu]
      cases af with
      | one _ h1 _ =>
        have f := (exchange_facts _ _ _ _ _ _ h1).sent
        rcases f with f | ⟨u, b, -, f, -⟩ <;> simp [f]
      | two x y h1 ha h2 =>
        have f1 := exchange_facts _ _ _ _ _ _ h1
        have f2 := exchange_facts _ _ _ _ _ _ h2
        rw [again_iff] at ha
        obtain ⟨-, g2, g3, -⟩ := f1.fail ha.1 ha.2.2
        rcases f1.sent with q | ⟨u, b, hc, q, -⟩
        · obtain ⟨u0, raw0, _, _, hc0, _⟩ := g3
          rcases f2.sent with r | ⟨u2, b2, hc2, r, -⟩ <;> simp [q, r]
        · rcases f2.sent with r | ⟨u2, b2, hc2, r, -⟩
          · simp [q, r]
          · simp only [q, r, List.cons_append, List.nil_append, List.length_cons, List.length_nil]
            refine ⟨by omega, ?_⟩
            intro s hs
            simp at hs
            subst hs
            refine ⟨ha.2.1, u2, x.pc.c.mode, hc2, g2, g3, ?_⟩
            simp only [sentAs, Flow.authOf]
            rcases g2 with g | g | g <;> rw [g]

/-- A challenge, and then a certificate: two requests. -/
example : ((shown (request { exProxy with srv := { exProxy.srv with authMode := .basic } }
    (exEnv 1 (Flow.exUp Flow.ex401) (Flow.exUp Flow.exCert))
    (post .enroll (exRq none)) (State.init none))).map fun p => (ups p.2).map (·.auth)) =
    some [.none, .value [66, 97, 115, 105, 99, 32, 100, 84, 112, 119]] := by decide +kernel

/-- Without HTTP authentication configured for its own clients the proxy does not try again;
the credentials it has for the upstream server are not used. -/
theorem C39_retry_depends_on_own_mode :
    ((shown (request { exProxy with srv := { exProxy.srv with authMode := .none } }
      (exEnv 1 (Flow.exUp Flow.ex401) (Flow.exUp Flow.exCert))
      (post .enroll (exRq none)) (State.init none))).map fun p => (ups p.2).map (·.auth)) =
      some [.none] := by decide +kernel

/-- C39 (safety), for any network: bytes are written to the client only if an upstream server
answered one of the requests sent for this very request with success, and every write is (the
beginning of) a piece of the response with the certificate (and key) of that answer. -/
theorem C39_only_upstream_certificate {cfg : Cfg} {env : Env} {k : Kind} {rq : Rq} {st : State}
    (hn : 2 ≤ env.fuel) {rc : EstErr} {evs : List PEv} {st' : State}
    (h : request cfg env (post k rq) st = .done (rc, evs, st')) (w : List Nat)
    (hw : .write w ∈ evs) :
    ∃ n u raw c m d cert key, n < 2 ∧ env.conn n = .up u ∧ u.reply = .bytes raw ∧
      Flow.answer cfg.lib c k raw = some (.none, m, d, cert, key) ∧ cert ≠ [] ∧
      cert.length ≤ 4096 ∧ ∃ t ∈ okWrites k cert key, w <+: t := by
  have hpre : ∀ (l : List (List Nat)) (i : Nat), PEv.write w ∈ (writes env.out i l).1 →
      ∃ t ∈ l, w <+: t := by
    intro l
    induction l with
    | nil => intro i hi; simp [writes] at hi
    | cons b l ih =>
      intro i hi
      unfold writes at hi
      simp only at hi
      split at hi
      · simp at hi
      · simp only [List.mem_cons, PEv.write.injEq] at hi
        rcases hi with rfl | hi
        · exact ⟨b, by simp, List.take_prefix _ _⟩
        · obtain ⟨t, ht, hp⟩ := ih _ hi
          exact ⟨t, by simp [ht], hp⟩
  have hfin : ∀ t s, PEv.write w ∉ finish env t s := by
    intro t s hh
    unfold finish at hh
    split at hh
    · simp at hh
    · unfold sendError at hh
      split at hh <;> simp at hh
  unfold request at h
  rw [dispatch_post] at h
  rcases handleEnroll_cases cfg env k rq st with q | ⟨o, q, hr⟩ | ⟨a, csr, hA, q⟩
  · rw [q] at h; cases h
  · rw [q] at h
    simp only [runTodo, Run.done.injEq, Prod.mk.injEq] at h
    obtain ⟨-, h, -⟩ := h
    rw [← h, List.mem_append] at hw
    rcases hw with hw | hw
    · rw [(todo_evs o).1] at hw
      rcases hr.2.2 _ hw with ⟨c, hc⟩ | hc <;> cases hc
    · exact absurd hw (hfin _ _)
  · rw [q] at h
    cases hg : getClient cfg env st with
    | none =>
      have e : forward cfg env k rq (a.evs.map PEv.srv) st =
          .done ⟨.noCtx, a.evs.map PEv.srv, st, [], []⟩ := by
        unfold forward; rw [hg]
      rw [e] at h
      simp only [runTodo, Run.done.injEq, Prod.mk.injEq] at h
      obtain ⟨-, h, -⟩ := h
      rw [← h, List.mem_append] at hw
      rcases hw with hw | hw
      · rw [(todo_evs _).1] at hw
        simp at hw
      · exact absurd hw (hfin _ _)
    | some pc0 =>
      rw [forward_eq hg] at h
      have af := attempts_facts cfg k (chooseSeg cfg rq.seg pc0) rq.body env.conn env.fuel hn
      cases hx : attempts cfg k rq.body env.conn env.fuel 0 (chooseSeg cfg rq.seg pc0) [] [] with
      | ub => rw [hx] at h; cases h
      | endless => rw [hx] at h; cases h
      | done x =>
        rw [hx] at h af
        simp only [runTodo, Run.done.injEq, Prod.mk.injEq] at h
        obtain ⟨-, h, -⟩ := h
        rw [← h, List.mem_append] at hw
        rcases hw with hw | hw
        · rw [(todo_evs _).1] at hw
          unfold deliver at hw
          by_cases hc : x.cert ≠ [] ∧ (k = .keygen → x.key ≠ [])
          · rw [if_pos hc] at hw
            have hor : x.key ≠ [] ∨ k ≠ .keygen := by
              by_cases hk : k = .keygen
              · exact .inl (hc.2 hk)
              · exact .inr hk
            have hw2 : ∃ t ∈ okWrites k x.cert x.key, w <+: t := by
              cases ht : cfg.srv.transport with
              | coap => rw [ht] at hw; simp at hw
              | http =>
                rw [ht] at hw
                simp only [List.mem_append] at hw
                rcases hw with (hw | hw) | hw
                · simp at hw
                · simp at hw
                · by_cases hk : k = .keygen
                  · rw [if_pos hk] at hw
                    unfold okWrites
                    rw [if_pos hk]
                    exact hpre _ _ hw
                  · rw [if_neg hk] at hw
                    unfold okWrites
                    rw [if_neg hk]
                    exact hpre _ _ hw
            obtain ⟨t, ht, hp⟩ := hw2
            have conclude : ∀ (n : Nat) (pc : PClient), n < 2 →
                (∃ u raw m d ky, env.conn n = .up u ∧ u.reply = .bytes raw ∧
                  Flow.answer cfg.lib pc.c k raw = some (.none, m, d, x.cert, ky) ∧ x.err = .none ∧
                  x.cert.length ≤ 4096 ∧ (k = .keygen → x.key = ky ∧ x.key.length ≤ 8192)) →
                ∃ n u raw c m d cert key, n < 2 ∧ env.conn n = .up u ∧ u.reply = .bytes raw ∧
                  Flow.answer cfg.lib c k raw = some (.none, m, d, cert, key) ∧ cert ≠ [] ∧
                  cert.length ≤ 4096 ∧ ∃ t ∈ okWrites k cert key, w <+: t := by
              rintro n pc hlt ⟨u, raw, m, d, ky, h1, h2, h3, -, h5, h6⟩
              refine ⟨n, u, raw, pc.c, m, d, x.cert, ky, hlt, h1, h2, h3, hc.1, h5, t, ?_, hp⟩
              by_cases hk : k = .keygen
              · rw [← (h6 hk).1]; exact ht
              · unfold okWrites at ht ⊢
                rw [if_neg hk] at ht ⊢
                exact ht
            cases af with
            | one _ h1 _ =>
              exact conclude 0 _ (by omega) ((exchange_facts _ _ _ _ _ _ h1).cert hc.1 hor)
            | two x y _ _ h2 =>
              exact conclude 1 _ (by omega) ((exchange_facts _ _ _ _ _ _ h2).cert hc.1 hor)
          · rw [if_neg hc] at hw
            simp at hw
        · exact absurd hw (hfin _ _)

/-- C39, from server to client: the response with the certificate that the upstream server
(or a further proxy) writes is given to the client byte for byte. -/
theorem C39_certificate_passed_on {cfg : Cfg} {env : Env} {k : Kind} {rq : Rq} {a : Server.AuthOut}
    {csr : Csr} {st : State} {pc0 : PClient} (hA : Admitted cfg env k rq a csr)
    (hT : cfg.srv.transport = .http) (hn : 2 ≤ env.fuel) (hg : getClient cfg env st = some pc0)
    (hr : env.retryOut = true) (hk : k ≠ .keygen) {u : Flow.Up} (hc : env.conn 0 = .up u)
    (cert : List Nat) (hne : cert ≠ []) (hl : cert.length ≤ 4096)
    (hcr : cert.head? ≠ some 13 ∧ cert.head? ≠ some 10)
    (hu : u.reply = .bytes (head200 ctCert cert.length ++ cert)) (b : List (Option Nat))
    (hb : ClientReq.enrollRequest { cfg.up with seg := (chooseSeg cfg rq.seg pc0).seg } k.uri
      (Flow.authOf u (chooseSeg cfg rq.seg pc0).c.mode) rq.body = .sent b)
    (ho : ∀ i, (head200 ctCert cert.length ++ cert).length ≤ env.out i) :
    ∃ st', request cfg env (post k rq) st =
      .done (.none, a.evs.map PEv.srv ++ [.up (sentAs k u (chooseSeg cfg rq.seg pc0) b),
        .write (head200 ctCert cert.length), .write cert], st') := by
  have e0 : head200 ctCert cert.length ++ cert = response [72, 84, 84, 80, 47, 49, 46, 49, 32, 50, 48, 48, 32, 79, 75]
      [(⟨[83, 116, 97, 116, 117, 115], [50, 48, 48, 32, 79, 75]⟩, 1), (⟨[67, 111, 110, 116, 101, 110, 116, 45, 84, 121, 112, 101], ctCert⟩, 1),
       (⟨[67, 111, 110, 116, 101, 110, 116, 45, 84, 114, 97, 110, 115, 102, 101, 114, 45, 69, 110, 99, 111, 100, 105, 110, 103], [98, 97, 115, 101, 54, 52]⟩, 1),
       (⟨[67, 111, 110, 116, 101, 110, 116, 45, 76, 101, 110, 103, 116, 104], decimal cert.length⟩, 1)] cert := by
    simp [head200, ctCert, response, HttpHdr.lines, HttpHdr.line]
  have hdd := ClientResp.decimal_ok cert.length
  have g : Good [72, 84, 84, 80, 47, 49, 46, 49, 32, 50, 48, 48, 32, 79, 75]
      [(⟨[83, 116, 97, 116, 117, 115], [50, 48, 48, 32, 79, 75]⟩, 1), (⟨[67, 111, 110, 116, 101, 110, 116, 45, 84, 121, 112, 101], ctCert⟩, 1),
       (⟨[67, 111, 110, 116, 101, 110, 116, 45, 84, 114, 97, 110, 115, 102, 101, 114, 45, 69, 110, 99, 111, 100, 105, 110, 103], [98, 97, 115, 101, 54, 52]⟩, 1),
       (⟨[67, 111, 110, 116, 101, 110, 116, 45, 76, 101, 110, 103, 116, 104], decimal cert.length⟩, 1)] cert := by
    constructor
    · decide
    · intro p hp
      simp only [List.mem_cons, List.not_mem_nil, or_false] at hp
      rcases hp with rfl | rfl | rfl | rfl
      · exact ClientResp.wf_of (by decide) (by decide) (by decide) (by decide)
      · exact ClientResp.wf_of (by decide) (by decide) (by decide) (by decide)
      · exact ClientResp.wf_of (by decide) (by decide) (by decide) (by decide)
      · exact ClientResp.wf_of (by decide) (by decide) (fun c h => ⟨(hdd c h).1, (hdd c h).2.1⟩)
          (ClientResp.decimal_head _)
    · intro p hp
      simp only [List.mem_cons, List.not_mem_nil, or_false] at hp
      rcases hp with rfl | rfl | rfl | rfl
      · exact ⟨by decide, by decide⟩
      · exact ⟨by decide, by decide⟩
      · exact ⟨by decide, by decide⟩
      · have q : ∀ c ∈ [67, 111, 110, 116, 101, 110, 116, 45, 76, 101, 110, 103, 116, 104], c ≠ 0 := by decide
        exact ⟨q, fun c h => (hdd c h).2.2.1⟩
    · simp
    · simp
    · exact hcr
  have hx : attempts cfg k rq.body env.conn env.fuel 0 (chooseSeg cfg rq.seg pc0) [] [] =
      .done ⟨.none, chooseSeg cfg rq.seg pc0, cert, [], [sentAs k u (chooseSeg cfg rq.seg pc0) b]⟩ := by
    generalize chooseSeg cfg rq.seg pc0 = pc at hb
    have ha : Flow.answer cfg.lib pc.c k (head200 ctCert cert.length ++ cert) =
        some (.none, pc.c.mode, pc.c.delay, cert, []) := by
      unfold Flow.answer
      rw [if_neg hk]
      have hop : k.op = .enroll ∨ k.op = .reenroll := by
        cases k <;> simp_all [Flow.Kind.op]
      rw [e0]
      have := ClientResp.C28_complete_response_accepted cfg.lib.tokensOk ⟨pc.c.mode, pc.c.delay⟩
        k.op _ _ cert g ⟨[32, 79, 75], rfl⟩ (by rcases hop with h | h <;> rw [h] <;> decide)
        (by
          intro p hp hname
          simp only [List.mem_cons, List.not_mem_nil, or_false] at hp
          rcases hp with rfl | rfl | rfl | rfl
          · exact absurd hname (by decide)
          · rcases hop with h | h <;> rw [h] <;> exact List.prefix_rfl
          · exact absurd hname (by decide)
          · exact absurd hname (by simp))
        ⟨(⟨[67, 111, 110, 116, 101, 110, 116, 45, 84, 121, 112, 101], ctCert⟩, 1), by simp, rfl⟩
        (by
          intro p hp hname
          simp only [List.mem_cons, List.not_mem_nil, or_false] at hp
          rcases hp with rfl | rfl | rfl | rfl
          · exact absurd hname (by decide)
          · exact absurd hname (by decide)
          · exact absurd hname (by decide)
          · rfl)
        ⟨(⟨[67, 111, 110, 116, 101, 110, 116, 45, 76, 101, 110, 103, 116, 104], decimal cert.length⟩, 1), by simp, rfl⟩ (by omega)
      simp only [this, if_neg hne, Option.getD_some]
    obtain ⟨n, hn⟩ := Nat.exists_eq_add_of_le' hn
    have hl0 : ¬ cert.length = 0 := by
      intro h; exact hne (List.length_eq_zero_iff.1 h)
    have hacc : accept k pc cert [] [sentAs k u pc b] =
        ⟨.none, pc, cert, [], [sentAs k u pc b]⟩ := by
      unfold accept Flow.checkSizes
      rw [if_neg hl0, if_neg (by omega), if_neg hk, if_neg (by omega)]
      simp [hk]
    rw [hn]
    unfold attempts exchange
    rw [hc]
    simp only [hb, hu, ha, if_true]
    have hacc2 : accept k { c := { pc.c with mode := pc.c.mode, delay := pc.c.delay }, seg := pc.seg }
        cert [] [sentAs k u pc b] = ⟨.none, pc, cert, [], [sentAs k u pc b]⟩ := hacc
    have hs : Sent.mk k.uri (Flow.authOf u pc.c.mode) none b pc.c.trust = sentAs k u pc b := rfl
    rw [hs]
    simp only [hacc2]
    rw [if_neg (by rw [again_iff]; simp)]
  have q := ((C39_every_outcome hA hT hn hg hx hr).2 rfl).2.2 (by
    intro i
    have := ho i
    simp only [okWrites, if_neg hk, List.flatten_cons, List.flatten_nil, List.length_append,
      List.length_nil] at this ⊢
    omega)
  simp only [okWrites, if_neg hk, List.map_cons, List.map_nil, List.append_assoc, List.cons_append,
    List.nil_append] at q
  exact ⟨_, q⟩

end Verif.Proxy
