import Verif.ChainModel
import Verif.WireEnrollProps
import Verif.ProxyProps

/-!
# C108: enrolment through proxies, from the client to the CA and back
-/
namespace Verif.Wire
open Verif.HttpHdr (getHeader)
open Verif.ClientResp (Mode decimal clientSees errorText retryText getResponse)
open Verif.ClientReq (requestText toAuth path postHeaders)
open Verif.Server (AuthMode Cred HdrRes Ev CaReq CaRes)
open Verif.Proxy (PEv PClient Admitted chooseSeg getClient sentAs relay)

/-! ## What an answer to a request for a certificate says -/

/-- The outcomes of a request for a certificate: a certificate, "come back in `d` seconds", a
challenge, an error; or the next party could not be reached. -/
inductive Verdict
  | cert (c : List Nat)
  | later (d : Nat)
  | asks (m : Mode)
  | error (e : EstErr)
  | failed (e : Flow.ConnErr)

/-- The texts that stand for an answer. -/
def Says : Verdict → List Nat → Prop
  | .cert c, text => text = Proxy.head200 Proxy.ctCert c.length ++ c ∧ c ≠ [] ∧ c.length ≤ 4096 ∧
      c.head? ≠ some 13 ∧ c.head? ≠ some 10
  | .later d, text => text = retryText d ∧ d ≤ 172800
  | .asks m, text => ∃ realm time, text = Challenge.challengeText m realm time ∧ Challenge.Asks m ∧
      Challenge.RealmText realm ∧ realm.length ≤ 255 ∧ time < 2 ^ 64
  | .error e, text => e ≠ .caEnrollRetry ∧ ∃ t keep, text = errorText (Server.errStatus e) t keep
  | .failed _, _ => False

/-- The result code an asking party gets for an answer. -/
def Verdict.err : Verdict → EstErr
  | .cert _ => .none
  | .later _ => .caEnrollRetry
  | .asks _ => .authFail
  | .error e => clientSees e
  | .failed e => e.err

/-- Its mode of authentication afterwards. -/
def Verdict.mode (m : Mode) : Verdict → Mode
  | .cert _ => m
  | .later _ => m
  | .asks n => if Flow.Asked m then .fail else n
  | .error e => if clientSees e = .authFail then .fail else m
  | .failed _ => m

/-- The delay it was told. -/
def Verdict.delay (d : Nat) : Verdict → Nat
  | .later n => n
  | _ => d

/-- The certificate it got. -/
def Verdict.bytes : Verdict → List Nat
  | .cert c => c
  | _ => []

theorem answer_says {lib : Flow.Lib} {toks : Challenge.Toks}
    (htok : lib.tokensOk = Challenge.tokensOk toks) (c : Flow.Client) {k : Flow.Kind}
    (hk : k ≠ .keygen) {v : Verdict} {text : List Nat} (h : Says v text) :
    Flow.answer lib c k text = some (v.err, v.mode c.mode, v.delay c.delay, v.bytes, []) := by
  have hop : k.op = .enroll ∨ k.op = .reenroll := by cases k <;> simp_all [Flow.Kind.op]
  unfold Flow.answer
  rw [if_neg hk]
  cases v with
  | cert x =>
    obtain ⟨rfl, h1, h2, h3⟩ := h
    rw [read_cert lib.tokensOk ⟨c.mode, c.delay⟩ k.op hop x h1 h2 h3]
    rfl
  | later d =>
    obtain ⟨rfl, h1⟩ := h
    rw [read_retry lib.tokensOk ⟨c.mode, c.delay⟩ k.op d h1]
    rfl
  | asks m =>
    obtain ⟨realm, time, rfl, h1, h2, h3, h4⟩ := h
    by_cases hA : Flow.Asked c.mode
    · rw [Challenge.challenge_again _ realm time lib.tokensOk ⟨c.mode, c.delay⟩ k.op h1 h2 hA]
      simp [Verdict.err, Verdict.mode, Verdict.delay, Verdict.bytes, hA]
    · have hm : c.mode = .none ∨ c.mode = .fail := by
        revert hA; cases c.mode <;> simp [Flow.Asked]
      rw [htok, Challenge.C63_mode _ realm time toks ⟨c.mode, c.delay⟩ k.op h1 h2 h3 h4 hm]
      simp [Verdict.err, Verdict.mode, Verdict.delay, Verdict.bytes, hA]
  | error e =>
    obtain ⟨h1, t, keep, rfl⟩ := h
    rw [read_error lib.tokensOk ⟨c.mode, c.delay⟩ k.op e t keep h1]
    rfl
  | failed e => cases h

/-- `E` is what a party answers to the bytes it gets; its answer to this request is `v`. -/
def Tells (E : ClientReq.Wire → Flow.Reply) (cfg : ClientReq.Cfg) (k : Flow.Kind)
    (auth : Option (List Nat)) (csr : List Nat) (v : Verdict) : Prop :=
  ∃ b text, ClientReq.enrollRequest cfg k.uri (toAuth auth) csr = .sent b ∧
    E (.sent b) = .bytes text ∧ Says v text

/-! ## A server -/

/-- The answer of a server whose handler ended with `o`. -/
inductive Decided (s : Site) (re : Bool) (seg : Option (List Nat)) (csr : List Nat)
    (o : Server.Out) : Verdict → Prop
  | issued (c) (rc : o.rc = .none) (i : Issued s re seg csr o c) : Decided s re seg csr o (.cert c)
  | later (rc : o.rc = .caEnrollRetry) : Decided s re seg csr o (.later s.srv.cfg.retryPeriod)
  | asks (rc : o.rc = .authPending) : Decided s re seg csr o (.asks (toMode s.srv.cfg.authMode))
  | error (r1 : o.rc ≠ .none) (r2 : o.rc ≠ .caEnrollRetry) (r3 : o.rc ≠ .authPending) :
      Decided s re seg csr o (.error o.rc)

theorem server_tells (cfg : ClientReq.Cfg) (k : Flow.Kind) (hk : k ≠ .keygen) (s : Site)
    (sched : List HttpConn.Ev) (csr : List Nat) (auth : Option (List Nat)) (hdr : HdrRes × Cred)
    (o : Server.Out) (hS : Sendable cfg k.uri auth csr) (hV : Sound s) (hR : Routes s cfg k.uri)
    (hh : hdrOf (AuthHdr.parseAuthHeader s.odd (toMode s.srv.cfg.authMode) auth) = some hdr)
    (ho : outcome s (k == .reenroll) cfg.seg csr hdr = some o)
    (harr : Arrives sched (1028 + csr.length)) :
    ∃ v, Decided s (k == .reenroll) cfg.seg csr o v ∧ Tells (reply s sched) cfg k auth csr v := by
  obtain ⟨b, text, h1, h2, h3⟩ := reply_enroll cfg k hk s sched csr auth hdr o hS hV hR hh ho harr
  rcases h3 with ⟨cert, hrc, hI, ht⟩ | ⟨hrc, ht⟩ | ⟨hrc, ht⟩ | ⟨r1, r2, r3, keep, ht⟩
  · refine ⟨_, .issued cert hrc hI, b, text, h1, h2, ?_⟩
    obtain ⟨ca, rq, i1, i2, i3, i4, i5, i6, i7⟩ := hI
    have hc := hV.cert ca rq (by split at i1 <;> simp [i1])
    rw [i6] at hc
    exact ⟨ht, i7, hc.2.1, hc.2.2⟩
  · exact ⟨_, .later hrc, b, text, h1, h2, ht, hV.retry⟩
  · exact ⟨_, .asks hrc, b, text, h1, h2, s.realm, s.time, ht, hV.mode, hV.realm, hV.realmLen, hV.time⟩
  · exact ⟨_, .error r1 r2 r3, b, text, h1, h2, r2, _, keep, ht⟩

/-! ## A proxy -/

/-- The proxy is one for HTTPS with sensible settings. -/
structure PSound (p : PSite) : Prop where
  http : p.cfg.srv.transport = .http
  mode : Challenge.Asks (toMode p.cfg.srv.authMode)
  realm : Challenge.RealmText p.realm
  realmLen : p.realm.length ≤ 255
  time : p.time < 2 ^ 64
  toks : ∃ t, p.cfg.lib.tokensOk = Challenge.tokensOk t

/-- The proxy understands the path. -/
def PRoutes (p : PSite) (cfg : ClientReq.Cfg) (op : EstUri.Op) : Prop :=
  ∃ u, Url.requestPath (path cfg op) = some u ∧ p.uri u = .ok op cfg.seg

/-- Writes to the client of the proxy are complete, and two rounds are looked at. -/
structure EnvOk (env : Proxy.Env) : Prop where
  out : ∀ i, 5000 ≤ env.out i
  retry : env.retryOut = true
  fuel : 2 ≤ env.fuel

/-- The request as the handlers of the proxy see it. -/
def rqOf (csr : List Nat) (seg : Option (List Nat)) (hdr : HdrRes × Cred) : Proxy.Rq :=
  ⟨[97, 112, 112, 108, 105, 99, 97, 116, 105, 111, 110, 47, 112, 107, 99, 115, 49, 48], csr, seg, hdr⟩

/-- What the proxy makes of the final answer of the upstream server. -/
def passed : Verdict → Verdict
  | .cert c => .cert c
  | .later d => .later d
  | .asks _ => .error .authFail
  | .error e => .error (relay (clientSees e))
  | .failed e => .error (relay e.err)

theorem relay_sees (e : EstErr) : relay (clientSees e) = .caEnrollRetry → e = .caEnrollRetry := by
  cases e <;> simp [clientSees, relay]

theorem relay_conn (e : Flow.ConnErr) : relay e.err ≠ .caEnrollRetry := by
  cases e <;> simp [Flow.ConnErr.err, relay]

/-- The proxy's handler for the request leads to an answer. -/
theorem replyP_of_dispatch (p : PSite) (env : Proxy.Env) (st : Proxy.State)
    (sched : List HttpConn.Ev) (cfg : ClientReq.Cfg) (k : Flow.Kind) (csr : List Nat)
    (auth : Option (List Nat)) (hdr : HdrRes × Cred) (hS : Sendable cfg k.uri auth csr)
    (hR : PRoutes p cfg k.uri)
    (hh : hdrOf (AuthHdr.parseAuthHeader p.odd (toMode p.cfg.srv.authMode) auth) = some hdr)
    (harr : Arrives sched (1028 + csr.length)) (t : Proxy.Todo)
    (ht : Proxy.runTodo (Proxy.handleEnroll p.cfg env k (rqOf csr cfg.seg hdr) st) = .done t) :
    ∃ b q, ClientReq.enrollRequest cfg k.uri (toAuth auth) csr = .sent b ∧
      replyP p env st sched (.sent b) =
        .bytes ((t.evs ++ Proxy.finish env t t.st).flatMap (renderP p q t.send)) := by
  obtain ⟨hd, h1, h2, h3, h4⟩ := ClientReq.C62_server_reads_request cfg k.uri csr auth hS.ua hS.host
    hS.hostSet hS.seg hS.cred hS.short hS.small
  obtain ⟨f1, f2, f3, f4⟩ := ClientReq.C62_headers_found cfg csr.length auth
  obtain ⟨u, hp, hu⟩ := hR
  have hne : hd ≠ [] := by
    intro h
    have hn : HttpHdr.parseRequest [] = none := by decide +kernel
    rw [h, hn] at h3
    simp at h3
  have hcl : contentLen ⟨[80, 79, 83, 84], path cfg k.uri, [49, 46, 49], postHeaders cfg csr.length auth⟩ =
      csr.length := by
    unfold contentLen
    simp only [f1]
    exact strtoll_decimal _ (by have := hS.small; omega)
  have hserve := serveWith_request (fun sv => (⟨sv.text, [], st⟩ : PServed)) (handleP p env st) sched
    hd csr [13, 10] _ h2 hne h3 (path_valid cfg k.uri) rfl hcl
    (by have := hS.small; omega) (by have := hS.small; simp [bufSize]; omega)
    ⟨harr.1, by have := harr.2; simp; omega⟩
  have hdisp : Proxy.dispatch p.cfg env ⟨[80, 79, 83, 84], .ok k.uri cfg.seg, some [97, 112, 112, 108, 105, 99, 97, 116, 105, 111, 110, 47, 112, 107, 99, 115, 49, 48],
      some csr, hdr⟩ st = .done t := by
    have := Proxy.dispatch_post p.cfg env k (rqOf csr cfg.seg hdr) st
    rw [ht] at this
    exact this
  refine ⟨_, ⟨[80, 79, 83, 84], path cfg k.uri, [49, 46, 49], postHeaders cfg csr.length auth⟩, h1, ?_⟩
  have hmap : ((hd ++ (csr ++ [13, 10])).map some).map (fun x : Option Nat => x.getD 0) =
      hd ++ (csr ++ [13, 10]) := by
    rw [List.map_map]; exact List.map_id _
  have hhp : handleP p env st ⟨[80, 79, 83, 84], path cfg k.uri, [49, 46, 49], postHeaders cfg csr.length auth⟩ csr =
      some ⟨(t.evs ++ Proxy.finish env t t.st).flatMap (renderP p
          ⟨[80, 79, 83, 84], path cfg k.uri, [49, 46, 49], postHeaders cfg csr.length auth⟩ t.send),
        t.evs ++ Proxy.finish env t t.st, t.st⟩ := by
    unfold handleP
    simp only [hp, f4, hh, hu, f2, f1, Option.map_some, hdisp]
  unfold replyP serveP
  simp only [hmap, hserve, hhp]

theorem renderP_asks (p : PSite) (q : HttpHdr.Req) (e : Option EstErr) (pre : List Ev)
    (h : ∀ e ∈ pre, ∃ c, e = Ev.askApp c) : (pre.map PEv.srv).flatMap (renderP p q e) = [] := by
  induction pre with
  | nil => rfl
  | cons x xs ih =>
    obtain ⟨c, rfl⟩ := h x (by simp)
    simp only [List.map_cons, List.flatMap_cons]
    rw [ih (fun e he => h e (by simp [he]))]
    rfl

theorem renderP_ups (p : PSite) (q : HttpHdr.Req) (e : Option EstErr) (l : List Flow.Sent) :
    (l.map PEv.up).flatMap (renderP p q e) = [] := by
  induction l with
  | nil => rfl
  | cons x xs ih =>
    simp only [List.map_cons, List.flatMap_cons, ih]
    rfl

theorem admitted_asks {cfg : Proxy.Cfg} {env : Proxy.Env} {k : Flow.Kind} {rq : Proxy.Rq}
    {a : Server.AuthOut} {x : Server.Csr} (h : Admitted cfg env k rq a x) :
    ∀ e ∈ a.evs, ∃ c, e = Ev.askApp c := by
  rcases Server.enrollAuth_pending h.auth with ⟨hp, _⟩ | ⟨_, hp⟩
  · have := h.ok; simp [Server.Authorised, hp] at this
  · exact hp

/-! ## The exchange of the proxy with the upstream server -/

/-- The answer a party reads on a connection when it sends this request in this mode is `v`. -/
def Hears (cfg : ClientReq.Cfg) (k : Flow.Kind) (csr : List Nat) (u : Flow.Up) (m : Mode)
    (v : Verdict) : Prop :=
  ∃ b text, ClientReq.enrollRequest cfg k.uri (Flow.authOf u m) csr = .sent b ∧
    u.reply = .bytes text ∧ Says v text

/-- A certificate that is neither empty nor too long. -/
theorem Says.cert_ok {c text : List Nat} (h : Says (.cert c) text) : c ≠ [] ∧ c.length ≤ 4096 :=
  ⟨h.2.1, h.2.2.1⟩

theorem checkSizes_ok {k : Flow.Kind} (hk : k ≠ .keygen) {c : List Nat} (h : c ≠ [] ∧ c.length ≤ 4096) :
    Flow.checkSizes k c [] = .none := by
  unfold Flow.checkSizes
  rw [if_neg (by intro e; exact h.1 (List.eq_nil_of_length_eq_zero e)),
    if_neg (by have := h.2; omega), if_neg hk]

theorem accept_ok {k : Flow.Kind} (hk : k ≠ .keygen) {c : List Nat} (h : c ≠ [] ∧ c.length ≤ 4096)
    (pc : PClient) (sent : List Flow.Sent) :
    Proxy.accept k pc c [] sent = ⟨.none, pc, c, [], sent⟩ := by
  have hl := List.length_pos_iff.2 h.1
  unfold Proxy.accept
  rw [checkSizes_ok hk h, if_neg (by have := h.2; omega), if_neg (by simp [hk])]

theorem deliver_ok {cfg : Proxy.Cfg} (hh : cfg.srv.transport = .http) {k : Flow.Kind}
    (hk : k ≠ .keygen) {env : Proxy.Env} {c : List Nat} (h : c ≠ []) {w : List PEv}
    (hw : Proxy.writes env.out 0 [Proxy.head200 Proxy.ctCert c.length, c] = (w, true))
    (evs : List PEv) (st : Proxy.State) (e : EstErr) (pc : PClient) (sent : List Flow.Sent) :
    Proxy.deliver cfg env k evs st ⟨e, pc, c, [], sent⟩ = ⟨.none, evs ++ w, st, c, []⟩ := by
  unfold Proxy.deliver
  rw [if_pos ⟨h, fun h => absurd h hk⟩]
  simp only [hh, if_neg hk, Proxy.propagateCert, hw]
  rfl

theorem Verdict.err_none {v : Verdict} (h : v.err = .none) : ∃ c, v = .cert c := by
  cases v with
  | cert c => exact ⟨c, rfl⟩
  | error e => exact absurd h (clientSees_none e)
  | failed e => cases e <;> simp [Verdict.err, Flow.ConnErr.err] at h
  | _ => simp [Verdict.err] at h

/-- The client context of the proxy after an answer. -/
def moved (pc : PClient) (v : Verdict) : PClient :=
  { pc with c := { pc.c with mode := v.mode pc.c.mode, delay := v.delay pc.c.delay } }

theorem exchange_hears {cfg : Proxy.Cfg} {toks : Challenge.Toks}
    (htok : cfg.lib.tokensOk = Challenge.tokensOk toks) {k : Flow.Kind} (hk : k ≠ .keygen)
    {pc : PClient} {csr : List Nat} {u : Flow.Up} {v : Verdict}
    (h : Hears { cfg.up with seg := pc.seg } k csr u pc.c.mode v) :
    ∃ sent, Proxy.exchange cfg k pc csr [] [] (.up u) =
      some ⟨v.err, moved pc v, v.bytes, [], sent⟩ := by
  obtain ⟨b, text, h1, h2, h3⟩ := h
  have ha := answer_says htok pc.c hk h3
  refine ⟨[sentAs k u pc b], ?_⟩
  unfold Proxy.exchange
  simp only [h1, h2, ha]
  by_cases he : v.err = .none
  · obtain ⟨c, rfl⟩ := Verdict.err_none he
    have hc := h3.cert_ok
    rw [if_pos he]
    show some (Proxy.accept k _ c [] _) = _
    rw [accept_ok hk hc]
    rfl
  · rw [if_neg he]
    have hb : v.bytes = [] := by
      cases v with
      | cert c => exact absurd rfl he
      | _ => rfl
    rw [hb]
    rfl

/-- The answer of the upstream server to the one request or the two requests of the proxy:
there is a second one, with the credentials of the proxy, if the first is answered with a
challenge and the proxy was not asked before.  Either connection may fail. -/
inductive Round (cfg : Proxy.Cfg) (k : Flow.Kind) (csr : List Nat) (conn : Nat → Flow.Conn)
    (pc : PClient) : Verdict → Prop
  | one (u : Flow.Up) (v : Verdict) (up : conn 0 = .up u)
      (hears : Hears { cfg.up with seg := pc.seg } k csr u pc.c.mode v)
      (last : ∀ n, v = .asks n → Flow.Asked pc.c.mode) : Round cfg k csr conn pc v
  | two (u u2 : Flow.Up) (n : Mode) (v : Verdict) (up : conn 0 = .up u)
      (hears : Hears { cfg.up with seg := pc.seg } k csr u pc.c.mode (.asks n))
      (first : ¬ Flow.Asked pc.c.mode) (up2 : conn 1 = .up u2)
      (hears2 : Hears { cfg.up with seg := pc.seg } k csr u2 n v) : Round cfg k csr conn pc v
  | down (e : Flow.ConnErr) (down : conn 0 = .down e) : Round cfg k csr conn pc (.failed e)
  | lost (u : Flow.Up) (n : Mode) (e : Flow.ConnErr) (up : conn 0 = .up u)
      (hears : Hears { cfg.up with seg := pc.seg } k csr u pc.c.mode (.asks n))
      (first : ¬ Flow.Asked pc.c.mode) (down : conn 1 = .down e) : Round cfg k csr conn pc (.failed e)

theorem asked_of {m : Mode} (h : Challenge.Asks m) : Flow.Asked m := by
  rcases h with h | h | h <;> simp [h, Flow.Asked]

theorem not_again (m : AuthMode) {v : Verdict} {cm : Mode} (h : ∀ n, v = .asks n → Flow.Asked cm) :
    Proxy.again m v.err (v.mode cm) = false := by
  rw [Bool.eq_false_iff, Ne, Proxy.again_iff]
  rintro ⟨h1, -, h3⟩
  apply h3
  cases v with
  | asks n => simp [Verdict.mode, h n rfl]
  | error e => simp [Verdict.mode]; intro h; exact absurd h1 h
  | failed e => cases e <;> simp [Verdict.err, Flow.ConnErr.err] at h1
  | _ => simp [Verdict.err] at h1

theorem exchange_down (cfg : Proxy.Cfg) (k : Flow.Kind) (pc : PClient) (csr : List Nat)
    (e : Flow.ConnErr) : Proxy.exchange cfg k pc csr [] [] (.down e) =
      some ⟨(Verdict.failed e).err, moved pc (.failed e), (Verdict.failed e).bytes, [], []⟩ := rfl

/-- A first round that is the last. -/
theorem attempts_last {cfg : Proxy.Cfg} {k : Flow.Kind} {pc : PClient} {csr : List Nat}
    {conn : Nat → Flow.Conn} {v : Verdict} {n i : Nat} {sent : List Flow.Sent}
    (h : Proxy.exchange cfg k pc csr [] [] (conn i) = some ⟨v.err, moved pc v, v.bytes, [], sent⟩)
    (last : ∀ m, v = .asks m → Flow.Asked pc.c.mode) :
    Proxy.attempts cfg k csr conn (n + 1) i pc [] [] = .done ⟨v.err, moved pc v, v.bytes, [], sent⟩ := by
  unfold Proxy.attempts
  rw [h]
  simp only [show (moved pc v).c.mode = v.mode pc.c.mode from rfl, not_again _ last,
    Bool.false_eq_true, if_false]

/-- A first round that is answered with a challenge. -/
theorem attempts_more {cfg : Proxy.Cfg} {toks : Challenge.Toks}
    (htok : cfg.lib.tokensOk = Challenge.tokensOk toks) {k : Flow.Kind} (hk : k ≠ .keygen)
    {pc : PClient} {csr : List Nat} {conn : Nat → Flow.Conn} {v : Verdict} {n : Nat}
    (hm : Challenge.Asks (toMode cfg.srv.authMode)) {u : Flow.Up} {m : Mode} (up : conn 0 = .up u)
    (hears : Hears { cfg.up with seg := pc.seg } k csr u pc.c.mode (.asks m))
    (first : ¬ Flow.Asked pc.c.mode)
    (h2 : ∃ sent2, Proxy.exchange cfg k (moved pc (.asks m)) csr [] [] (conn 1) =
      some ⟨v.err, moved (moved pc (.asks m)) v, v.bytes, [], sent2⟩) :
    ∃ sent, Proxy.attempts cfg k csr conn (n + 2) 0 pc [] [] =
      .done ⟨v.err, moved (moved pc (.asks m)) v, v.bytes, [], sent⟩ := by
  obtain ⟨sent2, hx2⟩ := h2
  obtain ⟨sent, hx⟩ := exchange_hears htok hk hears
  have hA : Challenge.Asks m := by
    obtain ⟨_, _, _, _, _, _, _, h, _⟩ := hears
    exact h
  have hag : Proxy.again cfg.srv.authMode (Verdict.asks m).err ((Verdict.asks m).mode pc.c.mode) = true := by
    rw [Proxy.again_iff]
    refine ⟨rfl, ?_, ?_⟩
    · rcases hm with h | h | h <;> revert h <;> cases cfg.srv.authMode <;> simp [toMode]
    · simp only [Verdict.mode, if_neg first]
      rcases hA with h | h | h <;> simp [h]
  refine ⟨sent ++ sent2, ?_⟩
  unfold Proxy.attempts
  rw [up, hx]
  simp only [show (moved pc (.asks m)).c.mode = (Verdict.asks m).mode pc.c.mode from rfl, hag, if_true]
  simp only [show (Verdict.asks m).bytes = [] from rfl, show (0 + 1 : Nat) = 1 from rfl]
  rw [attempts_last hx2 (by
    intro x _
    have hmo : (moved pc (.asks m)).c.mode = m := by simp [moved, Verdict.mode, if_neg first]
    rw [hmo]
    exact asked_of hA)]

theorem attempts_round {cfg : Proxy.Cfg} {toks : Challenge.Toks}
    (htok : cfg.lib.tokensOk = Challenge.tokensOk toks) {k : Flow.Kind} (hk : k ≠ .keygen)
    {pc : PClient} {csr : List Nat} {conn : Nat → Flow.Conn} {v : Verdict} {n : Nat} (hn : 2 ≤ n)
    (hm : Challenge.Asks (toMode cfg.srv.authMode)) (h : Round cfg k csr conn pc v) :
    ∃ pc' sent, Proxy.attempts cfg k csr conn n 0 pc [] [] = .done ⟨v.err, pc', v.bytes, [], sent⟩ ∧
      pc'.c.delay = v.delay pc.c.delay := by
  obtain ⟨n, rfl⟩ := Nat.exists_eq_add_of_le' hn
  have hmo : ∀ m, ¬ Flow.Asked pc.c.mode → (moved pc (.asks m)).c.mode = m := by
    intro m first
    simp [moved, Verdict.mode, if_neg first]
  cases h with
  | one u _ up hears last =>
    obtain ⟨sent, hx⟩ := exchange_hears htok hk hears
    exact ⟨moved pc v, sent, attempts_last (by rw [up]; exact hx) last, rfl⟩
  | two u u2 m _ up hears first up2 hears2 =>
    obtain ⟨sent, hx⟩ := attempts_more (v := v) (n := n) htok hk hm up hears first (by
      rw [up2]
      exact exchange_hears (pc := moved pc (.asks m)) htok hk (by rw [hmo m first]; exact hears2))
    exact ⟨moved (moved pc (.asks m)) v, sent, hx, by cases v <;> rfl⟩
  | down e hd =>
    exact ⟨moved pc (.failed e), [], attempts_last (by rw [hd]; exact exchange_down ..) (by simp), rfl⟩
  | lost u m e up hears first hd =>
    obtain ⟨sent, hx⟩ := attempts_more (v := .failed e) (n := n) htok hk hm up hears first
      ⟨[], by rw [hd]; exact exchange_down ..⟩
    exact ⟨_, sent, hx, rfl⟩

/-! ## What the proxy answers -/

theorem writes_pair (out : Nat → Nat) (a b : List Nat) (ho : ∀ i, 5000 ≤ out i) (ha : a ≠ [])
    (hb : b ≠ []) (hla : a.length ≤ 5000) (hlb : b.length ≤ 5000) :
    Proxy.writes out 0 [a, b] = ([.write a, .write b], true) := by
  have h0 := ho 0
  have h1 := ho 1
  have ea : a.take (out 0) = a := List.take_of_length_le (by omega)
  have eb : b.take (out 1) = b := List.take_of_length_le (by omega)
  simp [Proxy.writes, ea, eb, ha, hb]

theorem head200_len (n : Nat) (h : n ≤ 4096) : (Proxy.head200 Proxy.ctCert n).length ≤ 5000 := by
  have hd : (decimal n).length ≤ 4 := by
    have : ∀ k n, n < 10 ^ (k + 1) → (decimal n).length ≤ k + 1 := by
      intro k
      induction k with
      | zero => intro n h; unfold decimal; rw [if_pos (by omega)]; simp
      | succ k ih =>
        intro n h
        unfold decimal
        split
        · simp
        · have := ih (n / 10) (by omega)
          simp
          omega
    exact this 3 n (by omega)
  simp [Proxy.head200, Proxy.ctCert]
  omega

/-- The answer to an error other than "come back later". -/
theorem renderP_error (p : PSite) (q : HttpHdr.Req) (e : EstErr) (d : Nat) (h : e ≠ .caEnrollRetry) :
    ∃ keep, (Proxy.sendError true d e).flatMap (renderP p q (some e)) =
      errorText (Server.errStatus e) (explain e) keep := by
  have hs : Proxy.sendError true d e = [.srv (.head (Server.errStatus e))] := by
    unfold Proxy.sendError Server.sendError
    simp [h]
  rw [hs]
  refine ⟨HttpHdr.shouldKeepAlive ⟨false, Server.errStatus e, p.keep, some q.version, q.hdrs⟩, ?_⟩
  simp only [List.flatMap_cons, List.flatMap_nil, List.append_nil, renderP]
  rw [if_neg (by cases e <;> simp [Server.errStatus] at *), if_neg (by simp)]
  rfl

theorem proxy_passes (p : PSite) (env : Proxy.Env) (st : Proxy.State)
    (sched : List HttpConn.Ev) (cfg : ClientReq.Cfg) (k : Flow.Kind) (hk : k ≠ .keygen)
    (csr : List Nat) (auth : Option (List Nat)) (hdr : HdrRes × Cred)
    (hS : Sendable cfg k.uri auth csr) (hP : PSound p) (hR : PRoutes p cfg k.uri)
    (hE : EnvOk env)
    (hh : hdrOf (AuthHdr.parseAuthHeader p.odd (toMode p.cfg.srv.authMode) auth) = some hdr)
    (harr : Arrives sched (1028 + csr.length)) (a : Server.AuthOut) (x : Server.Csr)
    (hA : Admitted p.cfg env k (rqOf csr cfg.seg hdr) a x) (pc0 : PClient)
    (hg : getClient p.cfg env st = some pc0) (v : Verdict)
    (hv : Round p.cfg k csr env.conn (chooseSeg p.cfg cfg.seg pc0) v) :
    Tells (replyP p env st sched) cfg k auth csr (passed v) := by
  obtain ⟨toks, htok⟩ := hP.toks
  obtain ⟨pc', sent, hx, hd⟩ := attempts_round htok hk hE.fuel hP.mode hv
  have hasks := admitted_asks hA
  have hsays : (∃ text, Says v text) ∨ ∃ e, v = .failed e := by
    cases hv with
    | one _ _ _ h _ => obtain ⟨_, t, _, _, h⟩ := h; exact .inl ⟨t, h⟩
    | two _ _ _ _ _ _ _ _ h => obtain ⟨_, t, _, _, h⟩ := h; exact .inl ⟨t, h⟩
    | down e _ => exact .inr ⟨e, rfl⟩
    | lost _ _ e _ _ _ _ => exact .inr ⟨e, rfl⟩
  have hrun : Proxy.runTodo (Proxy.handleEnroll p.cfg env k (rqOf csr cfg.seg hdr) st) =
      .done (Proxy.todo (Proxy.deliver p.cfg env k (a.evs.map PEv.srv ++ sent.map PEv.up)
        (Proxy.after st env ⟨v.err, pc', v.bytes, [], sent⟩) ⟨v.err, pc', v.bytes, [], sent⟩)) := by
    rw [Proxy.handleEnroll_admitted hA, Proxy.forward_eq hg]
    show Proxy.runTodo (match Proxy.attempts p.cfg k csr env.conn env.fuel 0 (chooseSeg p.cfg cfg.seg pc0) [] [] with
      | .ub => .ub
      | .endless => .endless
      | .done x => .done _) = _
    rw [hx]
    rfl
  obtain ⟨b, q, hb, hr⟩ := replyP_of_dispatch p env st sched cfg k csr auth hdr hS hR hh harr _ hrun
  refine ⟨b, _, hb, hr, ?_⟩
  have hpre : ∀ e, ((a.evs.map PEv.srv ++ sent.map PEv.up)).flatMap (renderP p q e) = [] := by
    intro e
    rw [List.flatMap_append, renderP_asks p q e _ hasks, renderP_ups]
    rfl
  by_cases he : v.err = .none
  · obtain ⟨c, rfl⟩ := Verdict.err_none he
    obtain ⟨text, -, h1, h2, h3⟩ : ∃ text, Says (.cert c) text := by
      rcases hsays with h | ⟨e, h⟩
      · exact h
      · cases h
    have hw := writes_pair env.out (Proxy.head200 Proxy.ctCert c.length) c hE.out
      (by simp [Proxy.head200]) h1 (head200_len _ h2) (by omega)
    have ht : ∀ st', Proxy.todo (Proxy.deliver p.cfg env k (a.evs.map PEv.srv ++ sent.map PEv.up) st'
        ⟨(Verdict.cert c).err, pc', (Verdict.cert c).bytes, [], sent⟩) =
        ⟨.none, none, (a.evs.map PEv.srv ++ sent.map PEv.up) ++
          [.write (Proxy.head200 Proxy.ctCert c.length), .write c], st'⟩ := by
      intro st'
      show Proxy.todo (Proxy.deliver p.cfg env k _ st' ⟨_, pc', c, [], sent⟩) = _
      rw [deliver_ok hP.http hk h1 hw]
      rfl
    rw [ht]
    simp only [Proxy.finish, List.append_nil]
    rw [List.flatMap_append, hpre]
    exact ⟨by simp [renderP], h1, h2, h3⟩
  · have hb0 : v.bytes = [] := by
      cases v with
      | cert c => exact absurd rfl he
      | _ => rfl
    have hne := Proxy.relay_ne _ he
    have ht : ∀ st', Proxy.todo (Proxy.deliver p.cfg env k (a.evs.map PEv.srv ++ sent.map PEv.up) st'
        ⟨v.err, pc', v.bytes, [], sent⟩) =
        ⟨relay v.err, some (relay v.err), a.evs.map PEv.srv ++ sent.map PEv.up, st'⟩ := by
      intro st'
      unfold Proxy.deliver
      rw [if_neg (by simp [hb0])]
      unfold Proxy.todo
      simp only
      rw [if_neg (by simp [hne.1, hne.2])]
    rw [ht]
    simp only [Proxy.finish, hE.retry]
    have hdel : (Proxy.after st env ⟨v.err, pc', v.bytes, [], sent⟩).delay = pc'.c.delay := rfl
    rw [hdel, List.flatMap_append, hpre, List.nil_append, hd]
    cases v with
    | cert c => exact absurd rfl he
    | later d =>
      obtain ⟨text, -, h1⟩ : ∃ text, Says (.later d) text := by
        rcases hsays with h | ⟨e, h⟩
        · exact h
        · cases h
      exact ⟨by simp [Verdict.err, relay, Proxy.sendError, Server.sendError, renderP, Verdict.delay], h1⟩
    | asks n =>
      obtain ⟨keep, h2⟩ := renderP_error p q .authFail _ (by simp)
      exact ⟨by simp, _, keep, h2⟩
    | error e =>
      obtain ⟨text, h0, -⟩ : ∃ text, Says (.error e) text := by
        rcases hsays with h | ⟨e, h⟩
        · exact h
        · cases h
      have h1 : relay (clientSees e) ≠ .caEnrollRetry := fun h => h0 (relay_sees e h)
      obtain ⟨keep, h2⟩ := renderP_error p q (relay (clientSees e)) _ h1
      exact ⟨h1, _, keep, h2⟩
    | failed e =>
      obtain ⟨keep, h2⟩ := renderP_error p q (relay e.err) _ (relay_conn e)
      exact ⟨relay_conn e, _, keep, h2⟩

/-! ## A proxy that does not let the request pass -/

/-- The proxy stops the request: what it answers.  `q` are the result of the authentication
and the CSR. -/
inductive Gate (cfg : Proxy.Cfg) (env : Proxy.Env) (k : Flow.Kind) (rq : Proxy.Rq) : Verdict → Prop
  | asks (a : Server.AuthOut)
      (auth : Server.enrollAuth cfg.srv env.tls rq.hdr cfg.parse (Proxy.reqType k) rq.body = some a)
      (st : a.st = .httpAuthPending) : Gate cfg env k rq (.asks (toMode cfg.srv.authMode))
  | unauthorised (a : Server.AuthOut)
      (auth : Server.enrollAuth cfg.srv env.tls rq.hdr cfg.parse (Proxy.reqType k) rq.body = some a)
      (st : a.st = .unauthorized) : Gate cfg env k rq (.error .authFail)
  | csr (a : Server.AuthOut)
      (auth : Server.enrollAuth cfg.srv env.tls rq.hdr cfg.parse (Proxy.reqType k) rq.body = some a)
      (bad : a.st = .csrParseFail ∨ Server.Authorised a.st ∧
        ∀ x, cfg.parse rq.body = some x → Server.checkCsr x = false) :
      Gate cfg env k rq (.error .badPkcs10)
  | pop (a : Server.AuthOut) (x : Server.Csr)
      (auth : Server.enrollAuth cfg.srv env.tls rq.hdr cfg.parse (Proxy.reqType k) rq.body = some a)
      (ok : Server.Authorised a.st) (parsed : cfg.parse rq.body = some x)
      (checked : Server.checkCsr x = true)
      (pop : Server.tlsUidAuth cfg.srv.enablePop env.tls.uid x.chal = .fail) :
      Gate cfg env k rq (.error .authFailTlsuid)

/-- Every request is stopped, passes, or (with settings that make the library call a null
pointer) is undefined. -/
theorem gate_cases (cfg : Proxy.Cfg) (env : Proxy.Env) (k : Flow.Kind) (rq : Proxy.Rq)
    (st : Proxy.State) (hct : rq.ct = [97, 112, 112, 108, 105, 99, 97, 116, 105, 111, 110, 47, 112, 107, 99, 115, 49, 48])
    (hu : Proxy.handleEnroll cfg env k rq st ≠ .ub) :
    (∃ v, Gate cfg env k rq v) ∨ ∃ a x, Admitted cfg env k rq a x := by
  cases ha : Server.enrollAuth cfg.srv env.tls rq.hdr cfg.parse (Proxy.reqType k) rq.body with
  | none => exact absurd (by unfold Proxy.handleEnroll; rw [if_neg (by simp [hct]), ha]) hu
  | some a =>
    by_cases hok : Server.Authorised a.st
    · have hcsr := (Server.enrollAuth_facts ha).2.2.1
      cases hp : cfg.parse rq.body with
      | none => exact .inl ⟨_, .csr a ha (.inr ⟨hok, by simp [hp]⟩)⟩
      | some x =>
        cases hck : Server.checkCsr x with
        | false => exact .inl ⟨_, .csr a ha (.inr ⟨hok, by rw [hp]; intro y hy; cases hy; exact hck⟩)⟩
        | true =>
          cases ht : Server.tlsUidAuth cfg.srv.enablePop env.tls.uid x.chal with
          | fail => exact .inl ⟨_, .pop a x ha hok hp hck ht⟩
          | ok => exact .inr ⟨a, x, ⟨fun _ => hct, ha, hok, hp, hck, ht⟩⟩
          | ub =>
            exfalso
            apply hu
            have hc : a.csr.or (cfg.parse rq.body) = some x := by
              cases hac : a.csr with
              | none => simpa using hp
              | some c =>
                have := hcsr c hac
                rw [hp] at this
                exact this.symm
            unfold Proxy.handleEnroll
            rw [if_neg (by simp [hct]), ha]
            simp only [hc, hck, ht, Bool.not_true, Bool.false_eq_true, if_false]
            rcases hok with q | q | q <;> rw [q]
    · cases hs : a.st with
      | httpAuthPending => exact .inl ⟨_, .asks a ha hs⟩
      | unauthorized => exact .inl ⟨_, .unauthorised a ha hs⟩
      | csrParseFail => exact .inl ⟨_, .csr a ha (.inl hs)⟩
      | _ => exact absurd (by simp [Server.Authorised, hs]) hok

/-- What the handler returns for a request that is stopped. -/
theorem gate_todo {cfg : Proxy.Cfg} {env : Proxy.Env} {k : Flow.Kind} {rq : Proxy.Rq}
    (hct : rq.ct = [97, 112, 112, 108, 105, 99, 97, 116, 105, 111, 110, 47, 112, 107, 99, 115, 49, 48]) {v : Verdict} (h : Gate cfg env k rq v) (st : Proxy.State) :
    (∃ m, v = .asks m ∧ m = toMode cfg.srv.authMode ∧
      Proxy.handleEnroll cfg env k rq st =
        .done ⟨.authPending, (Server.challenge cfg.srv.authMode).map PEv.srv, st, [], []⟩) ∨
    ∃ (e : EstErr) (evs : List Ev), v = .error e ∧ e ≠ .caEnrollRetry ∧ e ≠ .none ∧ e ≠ .authPending ∧
      (∀ x ∈ evs, ∃ c, x = Ev.askApp c) ∧
      Proxy.handleEnroll cfg env k rq st = .done ⟨e, evs.map PEv.srv, st, [], []⟩ := by
  have hn : ¬ (cfg.srv.transport = .http ∧ rq.ct ≠ [97, 112, 112, 108, 105, 99, 97, 116, 105, 111, 110, 47, 112, 107, 99, 115, 49, 48]) := by simp [hct]
  have hasks : ∀ {a : Server.AuthOut},
      Server.enrollAuth cfg.srv env.tls rq.hdr cfg.parse (Proxy.reqType k) rq.body = some a →
      a.st ≠ .httpAuthPending → ∀ x ∈ a.evs, ∃ c, x = Ev.askApp c := by
    intro a ha hne
    rcases Server.enrollAuth_pending ha with ⟨h1, _⟩ | ⟨_, h2⟩
    · exact absurd h1 hne
    · exact h2
  cases h with
  | asks a auth hst =>
    refine .inl ⟨_, rfl, rfl, ?_⟩
    rcases Server.enrollAuth_pending auth with ⟨h1, h2⟩ | ⟨h1, _⟩
    · unfold Proxy.handleEnroll
      rw [if_neg hn, auth]
      simp only [h1, h2]
    · exact absurd hst h1
  | unauthorised a auth hst =>
    refine .inr ⟨_, a.evs, rfl, by simp, by simp, by simp, hasks auth (by simp [hst]), ?_⟩
    unfold Proxy.handleEnroll
    rw [if_neg hn, auth]
    simp only [hst]
  | csr a auth bad =>
    refine .inr ⟨_, a.evs, rfl, by simp, by simp, by simp, hasks auth ?_, ?_⟩
    · rcases bad with h | ⟨h, _⟩
      · simp [h]
      · rcases h with h | h | h <;> simp [h]
    · unfold Proxy.handleEnroll
      rw [if_neg hn, auth]
      rcases bad with h | ⟨h, hx⟩
      · simp only [h]
      · have hcsr := (Server.enrollAuth_facts auth).2.2.1
        cases hm : a.csr.or (cfg.parse rq.body) with
        | none => rcases h with h | h | h <;> simp only [h, hm]
        | some x =>
          have hck := hx x (Server.csr_from_body hcsr hm)
          rcases h with h | h | h <;> simp only [h, hm, hck] <;> rfl
  | pop a x auth ok parsed checked hpop =>
    refine .inr ⟨_, a.evs, rfl, by simp, by simp, by simp, hasks auth ?_, ?_⟩
    · rcases ok with h | h | h <;> simp [h]
    · have hcsr := (Server.enrollAuth_facts auth).2.2.1
      have hc : a.csr.or (cfg.parse rq.body) = some x := by
        cases hac : a.csr with
        | none => simpa using parsed
        | some c =>
          have := hcsr c hac
          rw [parsed] at this
          exact this.symm
      unfold Proxy.handleEnroll
      rw [if_neg hn, auth]
      simp only [hc, checked, hpop, Bool.not_true, Bool.false_eq_true, if_false]
      rcases ok with q | q | q <;> rw [q]

theorem proxy_stops (p : PSite) (env : Proxy.Env) (st : Proxy.State)
    (sched : List HttpConn.Ev) (cfg : ClientReq.Cfg) (k : Flow.Kind)
    (csr : List Nat) (auth : Option (List Nat)) (hdr : HdrRes × Cred)
    (hS : Sendable cfg k.uri auth csr) (hP : PSound p) (hR : PRoutes p cfg k.uri)
    (hE : EnvOk env)
    (hh : hdrOf (AuthHdr.parseAuthHeader p.odd (toMode p.cfg.srv.authMode) auth) = some hdr)
    (harr : Arrives sched (1028 + csr.length)) (v : Verdict)
    (hv : Gate p.cfg env k (rqOf csr cfg.seg hdr) v) :
    Tells (replyP p env st sched) cfg k auth csr v := by
  rcases gate_todo rfl hv st with ⟨m, rfl, rfl, h1⟩ | ⟨e, evs, rfl, h1, h2, h3, h4, h5⟩
  · obtain ⟨b, q, hb, hr⟩ := replyP_of_dispatch p env st sched cfg k csr auth hdr hS hR hh harr
      ⟨.none, none, (Server.challenge p.cfg.srv.authMode).map PEv.srv, st⟩ (by rw [h1]; rfl)
    refine ⟨b, _, hb, hr, p.realm, p.time, ?_, hP.mode, hP.realm, hP.realmLen, hP.time⟩
    have hc : Server.challenge p.cfg.srv.authMode = [.head 401] := by
      rcases hP.mode with h | h | h <;> revert h <;> cases p.cfg.srv.authMode <;> simp [toMode, Server.challenge]
    simp [Proxy.finish, hc, renderP]
  · obtain ⟨b, q, hb, hr⟩ := replyP_of_dispatch p env st sched cfg k csr auth hdr hS hR hh harr
      ⟨e, some e, evs.map PEv.srv, st⟩ (by
        rw [h5]
        show Proxy.Run.done (Proxy.todo _) = _
        unfold Proxy.todo
        simp only
        rw [if_neg (by simp [h2, h3])])
    obtain ⟨keep, hk⟩ := renderP_error p q e st.delay h1
    refine ⟨b, _, hb, hr, h1, explain e, keep, ?_⟩
    simp only [Proxy.finish, hE.retry]
    rw [List.flatMap_append, renderP_asks p q _ _ h4, List.nil_append]
    exact hk

/-! ## C108: chains of proxies -/

/-- Who decided about the request: the server, for this path segment, with this result of its
handler; or a proxy, which did not let it pass. -/
inductive Judge
  | server (s : Site) (seg : Option (List Nat)) (o : Server.Out)
  | proxy (p : PSite)

/-- The request, with this Authorization header, can be sent to the proxy, which has sensible
settings, and arrives; the proxy finds `hdr` in it. -/
structure AtProxy (p : PSite) (env : Proxy.Env) (sched : List HttpConn.Ev) (cfg : ClientReq.Cfg)
    (k : Flow.Kind) (auth : Option (List Nat)) (csr : List Nat) (hdr : HdrRes × Cred) : Prop where
  sendable : Sendable cfg k.uri auth csr
  sound : PSound p
  routes : PRoutes p cfg k.uri
  env : EnvOk env
  found : hdrOf (AuthHdr.parseAuthHeader p.odd (toMode p.cfg.srv.authMode) auth) = some hdr
  arrives : Arrives sched (1028 + csr.length)

/-- The same for the server. -/
structure AtServer (s : Site) (sched : List HttpConn.Ev) (cfg : ClientReq.Cfg)
    (k : Flow.Kind) (auth : Option (List Nat)) (csr : List Nat) (o : Server.Out) : Prop where
  sendable : Sendable cfg k.uri auth csr
  sound : Sound s
  routes : Routes s cfg k.uri
  found : ∃ hdr, hdrOf (AuthHdr.parseAuthHeader s.odd (toMode s.srv.cfg.authMode) auth) = some hdr ∧
    outcome s (k == .reenroll) cfg.seg csr hdr = some o
  arrives : Arrives sched (1028 + csr.length)

/-- The connection `u` leads to the party that answers with `E`; on it a client in mode `m`
sends the Authorization header `auth`. -/
def Joined (cfg : ClientReq.Cfg) (k : Flow.Kind) (csr : List Nat) (u : Flow.Up) (m : Mode)
    (E : ClientReq.Wire → Flow.Reply) (auth : Option (List Nat)) : Prop :=
  Flow.authOf u m = toAuth auth ∧
    u.reply = E (ClientReq.enrollRequest cfg k.uri (toAuth auth) csr)

/-- The settings with which the proxy sends a request on. -/
def upCfg (p : PSite) (seg : Option (List Nat)) (pc : PClient) : ClientReq.Cfg :=
  { p.cfg.up with seg := (chooseSeg p.cfg seg pc).seg }

/-- The party that answers with `E` is a server, or a proxy with `n` parties behind it, and the
judge's decision about the request for `csr` comes back as `v`.  A proxy that lets the request
pass sends it on, with its own credentials if the next party asks for them, and says so if it
cannot reach that party. -/
inductive Answers (k : Flow.Kind) (csr : List Nat) :
    (ClientReq.Wire → Flow.Reply) → ClientReq.Cfg → Option (List Nat) → Nat → Verdict → Judge → Prop
  | server {s sched cfg auth o v} (h : AtServer s sched cfg k auth csr o)
      (d : Decided s (k == .reenroll) cfg.seg csr o v) :
      Answers k csr (reply s sched) cfg auth 0 v (.server s cfg.seg o)
  | stopped {p env st sched cfg auth hdr v} (h : AtProxy p env sched cfg k auth csr hdr)
      (g : Gate p.cfg env k (rqOf csr cfg.seg hdr) v) :
      Answers k csr (replyP p env st sched) cfg auth 0 v (.proxy p)
  | once {p env st sched cfg auth hdr a x pc u E auth' n v j}
      (h : AtProxy p env sched cfg k auth csr hdr)
      (g : Admitted p.cfg env k (rqOf csr cfg.seg hdr) a x) (c : getClient p.cfg env st = some pc)
      (up : env.conn 0 = .up u) (to : Joined (upCfg p cfg.seg pc) k csr u pc.c.mode E auth')
      (next : Answers k csr E (upCfg p cfg.seg pc) auth' n v j)
      (last : ∀ m, v = .asks m → Flow.Asked pc.c.mode) :
      Answers k csr (replyP p env st sched) cfg auth (n + 1) (passed v) j
  | twice {p env st sched cfg auth hdr a x pc u u2 E E2 auth' auth2 n n2 m v j j2}
      (h : AtProxy p env sched cfg k auth csr hdr)
      (g : Admitted p.cfg env k (rqOf csr cfg.seg hdr) a x) (c : getClient p.cfg env st = some pc)
      (up : env.conn 0 = .up u) (to : Joined (upCfg p cfg.seg pc) k csr u pc.c.mode E auth')
      (first : Answers k csr E (upCfg p cfg.seg pc) auth' n (.asks m) j)
      (new : ¬ Flow.Asked pc.c.mode)
      (up2 : env.conn 1 = .up u2) (to2 : Joined (upCfg p cfg.seg pc) k csr u2 m E2 auth2)
      (next : Answers k csr E2 (upCfg p cfg.seg pc) auth2 n2 v j2) :
      Answers k csr (replyP p env st sched) cfg auth (n2 + 1) (passed v) j2
  | down {p env st sched cfg auth hdr a x pc e} (h : AtProxy p env sched cfg k auth csr hdr)
      (g : Admitted p.cfg env k (rqOf csr cfg.seg hdr) a x) (c : getClient p.cfg env st = some pc)
      (down : env.conn 0 = .down e) :
      Answers k csr (replyP p env st sched) cfg auth 0 (passed (.failed e)) (.proxy p)
  | lost {p env st sched cfg auth hdr a x pc u E auth' n m e j}
      (h : AtProxy p env sched cfg k auth csr hdr)
      (g : Admitted p.cfg env k (rqOf csr cfg.seg hdr) a x) (c : getClient p.cfg env st = some pc)
      (up : env.conn 0 = .up u) (to : Joined (upCfg p cfg.seg pc) k csr u pc.c.mode E auth')
      (first : Answers k csr E (upCfg p cfg.seg pc) auth' n (.asks m) j)
      (new : ¬ Flow.Asked pc.c.mode) (down : env.conn 1 = .down e) :
      Answers k csr (replyP p env st sched) cfg auth 0 (passed (.failed e)) (.proxy p)

theorem hears_of {cfg : ClientReq.Cfg} {k : Flow.Kind} {csr : List Nat} {u : Flow.Up} {m : Mode}
    {E : ClientReq.Wire → Flow.Reply} {auth : Option (List Nat)} {v : Verdict}
    (hj : Joined cfg k csr u m E auth) (ht : Tells E cfg k auth csr v) : Hears cfg k csr u m v := by
  obtain ⟨b, text, h1, h2, h3⟩ := ht
  refine ⟨b, text, by rw [hj.1]; exact h1, ?_, h3⟩
  rw [hj.2, h1, h2]

theorem chooseSeg_c (cfg : Proxy.Cfg) (seg : Option (List Nat)) (pc : PClient) :
    (chooseSeg cfg seg pc).c = pc.c := by
  unfold chooseSeg
  split <;> rfl

/-- The CA is asked at most once. -/
theorem ca_once {cfg : Server.Cfg} {tls : Server.Tls} {net : Server.Net}
    {parse : List Nat → Option Server.Csr} {re : Bool}
    {rq : Server.Req} {o : Server.Out} (h : Server.simpleEnroll cfg tls net parse re rq = some o) :
    ∃ q0, ∀ k q, Ev.ca k q ∈ o.evs → q = q0 := by
  rcases Server.simpleEnroll_cases h with hs | ⟨ca, a, csr, hr, ho⟩
  · refine ⟨⟨[], [], false, none⟩, fun k q hca => ?_⟩
    rcases hs.evs _ hca with ⟨c, hc⟩ | hc <;> simp at hc
  · refine ⟨Server.caReqOf cfg tls rq a, fun k q hca => ?_⟩
    obtain ⟨_, hA⟩ := Server.enrollAnswer_cases cfg net (ca (Server.caReqOf cfg tls rq a))
        (a.evs ++ [.ca (Server.kindOf re) (Server.caReqOf cfg tls rq a)]) (a.user.getD rq.connUser)
    rw [← ho] at hA
    obtain ⟨hev, _, _, _⟩ := Server.enrollAuth_facts hr.auth
    have hmem : Ev.ca k q ∈ a.evs ++ [.ca (Server.kindOf re) (Server.caReqOf cfg tls rq a)] := by
      rcases hA with ⟨_, _, ⟨_, _, h3⟩ | ⟨_, _, _, h3⟩ | ⟨_, _, h3, _⟩⟩ | ⟨_, h3, _⟩ <;>
        rw [h3] at hca
      · exact hca
      · exact hca
      · simp only [List.mem_append, List.mem_singleton, reduceCtorEq, or_false] at hca ⊢
        rcases hca with hca | hca
        · exact hca
        · obtain ⟨p, hp, _⟩ := Server.writeBody_evs _ _ _ hca
          simp at hp
      · exact hca
    rcases List.mem_append.mp hmem with hm | hm
    · rcases hev _ hm with ⟨c, hc⟩ | hc <;> simp at hc
    · have : k = Server.kindOf re ∧ q = Server.caReqOf cfg tls rq a := by simpa using hm
      exact this.2

theorem decided_unique {s : Site} {re : Bool} {seg : Option (List Nat)} {csr : List Nat}
    {hdr : HdrRes × Cred} {o : Server.Out} {v w : Verdict} (ho : outcome s re seg csr hdr = some o)
    (hv : Decided s re seg csr o v) (hw : Decided s re seg csr o w) : v = w := by
  obtain ⟨q0, hq⟩ := ca_once ho
  cases hv with
  | issued c rc i =>
    cases hw with
    | issued d rc2 i2 =>
      obtain ⟨ca, rq, a1, a2, -, -, -, a6, -⟩ := i
      obtain ⟨ca2, rq2, b1, b2, -, -, -, b6, -⟩ := i2
      rw [a1] at b1
      cases b1
      rw [hq _ _ a2] at a6
      rw [hq _ _ b2, a6] at b6
      rw [b6]
    | _ => simp_all
  | later rc => cases hw <;> simp_all
  | asks rc => cases hw <;> simp_all
  | error r1 r2 r3 => cases hw <;> simp_all

/-- C108: the bytes that come back are those of the decision. -/
theorem C108_answer {k : Flow.Kind} (hk : k ≠ .keygen) {csr : List Nat}
    {E : ClientReq.Wire → Flow.Reply} {cfg : ClientReq.Cfg} {auth : Option (List Nat)} {n : Nat}
    {v : Verdict} {j : Judge} (h : Answers k csr E cfg auth n v j) : Tells E cfg k auth csr v := by
  induction h with
  | server h d =>
    obtain ⟨hdr, f1, f2⟩ := h.found
    obtain ⟨w, d2, ht⟩ := server_tells _ k hk _ _ _ _ hdr _ h.sendable h.sound h.routes f1 f2 h.arrives
    rw [decided_unique f2 d d2]
    exact ht
  | stopped h g =>
    exact proxy_stops _ _ _ _ _ _ _ _ _ h.sendable h.sound h.routes h.env h.found h.arrives _ g
  | once h g c up to next last ih =>
    refine proxy_passes _ _ _ _ _ _ hk _ _ _ h.sendable h.sound h.routes h.env h.found h.arrives _ _ g
      _ c _ (.one _ _ up ?_ ?_)
    · rw [chooseSeg_c]; exact hears_of to ih
    · rw [chooseSeg_c]; exact last
  | twice h g c up to first new up2 to2 next ih ih2 =>
    refine proxy_passes _ _ _ _ _ _ hk _ _ _ h.sendable h.sound h.routes h.env h.found h.arrives _ _ g
      _ c _ (.two _ _ _ _ up (by rw [chooseSeg_c]; exact hears_of to ih) ?_ up2 ?_)
    · rw [chooseSeg_c]; exact new
    · exact hears_of to2 ih2
  | down h g c down =>
    exact proxy_passes _ _ _ _ _ _ hk _ _ _ h.sendable h.sound h.routes h.env h.found h.arrives _ _ g
      _ c _ (.down _ down)
  | lost h g c up to first new down ih =>
    refine proxy_passes _ _ _ _ _ _ hk _ _ _ h.sendable h.sound h.routes h.env h.found h.arrives _ _ g
      _ c _ (.lost _ _ _ up (by rw [chooseSeg_c]; exact hears_of to ih) ?_ down)
    rw [chooseSeg_c]; exact new

/-! ## C108: whose decision it is -/

theorem passed_err (v : Verdict) (h : ∀ e, v ≠ .failed e) : (passed v).err = v.err := by
  cases v with
  | error e => cases e <;> rfl
  | failed e => exact absurd rfl (h e)
  | _ => rfl

theorem not_failed {k : Flow.Kind} {csr : List Nat} {E : ClientReq.Wire → Flow.Reply}
    {cfg : ClientReq.Cfg} {auth : Option (List Nat)} {n : Nat} {v : Verdict} {j : Judge}
    (h : Answers k csr E cfg auth n v j) (e : Flow.ConnErr) : v ≠ .failed e := by
  have hp : ∀ v, passed v ≠ .failed e := by intro v; cases v <;> simp [passed]
  cases h with
  | server h d => cases d <;> simp
  | stopped h g => cases g <;> simp
  | once => exact hp _
  | twice => exact hp _
  | down => exact hp _
  | lost => exact hp _

theorem passed_bytes (v : Verdict) : (passed v).bytes = v.bytes := by cases v <;> rfl

theorem passed_delay (v : Verdict) (d : Nat) : (passed v).delay d = v.delay d := by cases v <;> rfl

/-- C108: a certificate comes from the CA of the server at the end, which was asked for it with
exactly the CSR bytes that the client sent. -/
theorem C108_certificate_is_issued {k : Flow.Kind} {csr : List Nat} {E : ClientReq.Wire → Flow.Reply}
    {cfg : ClientReq.Cfg} {auth : Option (List Nat)} {n : Nat} {v : Verdict} {j : Judge}
    (h : Answers k csr E cfg auth n v j) (hv : v.err = .none) :
    ∃ s seg o c, j = .server s seg o ∧ v = .cert c ∧ Issued s (k == .reenroll) seg csr o c := by
  induction h with
  | server h d =>
    obtain ⟨c, rfl⟩ := Verdict.err_none hv
    cases d with
    | issued _ _ i => exact ⟨_, _, _, _, rfl, rfl, i⟩
  | stopped h g =>
    cases g <;> simp [Verdict.err, clientSees] at hv
  | down h g c down => exact absurd hv (clientSees_none _)
  | lost h g c up to first new down => exact absurd hv (clientSees_none _)
  | once h g c up to next last ih =>
    rw [passed_err _ (not_failed next)] at hv
    obtain ⟨s, seg, o, c, h1, rfl, h3⟩ := ih hv
    exact ⟨s, seg, o, c, h1, rfl, h3⟩
  | twice h g c up to first new up2 to2 next ih ih2 =>
    rw [passed_err _ (not_failed next)] at hv
    obtain ⟨s, seg, o, c, h1, rfl, h3⟩ := ih2 hv
    exact ⟨s, seg, o, c, h1, rfl, h3⟩

/-- C108: however many proxies are between, the result code, the certificate and the delay are
those a client gets that asks the server itself and gets this decision. -/
theorem C108_same_as_direct {k : Flow.Kind} {csr : List Nat} {E : ClientReq.Wire → Flow.Reply}
    {cfg : ClientReq.Cfg} {auth : Option (List Nat)} {n : Nat} {v : Verdict} {s : Site}
    {seg : Option (List Nat)} {o : Server.Out}
    (h : Answers k csr E cfg auth n v (.server s seg o)) :
    ∃ w, Decided s (k == .reenroll) seg csr o w ∧ v.err = w.err ∧ v.bytes = w.bytes ∧
      ∀ d, v.delay d = w.delay d := by
  generalize hj : Judge.server s seg o = j at h
  induction h with
  | server h d =>
    cases hj
    exact ⟨_, d, rfl, rfl, fun _ => rfl⟩
  | stopped h g => cases hj
  | down => cases hj
  | lost => cases hj
  | once h g c up to next last ih =>
    obtain ⟨w, h1, h2, h3, h4⟩ := ih hj
    exact ⟨w, h1, by rw [passed_err _ (not_failed next), h2], by rw [passed_bytes, h3], fun d => by rw [passed_delay, h4]⟩
  | twice h g c up to first new up2 to2 next ih ih2 =>
    obtain ⟨w, h1, h2, h3, h4⟩ := ih2 hj
    exact ⟨w, h1, by rw [passed_err _ (not_failed next), h2], by rw [passed_bytes, h3], fun d => by rw [passed_delay, h4]⟩

/-! ## C108: the client -/

/-- The client context after an answer. -/
def Verdict.after (c : Flow.Client) : Verdict → Flow.Client
  | .cert x => { c with cert := some x }
  | .later d => { c with delay := d }
  | .asks n => { c with mode := if Flow.Asked c.mode then .fail else n }
  | .error e => { c with mode := if clientSees e = .authFail then .fail else c.mode }
  | .failed _ => c

/-- The result of a request with the answer `v`. -/
def Heard (c : Flow.Client) (v : Verdict) (err : EstErr) (c' : Flow.Client) : Prop :=
  err = v.err ∧ c' = v.after c

theorem client_hears {lib : Flow.Lib} {toks : Challenge.Toks}
    (htok : lib.tokensOk = Challenge.tokensOk toks) {cfg : ClientReq.Cfg} {k : Flow.Kind}
    (hk : k ≠ .keygen) {c : Flow.Client} {u : Flow.Up} {csr : Flow.Csr} {v : Verdict}
    (h : Hears cfg k (lib.text csr) u c.mode v) :
    ∃ r, Flow.enrollReq lib cfg k c u csr = some r ∧ r.csr = csr ∧ Heard c v r.err r.client := by
  obtain ⟨b, text, h1, h2, h3⟩ := h
  have ha := answer_says htok c hk h3
  unfold Flow.enrollReq
  simp only [h1, h2, ha]
  cases v with
  | cert x =>
    have hst : ∀ c : Flow.Client, Flow.store lib c k x [] = (.none, { c with cert := some x }) := by
      intro c
      unfold Flow.store
      rw [checkSizes_ok hk h3.cert_ok, if_neg (by simp), if_neg hk]
    rw [if_pos (show (Verdict.cert x).err = .none from rfl)]
    simp only [show (Verdict.cert x).bytes = x from rfl, hst]
    exact ⟨_, rfl, rfl, rfl, rfl⟩
  | later d => exact ⟨_, rfl, rfl, rfl, rfl⟩
  | asks n => exact ⟨_, rfl, rfl, rfl, rfl⟩
  | error e =>
    rw [if_neg (show ¬ (Verdict.error e).err = .none from clientSees_none e)]
    exact ⟨_, rfl, rfl, rfl, rfl⟩
  | failed e => cases h3

theorem Heard.final {c : Flow.Client} {v : Verdict} {err : EstErr} {c' : Flow.Client}
    (h : Heard c v err c') (hl : ∀ m, v = .asks m → Flow.Asked c.mode) :
    ¬ (err = .authFail ∧ Flow.Asked c'.mode) := by
  rw [h.1, h.2]
  rintro ⟨h1, h2⟩
  cases v with
  | asks m =>
    simp only [Verdict.after, if_pos (hl m rfl)] at h2
    simp [Flow.Asked] at h2
  | error e =>
    have h1 : clientSees e = .authFail := h1
    simp [Verdict.after, h1, Flow.Asked] at h2
  | failed e => cases e <;> simp [Verdict.err, Flow.ConnErr.err] at h1
  | _ => simp [Verdict.err] at h1

/-- C108: `est_client_enroll` when the party it is connected to does not ask for credentials. -/
theorem C108_client (lib : Flow.Lib) (toks : Challenge.Toks)
    (htok : lib.tokensOk = Challenge.tokensOk toks) (cfg : ClientReq.Cfg) (base key : Nat)
    (c : Flow.Client) (u : Flow.Up) (n2 : Flow.Conn) (id : List Nat) (csr : Flow.Csr)
    (hready : c.ready = true) (huid : u.uid = some id)
    (hgen : Flow.generate c u base key id = .ok csr) {E : ClientReq.Wire → Flow.Reply}
    {auth : Option (List Nat)} {n : Nat} {v : Verdict} {j : Judge}
    (hj : Joined cfg .enroll (lib.text csr) u c.mode E auth)
    (h : Answers .enroll (lib.text csr) E cfg auth n v j)
    (hl : ∀ m, v = .asks m → Flow.Asked c.mode) :
    ∃ ret c', Flow.enroll lib cfg .enroll base (some key) (.up u, n2) c =
        some (ret, { c' with mode := .none }) ∧ Heard c v ret.err c' := by
  obtain ⟨r, h1, h2, h3⟩ := client_hears htok (by decide) (hears_of hj (C108_answer (by decide) h))
  refine ⟨{ err := r.err, sent := r.sent }, r.client, ?_, h3⟩
  unfold Flow.enroll
  rw [if_neg (by simp [hready])]
  simp only
  have ht : Flow.twice lib.fips (.up u, n2) (Flow.enrollCn lib cfg .enroll base key) c
      ⟨base, [], none⟩ = some (r, false) := by
    unfold Flow.twice
    simp only [Flow.enrollCn, huid, hgen, h1]
    rw [if_neg (h3.final hl)]
  rw [ht]
  rfl

/-- C108: `est_client_enroll` when the first proxy (or the server) asks for credentials. -/
theorem C108_client_asked (lib : Flow.Lib) (toks : Challenge.Toks)
    (htok : lib.tokensOk = Challenge.tokensOk toks) (cfg : ClientReq.Cfg) (base key : Nat)
    (c : Flow.Client) (u u2 : Flow.Up) (id id2 : List Nat) (csr csr2 : Flow.Csr) (m : Mode)
    (hready : c.ready = true) (huid : u.uid = some id) (huid2 : u2.uid = some id2)
    (hgen : Flow.generate c u base key id = .ok csr)
    (hgen2 : Flow.generate { c with mode := m } u2 base key id2 = .ok csr2)
    {E E2 : ClientReq.Wire → Flow.Reply} {auth auth2 : Option (List Nat)} {n n2 : Nat} {v : Verdict}
    {j j2 : Judge} (hj : Joined cfg .enroll (lib.text csr) u c.mode E auth)
    (h : Answers .enroll (lib.text csr) E cfg auth n (.asks m) j) (hnew : ¬ Flow.Asked c.mode)
    (hj2 : Joined cfg .enroll (lib.text csr2) u2 m E2 auth2)
    (h2 : Answers .enroll (lib.text csr2) E2 cfg auth2 n2 v j2)
    (hf : ¬ (m = .digest ∧ lib.fips = true)) :
    ∃ ret c', Flow.enroll lib cfg .enroll base (some key) (.up u, .up u2) c =
        some (ret, { c' with mode := .none }) ∧ Heard { c with mode := m } v ret.err c' := by
  have hT := C108_answer (by decide) h
  have hA : Challenge.Asks m := by
    obtain ⟨_, _, _, _, _, _, _, h, _⟩ := hT
    exact h
  obtain ⟨r, h1, h2', h3⟩ := client_hears htok (by decide) (hears_of hj hT)
  have hc : r.client = { c with mode := m } := by
    rw [h3.2]
    simp [Verdict.after, if_neg hnew]
  obtain ⟨r2, g1, g2, g3⟩ := client_hears (c := { c with mode := m }) htok (by decide)
    (hears_of hj2 (C108_answer (by decide) h2))
  refine ⟨{ err := r2.err, sent := r.sent ++ r2.sent }, r2.client, ?_, g3⟩
  unfold Flow.enroll
  rw [if_neg (by simp [hready])]
  simp only
  have ht : Flow.twice lib.fips (.up u, .up u2) (Flow.enrollCn lib cfg .enroll base key) c
      ⟨base, [], none⟩ = some ({ r2 with sent := r.sent ++ r2.sent }, false) := by
    unfold Flow.twice
    simp only [Flow.enrollCn, huid, hgen, h1, hc]
    rw [if_pos ⟨h3.1, asked_of hA⟩, if_neg hf]
    simp only [huid2, hgen2, g1]
  rw [ht]
  rfl

/-- C108: enrolling through proxies and asking for the certificate. -/
theorem C108_enrol_and_copy (lib : Flow.Lib) (toks : Challenge.Toks)
    (htok : lib.tokensOk = Challenge.tokensOk toks) (cfg : ClientReq.Cfg) (base key : Nat)
    (c : Flow.Client) (u : Flow.Up) (n2 : Flow.Conn) (id : List Nat) (csr : Flow.Csr)
    (hready : c.ready = true) (huid : u.uid = some id)
    (hgen : Flow.generate c u base key id = .ok csr) {E : ClientReq.Wire → Flow.Reply}
    {auth : Option (List Nat)} {n : Nat} {x : List Nat} {j : Judge}
    (hj : Joined cfg .enroll (lib.text csr) u c.mode E auth)
    (h : Answers .enroll (lib.text csr) E cfg auth n (.cert x) j) :
    (∃ ret c', Flow.run cfg c [(lib, .enroll base (some key) (.up u, n2)), (lib, .copyCert)] =
        some ([ret, copied x], c') ∧ ret.err = .none) ∧
    ∃ s seg o, j = .server s seg o ∧ Issued s false seg (lib.text csr) o x := by
  obtain ⟨ret, c1, h1, h2, h3⟩ := C108_client lib toks htok cfg base key c u n2 id csr hready huid hgen hj
    h (by simp)
  refine ⟨⟨ret, _, enroll_then_copy h1 (by rw [h3]; exact hready) (by rw [h3]; rfl), h2⟩, ?_⟩
  obtain ⟨s, seg, o, y, g1, g2, g3⟩ := C108_certificate_is_issued h rfl
  cases g2
  exact ⟨s, seg, o, g1, g3⟩

/-- The judge found a client (the last proxy, or the client itself) it authenticated and a CSR
in order. -/
theorem C108_checked_at_the_end {k : Flow.Kind} {csr : List Nat} {E : ClientReq.Wire → Flow.Reply}
    {cfg : ClientReq.Cfg} {auth : Option (List Nat)} {n : Nat} {v : Verdict} {s : Site}
    {seg : Option (List Nat)} {o : Server.Out} (h : Answers k csr E cfg auth n v (.server s seg o))
    (hv : v.err = .none) :
    (Server.CertVerified s.tls ∨ Server.SrpLogin s.tls ∨ Server.AppAccepted s.srv.cfg o.evs) ∧
    ∃ x, s.srv.parse csr = some x ∧ x.hasPubkey = true ∧ x.verifyRc > 0 ∧
      (Server.IsRA s.tls ∨ Server.PopHeld s.srv.cfg s.tls x) := by
  have ho : ∃ hdr, outcome s (k == .reenroll) seg csr hdr = some o := by
    clear hv
    generalize hj : Judge.server s seg o = j at h
    induction h with
    | server h d =>
      cases hj
      obtain ⟨hdr, _, h2⟩ := h.found
      exact ⟨hdr, h2⟩
    | stopped => cases hj
    | down => cases hj
    | lost => cases hj
    | once h g c up to next last ih => exact ih hj
    | twice h g c up to first new up2 to2 next ih ih2 => exact ih2 hj
  obtain ⟨s', seg', o', c, h1, h2, h3⟩ := C108_certificate_is_issued h hv
  cases h1
  obtain ⟨ca, rq, _, i2, _⟩ := h3
  obtain ⟨hdr, ho⟩ := ho
  have := Server.C20_ca_only_after_checks ho i2
  exact ⟨this.2.2.1, this.2.2.2.1⟩

/-- C108: `est_client_reenroll` through proxies. -/
theorem C108_reenroll (lib : Flow.Lib) (toks : Challenge.Toks)
    (htok : lib.tokensOk = Challenge.tokensOk toks) (cfg : ClientReq.Cfg) (old : Flow.OldCert)
    (key : Nat) (c : Flow.Client) (u : Flow.Up) (n2 : Flow.Conn) (id : List Nat) (csr : Flow.Csr)
    (hready : c.ready = true)
    (hold : old.signed = true ∧ old.csr = some csr ∧ (old.exts = true → old.extsOk = true))
    (huid : u.uid = some id) (ha : u.addOk = true) (hs : u.signOk = true)
    {E : ClientReq.Wire → Flow.Reply} {auth : Option (List Nat)} {n : Nat} {v : Verdict} {j : Judge}
    (hj : Joined cfg .reenroll (lib.text (renewed c id key csr)) u c.mode E auth)
    (h : Answers .reenroll (lib.text (renewed c id key csr)) E cfg auth n v j)
    (hl : ∀ m, v = .asks m → Flow.Asked c.mode) :
    ∃ ret c', Flow.reenroll lib cfg (some old) (some (key, true)) (.up u, n2) c = some (ret, c') ∧
      Heard c v ret.err c' := by
  obtain ⟨r, h1, h2, h3⟩ := client_hears htok (by decide) (hears_of hj (C108_answer (by decide) h))
  refine ⟨{ err := r.err, sent := r.sent }, r.client, ?_, h3⟩
  have ht : Flow.twice lib.fips (.up u, n2) (Flow.enrollPkcs10 lib cfg .reenroll key) c csr =
      some (r, false) := by
    unfold Flow.twice
    simp only [pkcs10_renewed lib cfg .reenroll key c u csr id huid ha hs, h1]
    rw [if_neg (h3.final hl)]
  unfold Flow.reenroll
  simp only [hready, hold.1, hold.2.1, ht]
  have hx : ¬ ((old.exts && !old.extsOk) = true) := by
    cases he : old.exts with
    | false => simp
    | true => simp [hold.2.2 he]
  rw [if_neg (by simp), if_neg (by simp), if_neg (by simp), if_neg hx]

/-! ### Examples -/

def exPSite : PSite where
  cfg := { Proxy.exProxy with up := exCfg, lib := exLib }
  uri := EstUri.parseUriLib true (fun _ => true) []
  odd := fun _ _ => []
  realm := [101, 115, 116, 114, 101, 97, 108, 109]
  time := 1700000000
  keep := true

/-- Surroundings of a proxy whose connections lead to the server that asks for a password. -/
def exPEnv : Proxy.Env :=
  Proxy.exEnv 1 (.up (exLink exSite2 .none)) (.up (exLink exSite2 (.value [66, 97, 115, 105, 99, 32, 100, 84, 112, 119])))

/-- A connection to a proxy. -/
def exPLink (env : Proxy.Env) : Flow.Up where
  uid := some [100, 87, 108, 107]
  auth := fun _ => .value [66, 97, 115, 105, 99, 32, 100, 84, 112, 119]
  reply := replyP exPSite env (Proxy.State.init none) exSched
    (ClientReq.enrollRequest exCfg Flow.Kind.enroll.uri (toAuth none) [77, 73, 73, 61])

/-- Surroundings of a proxy before that proxy. -/
def exPEnv2 : Proxy.Env := Proxy.exEnv 2 (.up (exPLink exPEnv)) (.down .connect)

theorem exAtProxy (t : Nat) (c0 c1 : Flow.Conn) :
    AtProxy exPSite (Proxy.exEnv t c0 c1) exSched exCfg .enroll none [77, 73, 73, 61]
      (.missing, ⟨.none, [], [], []⟩) := by
  refine ⟨exSendable none (.inl rfl), ⟨rfl, .inl rfl, ?_, by decide, by decide, exToks, rfl⟩, ?_,
    ⟨fun _ => by simp [Proxy.exEnv], rfl, by simp [Proxy.exEnv]⟩, rfl, exArrives _ (by decide)⟩
  · unfold Challenge.RealmText; decide
  · exact exRoutes exSite rfl

theorem exPAdmitted (t : Nat) (c0 c1 : Flow.Conn) :
    Admitted exPSite.cfg (Proxy.exEnv t c0 c1) .enroll
      (rqOf [77, 73, 73, 61] exCfg.seg (.missing, ⟨.none, [], [], []⟩)) Proxy.exAuth Server.demoCsr :=
  ⟨fun _ => rfl, rfl, .inr (.inr rfl), rfl, rfl, rfl⟩

/-- The client that a new proxy thread gets. -/
def exPc : PClient := ⟨Flow.Client.init [97, 110, 99, 104, 111, 114, 115], none⟩

theorem exUpCfg : upCfg exPSite exCfg.seg exPc = exCfg := rfl

theorem exJoin (s : Site) : Joined exCfg .enroll [77, 73, 73, 61] (exLink s .none) .none (reply s exSched) none :=
  ⟨rfl, exReply s .none ⟨1, [], none⟩⟩

theorem exJoinB (s : Site) : Joined exCfg .enroll [77, 73, 73, 61] (exLink s (.value [66, 97, 115, 105, 99, 32, 100, 84, 112, 119])) .basic
    (reply s exSched) (some [66, 97, 115, 105, 99, 32, 100, 84, 112, 119]) :=
  ⟨rfl, exReply s (.value [66, 97, 115, 105, 99, 32, 100, 84, 112, 119]) ⟨1, [], none⟩⟩

theorem exJoinP (env : Proxy.Env) : Joined exCfg .enroll [77, 73, 73, 61] (exPLink env) .none
    (replyP exPSite env (Proxy.State.init none) exSched) none := by
  refine ⟨rfl, ?_⟩
  delta exPLink
  dsimp only

theorem exAsks : ∃ o, Answers .enroll [77, 73, 73, 61] (reply exSite2 exSched) exCfg none 0 (.asks .basic)
    (.server exSite2 exCfg.seg o) :=
  ⟨_, .server (o := _) ⟨exSendable none (.inl rfl),
      exSound _ rfl rfl rfl rfl rfl rfl rfl rfl, exRoutes _ rfl,
      ⟨(.missing, ⟨.none, [], [], []⟩), rfl, rfl⟩, exArrives _ (by decide)⟩ (.asks rfl)⟩

theorem exGrants : ∃ o, Answers .enroll [77, 73, 73, 61] (reply exSite2 exSched) exCfg (some [66, 97, 115, 105, 99, 32, 100, 84, 112, 119]) 0
    (.cert [77, 73, 73, 67]) (.server exSite2 exCfg.seg o) := by
  refine ⟨_, .server (o := _) ⟨exSendable _ (.inr rfl),
      exSound _ rfl rfl rfl rfl rfl rfl rfl rfl, exRoutes _ rfl,
      ⟨(.good, credOf { mode := .basic, user := some [117], pwd := some [112] }), by decide +kernel, rfl⟩,
      exArrives _ (by decide)⟩ (.issued [77, 73, 73, 67] rfl ?_)⟩
  exact ⟨exCa, ⟨[77, 73, 73, 61], [117], false, exCfg.seg⟩, rfl, by decide +kernel, rfl, rfl, rfl, rfl, by decide⟩

/-- A proxy that the server asks for a password. -/
theorem exChain1 : ∃ o, Answers .enroll [77, 73, 73, 61] (replyP exPSite exPEnv (Proxy.State.init none) exSched)
    exCfg none 1 (.cert [77, 73, 73, 67]) (.server exSite2 exCfg.seg o) := by
  obtain ⟨o1, h1⟩ := exAsks
  obtain ⟨o2, h2⟩ := exGrants
  exact ⟨o2, Answers.twice (p := exPSite) (env := exPEnv) (st := Proxy.State.init none)
    (u := exLink exSite2 .none) (u2 := exLink exSite2 (.value [66, 97, 115, 105, 99, 32, 100, 84, 112, 119])) (pc := exPc) (m := .basic)
    (exAtProxy 1 _ _) (exPAdmitted 1 _ _) rfl rfl (exJoin _) h1 (by decide) rfl (exJoinB _) h2⟩

/-- Two proxies, the second of which is asked for a password by the server. -/
theorem exChain2 : ∃ o, Answers .enroll [77, 73, 73, 61] (replyP exPSite exPEnv2 (Proxy.State.init none) exSched)
    exCfg none 2 (.cert [77, 73, 73, 67]) (.server exSite2 exCfg.seg o) := by
  obtain ⟨o, h⟩ := exChain1
  exact ⟨o, Answers.once (p := exPSite) (env := exPEnv2) (st := Proxy.State.init none) (u := exPLink exPEnv)
    (pc := exPc) (exAtProxy 2 _ _) (exPAdmitted 2 _ _) rfl rfl
    (exJoinP _) h (by simp)⟩

example : ∃ ret c', Flow.run exCfg Flow.exInit
      [(exLib, .enroll 1 (some 7) (.up (exPLink exPEnv2), .down .connect)), (exLib, .copyCert)] =
      some ([ret, copied [77, 73, 73, 67]], c') ∧ ret.err = .none := by
  obtain ⟨o, h⟩ := exChain2
  exact (C108_enrol_and_copy exLib exToks rfl exCfg 1 7 Flow.exInit (exPLink exPEnv2) _ [100, 87, 108, 107]
    (Flow.sign ⟨1, [], none⟩ 7) rfl rfl rfl (auth := none) (exJoinP _) h).1

/-- The certificate that comes through two proxies is one the CA issued for this CSR, after the
server had checked the last proxy. -/
example : ∃ o x, Issued exSite2 false exCfg.seg [77, 73, 73, 61] o x ∧
    (Server.CertVerified exSite2.tls ∨ Server.SrpLogin exSite2.tls ∨
      Server.AppAccepted exSite2.srv.cfg o.evs) := by
  obtain ⟨o, h⟩ := exChain2
  obtain ⟨s, seg, o2, c, h1, _, h3⟩ := C108_certificate_is_issued h rfl
  cases h1
  exact ⟨o, c, h3, (C108_checked_at_the_end h rfl).1⟩

example : ∃ o w, Decided exSite2 false exCfg.seg [77, 73, 73, 61] o w ∧ w.err = .none ∧ w.bytes = [77, 73, 73, 67] := by
  obtain ⟨o, h⟩ := exChain2
  obtain ⟨w, h1, h2, h3, _⟩ := C108_same_as_direct h
  exact ⟨o, w, h1, h2.symm, h3.symm⟩

/-- A client that is asked for a password itself. -/
example : ∃ ret c', Flow.enroll exLib exCfg .enroll 1 (some 7)
      (.up (exLink exSite2 .none), .up (exLink exSite2 (.value [66, 97, 115, 105, 99, 32, 100, 84, 112, 119]))) Flow.exInit =
      some (ret, { c' with mode := .none }) ∧
    Heard { Flow.exInit with mode := .basic } (.cert [77, 73, 73, 67]) ret.err c' := by
  obtain ⟨o1, h1⟩ := exAsks
  obtain ⟨o2, h2⟩ := exGrants
  exact C108_client_asked exLib exToks rfl exCfg 1 7 Flow.exInit (exLink exSite2 .none)
    (exLink exSite2 (.value [66, 97, 115, 105, 99, 32, 100, 84, 112, 119])) [100, 87, 108, 107] [100, 87, 108, 107] (Flow.sign ⟨1, [], none⟩ 7)
    (Flow.sign ⟨1, [], none⟩ 7) .basic rfl rfl rfl rfl rfl (exJoin _) h1 (by decide) (exJoinB _) h2
    (by decide)

/-- A proxy whose connections cannot be made. -/
def exPDown : Proxy.Env := Proxy.exEnv 1 (.down .connect) (.down .connect)

theorem exChainDown : Answers .enroll [77, 73, 73, 61] (replyP exPSite exPDown (Proxy.State.init none) exSched)
    exCfg none 0 (passed (.failed .connect)) (.proxy exPSite) :=
  Answers.down (p := exPSite) (env := exPDown) (st := Proxy.State.init none) (pc := exPc)
    (exAtProxy 1 _ _) (exPAdmitted 1 _ _) rfl rfl

example : ∃ ret c', Flow.enroll exLib exCfg .enroll 1 (some 7) (.up (exPLink exPDown), .down .connect)
      Flow.exInit = some (ret, { c' with mode := .none }) ∧
    Heard Flow.exInit (passed (.failed .connect)) ret.err c' :=
  C108_client exLib exToks rfl exCfg 1 7 Flow.exInit (exPLink exPDown) _ [100, 87, 108, 107]
    (Flow.sign ⟨1, [], none⟩ 7) rfl rfl rfl (auth := none) (exJoinP _) exChainDown (by
      intro m hm; cases hm)

/-- Re-enrolment: the CA asks to come back an hour later. -/
example : ∃ ret c', Flow.reenroll exLib exCfg (some ⟨true, some ⟨1, [.chal [1]], none⟩, false, true⟩)
      (some (7, true)) (.up (exReLink exSite .none), .down .connect) Flow.exInit = some (ret, c') ∧
    Heard Flow.exInit (.later 3600) ret.err c' := by
  have hr : Routes exSite exCfg .simpleReenroll := by
    refine C89_routes_segment exSite exCfg .simpleReenroll true (fun _ => true) [] (fun _ => rfl) rfl ?_
      (fun h => by cases h)
    intro g hg
    injection hg with hg
    subst hg
    refine ⟨by decide, by intro t; simp, by simp, by decide, ?_⟩
    intro o; cases o <;> decide
  have hsn : Sendable exCfg .simpleReenroll none [77, 73, 73, 61] := by
    refine ⟨⟨by decide, by decide⟩, ⟨by decide, by decide⟩, by decide, ?_, ?_, by decide +kernel,
      by decide⟩
    · intro s hs; injection hs with hs; subst hs; decide
    · intro v hv; cases hv
  have h : ∃ o, Answers .reenroll [77, 73, 73, 61] (reply exSite exSched) exCfg none 0 (.later 3600)
      (.server exSite exCfg.seg o) :=
    ⟨_, .server (o := _) ⟨hsn, exSound _ rfl rfl rfl rfl rfl rfl rfl rfl, hr,
      ⟨(.missing, ⟨.none, [], [], []⟩), rfl, rfl⟩, exArrives _ (by decide)⟩ (.later rfl)⟩
  obtain ⟨o, h⟩ := h
  exact C108_reenroll exLib exToks rfl exCfg ⟨true, some ⟨1, [.chal [1]], none⟩, false, true⟩ 7
    Flow.exInit (exReLink exSite .none) (.down .connect) [100, 87, 108, 107] ⟨1, [.chal [1]], none⟩ rfl
    ⟨rfl, rfl, by decide⟩ rfl rfl rfl (auth := none) ⟨rfl, by
      rw [show exLib.text _ = [77, 73, 73, 61] from rfl]
      rfl⟩ h (by intro m hm; cases hm)

end Verif.Wire
