import Verif.ChainProps
import Verif.WireGetProps
import Verif.ProxyDistProps

/-!
# C111: CA certificates and CSR attributes through proxies, from the server to the client
-/
namespace Verif.Wire
open Verif.HttpHdr (getHeader)
open Verif.ClientResp (Mode decimal clientSees errorText getResponse)
open Verif.ClientReq (toAuth path)
open Verif.Server (AuthMode Cred HdrRes)
open Verif.Proxy (PEv PClient chooseSeg getClient relay)

/-! ## What an answer to a GET request says -/

/-- The outcomes of a request for CA certificates or CSR attributes. -/
inductive News
  | data (d : List Nat)
  | error (e : EstErr)

/-- A text that fits into an answer: not empty, within the client's limit, and without a line
break at the front. -/
def Clean (d : List Nat) : Prop :=
  d ≠ [] ∧ d.length < 2000000 ∧ d.head? ≠ some 13 ∧ d.head? ≠ some 10

/-- The content type of an answer. -/
def ctOf : EstUri.Op → List Nat
  | .csrattrs => Proxy.ctAttrs
  | _ => Proxy.ctCacerts

/-- The texts that stand for an answer. -/
def SaysGet (op : EstUri.Op) : News → List Nat → Prop
  | .data d, text => text = Proxy.head200 (ctOf op) d.length ++ d ∧ Clean d
  | .error e, text => e ≠ .caEnrollRetry ∧ ∃ t keep, text = errorText (Server.errStatus e) t keep

/-- The client's name for the operation of a GET request. -/
def ropOf : EstUri.Op → ClientResp.Op
  | .csrattrs => .csrattrs
  | _ => .cacerts

/-- The result code an asking party gets for an answer. -/
def News.err : News → EstErr
  | .data _ => .none
  | .error e => clientSees e

/-- Its mode of authentication afterwards. -/
def News.mode (m : Mode) : News → Mode
  | .data _ => m
  | .error e => if clientSees e = .authFail then .fail else m

/-- The body it reads. -/
def News.body : News → Option (List Nat)
  | .data d => some d
  | .error _ => none

theorem response_says {op : EstUri.Op} (hop : op = .cacerts ∨ op = .csrattrs) (tok)
    (ctx : ClientResp.Ctx) {v : News} {text : List Nat} (h : SaysGet op v text) :
    getResponse tok ctx (ropOf op) text = ⟨v.err, v.mode ctx.mode, ctx.delay, v.body⟩ := by
  cases v with
  | data d =>
    obtain ⟨rfl, h1, h2, h3⟩ := h
    rcases hop with rfl | rfl
    · exact read_200 tok ctx .cacerts Proxy.ctCacerts (by decide) List.prefix_rfl (by decide)
        (by decide) d h1 (by omega) h3
    · exact read_200 tok ctx .csrattrs Proxy.ctAttrs (by decide) List.prefix_rfl (by decide)
        (by decide) d h1 (by omega) h3
  | error e =>
    obtain ⟨h1, t, keep, rfl⟩ := h
    exact read_error tok ctx (ropOf op) e t keep h1

/-- `E` is what a party answers to the bytes it gets; its answer to this request is `v`. -/
def TellsGet (E : ClientReq.Wire → Flow.Reply) (cfg : ClientReq.Cfg) (op : EstUri.Op)
    (a : ClientReq.Auth) (v : News) : Prop :=
  ∃ b text, ClientReq.sendGet (ClientReq.buildGet cfg op a) = .sent b ∧
    E (.sent b) = .bytes text ∧ SaysGet op v text

/-- The connection leads to the party that answers with `E`. -/
def JoinedGet (cfg : ClientReq.Cfg) (op : EstUri.Op) (u : Flow.Up) (m : Mode)
    (E : ClientReq.Wire → Flow.Reply) : Prop :=
  u.reply = E (ClientReq.sendGet (ClientReq.buildGet cfg op (Flow.authOf u m)))

theorem fetch_tells {op : EstUri.Op} (hop : op = .cacerts ∨ op = .csrattrs) (lib : Flow.Lib)
    (cfg : ClientReq.Cfg) (c : Flow.Client) (u : Flow.Up) {E : ClientReq.Wire → Flow.Reply} {v : News}
    (hj : JoinedGet cfg op u c.mode E) (ht : TellsGet E cfg op (Flow.authOf u c.mode) v) :
    ∃ sent, Flow.fetch lib cfg op (ropOf op) c u =
      some (v.err, v.body, { c with mode := v.mode c.mode }, sent) := by
  obtain ⟨b, text, h1, h2, h3⟩ := ht
  unfold JoinedGet at hj
  rw [h1, h2] at hj
  unfold Flow.fetch
  simp only [h1, hj, response_says hop lib.tokensOk ⟨c.mode, c.delay⟩ h3]
  exact ⟨_, rfl⟩

theorem News.err_none {v : News} (h : v.err = .none) : ∃ d, v = .data d := by
  cases v with
  | data d => exact ⟨d, rfl⟩
  | error e => exact absurd h (clientSees_none e)

/-- What `est_client_get_cacerts` does with an answer. -/
theorem getCacerts_tells (lib : Flow.Lib) (cfg : ClientReq.Cfg) (c : Flow.Client) (u : Flow.Up)
    (hready : c.ready = true) {E : ClientReq.Wire → Flow.Reply} {v : News}
    (hj : JoinedGet cfg .cacerts u c.mode E) (ht : TellsGet E cfg .cacerts (Flow.authOf u c.mode) v) :
    ∃ sent ret c', Flow.getCacerts lib cfg (.up u) c = some (ret, c') ∧ ret.sent = sent ∧
      (∀ d t, v = .data d → lib.verify d = .ok t → ret.err = .none ∧ c' = { c with cacerts := some t }) ∧
      (∀ d e, v = .data d → lib.verify d = .error e → ret.err = e.err ∧ c' = { c with cacerts := none }) ∧
      (∀ e, v = .error e → ret.err = clientSees e ∧ c' = { c with mode := v.mode c.mode }) := by
  obtain ⟨sent, h1⟩ := fetch_tells (.inl rfl) lib cfg c u hj ht
  obtain ⟨b, text, -, -, hs⟩ := ht
  unfold Flow.getCacerts
  rw [if_neg (by simp [hready])]
  change Flow.fetch lib cfg .cacerts .cacerts c u = _ at h1
  simp only [h1]
  cases v with
  | data d =>
    obtain ⟨-, hne, hl, -⟩ := hs
    have hst : Flow.storeCacerts lib c d = (match lib.verify d with
        | .error e => (e.err, { c with cacerts := none })
        | .ok t' => (.none, { c with cacerts := some t' })) := by
      unfold Flow.storeCacerts
      rw [if_neg (by intro h; exact hne (List.eq_nil_of_length_eq_zero h)),
        if_neg (by unfold ClientResp.caMax; omega)]
      cases lib.verify d <;> rfl
    refine ⟨_, _, _, rfl, rfl, ?_, ?_, ?_⟩
    · intro d' t hd hv
      cases hd
      show (Flow.storeCacerts lib c d).1 = _ ∧ (Flow.storeCacerts lib c d).2 = _
      rw [hst, hv]
      exact ⟨rfl, rfl⟩
    · intro d' t hd hv
      cases hd
      show (Flow.storeCacerts lib c d).1 = _ ∧ (Flow.storeCacerts lib c d).2 = _
      rw [hst, hv]
      exact ⟨rfl, rfl⟩
    · intro e h; cases h
  | error e =>
    refine ⟨_, _, _, by rw [if_neg (show (News.error e).err ≠ .none from clientSees_none e)], rfl, ?_, ?_, ?_⟩
    · intro d t h; cases h
    · intro d t h; cases h
    · intro e' h; cases h; exact ⟨rfl, rfl⟩

/-- What `est_client_get_csrattrs` does with an answer. -/
theorem getCsrattrs_tells (lib : Flow.Lib) (cfg : ClientReq.Cfg) (c : Flow.Client) (u : Flow.Up)
    {E : ClientReq.Wire → Flow.Reply} {v : News}
    (hj : JoinedGet cfg .csrattrs u c.mode E) (ht : TellsGet E cfg .csrattrs (Flow.authOf u c.mode) v) :
    ∃ ret c', Flow.getCsrattrs lib cfg (.up u) c = some (ret, c') ∧
      (∀ d, v = .data d → (lib.attrs d).1 = .none → ret.err = .none ∧ ret.data = some d ∧
        c' = { c with attrs := some d, popReq := (lib.attrs d).2 }) ∧
      (∀ d, v = .data d → (lib.attrs d).1 ≠ .none → ret.err = (lib.attrs d).1 ∧ ret.data = none ∧
        c' = { c with attrs := none, popReq := (lib.attrs d).2 }) ∧
      (∀ e, v = .error e → ret.err = clientSees e ∧ ret.data = none ∧
        c' = { c with attrs := none, mode := v.mode c.mode }) := by
  obtain ⟨sent, h1⟩ := fetch_tells (.inr rfl) lib cfg { c with attrs := none } u hj ht
  change Flow.fetch lib cfg .csrattrs .csrattrs { c with attrs := none } u = _ at h1
  unfold Flow.getCsrattrs
  simp only [h1]
  cases v with
  | data d =>
    rw [if_neg (by simp [News.err])]
    simp only [News.body]
    by_cases ha : (lib.attrs d).1 = .none
    · rw [if_pos ha]
      refine ⟨_, _, rfl, ?_, ?_, ?_⟩
      · intro d' hd _; cases hd; exact ⟨rfl, rfl, rfl⟩
      · intro d' hd h; cases hd; exact absurd ha h
      · intro e h; cases h
    · rw [if_neg ha]
      refine ⟨_, _, rfl, ?_, ?_, ?_⟩
      · intro d' hd h; cases hd; exact absurd h ha
      · intro d' hd _; cases hd; exact ⟨rfl, rfl, rfl⟩
      · intro e h; cases h
  | error e =>
    rw [if_pos (show (News.error e).err ≠ .none from clientSees_none e)]
    refine ⟨_, _, rfl, ?_, ?_, ?_⟩
    · intro d h; cases h
    · intro d h; cases h
    · intro e' h; cases h; exact ⟨rfl, rfl, rfl⟩

/-! ## A server -/

/-- What a server with this to distribute says: nothing to distribute is status 204. -/
def offer : Option (List Nat) → News
  | some d => .data d
  | none => .error .httpNoContent

theorem server_tells_cacerts (cfg : ClientReq.Cfg) (s : Site) (sched : List HttpConn.Ev)
    (a : ClientReq.Auth) (h : Gettable cfg .cacerts none) (hR : Routes s cfg .cacerts)
    (harr : Arrives sched 1028) (hc : ∀ d, chain s = some d → Clean d ∧ d.length ≤ s.out) :
    TellsGet (reply s sched) cfg .cacerts a (offer (chain s)) := by
  obtain ⟨b, h1, h2⟩ := reply_get cfg .cacerts s sched none a (by intro h; cases h) h harr
  obtain ⟨p, hp, huri⟩ := hR
  have hx := handle_cacerts s ⟨[71, 69, 84], path cfg .cacerts, [49, 46, 49], getHeaders cfg none⟩ p cfg.seg
    rfl hp huri (getHeaders_found cfg none).2
  cases hd : chain s with
  | some d =>
    obtain ⟨hcl, ho⟩ := hc d hd
    obtain ⟨sv, g1, g2⟩ := hx.1 d hd hcl.1 ho
    exact ⟨b, _, h1, h2 sv g1, g2, hcl⟩
  | none =>
    obtain ⟨sv, keep, g1, g2⟩ := hx.2 hd
    exact ⟨b, _, h1, h2 sv g1, by simp, _, keep, g2⟩

/-- The attributes the server's handler decided to send are `v` (C86 says which). -/
inductive Decides (s : Site) : News → Prop
  | data (t) (h : Server.handleCsrAttrs ⟨true, s.out, true⟩ s.srv.lib s.srv.cfg.enablePop s.srv.csrCb
      s.srv.csrattrs = (.none, [.head 200, .body t])) (c : Clean t) : Decides s (.data t)
  | empty (h : Server.handleCsrAttrs ⟨true, s.out, true⟩ s.srv.lib s.srv.cfg.enablePop s.srv.csrCb
      s.srv.csrattrs = (.none, [.head 204])) : Decides s (.error .httpNoContent)
  | error (e) (h : Server.handleCsrAttrs ⟨true, s.out, true⟩ s.srv.lib s.srv.cfg.enablePop s.srv.csrCb
      s.srv.csrattrs = (e, [])) (h1 : e ≠ .none) (h2 : e ≠ .caEnrollRetry) : Decides s (.error e)

theorem server_tells_attrs (cfg : ClientReq.Cfg) (s : Site) (sched : List HttpConn.Ev)
    (auth : Option (List Nat)) (hdr : HdrRes × Cred)
    (hh : hdrOf (AuthHdr.parseAuthHeader s.odd (toMode s.srv.cfg.authMode) auth) = some hdr)
    (h : Gettable cfg .csrattrs auth) (hR : Routes s cfg .csrattrs) (harr : Arrives sched 1028)
    (v : News) (hv : Decides s v) :
    TellsGet (reply s sched) cfg .csrattrs (toAuth auth) v := by
  obtain ⟨b, h1, h2⟩ := reply_get cfg .csrattrs s sched auth (toAuth auth) (fun _ => rfl) h harr
  obtain ⟨p, hp, huri⟩ := hR
  have hx := handle_csrattrs s ⟨[71, 69, 84], path cfg .csrattrs, [49, 46, 49], getHeaders cfg auth⟩ p cfg.seg
    rfl hp huri hdr (by rw [(getHeaders_found cfg auth).2]; exact hh)
  cases hv with
  | data t ht hc =>
    obtain ⟨sv, g1, g2⟩ := hx.1 t ht
    exact ⟨b, _, h1, h2 sv g1, g2, hc⟩
  | empty he =>
    obtain ⟨sv, text, keep, g1, g2⟩ := hx.2.1 he
    exact ⟨b, _, h1, h2 sv g1, by simp, text, keep, g2⟩
  | error e he e1 e2 =>
    obtain ⟨sv, text, keep, g1, g2⟩ := hx.2.2 e he e1 e2
    exact ⟨b, _, h1, h2 sv g1, e2, text, keep, g2⟩

/-! ## A proxy -/

/-- The proxy handles the request for `op`. -/
theorem replyP_get (cfg : ClientReq.Cfg) (op : EstUri.Op) (hop : op = .cacerts ∨ op = .csrattrs)
    (p : PSite) (env : Proxy.Env) (st : Proxy.State)
    (sched : List HttpConn.Ev) (auth : Option (List Nat)) (a : ClientReq.Auth)
    (ha : op = .csrattrs → a = toAuth auth) (h : Gettable cfg op auth) (harr : Arrives sched 1028)
    (hR : PRoutes p cfg op) (hdr : HdrRes × Cred)
    (hh : hdrOf (AuthHdr.parseAuthHeader p.odd (toMode p.cfg.srv.authMode) auth) = some hdr)
    (t : Proxy.Todo)
    (ht : Proxy.runTodo (if op = .cacerts then Proxy.handleCacerts p.cfg env cfg.seg st
      else Proxy.handleAttrs p.cfg env cfg.seg st) = .done t) :
    ∃ b q, ClientReq.sendGet (ClientReq.buildGet cfg op a) = .sent b ∧
      replyP p env st sched (.sent b) =
        .bytes ((t.evs ++ Proxy.finish env t t.st).flatMap (renderP p q t.send)) := by
  obtain ⟨hd, h1, h2, h3, h4⟩ := server_reads_get cfg op auth a ha h
  obtain ⟨u, hp, hu⟩ := hR
  have hne : hd ≠ [] := by
    intro h
    have hn : HttpHdr.parseRequest [] = none := by decide +kernel
    rw [h, hn] at h3
    simp at h3
  have hcl : contentLen ⟨[71, 69, 84], path cfg op, [49, 46, 49], getHeaders cfg auth⟩ = (([] : List Nat).length : Int) := by
    unfold contentLen
    simp only [(getHeaders_found cfg auth).1]
    rfl
  have hserve := serveWith_request (fun sv => (⟨sv.text, [], st⟩ : PServed)) (handleP p env st) sched
    hd [] [13, 10] _ (by simpa using h2) hne h3 (path_valid cfg op)
    rfl hcl (by simp) (by simp [bufSize]; omega) ⟨harr.1, by have := harr.2; simp; omega⟩
  refine ⟨_, ⟨[71, 69, 84], path cfg op, [49, 46, 49], getHeaders cfg auth⟩, h1, ?_⟩
  have hmap : ((hd ++ [13, 10]).map some).map (fun x : Option Nat => x.getD 0) = hd ++ [13, 10] := by
    rw [List.map_map]; exact List.map_id _
  have hdisp : ∀ ct, Proxy.dispatch p.cfg env ⟨[71, 69, 84], .ok op cfg.seg, ct, none, hdr⟩ st = .done t := by
    intro ct
    rcases hop with rfl | rfl
    · rw [if_pos rfl] at ht
      simp [Proxy.dispatch, ht]
    · rw [if_neg (by decide)] at ht
      simp [Proxy.dispatch, ht]
  have hhp : handleP p env st ⟨[71, 69, 84], path cfg op, [49, 46, 49], getHeaders cfg auth⟩ [] =
      some ⟨(t.evs ++ Proxy.finish env t t.st).flatMap (renderP p
          ⟨[71, 69, 84], path cfg op, [49, 46, 49], getHeaders cfg auth⟩ t.send),
        t.evs ++ Proxy.finish env t t.st, t.st⟩ := by
    unfold handleP
    simp only [hp, (getHeaders_found cfg auth).2, hh, hu, (getHeaders_found cfg auth).1,
      Option.map_none, hdisp]
  rw [List.nil_append] at hserve
  unfold replyP serveP
  simp only [hmap, hserve, hhp]

/-- The proxy can get and read the request, and what it writes arrives. -/
structure AtProxyGet (p : PSite) (env : Proxy.Env) (sched : List HttpConn.Ev) (cfg : ClientReq.Cfg)
    (op : EstUri.Op) (auth : Option (List Nat)) : Prop where
  sendable : Gettable cfg op auth
  http : p.cfg.srv.transport = .http
  routes : PRoutes p cfg op
  head : 1000 ≤ env.out 0
  retry : env.retryOut = true
  found : ∃ hdr, hdrOf (AuthHdr.parseAuthHeader p.odd (toMode p.cfg.srv.authMode) auth) = some hdr
  arrives : Arrives sched 1028

theorem decimal_len (n : Nat) (h : n < 2000000) : (decimal n).length ≤ 7 := by
  have : ∀ k n, n < 10 ^ (k + 1) → (decimal n).length ≤ k + 1 := by
    intro k
    induction k with
    | zero => intro n h; unfold decimal; rw [if_pos (by omega)]; simp
    | succ k ih =>
      intro n h
      unfold decimal
      split
      · simp
      · have := ih (n / 10) (by omega)
        simp
        omega
  exact this 6 n (by omega)

theorem head_fits (op : EstUri.Op) (n : Nat) (h : n < 2000000) :
    (Proxy.head200 (ctOf op) n).length ≤ 1000 := by
  have := decimal_len n h
  have hc : (ctOf op).length ≤ 30 := by cases op <;> decide
  simp [Proxy.head200]
  omega

theorem renderP_whole (p : PSite) (q : HttpHdr.Req) (e : Option EstErr) (ct d : List Nat) :
    (Proxy.whole ct d).flatMap (renderP p q e) = Proxy.head200 ct d.length ++ d := by
  simp [Proxy.whole, renderP]

/-- A proxy whose handler says this answers with this. -/
theorem proxy_answers {cfg : ClientReq.Cfg} {op : EstUri.Op} (hop : op = .cacerts ∨ op = .csrattrs)
    {p : PSite} {env : Proxy.Env} {st : Proxy.State} {sched : List HttpConn.Ev}
    {auth : Option (List Nat)} {a : ClientReq.Auth} (ha : op = .csrattrs → a = toAuth auth)
    (h : AtProxyGet p env sched cfg op auth) (o : Proxy.Out) (v : News)
    (ho : (if op = .cacerts then Proxy.handleCacerts p.cfg env cfg.seg st
      else Proxy.handleAttrs p.cfg env cfg.seg st) = .done o) (sent : List Flow.Sent)
    (hv : match v with
      | .data d => Clean d ∧ o.rc = .none ∧ o.evs = sent.map PEv.up ++ Proxy.whole (ctOf op) d
      | .error e => e ≠ .caEnrollRetry ∧
          (o.rc = e ∧ e ≠ .none ∧ e ≠ .authPending ∧ o.evs = sent.map PEv.up ∨
           o.rc = .none ∧ e = .httpNoContent ∧ o.evs = sent.map PEv.up ++ [.srv (.head 204)])) :
    TellsGet (replyP p env st sched) cfg op a v := by
  obtain ⟨hdr, hh⟩ := h.found
  obtain ⟨b, q, h1, h2⟩ := replyP_get cfg op hop p env st sched auth a ha h.sendable h.arrives
    h.routes hdr hh (Proxy.todo o) (by rw [ho]; rfl)
  refine ⟨b, _, h1, h2, ?_⟩
  cases v with
  | data d =>
    obtain ⟨c1, c2, c3⟩ := hv
    have ht : Proxy.todo o = ⟨.none, none, o.evs, o.st⟩ := by simp [Proxy.todo, c2]
    rw [ht]
    simp only [Proxy.finish, List.append_nil, c3]
    rw [List.flatMap_append, renderP_ups, renderP_whole]
    exact ⟨rfl, c1⟩
  | error e =>
    obtain ⟨c0, c⟩ := hv
    rcases c with ⟨c1, c2, c3, c4⟩ | ⟨c1, c2, c3⟩
    · have ht : Proxy.todo o = ⟨e, some e, o.evs, o.st⟩ := by simp [Proxy.todo, c1, c2, c3]
      rw [ht]
      simp only [Proxy.finish, h.retry, c4]
      obtain ⟨keep, hk⟩ := renderP_error p q e o.st.delay c0
      rw [List.flatMap_append, renderP_ups, List.nil_append, hk]
      exact ⟨c0, _, keep, rfl⟩
    · have ht : Proxy.todo o = ⟨.none, none, o.evs, o.st⟩ := by simp [Proxy.todo, c1]
      subst c2
      rw [ht]
      simp only [Proxy.finish, List.append_nil, c3]
      rw [List.flatMap_append, renderP_ups, List.nil_append]
      refine ⟨c0, explain .httpNoContent,
        HttpHdr.shouldKeepAlive ⟨false, 204, p.keep, some q.version, q.hdrs⟩, ?_⟩
      simp [renderP, Server.errStatus]

/-! ## C111: CA certificates -/

/-- What a proxy makes of an answer about CA certificates: it hands on what passes its own
verification. -/
def checked (lib : Flow.Lib) : News → News
  | .data d =>
    match lib.verify d with
    | .ok t => .data t
    | .error e => .error (relay e.err)
  | .error e => .error (relay (clientSees e))

/-- The party that answers with `E` is a server or a proxy.  `libs` are the libraries of the
proxies that ask on, from the one that answers to the last; `src` is what the last party has to
distribute (`none`: nothing, or it cannot be reached); `v` is what comes back. -/
inductive Distributes : (ClientReq.Wire → Flow.Reply) → ClientReq.Cfg → List Flow.Lib →
    Option (List Nat) → News → Prop
  | server {s sched cfg} (h : Gettable cfg .cacerts none) (r : Routes s cfg .cacerts)
      (arr : Arrives sched 1028) (c : ∀ d, chain s = some d → Clean d ∧ d.length ≤ s.out) :
      Distributes (reply s sched) cfg [] (chain s) (offer (chain s))
  | own {p env st sched cfg d} (h : AtProxyGet p env sched cfg .cacerts none)
      (own : st.caCerts = some d) (c : Clean d) (out : d.length ≤ env.out 1) :
      Distributes (replyP p env st sched) cfg [] (some d) (.data d)
  | proxy {p env st sched cfg pc u E libs src v} (h : AtProxyGet p env sched cfg .cacerts none)
      (own : st.caCerts = none) (c : getClient p.cfg env st = some pc) (ready : pc.c.ready = true)
      (up : env.conn 0 = .up u) (to : JoinedGet (upCfg p cfg.seg pc) .cacerts u pc.c.mode E)
      (next : Distributes E (upCfg p cfg.seg pc) libs src v)
      (out : ∀ t, checked p.cfg.lib v = .data t → Clean t ∧ t.length ≤ env.out 1) :
      Distributes (replyP p env st sched) cfg (p.cfg.lib :: libs) src (checked p.cfg.lib v)
  | down {p env st sched cfg pc e} (h : AtProxyGet p env sched cfg .cacerts none)
      (own : st.caCerts = none) (c : getClient p.cfg env st = some pc) (ready : pc.c.ready = true)
      (down : env.conn 0 = .down e) :
      Distributes (replyP p env st sched) cfg [p.cfg.lib] none (.error (relay e.err))

theorem relay_ca (e : Flow.CaErr) : relay e.err ≠ .caEnrollRetry := by
  cases e <;> simp [Flow.CaErr.err, relay]

theorem ca_none (e : Flow.CaErr) : e.err ≠ .none := by cases e <;> simp [Flow.CaErr.err]

theorem sendCacerts_whole {out : Nat → Nat} {d : List Nat} (hd : Clean d) (h0 : 1000 ≤ out 0)
    (h1 : d.length ≤ out 1) : Proxy.sendCacerts out d = (Proxy.whole Proxy.ctCacerts d, .none) := by
  have := head_fits .cacerts d.length hd.2.1
  unfold Proxy.sendCacerts
  rw [Proxy.writes_whole (Proxy.head200_ne _ _) hd.1 (by simp only [ctOf] at this; omega) h1]
  rfl

theorem distributes_tells {E : ClientReq.Wire → Flow.Reply} {cfg : ClientReq.Cfg}
    {libs : List Flow.Lib} {src : Option (List Nat)} {v : News} (h : Distributes E cfg libs src v) :
    ∀ a, TellsGet E cfg .cacerts a v := by
  induction h with
  | server h r arr c => intro a; exact server_tells_cacerts _ _ _ a h r arr c
  | @own p env st sched cfg d h own c out =>
    intro a
    refine proxy_answers (.inl rfl) (by intro h; cases h) h
      ⟨.none, Proxy.whole Proxy.ctCacerts d, st, [], []⟩ _ ?_ [] ?_
    · simp [Proxy.handleCacerts, own, h.http, sendCacerts_whole c h.head out]
    · exact ⟨c, rfl, rfl⟩
  | @proxy p env st sched cfg pc u E libs src v h own c ready up to next out ih =>
    intro a
    have hcc : (chooseSeg p.cfg cfg.seg pc).c = pc.c := chooseSeg_c _ _ _
    obtain ⟨sent, ret, c', g1, g2, g3, g4, g5⟩ := getCacerts_tells p.cfg.lib (upCfg p cfg.seg pc) pc.c u
      ready to (ih _)
    have hrun : ∀ (e : EstErr), ret.err = e → e ≠ .none →
        ∃ st', Proxy.handleCacerts p.cfg env cfg.seg st =
          .done ⟨relay e, ret.sent.map PEv.up, st', [], []⟩ := by
      intro e he hne
      refine ⟨{ Proxy.setClient st env.thread { chooseSeg p.cfg cfg.seg pc with c := c' } with
        delay := c'.delay }, ?_⟩
      unfold Proxy.handleCacerts
      simp only [own, c, up, hcc]
      change Flow.getCacerts p.cfg.lib { p.cfg.up with seg := (chooseSeg p.cfg cfg.seg pc).seg } _ _ = _ at g1
      simp only [g1, he]
      rw [if_pos hne]
    cases v with
    | data d =>
      cases hv : p.cfg.lib.verify d with
      | ok t =>
        obtain ⟨e1, e2⟩ := g3 d t rfl hv
        have hck : checked p.cfg.lib (.data d) = .data t := by simp [checked, hv]
        obtain ⟨o1, o2⟩ := out t hck
        rw [hck]
        refine proxy_answers (.inl rfl) (by intro h; cases h) h ⟨.none,
          ret.sent.map PEv.up ++ Proxy.whole Proxy.ctCacerts t,
          { Proxy.setClient st env.thread { chooseSeg p.cfg cfg.seg pc with c := c' } with delay := c'.delay },
          [], []⟩ _ ?_ ret.sent ?_
        · rw [if_pos rfl]
          unfold Proxy.handleCacerts
          simp only [own, c, up, hcc]
          change Flow.getCacerts p.cfg.lib { p.cfg.up with seg := (chooseSeg p.cfg cfg.seg pc).seg } _ _ = _ at g1
          simp only [g1, e1]
          rw [if_neg (by simp)]
          simp only [h.http]
          have hca : c'.cacerts = some t := by rw [e2]
          simp only [hca, sendCacerts_whole o1 h.head o2]
        · exact ⟨o1, rfl, rfl⟩
      | error e =>
        obtain ⟨e1, e2⟩ := g4 d e rfl hv
        have hck : checked p.cfg.lib (.data d) = .error (relay e.err) := by simp [checked, hv]
        obtain ⟨st', hr⟩ := hrun _ e1 (ca_none e)
        rw [hck]
        have hne := Proxy.relay_ne _ (ca_none e)
        exact proxy_answers (.inl rfl) (by intro h; cases h) h _ _ hr ret.sent
          ⟨relay_ca e, .inl ⟨rfl, hne.1, hne.2, rfl⟩⟩
    | error e =>
      obtain ⟨e1, e2⟩ := g5 e rfl
      obtain ⟨st', hr⟩ := hrun _ e1 (clientSees_none e)
      have hne := Proxy.relay_ne _ (clientSees_none e)
      have h0 : e ≠ .caEnrollRetry := by
        obtain ⟨_, _, _, _, h0, _⟩ := ih .none
        exact h0
      exact proxy_answers (.inl rfl) (by intro h; cases h) h _ (.error (relay (clientSees e))) hr ret.sent
        ⟨fun h => h0 (relay_sees e h), .inl ⟨rfl, hne.1, hne.2, rfl⟩⟩
  | @down p env st sched cfg pc e h own c ready hd =>
    intro a
    have hcc : (chooseSeg p.cfg cfg.seg pc).c = pc.c := chooseSeg_c _ _ _
    have hne := Proxy.relay_ne _ (Proxy.down_err e).1
    refine proxy_answers (.inl rfl) (by intro h; cases h) h ⟨relay e.err, [],
      { Proxy.setClient st env.thread { chooseSeg p.cfg cfg.seg pc with c := pc.c } with delay := pc.c.delay },
      [], []⟩ (.error (relay e.err)) ?_ [] ⟨relay_conn e, .inl ⟨rfl, hne.1, hne.2, rfl⟩⟩
    rw [if_pos rfl]
    unfold Proxy.handleCacerts
    simp only [own, c, hd, hcc]
    simp [Flow.getCacerts, ready, Flow.refuse, (Proxy.down_err e).1]

/-- What the text `d` has become when each of the verifications, the last first, passed it. -/
def through : List Flow.Lib → Option (List Nat) → Option (List Nat)
  | [], d => d
  | l :: ls, d =>
    match through ls d with
    | none => none
    | some t =>
      match l.verify t with
      | .ok t' => some t'
      | .error _ => none

theorem distributes_through {E : ClientReq.Wire → Flow.Reply} {cfg : ClientReq.Cfg}
    {libs : List Flow.Lib} {src : Option (List Nat)} {v : News} (h : Distributes E cfg libs src v) :
    v.body = through libs src := by
  induction h with
  | server h r arr c =>
    rename_i s _ _
    unfold offer through
    cases chain s <;> rfl
  | own => rfl
  | @proxy p env st sched cfg pc u E libs src v h own c ready up to next out ih =>
    unfold through
    rw [← ih]
    cases v with
    | data d =>
      simp only [News.body, checked]
      cases p.cfg.lib.verify d <;> rfl
    | error e => rfl
  | down => rfl

/-- C111: `est_client_get_cacerts` succeeds through proxies exactly if the last party distributes
certificates and they pass the verification of every proxy that asked on and of the client
itself.  The client then stores what these verifications left of them, and nothing else. -/
theorem C111_cacerts (lib : Flow.Lib) (cfg : ClientReq.Cfg) (c : Flow.Client) (u : Flow.Up)
    (E : ClientReq.Wire → Flow.Reply) (libs : List Flow.Lib) (src : Option (List Nat)) (v : News)
    (hready : c.ready = true) (hj : JoinedGet cfg .cacerts u c.mode E)
    (h : Distributes E cfg libs src v) :
    ∃ ret c', Flow.getCacerts lib cfg (.up u) c = some (ret, c') ∧
      (∀ t, through (lib :: libs) src = some t → ret.err = .none ∧ c' = { c with cacerts := some t }) ∧
      (through (lib :: libs) src = none → ret.err ≠ .none ∧ (c'.cacerts = none ∨ c'.cacerts = c.cacerts)) := by
  obtain ⟨_, ret, c', g1, -, g3, g4, g5⟩ := getCacerts_tells lib cfg c u hready hj (distributes_tells h _)
  have hb := distributes_through h
  refine ⟨ret, c', g1, ?_⟩
  unfold through
  rw [← hb]
  cases v with
  | data d =>
    simp only [News.body]
    cases hv : lib.verify d with
    | ok t =>
      refine ⟨fun t' ht => ?_, fun h => (by cases h)⟩
      cases ht
      exact g3 d t rfl hv
    | error e =>
      obtain ⟨e1, e2⟩ := g4 d e rfl hv
      refine ⟨fun t ht => (by cases ht), fun _ => ⟨by rw [e1]; exact ca_none e, .inl (by rw [e2])⟩⟩
  | error e =>
    obtain ⟨e1, e2⟩ := g5 e rfl
    refine ⟨fun t ht => (by cases ht), fun _ => ⟨by rw [e1]; exact clientSees_none e, .inr (by rw [e2])⟩⟩

/-! ### Example values -/

/-- A connection to a proxy. -/
def exPGet (p : PSite) (env : Proxy.Env) (op : EstUri.Op) : Flow.Up where
  uid := some [100, 87, 108, 107]
  auth := fun _ => .value [66, 97, 115, 105, 99, 32, 100, 84, 112, 119]
  reply := replyP p env (Proxy.State.init none) exSched
    (ClientReq.sendGet (ClientReq.buildGet exCfg op .none))

theorem exGettable (op : EstUri.Op) (hop : op = .cacerts ∨ op = .csrattrs) : Gettable exCfg op none :=
  (exFetch exSite rfl op hop Flow.exInit rfl).sendable

theorem exGetRoutes (s : Site) (h : s.uri = EstUri.parseUriLib true (fun _ => true) []) (op : EstUri.Op)
    (hop : op = .cacerts ∨ op = .csrattrs) : Routes s exCfg op :=
  (exFetch s h op hop Flow.exInit rfl).routes

/-- The proxy of `exPSite` with this setting for proof of possession. -/
def exPSiteP (pop : Bool) : PSite :=
  { exPSite with cfg := { exPSite.cfg with srv := { exPSite.cfg.srv with enablePop := pop } } }

theorem exAtProxyGet (pop : Bool) (t : Nat) (c0 c1 : Flow.Conn) (op : EstUri.Op)
    (hop : op = .cacerts ∨ op = .csrattrs) :
    AtProxyGet (exPSiteP pop) (Proxy.exEnv t c0 c1) exSched exCfg op none :=
  ⟨exGettable op hop, rfl, exGetRoutes exSite rfl op hop, by simp [Proxy.exEnv], rfl, ⟨_, rfl⟩,
    exArrives _ (by decide)⟩

theorem exUpCfgP (pop : Bool) : upCfg (exPSiteP pop) exCfg.seg exPc = exCfg := rfl

theorem exJoinG (s : Site) (op : EstUri.Op) :
    JoinedGet exCfg op (exGet s op) .none (reply s exSched) := by
  unfold JoinedGet
  rw [show Flow.authOf (exGet s op) .none = .none from rfl]
  delta exGet
  dsimp only

theorem exJoinGP (p : PSite) (env : Proxy.Env) (op : EstUri.Op) :
    JoinedGet exCfg op (exPGet p env op) .none (replyP p env (Proxy.State.init none) exSched) := by
  unfold JoinedGet
  rw [show Flow.authOf (exPGet p env op) .none = .none from rfl]
  delta exPGet
  dsimp only

/-- The environment of a proxy in front of the server `exSite`. -/
def exGEnv (s : Site) (op : EstUri.Op) : Proxy.Env := Proxy.exEnv 1 (.up (exGet s op)) (.down .connect)

theorem exDistServer : Distributes (reply exSite exSched) exCfg [] (some [9, 9]) (.data [9, 9]) :=
  .server (s := exSite) (exGettable _ (.inl rfl)) (exGetRoutes _ rfl _ (.inl rfl)) (exArrives _ (by decide))
    (by
      intro d hd
      have hd : some [9, 9] = some d := hd
      cases hd
      exact ⟨⟨by decide, by decide, by decide, by decide⟩, by decide⟩)

theorem exDistProxy : Distributes (replyP (exPSiteP false) (exGEnv exSite .cacerts) (Proxy.State.init none) exSched)
    exCfg [exLib] (some [9, 9]) (.data [9, 9]) :=
  .proxy (v := .data [9, 9]) (pc := exPc) (u := exGet exSite .cacerts) (exAtProxyGet false 1 _ _ _ (.inl rfl)) rfl rfl rfl rfl
    (exJoinG exSite .cacerts) exDistServer (by
      intro t ht
      have ht : News.data [9, 9] = .data t := ht
      cases ht
      exact ⟨⟨by decide, by decide, by decide, by decide⟩, by simp [exGEnv, Proxy.exEnv]⟩)

/-- The certificates of the server reach a client behind a proxy. -/
example : ∃ ret c', Flow.getCacerts exLib exCfg
      (.up (exPGet (exPSiteP false) (exGEnv exSite .cacerts) .cacerts)) Flow.exInit = some (ret, c') ∧
    ret.err = .none ∧ c'.cacerts = some [9, 9] := by
  obtain ⟨ret, c', h1, h2, _⟩ := C111_cacerts exLib exCfg Flow.exInit _ _ _ _ _ rfl
    (exJoinGP (exPSiteP false) (exGEnv exSite .cacerts) .cacerts) exDistProxy
  obtain ⟨h3, h4⟩ := h2 [9, 9] rfl
  exact ⟨ret, c', h1, h3, by rw [h4]⟩

/-- A proxy that cannot reach the server. -/
example : ∃ ret c', Flow.getCacerts exLib exCfg
      (.up (exPGet (exPSiteP false) (Proxy.exEnv 1 (.down .connect) (.down .connect)) .cacerts)) Flow.exInit =
        some (ret, c') ∧ ret.err ≠ .none := by
  obtain ⟨ret, c', h1, _, h2⟩ := C111_cacerts exLib exCfg Flow.exInit _ _ _ _ _ rfl
    (exJoinGP (exPSiteP false) (Proxy.exEnv 1 (.down .connect) (.down .connect)) .cacerts)
    (.down (pc := exPc) (exAtProxyGet false 1 _ _ _ (.inl rfl)) rfl rfl rfl rfl)
  exact ⟨ret, c', h1, (h2 rfl).1⟩

/-! ## C111: CSR attributes -/

/-- What a proxy makes of an answer about CSR attributes: attributes its own check refuses are
an error.  Others are handed on; with proof of possession on, the challengePassword attribute is
added unless it is there, and stands alone if the next party has none. -/
def adapted (cfg : Proxy.Cfg) : News → News
  | .error e =>
    if clientSees e = .httpNoContent ∧ cfg.srv.enablePop then .data Server.popOnly
    else .error (relay (clientSees e))
  | .data d =>
    if (cfg.lib.attrs d).1 ≠ .none then .error (relay (cfg.lib.attrs d).1)
    else if !cfg.srv.enablePop then .data d
    else if (cfg.attrLib.parseAttrs d).1 ≠ .none then .error .httpNoContent
    else if (cfg.attrLib.parseAttrs d).2 then .data d
    else
      match cfg.attrLib.addPop d with
      | .error _ => .error .httpNoContent
      | .ok d' => .data d'

/-- The party that answers with `E` is a server or a proxy; `cfgs` are the settings of the
proxies, from the one that answers to the last; `src` is what the server decided, or, if there
is no connection to the next party, what its proxy reports; `v` is what comes back. -/
inductive Describes : (ClientReq.Wire → Flow.Reply) → ClientReq.Cfg → Option (List Nat) →
    List Proxy.Cfg → News → News → Prop
  | server {s sched cfg auth hdr v}
      (found : hdrOf (AuthHdr.parseAuthHeader s.odd (toMode s.srv.cfg.authMode) auth) = some hdr)
      (h : Gettable cfg .csrattrs auth) (r : Routes s cfg .csrattrs) (arr : Arrives sched 1028)
      (d : Decides s v) : Describes (reply s sched) cfg auth [] v v
  | proxy {p env st sched cfg auth auth' pc u E cfgs src v} (h : AtProxyGet p env sched cfg .csrattrs auth)
      (c : getClient p.cfg env st = some pc) (up : env.conn 0 = .up u)
      (to : JoinedGet (upCfg p cfg.seg pc) .csrattrs u pc.c.mode E)
      (cred : Flow.authOf u pc.c.mode = toAuth auth')
      (next : Describes E (upCfg p cfg.seg pc) auth' cfgs src v)
      (out : ∀ t, adapted p.cfg v = .data t → Clean t ∧ t.length ≤ env.out 1)
      (errs : ∀ d, (p.cfg.lib.attrs d).1 ≠ .caEnrollRetry ∧ (p.cfg.lib.attrs d).1 ≠ .httpNoContent) :
      Describes (replyP p env st sched) cfg auth (p.cfg :: cfgs) src (adapted p.cfg v)
  | down {p env st sched cfg auth pc e} (h : AtProxyGet p env sched cfg .csrattrs auth)
      (c : getClient p.cfg env st = some pc) (down : env.conn 0 = .down e) :
      Describes (replyP p env st sched) cfg auth [] (.error (relay e.err)) (.error (relay e.err))

theorem relay_attrs (e : EstErr) (h : e ≠ .caEnrollRetry) : relay e ≠ .caEnrollRetry := by
  cases e <;> first | exact absurd rfl h | decide

theorem giveAttrs_whole {cfg : Proxy.Cfg} {env : Proxy.Env} {d : List Nat}
    (hh : cfg.srv.transport = .http) (hd : Clean d) (h0 : 1000 ≤ env.out 0) (h1 : d.length ≤ env.out 1)
    (evs : List PEv) (st : Proxy.State) :
    Proxy.giveAttrs cfg env evs st d = ⟨.none, evs ++ Proxy.whole Proxy.ctAttrs d, st, [], []⟩ := by
  have := head_fits .csrattrs d.length hd.2.1
  unfold Proxy.giveAttrs Proxy.sendAttrs
  simp only [hh]
  rw [if_neg hd.1, Proxy.writes_whole (Proxy.head200_ne _ _) hd.1 (by simp only [ctOf] at this; omega) h1]
  rfl

theorem noAttrs_204 {cfg : Proxy.Cfg} {env : Proxy.Env} (hh : cfg.srv.transport = .http)
    (evs : List PEv) (st : Proxy.State) :
    Proxy.noAttrs cfg env evs st = ⟨.none, evs ++ [.srv (.head 204)], st, [], []⟩ := by
  simp [Proxy.noAttrs, hh, Proxy.sendError, Server.sendError, Server.errStatus]

theorem describes_tells {E : ClientReq.Wire → Flow.Reply} {cfg : ClientReq.Cfg}
    {auth : Option (List Nat)} {cfgs : List Proxy.Cfg} {src v : News}
    (h : Describes E cfg auth cfgs src v) : TellsGet E cfg .csrattrs (toAuth auth) v := by
  induction h with
  | server found h r arr d => exact server_tells_attrs _ _ _ _ _ found h r arr _ d
  | @proxy p env st sched cfg auth auth' pc u E cfgs src v h c up to cred next out errs ih =>
    have hcc : (chooseSeg p.cfg cfg.seg pc).c = pc.c := chooseSeg_c _ _ _
    rw [← cred] at ih
    obtain ⟨ret, c', g1, g2, g3, g4⟩ := getCsrattrs_tells p.cfg.lib (upCfg p cfg.seg pc) pc.c u to ih
    change Flow.getCsrattrs p.cfg.lib { p.cfg.up with seg := (chooseSeg p.cfg cfg.seg pc).seg } _ _ = _ at g1
    have hstep : ∃ st' : Proxy.State, Proxy.handleAttrs p.cfg env cfg.seg st =
        (if ret.err ≠ .none ∧ ¬ (ret.err = .httpNoContent ∧ p.cfg.srv.enablePop) then
          .done ⟨relay ret.err, ret.sent.map PEv.up, st', [], []⟩
        else
          if p.cfg.srv.enablePop then
            if ret.data.getD [] = [] then .done (Proxy.giveAttrs p.cfg env (ret.sent.map PEv.up) st' Server.popOnly)
            else
              if (p.cfg.attrLib.parseAttrs (ret.data.getD [])).1 ≠ .none then
                .done (Proxy.noAttrs p.cfg env (ret.sent.map PEv.up) st')
              else if (p.cfg.attrLib.parseAttrs (ret.data.getD [])).2 then
                .done (Proxy.giveAttrs p.cfg env (ret.sent.map PEv.up) st' (ret.data.getD []))
              else
                match p.cfg.attrLib.addPop (ret.data.getD []) with
                | .error _ => .done (Proxy.noAttrs p.cfg env (ret.sent.map PEv.up) st')
                | .ok d' => .done (Proxy.giveAttrs p.cfg env (ret.sent.map PEv.up) st' d')
          else .done (Proxy.giveAttrs p.cfg env (ret.sent.map PEv.up) st' (ret.data.getD []))) := by
      refine ⟨{ Proxy.setClient st env.thread { chooseSeg p.cfg cfg.seg pc with c := { c' with attrs := none } } with
        delay := c'.delay }, ?_⟩
      unfold Proxy.handleAttrs
      simp only [c, up, hcc, g1]
      rfl
    obtain ⟨st', hst⟩ := hstep
    have key : ∀ (o : Proxy.Out) (w : News), Proxy.handleAttrs p.cfg env cfg.seg st = .done o →
        (match w with
          | .data d => Clean d ∧ o.rc = .none ∧ o.evs = ret.sent.map PEv.up ++ Proxy.whole (ctOf .csrattrs) d
          | .error e => e ≠ .caEnrollRetry ∧
            (o.rc = e ∧ e ≠ .none ∧ e ≠ .authPending ∧ o.evs = ret.sent.map PEv.up ∨
             o.rc = .none ∧ e = .httpNoContent ∧ o.evs = ret.sent.map PEv.up ++ [.srv (.head 204)])) →
        TellsGet (replyP p env st sched) cfg .csrattrs (toAuth auth) w := by
      intro o w ho hw
      exact proxy_answers (.inr rfl) (fun _ => rfl) h o w ho ret.sent hw
    have give : ∀ d, adapted p.cfg v = .data d →
        Proxy.handleAttrs p.cfg env cfg.seg st =
          .done (Proxy.giveAttrs p.cfg env (ret.sent.map PEv.up) st' d) →
        TellsGet (replyP p env st sched) cfg .csrattrs (toAuth auth) (adapted p.cfg v) := by
      intro d hd hr
      obtain ⟨o1, o2⟩ := out d hd
      rw [giveAttrs_whole h.http o1 h.head o2] at hr
      rw [hd]
      exact key _ (.data d) hr ⟨o1, rfl, rfl⟩
    have nope : adapted p.cfg v = .error .httpNoContent →
        Proxy.handleAttrs p.cfg env cfg.seg st =
          .done (Proxy.noAttrs p.cfg env (ret.sent.map PEv.up) st') →
        TellsGet (replyP p env st sched) cfg .csrattrs (toAuth auth) (adapted p.cfg v) := by
      intro hd hr
      rw [noAttrs_204 h.http] at hr
      rw [hd]
      exact key _ (.error .httpNoContent) hr ⟨by simp, .inr ⟨rfl, rfl, rfl⟩⟩
    have bad : ∀ e, adapted p.cfg v = .error (relay e) → e ≠ .none → relay e ≠ .caEnrollRetry →
        Proxy.handleAttrs p.cfg env cfg.seg st =
          .done ⟨relay e, ret.sent.map PEv.up, st', [], []⟩ →
        TellsGet (replyP p env st sched) cfg .csrattrs (toAuth auth) (adapted p.cfg v) := by
      intro e hd hne h1 hr
      have hr2 := Proxy.relay_ne e hne
      rw [hd]
      exact key _ (.error (relay e)) hr ⟨h1, .inl ⟨rfl, hr2.1, hr2.2, rfl⟩⟩
    cases v with
    | error e =>
      obtain ⟨e1, e2, -⟩ := g4 e rfl
      have h0 : e ≠ .caEnrollRetry := by
        obtain ⟨_, _, _, _, h0, _⟩ := ih
        exact h0
      rw [e1, e2] at hst
      by_cases hn : clientSees e = .httpNoContent ∧ p.cfg.srv.enablePop = true
      · rw [if_neg (by simp [hn]), if_pos hn.2, if_pos (show (none : Option (List Nat)).getD [] = [] from rfl)] at hst
        exact give Server.popOnly (by simp [adapted, hn]) hst
      · rw [if_pos ⟨clientSees_none e, hn⟩] at hst
        exact bad (clientSees e) (by simp only [adapted]; rw [if_neg hn]) (clientSees_none e)
          (fun h => h0 (relay_sees e h)) hst
    | data d =>
      have hcl : Clean d := by
        obtain ⟨_, _, _, _, _, h0⟩ := ih
        exact h0
      by_cases ha : (p.cfg.lib.attrs d).1 = .none
      · obtain ⟨e1, e2, -⟩ := g2 d rfl ha
        rw [e1, e2] at hst
        rw [if_neg (by simp)] at hst
        by_cases hpop : p.cfg.srv.enablePop = true
        · rw [if_pos hpop] at hst
          rw [if_neg (show ¬ (some d).getD [] = [] from hcl.1)] at hst
          simp only [Option.getD_some] at hst
          by_cases hp1 : (p.cfg.attrLib.parseAttrs d).1 = .none
          · rw [if_neg (by simp [hp1])] at hst
            by_cases hp2 : (p.cfg.attrLib.parseAttrs d).2 = true
            · rw [if_pos hp2] at hst
              exact give d (by simp [adapted, ha, hpop, hp1, hp2]) hst
            · rw [if_neg hp2] at hst
              cases hx : p.cfg.attrLib.addPop d with
              | error y =>
                rw [hx] at hst
                exact nope (by simp [adapted, ha, hpop, hp1, hp2, hx]) hst
              | ok d' =>
                rw [hx] at hst
                exact give d' (by simp [adapted, ha, hpop, hp1, hp2, hx]) hst
          · rw [if_pos hp1] at hst
            exact nope (by simp [adapted, ha, hpop, hp1]) hst
        · rw [if_neg hpop] at hst
          exact give d (by simp [adapted, ha, hpop]) hst
      · obtain ⟨e1, e2, -⟩ := g3 d rfl ha
        rw [e1, e2] at hst
        obtain ⟨q1, q2⟩ := errs d
        rw [if_pos ⟨ha, fun h => q2 h.1⟩] at hst
        exact bad (p.cfg.lib.attrs d).1 (by simp [adapted, ha]) ha (relay_attrs _ q1) hst
  | @down p env st sched cfg auth pc e h c hd =>
    have hcc : (chooseSeg p.cfg cfg.seg pc).c = pc.c := chooseSeg_c _ _ _
    have hne := Proxy.relay_ne _ (Proxy.down_err e).1
    refine proxy_answers (.inr rfl) (fun _ => rfl) h ⟨relay e.err, [],
      { Proxy.setClient st env.thread { chooseSeg p.cfg cfg.seg pc with c := { pc.c with attrs := none } } with delay := pc.c.delay },
      [], []⟩ (.error (relay e.err)) ?_ [] ⟨relay_conn e, .inl ⟨rfl, hne.1, hne.2, rfl⟩⟩
    rw [if_neg (by decide)]
    unfold Proxy.handleAttrs
    simp only [c, hd, hcc]
    have : e.err ≠ .httpNoContent := by cases e <;> simp [Flow.ConnErr.err]
    simp [Flow.getCsrattrs, Flow.refuse, (Proxy.down_err e).1, this]

theorem describes_adapted {E : ClientReq.Wire → Flow.Reply} {cfg : ClientReq.Cfg}
    {auth : Option (List Nat)} {cfgs : List Proxy.Cfg} {src v : News}
    (h : Describes E cfg auth cfgs src v) : v = cfgs.foldr adapted src := by
  induction h with
  | server => rfl
  | proxy _ _ _ _ _ _ _ _ ih => rw [ih]; rfl
  | down => rfl

/-- C111: what `est_client_get_csrattrs` hands its application through proxies is what the server
decided to send, adapted by one proxy after the other and accepted by the client's own check; an
error on the way is an error of the call, which then hands out nothing. -/
theorem C111_csrattrs (lib : Flow.Lib) (cfg : ClientReq.Cfg) (c : Flow.Client) (u : Flow.Up)
    (E : ClientReq.Wire → Flow.Reply) (auth : Option (List Nat)) (cfgs : List Proxy.Cfg) (src v : News)
    (hj : JoinedGet cfg .csrattrs u c.mode E) (hc : Flow.authOf u c.mode = toAuth auth)
    (h : Describes E cfg auth cfgs src v) :
    ∃ ret c', Flow.getCsrattrs lib cfg (.up u) c = some (ret, c') ∧
      (∀ d, cfgs.foldr adapted src = .data d → (lib.attrs d).1 = .none →
        ret.err = .none ∧ ret.data = some d ∧ c' = { c with attrs := some d, popReq := (lib.attrs d).2 }) ∧
      (∀ d, cfgs.foldr adapted src = .data d → (lib.attrs d).1 ≠ .none →
        ret.err = (lib.attrs d).1 ∧ ret.data = none ∧ c'.attrs = none) ∧
      (∀ e, cfgs.foldr adapted src = .error e →
        ret.err = clientSees e ∧ ret.data = none ∧ c'.attrs = none ∧ c'.popReq = c.popReq) := by
  have ht := describes_tells h
  rw [← hc] at ht
  obtain ⟨ret, c', g1, g2, g3, g4⟩ := getCsrattrs_tells lib cfg c u hj ht
  rw [← describes_adapted h]
  refine ⟨ret, c', g1, g2, ?_, ?_⟩
  · intro d hd ha
    obtain ⟨e1, e2, e3⟩ := g3 d hd ha
    exact ⟨e1, e2, by rw [e3]⟩
  · intro e hd
    obtain ⟨e1, e2, e3⟩ := g4 e hd
    exact ⟨e1, e2, by rw [e3], by rw [e3]⟩

/-- C111: proxies without proof of possession hand on attributes unchanged, if they accept them. -/
theorem C111_csrattrs_unchanged (lib : Flow.Lib) (cfg : ClientReq.Cfg) (c : Flow.Client) (u : Flow.Up)
    (E : ClientReq.Wire → Flow.Reply) (auth : Option (List Nat)) (cfgs : List Proxy.Cfg) (v : News)
    (d : List Nat) (hj : JoinedGet cfg .csrattrs u c.mode E) (hc : Flow.authOf u c.mode = toAuth auth)
    (h : Describes E cfg auth cfgs (.data d) v)
    (hp : ∀ p ∈ cfgs, p.srv.enablePop = false ∧ (p.lib.attrs d).1 = .none)
    (ha : (lib.attrs d).1 = .none) :
    ∃ ret c', Flow.getCsrattrs lib cfg (.up u) c = some (ret, c') ∧
      ret.err = .none ∧ ret.data = some d ∧ c' = { c with attrs := some d, popReq := (lib.attrs d).2 } := by
  obtain ⟨ret, c', g1, g2, -⟩ := C111_csrattrs lib cfg c u E auth cfgs _ v hj hc h
  refine ⟨ret, c', g1, g2 d ?_ ha⟩
  clear h g2
  induction cfgs with
  | nil => rfl
  | cons p ps ih =>
    rw [List.foldr_cons, ih (fun q hq => hp q (by simp [hq]))]
    obtain ⟨h1, h2⟩ := hp p (by simp)
    simp [adapted, h1, h2]

/-- C111: a proxy that wants proof of possession never lets attributes through in which its own
check finds no challengePassword, unless it added that itself; "no attributes" becomes
challengePassword alone. -/
theorem C111_csrattrs_pop (cfg : Proxy.Cfg) (v : News) (d : List Nat)
    (hp : cfg.srv.enablePop = true) (h : adapted cfg v = .data d) :
    cfg.attrLib.parseAttrs d = (.none, true) ∨ d = Server.popOnly ∨
      ∃ d0, v = .data d0 ∧ cfg.attrLib.parseAttrs d0 = (.none, false) ∧ cfg.attrLib.addPop d0 = .ok d := by
  cases v with
  | error e =>
    simp only [adapted, hp] at h
    split at h
    · cases h; exact .inr (.inl rfl)
    · cases h
  | data d0 =>
    simp only [adapted, hp, Bool.not_true, Bool.false_eq_true, if_false] at h
    split at h
    · cases h
    · split at h
      · cases h
      · rename_i h1
        have h1 : (cfg.attrLib.parseAttrs d0).1 = .none := Decidable.not_not.1 h1
        split at h
        · rename_i h2
          cases h
          exact .inl (Prod.ext h1 h2)
        · rename_i h2
          split at h
          · cases h
          · rename_i d' hx
            cases h
            exact .inr (.inr ⟨d0, rfl, Prod.ext h1 (by simpa using h2), hx⟩)

/-- A server with the attributes `t`. -/
def exAttrSite (t : Option (List Nat)) : Site := { exSite with srv := { exSrv with csrattrs := t } }

theorem exDescProxy (pop : Bool) (t : Option (List Nat)) (v : News) (hv : Decides (exAttrSite t) v)
    (hout : ∀ d, adapted (exPSiteP pop).cfg v = .data d → Clean d ∧ d.length ≤ 10000) :
    Describes (replyP (exPSiteP pop) (exGEnv (exAttrSite t) .csrattrs) (Proxy.State.init none) exSched)
      exCfg none [(exPSiteP pop).cfg] v (adapted (exPSiteP pop).cfg v) :=
  .proxy (pc := exPc) (u := exGet (exAttrSite t) .csrattrs) (auth' := none)
    (exAtProxyGet pop 1 _ _ _ (.inr rfl)) rfl rfl (exJoinG (exAttrSite t) .csrattrs) rfl
    (.server (s := exAttrSite t) rfl (exGettable _ (.inr rfl)) (exGetRoutes _ rfl _ (.inr rfl))
      (exArrives _ (by decide)) hv)
    (by intro d hd; obtain ⟨h1, h2⟩ := hout d hd; exact ⟨h1, by simpa [exGEnv, Proxy.exEnv] using h2⟩)
    (by
      intro d
      exact ⟨show EstErr.none ≠ _ by decide, show EstErr.none ≠ _ by decide⟩)

/-- Attributes reach a client behind a proxy. -/
example : ∃ ret c', Flow.getCsrattrs exLib exCfg
      (.up (exPGet (exPSiteP false) (exGEnv (exAttrSite (some [77, 65, 115, 71, 67, 83, 113, 71, 83, 73, 98, 51, 68, 81, 69, 74, 66, 119, 61, 61])) .csrattrs) .csrattrs))
      Flow.exInit = some (ret, c') ∧ ret.err = .none ∧ ret.data = some [77, 65, 115, 71, 67, 83, 113, 71, 83, 73, 98, 51, 68, 81, 69, 74, 66, 119, 61, 61] := by
  obtain ⟨ret, c', h1, h2, h3, _⟩ := C111_csrattrs_unchanged exLib exCfg Flow.exInit _ _ none _ _
    [77, 65, 115, 71, 67, 83, 113, 71, 83, 73, 98, 51, 68, 81, 69, 74, 66, 119, 61, 61] (exJoinGP (exPSiteP false) _ .csrattrs) rfl
    (exDescProxy false (some [77, 65, 115, 71, 67, 83, 113, 71, 83, 73, 98, 51, 68, 81, 69, 74, 66, 119, 61, 61]) (.data [77, 65, 115, 71, 67, 83, 113, 71, 83, 73, 98, 51, 68, 81, 69, 74, 66, 119, 61, 61])
      (.data _ rfl ⟨by decide, by decide, by decide, by decide⟩) (by
        intro d hd
        have hd : News.data [77, 65, 115, 71, 67, 83, 113, 71, 83, 73, 98, 51, 68, 81, 69, 74, 66, 119, 61, 61] = .data d := hd
        cases hd
        exact ⟨⟨by decide, by decide, by decide, by decide⟩, by decide⟩))
    (by intro p hp; cases List.mem_singleton.1 hp; exact ⟨rfl, rfl⟩) rfl
  exact ⟨ret, c', h1, h2, h3⟩

/-- A server without attributes behind a proxy that wants proof of possession. -/
example : ∃ ret c', Flow.getCsrattrs exLib exCfg
      (.up (exPGet (exPSiteP true) (exGEnv (exAttrSite none) .csrattrs) .csrattrs))
      Flow.exInit = some (ret, c') ∧ ret.err = .none ∧ ret.data = some [77, 65, 115, 71, 67, 83, 113, 71, 83, 73, 98, 51, 68, 81, 69, 74, 66, 119, 61, 61] := by
  obtain ⟨ret, c', h1, h2, _⟩ := C111_csrattrs exLib exCfg Flow.exInit _ _ none _ _ _
    (exJoinGP (exPSiteP true) _ .csrattrs) rfl
    (exDescProxy true none (.error .httpNoContent) (.error _ rfl (by decide) (by decide)) (by
        intro d hd
        have hd : News.data Server.popOnly = .data d := hd
        cases hd
        exact ⟨⟨by decide, by decide, by decide, by decide⟩, by decide⟩))
  obtain ⟨h3, h4, _⟩ := h2 Server.popOnly rfl rfl
  exact ⟨ret, c', h1, h3, h4⟩

example : adapted (exPSiteP true).cfg (.error .httpNoContent) = .data Server.popOnly := rfl

end Verif.Wire
