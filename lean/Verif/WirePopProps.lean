import Verif.WireGetProps

/-!
# C91: proof of possession from the server's attributes to the issued certificate

The server's offer of challengePassword (C86), its way to the client (C90), the client's
decision to put the id of its TLS session into the CSR, and the server's comparison with the id
of its own end of the session (C22), put together.
-/
namespace Verif.Wire
open Verif.HttpHdr (getHeader caseEq)
open Verif.ClientResp (Mode decimal clientSees)
open Verif.ClientReq (HeaderText requestText toAuth path)
open Verif.Server (AuthMode Cred HdrRes Ev CaReq CaRes)
open Verif.Asn1 (Tlv seq oid chpw oidsOf Carries)

/-- The challengePassword attribute of a request, as `est_tls_uid_auth` finds it. -/
def chalOf : List Flow.Attr → Server.Chal
  | [] => .absent
  | .chal id :: _ => .str id
  | .other _ :: t => chalOf t

/-- The server's `est_read_x509_request` inverts the client's encoding of requests, and finds
signatures of the client in order. -/
def Understands (lib : Flow.Lib) (s : Site) : Prop :=
  ∀ base as key, ∃ x, s.srv.parse (lib.text (Flow.sign ⟨base, as, none⟩ key)) = some x ∧
    x.hasPubkey = true ∧ x.verifyRc > 0 ∧ x.chal = chalOf as

/-- The client looks for challengePassword with `est_is_challengePassword_present`. -/
def Reads (odd : Bool → List Nat → List Nat) (lib : Flow.Lib) : Prop :=
  ∀ t e p, Asn1.popPresent odd t = .ret e p → lib.attrs t = (e, p)

/-- OpenSSL makes the request without error. -/
structure Makes (u : Flow.Up) : Prop where
  ver : u.verOk = true
  cn : u.cnOk = true
  add : u.addOk = true
  pub : u.pubOk = true
  sign : u.signOk = true

/-- The request of a client that has to prove possession. -/
def boundCsr (base key : Nat) (id : List Nat) : Flow.Csr := Flow.sign ⟨base, [.chal id], none⟩ key

theorem generate_bound (c : Flow.Client) (u : Flow.Up) (base key : Nat) (id : List Nat)
    (h : c.popReq = true ∨ c.forcePop = true) (hm : Makes u) :
    Flow.generate c u base key id = .ok (boundCsr base key id) := by
  unfold Flow.generate
  have : (c.popReq || c.forcePop) = true := by simpa using h
  simp [this, hm.ver, hm.cn, hm.add, hm.pub, hm.sign, boundCsr]

theorem tlsUidAuth_own (pop : Bool) (id : List Nat) (hne : id ≠ []) :
    Server.tlsUidAuth pop (some id) (.str id) = .ok := by
  simp [Server.tlsUidAuth, hne]

/-! ### Example values -/

/-- A text that says whether there is a challengePassword, and which. -/
def exText (csr : Flow.Csr) : List Nat :=
  match chalOf csr.attrs with
  | .str id => 67 :: id
  | _ => [78]

def exParse (t : List Nat) : Option Server.Csr :=
  match t with
  | 67 :: id => some ⟨true, 1, .str id, fun _ => none⟩
  | _ => some ⟨true, 1, .absent, fun _ => none⟩

def exPopLib : Flow.Lib :=
  { exLib with
    text := exText
    attrs := fun t => match Asn1.popPresent (fun _ _ => []) t with
      | .ret e p => (e, p)
      | .ub => (.unknown, false) }

/-- A server with proof of possession on and no attributes configured. -/
def exPopSite : Site :=
  { exSite with
    srv := { exSrv with
      cfg := { exSrv.cfg with
        enablePop := true }
      parse := exParse
      csrattrs := none
      csrCb := none }
    tls := { exSite.tls with
      uid := some [100, 87, 108, 107] } }

theorem exReads : Reads (fun _ _ => []) exPopLib := by
  intro t e p h
  simp [exPopLib, h]

theorem chalOf_wf (as : List Flow.Attr) : chalOf as ≠ .malformed := by
  induction as with
  | nil => simp [chalOf]
  | cons a as ih => cases a <;> simp [chalOf, ih]

theorem exUnderstands (s : Site) (h : s.srv.parse = exParse) : Understands exPopLib s := by
  intro base as key
  rw [h]
  have hw := chalOf_wf as
  simp only [exPopLib, exText, Flow.sign]
  cases hc : chalOf as with
  | absent => exact ⟨_, rfl, rfl, by decide, rfl⟩
  | malformed => exact absurd hc hw
  | str id => exact ⟨_, rfl, rfl, Int.one_pos, rfl⟩

def exPopUp (s : Site) : Flow.Up :=
  { exGet s .csrattrs with
    reply := reply s exSched (ClientReq.enrollRequest exCfg .simpleEnroll .none
      (exPopLib.text (boundCsr 1 7 [100, 87, 108, 107]))) }

theorem exPopUp_reply (s : Site) : (exPopUp s).reply = reply s exSched
    (ClientReq.enrollRequest exCfg .simpleEnroll .none (exPopLib.text (boundCsr 1 7 [100, 87, 108, 107]))) := by
  unfold exPopUp
  dsimp only

theorem exMakes (s : Site) : Makes (exPopUp s) := ⟨rfl, rfl, rfl, rfl, rfl⟩

/-- C91: a server that sends attributes with challengePassword among them gets from the libest
client, after `est_client_get_csrattrs`, a CSR that carries the id of the client's TLS session;
if the server's end of the session has the same id, the client gets its certificate. -/
theorem C91_enrolled (odd) (lib : Flow.Lib) (toks : Challenge.Toks)
    (htok : lib.tokensOk = Challenge.tokensOk toks) (hattrs : Reads odd lib)
    (cfg : ClientReq.Cfg) (base key : Nat) (c : Flow.Client) (u1 u2 : Flow.Up) (n2 : Flow.Conn)
    (id t : List Nat) (s1 s2 : Site) (sched : List HttpConn.Ev) (ca : CaReq → CaRes)
    (hready : c.ready = true) (hmode : c.mode = .none)
    -- the exchange about the attributes
    (hf : Fetch cfg .csrattrs none { c with attrs := none } u1 s1)
    (hs : Server.handleCsrAttrs ⟨true, s1.out, true⟩ s1.srv.lib s1.srv.cfg.enablePop s1.srv.csrCb
      s1.srv.csrattrs = (.none, [.head 200, .body t]))
    (hpop : Asn1.parseAttributes odd t = .ret .none true) (hl : t.length ≤ 2000000)
    (hcr : t.head? ≠ some 13 ∧ t.head? ≠ some 10)
    -- the enrolment
    (hm : Makes u2) (huid : u2.uid = some id) (hid : id ≠ []) (hchan : s2.tls.uid = some id)
    (hund : Understands lib s2)
    (hsnd : Sendable cfg .simpleEnroll none (lib.text (boundCsr base key id)))
    (hV : Sound s2) (hR : Routes s2 cfg .simpleEnroll)
    (hu : u2.reply = reply s2 sched (ClientReq.enrollRequest cfg .simpleEnroll .none
      (lib.text (boundCsr base key id))))
    (harr : Arrives sched (1028 + (lib.text (boundCsr base key id)).length))
    (hpeer : Server.CertVerified s2.tls)
    (hreq : s2.srv.cfg.requireHttpAuth = false ∨ s2.srv.cfg.authCb = none)
    (hcb : s2.srv.cfg.enrollCb = some ca)
    (henf : s2.srv.cfg.enforceAttrs = true →
      s2.srv.cfg.attrsPresent (lib.text (boundCsr base key id)) = true)
    (hrc : (ca ⟨lib.text (boundCsr base key id), [], true, cfg.seg⟩).rc = .none)
    (hne : (ca ⟨lib.text (boundCsr base key id), [], true, cfg.seg⟩).cert ≠ []) :
    ∃ r1 r2 c', Flow.run cfg c [(lib, .getCsrattrs (.up u1)),
        (lib, .enroll base (some key) (.up u2, n2)), (lib, .copyCert)] =
        some ([r1, r2, copied (ca ⟨lib.text (boundCsr base key id), [], true, cfg.seg⟩).cert], c') ∧
      r1.err = .none ∧ r1.data = some t ∧ r2.err = .none := by
  have htne : t ≠ [] := by
    intro h
    rw [h] at hpop
    simp [Asn1.parseAttributes] at hpop
  have hp : Asn1.popPresent odd t = .ret .none true := by
    unfold Asn1.popPresent
    rw [if_neg htne, hpop]
  have ha := hattrs t _ _ hp
  obtain ⟨r1, c1, h1, h2, _⟩ := C90_csrattrs lib cfg c u1 s1 none (.missing, ⟨.none, [], [], []⟩) rfl
    hf t htne hs hl hcr
  obtain ⟨h3, h4, h5⟩ := h2 (by rw [ha])
  rw [ha] at h5
  obtain ⟨x, hx, hpub, hver, hchal⟩ := hund base [.chal id] key
  obtain ⟨r2, c2, h6, h7⟩ := C89_certificate_client lib toks htok cfg base key c1 u2 n2 id
    (boundCsr base key id) s2 sched ca (by rw [h5]; exact hready) (by rw [h5]; exact hmode) huid
    (generate_bound c1 u2 base key id (.inl (by rw [h5])) hm) hsnd hV hR hu harr hpeer hreq hcb
    ⟨⟨x, hx, hpub, hver, .inr (by rw [hchan, hchal]; exact tlsUidAuth_own _ id hid)⟩, henf⟩ hrc hne
  refine ⟨r1, r2, c2, ?_, h3, h4, h7⟩
  rw [Flow.run]
  simp only [Flow.step, h1]
  rw [h6]

example : ∃ r1 r2 c', Flow.run exCfg Flow.exInit [(exPopLib, .getCsrattrs (.up (exGet exPopSite .csrattrs))),
      (exPopLib, .enroll 1 (some 7) (.up (exPopUp exPopSite), .down .connect)), (exPopLib, .copyCert)] =
      some ([r1, r2, copied [77, 73, 73, 68]], c') ∧
    r1.err = .none ∧ r1.data = some Server.popOnly ∧ r2.err = .none := by
  have hsnd : Sendable exCfg .simpleEnroll none (exPopLib.text (boundCsr 1 7 [100, 87, 108, 107])) :=
    ⟨⟨by decide, by decide⟩, ⟨by decide, by decide⟩, by decide,
      (fun s hs => by injection hs with hs; subst hs; decide), (fun v hv => by cases hv),
      by decide +kernel, by decide⟩
  exact C91_enrolled (fun _ _ => []) exPopLib exToks rfl exReads exCfg 1 7 Flow.exInit _ _ _ [100, 87, 108, 107]
    Server.popOnly exPopSite exPopSite exSched exCa rfl rfl (exFetch _ rfl _ (.inr rfl) _ rfl) rfl
    (by decide +kernel) (by decide) (by decide) (exMakes _) rfl (by decide) rfl
    (exUnderstands _ rfl) hsnd (exSound _ rfl rfl rfl rfl rfl rfl rfl rfl) (exRoutes _ rfl)
    (exPopUp_reply _) (exArrives _ (by decide)) (.inl rfl) (.inl rfl) rfl (by decide) rfl (by decide)

/-- C91: with no attributes configured, a server that has proof of possession on gets it from
the libest client. -/
theorem C91_default (odd) (lib : Flow.Lib) (hattrs : Reads odd lib) (cfg : ClientReq.Cfg)
    (c : Flow.Client) (u : Flow.Up) (s : Site) (hf : Fetch cfg .csrattrs none { c with attrs := none } u s)
    (hp : s.srv.cfg.enablePop = true) (hcb : s.srv.csrCb = none) (hst : s.srv.csrattrs = none)
    (hout : 20 ≤ s.out) :
    ∃ ret c', Flow.getCsrattrs lib cfg (.up u) c = some (ret, c') ∧ ret.err = .none ∧
      ret.data = some Server.popOnly ∧ c'.popReq = true ∧
      ∀ u2 base key id, Makes u2 → Flow.generate c' u2 base key id = .ok (boundCsr base key id) := by
  obtain ⟨h1, h2⟩ := Asn1.C86_default odd ⟨true, s.out, true⟩ s.srv.lib rfl hout
  have hw : (seq [oid chpw]).Wf := ⟨by decide, by decide, by decide, Asn1.chpw_wf, trivial⟩
  have hx := Asn1.C87_exact_partial odd Server.popOnly [seq [oid chpw]] ⟨hw, trivial⟩
    ⟨by simp [Tlv.Plain, Asn1.Plains], trivial⟩ (by simp) (by decide) (by simpa [Asn1.ders] using h2)
  have hpp : Asn1.popPresent odd Server.popOnly = .ret .none true := by
    unfold Asn1.popPresent
    rw [if_neg (by decide), hx]
    decide
  have ha := hattrs _ _ _ hpp
  obtain ⟨ret, c', g1, g2, _⟩ := C90_csrattrs lib cfg c u s none (.missing, ⟨.none, [], [], []⟩) rfl
    hf Server.popOnly (by decide) (by rw [hp, hcb, hst]; exact h1) (by decide) (by decide)
  obtain ⟨g3, g4, g5⟩ := g2 (by rw [ha])
  rw [ha] at g5
  refine ⟨ret, c', g1, g3, g4, by rw [g5], ?_⟩
  intro u2 base key id hm
  exact generate_bound c' u2 base key id (.inl (by rw [g5])) hm

example : ∃ ret c', Flow.getCsrattrs exPopLib exCfg (.up (exGet exPopSite .csrattrs)) Flow.exInit =
      some (ret, c') ∧ c'.popReq = true ∧
      Flow.generate c' (exPopUp exPopSite) 1 7 [65] = .ok (boundCsr 1 7 [65]) := by
  obtain ⟨ret, c', h1, _, _, h4, h5⟩ := C91_default (fun _ _ => []) exPopLib exReads exCfg Flow.exInit _
    exPopSite (exFetch _ rfl _ (.inr rfl) _ rfl) rfl rfl rfl (by decide)
  exact ⟨ret, c', h1, h4, h5 _ _ _ _ (exMakes _)⟩

/-- C91: if an enrolment of a client that proves possession succeeds, then the server sits at
the other end of the client's own TLS session: nobody in between relayed the request.  The ids
of both ends come from the same TLS version, so they have the same length; registration
authorities are exempt. -/
theorem C91_same_channel (lib : Flow.Lib) (toks : Challenge.Toks)
    (htok : lib.tokensOk = Challenge.tokensOk toks) (cfg : ClientReq.Cfg) (base key : Nat)
    (c : Flow.Client) (u : Flow.Up) (n2 : Flow.Conn) (id id' : List Nat) (s : Site)
    (hdr : HdrRes × Cred) (o : Server.Out) (hready : c.ready = true) (huid : u.uid = some id)
    (hpop : c.popReq = true ∨ c.forcePop = true) (hm : Makes u)
    (hl : Link lib cfg .enroll c u (boundCsr base key id) s hdr o)
    (hn : o.rc ≠ .authPending ∨ Flow.Asked c.mode) (hund : Understands lib s)
    (hra : ¬ Server.IsRA s.tls) (hs : s.tls.uid = some id') (hlen : id'.length = id.length)
    (ret : Flow.Ret) (c' : Flow.Client)
    (h : Flow.enroll lib cfg .enroll base (some key) (.up u, n2) c = some (ret, c'))
    (he : ret.err = .none) : id' = id := by
  obtain ⟨cert, _, _, _, x, hx, _, _, hp⟩ := C89_success_means_issued lib toks htok cfg base key c u
    n2 id _ s hdr o hready huid (generate_bound c u base key id hpop hm) hl hn ret c' h he
  obtain ⟨y, hy, _, _, hc⟩ := hund base [.chal id] key
  have hxy : x = y := by
    have hy' : s.srv.parse (lib.text (boundCsr base key id)) = some y := hy
    rw [hy'] at hx
    exact (Option.some.inj hx).symm
  subst hxy
  rcases hp with hp | hp
  · exact absurd hp hra
  · rcases hp with ⟨h1, _⟩ | ⟨d, v, h1, h2, _, h4⟩
    · rw [hc] at h1; simp [chalOf] at h1
    · rw [hc] at h1
      simp only [chalOf, Server.Chal.str.injEq] at h1
      rw [hs] at h2
      have h2 := Option.some.inj h2
      subst h1 h2
      exact ((List.prefix_of_prefix_length_le h4 (List.prefix_append id [0])
        (by omega)).eq_of_length hlen)

/-- The hypotheses of `C91_same_channel` hold of the example; the enrolment succeeds. -/
example : ∃ o, Link exPopLib exCfg .enroll { Flow.exInit with popReq := true } (exPopUp exPopSite)
    (boundCsr 1 7 [100, 87, 108, 107]) exPopSite (.missing, ⟨.none, [], [], []⟩) o ∧ o.rc = .none ∧
    ¬ Server.IsRA exPopSite.tls ∧ exPopSite.tls.uid = some [100, 87, 108, 107] := by
  have hsnd : Sendable exCfg .simpleEnroll none (exPopLib.text (boundCsr 1 7 [100, 87, 108, 107])) :=
    ⟨⟨by decide, by decide⟩, ⟨by decide, by decide⟩, by decide,
      (fun s hs => by injection hs with hs; subst hs; decide), (fun v hv => by cases hv),
      by decide +kernel, by decide⟩
  exact ⟨_, ⟨exSound _ rfl rfl rfl rfl rfl rfl rfl rfl, exRoutes _ rfl,
    ⟨none, exSched, hsnd, rfl, exPopUp_reply _, exArrives _ (by decide), rfl⟩, rfl⟩, rfl,
    by simp [Server.IsRA, exPopSite, exSite, Server.certTls], rfl⟩

/-- C91: a client that does not put the id into its CSR gets no certificate from a server that
has proof of possession on. -/
theorem C91_demanded (lib : Flow.Lib) (toks : Challenge.Toks)
    (htok : lib.tokensOk = Challenge.tokensOk toks) (cfg : ClientReq.Cfg) (base key : Nat)
    (c : Flow.Client) (u : Flow.Up) (n2 : Flow.Conn) (id : List Nat) (s : Site)
    (hdr : HdrRes × Cred) (o : Server.Out) (hready : c.ready = true) (huid : u.uid = some id)
    (hpop : c.popReq = false) (hforce : c.forcePop = false) (hm : Makes u)
    (hl : Link lib cfg .enroll c u (Flow.sign ⟨base, [], none⟩ key) s hdr o)
    (hn : o.rc ≠ .authPending ∨ Flow.Asked c.mode) (hund : Understands lib s)
    (hra : ¬ Server.IsRA s.tls) (hen : s.srv.cfg.enablePop = true)
    (ret : Flow.Ret) (c' : Flow.Client)
    (h : Flow.enroll lib cfg .enroll base (some key) (.up u, n2) c = some (ret, c')) :
    ret.err ≠ .none := by
  intro he
  have hgen : Flow.generate c u base key id = .ok (Flow.sign ⟨base, [], none⟩ key) := by
    unfold Flow.generate
    simp [hpop, hforce, hm.ver, hm.cn, hm.pub, hm.sign]
  obtain ⟨cert, _, _, _, x, hx, _, _, hp⟩ := C89_success_means_issued lib toks htok cfg base key c u
    n2 id _ s hdr o hready huid hgen hl hn ret c' h he
  obtain ⟨y, hy, _, _, hc⟩ := hund base [] key
  have hxy : x = y := by
    rw [hy] at hx
    exact (Option.some.inj hx).symm
  subst hxy
  rcases hp with hp | hp
  · exact absurd hp hra
  · rcases hp with ⟨_, h1⟩ | ⟨d, v, h1, _⟩
    · rw [hen] at h1; simp at h1
    · rw [hc] at h1; simp [chalOf] at h1

def exBareUp : Flow.Up :=
  { exGet exPopSite .csrattrs with
    reply := reply exPopSite exSched (ClientReq.enrollRequest exCfg .simpleEnroll .none
      (exPopLib.text (Flow.sign ⟨1, [], none⟩ 7))) }

theorem exBareUp_reply : exBareUp.reply = reply exPopSite exSched
    (ClientReq.enrollRequest exCfg .simpleEnroll .none (exPopLib.text (Flow.sign ⟨1, [], none⟩ 7))) := by
  unfold exBareUp
  dsimp only

/-- The hypotheses of `C91_demanded` hold of the example; the server refuses. -/
example : ∃ o, Link exPopLib exCfg .enroll Flow.exInit exBareUp
    (Flow.sign ⟨1, [], none⟩ 7) exPopSite (.missing, ⟨.none, [], [], []⟩) o ∧
    o.rc = .authFailTlsuid := by
  have hsnd : Sendable exCfg .simpleEnroll none [78] :=
    ⟨⟨by decide, by decide⟩, ⟨by decide, by decide⟩, by decide,
      (fun s hs => by injection hs with hs; subst hs; decide), (fun v hv => by cases hv),
      by decide +kernel, by decide⟩
  exact ⟨_, ⟨exSound _ rfl rfl rfl rfl rfl rfl rfl rfl, exRoutes _ rfl,
    ⟨none, exSched, hsnd, rfl, exBareUp_reply, exArrives _ (by decide), rfl⟩, rfl⟩, rfl⟩

end Verif.Wire
