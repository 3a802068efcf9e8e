import Verif.WireEnrollProps
import Verif.MultipartProps

/-!
# C93: server-side key generation, from the client's call to the server's application and back
-/
namespace Verif.Wire
open Verif.HttpHdr (getHeader caseEq)
open Verif.ClientResp (Mode decimal clientSees)
open Verif.ClientReq (HeaderText requestText toAuth path postHeaders)
open Verif.Server (AuthMode Cred HdrRes Ev BEv DOut CaReq CaRes)
open Verif.Multipart (PartText)

/-- The texts around the parts of the response are those of the code. -/
def RealTexts (mp : Server.Multi) : Prop :=
  mp = ⟨Multipart.partHdr Multipart.serverBoundary Multipart.ctKey,
    [13, 10] ++ Multipart.partHdr Multipart.serverBoundary Multipart.ctCert,
    [13, 10] ++ [45, 45] ++ Multipart.serverBoundary ++ [45, 45] ++ [13, 10, 13, 10]⟩

/-- The server's application has made the key `gkey`, the CSR `body` could be changed into one
for this key, `csr2`, and that one passes the checks. -/
structure Rekeyed (s : Site) (body : List Nat) (gkey : List Nat) (csr2 : Server.Csr) : Prop where
  made : s.srv.kg.keygenCb = some (some gkey)
  signed : ∃ x y, s.srv.parse body = some x ∧ s.srv.kg.setPubkey gkey x = some y ∧
    s.srv.kg.sign gkey y = some csr2
  verified : csr2.hasPubkey = true ∧ csr2.verifyRc > 0
  pop : Server.IsRA s.tls ∨ Server.tlsUidAuth s.srv.cfg.enablePop s.tls.uid csr2.chal = .ok
  attrs : s.srv.cfg.enforceAttrs = true → s.srv.cfg.attrsPresent (s.srv.kg.encode csr2) = true

theorem writeBody_all (n : Nat) (b : List Nat) (hl : b.length ≤ n) (hne : b ≠ []) :
    Server.writeBody n b = ([Ev.body b], true) := by
  simp [Server.writeBody, List.take_of_length_le hl, hne]

/-- The handler's answer to a client with a verified certificate. -/
theorem handle_keygen (s : Site) (q : HttpHdr.Req) (body p : List Nat) (seg : Option (List Nat))
    (gkey : List Nat) (csr2 : Server.Csr) (ca : CaReq → List Nat → CaRes × List Nat)
    (hm : q.method = [80, 79, 83, 84]) (hp : Url.requestPath q.uri = some p)
    (hu : s.uri p = .ok .serverKeygen seg)
    (hct : getHeader q.hdrs [67, 111, 110, 116, 101, 110, 116, 45, 84, 121, 112, 101] = some [97, 112, 112, 108, 105, 99, 97, 116, 105, 111, 110, 47, 112, 107, 99, 115, 49, 48])
    (hau : getHeader q.hdrs [65, 117, 116, 104, 111, 114, 105, 122, 97, 116, 105, 111, 110] = none)
    (ht : s.srv.cfg.transport = .http) (hpeer : Server.CertVerified s.tls)
    (hreq : s.srv.cfg.requireHttpAuth = false ∨ s.srv.cfg.authCb = none)
    (hcb : s.srv.kg.caCb = some ca) (hk : Rekeyed s body gkey csr2) (hmp : RealTexts s.srv.mp)
    (hrc : (ca ⟨s.srv.kg.encode csr2, [], true, seg⟩ gkey).1.rc = .none)
    (hc : (ca ⟨s.srv.kg.encode csr2, [], true, seg⟩ gkey).1.cert ≠ [])
    (hkey : (ca ⟨s.srv.kg.encode csr2, [], true, seg⟩ gkey).2 ≠ [])
    (hcl : (ca ⟨s.srv.kg.encode csr2, [], true, seg⟩ gkey).1.cert.length ≤ s.out)
    (hkl : (ca ⟨s.srv.kg.encode csr2, [], true, seg⟩ gkey).2.length ≤ s.out)
    (hout : 200 ≤ s.out) :
    ∃ sv, handle s q body = some sv ∧
      BEv.ev (.ca .keygen ⟨s.srv.kg.encode csr2, [], true, seg⟩) ∈ sv.evs ∧
      sv.text = Multipart.serverText (ca ⟨s.srv.kg.encode csr2, [], true, seg⟩ gkey).2
        (ca ⟨s.srv.kg.encode csr2, [], true, seg⟩ gkey).1.cert := by
  have hsome : s.tls.peer.isSome = true := by
    rcases hpeer with h | h <;> simp [h]
  have ha : ∀ hdr, Server.enrollAuth s.srv.cfg s.tls hdr s.srv.parse .keygen body =
      some { st := .certAuth } := by
    intro hdr
    have hc : Server.checkTlsCert s.tls = some .certAuth := by
      rcases hpeer with h | h <;> simp [Server.checkTlsCert, h]
    unfold Server.enrollAuth
    simp only [hc, ht]
    cases hcb : s.srv.cfg.authCb with
    | none => simp
    | some cb =>
      have : s.srv.cfg.requireHttpAuth = false := by
        rcases hreq with h | h
        · exact h
        · rw [h] at hcb; cases hcb
      simp [this]
  obtain ⟨x, y, hx, hy, hz⟩ := hk.signed
  have hrk : Server.rekey s.srv.kg (some gkey) x = .ok (gkey, csr2) := by
    unfold Server.rekey
    simp only [hy, hz]
    rw [if_pos (by simp [Server.checkCsr, hk.verified.1, hk.verified.2])]
  have hpp : (if (s.tls.peer.isSome && s.tls.cmcRA) = true then Server.Pop.ok
      else Server.tlsUidAuth s.srv.cfg.enablePop s.tls.uid csr2.chal) = .ok := by
    rcases hk.pop with ⟨h1, h2⟩ | h
    · rw [if_pos]
      rw [h2, Bool.and_true, Option.isSome_iff_ne_none]; exact h1
    · split
      · rfl
      · exact h
  have hat : (s.srv.cfg.enforceAttrs && !s.srv.cfg.attrsPresent (s.srv.kg.encode csr2)) = false := by
    cases he : s.srv.cfg.enforceAttrs
    · rfl
    · simp [hk.attrs he]
  generalize hq : (⟨s.srv.kg.encode csr2, [], true, seg⟩ : CaReq) = rq at *
  have hw : ∀ n m, 200 ≤ n → 200 ≤ m → (ca rq gkey).2.length ≤ n → (ca rq gkey).1.cert.length ≤ n →
      m = n →
      Server.writeAll (fun _ => n) 0 [s.srv.mp.keyHdr, (ca rq gkey).2, s.srv.mp.certHdr,
        (ca rq gkey).1.cert, s.srv.mp.final] =
      ([.body s.srv.mp.keyHdr, .body (ca rq gkey).2, .body s.srv.mp.certHdr,
        .body (ca rq gkey).1.cert, .body s.srv.mp.final], true) := by
    intro n m h1 _ h3 h4 _
    rw [RealTexts] at hmp
    have e1 := writeBody_all n s.srv.mp.keyHdr
      (by rw [hmp]; exact Nat.le_trans (by decide) h1) (by rw [hmp]; decide)
    have e2 := writeBody_all n s.srv.mp.certHdr
      (by rw [hmp]; exact Nat.le_trans (by decide) h1) (by rw [hmp]; decide)
    have e3 := writeBody_all n s.srv.mp.final
      (by rw [hmp]; exact Nat.le_trans (by decide) h1) (by rw [hmp]; decide)
    simp only [Server.writeAll, e1, e2, e3, writeBody_all n _ h3 hkey, writeBody_all n _ h4 hc,
      if_true, List.cons_append, List.nil_append]
  have hkg : ∀ hdr, Server.serverKeygen s.srv.cfg s.srv.kg s.srv.mp s.tls ⟨true, s.out, true⟩
      (fun _ => s.out) s.srv.parse ⟨[97, 112, 112, 108, 105, 99, 97, 116, 105, 111, 110, 47, 112, 107, 99, 115, 49, 48], body, seg, hdr, []⟩ =
      some ⟨.none, [Ev.ca .keygen rq] ++ [.head 200] ++
        [.body s.srv.mp.keyHdr, .body (ca rq gkey).2, .body s.srv.mp.certHdr,
          .body (ca rq gkey).1.cert, .body s.srv.mp.final], []⟩ := by
    intro hdr
    unfold Server.serverKeygen
    simp only [hcb, hk.made]
    rw [if_neg (by simp [Server.ctPkcs10])]
    simp only [ha]
    unfold Server.keygenCsr
    simp only [Option.none_or, hx, hrk, hpp, hat]
    rw [if_neg (by decide)]
    have e : Server.keygenReq s.srv.cfg s.tls ⟨[97, 112, 112, 108, 105, 99, 97, 116, 105, 111, 110, 47, 112, 107, 99, 115, 49, 48], body, seg, hdr, []⟩
        { st := .certAuth } (s.srv.kg.encode csr2) = rq := by
      unfold Server.keygenReq
      rw [if_pos ht, hsome, ← hq]
      rfl
    rw [e]
    unfold Server.keygenAnswer
    rw [if_pos ⟨hrc, hc⟩]
    simp only [ht, hw s.out s.out hout hout hkl hcl rfl]
    rfl
  have hd : handle s q body = some
      (let d : DOut := ⟨.none, ([Ev.ca .keygen rq, Ev.head 200, Ev.body s.srv.mp.keyHdr,
          Ev.body (ca rq gkey).2, Ev.body s.srv.mp.certHdr, Ev.body (ca rq gkey).1.cert,
          Ev.body s.srv.mp.final]).map BEv.ev, some .keygen⟩
       ⟨d.evs.flatMap (render s q d), d.evs⟩) := by
    unfold handle
    simp only [hp, hau, hu, hct, AuthHdr.parseAuthHeader, hdrOf]
    unfold Server.httpRequest
    simp only [hm]
    rw [if_neg (by decide), if_neg (by decide)]
    simp only [hkg, Option.map_some]
    rfl
  refine ⟨_, hd, by simp, ?_⟩
  simp only [List.map_cons, List.map_nil, List.nil_append, List.flatMap_cons, List.flatMap_nil, render, bodyOf, List.append_nil, if_true, head]
  unfold Multipart.serverText
  have hb : s.srv.mp.keyHdr ++ ((ca rq gkey).2 ++ (s.srv.mp.certHdr ++ ((ca rq gkey).1.cert ++
      s.srv.mp.final))) = Multipart.bodyText Multipart.serverBoundary (ca rq gkey).2
        (ca rq gkey).1.cert := by
    rw [RealTexts] at hmp
    rw [hmp]
    unfold Multipart.bodyText
    simp only [List.append_assoc]
  rw [hb]

/-- The connection `u` leads to the server `s`; the server reads the bytes of the client's
request for a key, and the client those of the answer. -/
structure KeyLink (lib : Flow.Lib) (cfg : ClientReq.Cfg) (c : Flow.Client) (u : Flow.Up)
    (csr : Flow.Csr) (s : Site) : Prop where
  routes : Routes s cfg .serverKeygen
  sendable : Sendable cfg .serverKeygen none (lib.text csr)
  noAuth : c.mode = .none
  joined : ∃ sched, Arrives sched (1028 + (lib.text csr).length) ∧
    u.reply = reply s sched (ClientReq.enrollRequest cfg .serverKeygen .none (lib.text csr))

/-- The server lets the client in because of its certificate, and its application answers with
`key` and `cert`. -/
structure KeyIssued (s : Site) (seg : Option (List Nat)) (body key cert : List Nat) : Prop where
  http : s.srv.cfg.transport = .http
  peer : Server.CertVerified s.tls
  noPassword : s.srv.cfg.requireHttpAuth = false ∨ s.srv.cfg.authCb = none
  texts : RealTexts s.srv.mp
  fits : key.length ≤ s.out ∧ cert.length ≤ s.out ∧ 200 ≤ s.out
  app : ∃ ca gkey csr2, s.srv.kg.caCb = some ca ∧ Rekeyed s body gkey csr2 ∧
    ca ⟨s.srv.kg.encode csr2, [], true, seg⟩ gkey = (⟨.none, cert⟩, key)

/-- What the client reads. -/
theorem reply_keygen (cfg : ClientReq.Cfg) (s : Site) (sched : List HttpConn.Ev)
    (csr key cert : List Nat) (hS : Sendable cfg .serverKeygen none csr)
    (hR : Routes s cfg .serverKeygen) (hI : KeyIssued s cfg.seg csr key cert)
    (harr : Arrives sched (1028 + csr.length)) (hk : key ≠ []) (hc : cert ≠ []) :
    ∃ b, ClientReq.enrollRequest cfg .serverKeygen .none csr = .sent b ∧
      reply s sched (.sent b) = .bytes (Multipart.serverText key cert) := by
  obtain ⟨hd, h1, h2, h3, h4⟩ := ClientReq.C62_server_reads_request cfg .serverKeygen csr none hS.ua
    hS.host hS.hostSet hS.seg hS.cred hS.short hS.small
  obtain ⟨f1, f2, f3, f4⟩ := ClientReq.C62_headers_found cfg csr.length none
  obtain ⟨p, hp, hu⟩ := hR
  have hne : hd ≠ [] := by
    intro h
    have hn : HttpHdr.parseRequest [] = none := by decide +kernel
    rw [h, hn] at h3
    simp at h3
  have hcl : contentLen ⟨[80, 79, 83, 84], path cfg .serverKeygen, [49, 46, 49], postHeaders cfg csr.length none⟩ =
      csr.length := by
    unfold contentLen
    simp only [f1]
    exact strtoll_decimal _ (by have := hS.small; omega)
  have hserve := serve_request s sched hd csr [13, 10] _ h2 hne h3 (path_valid cfg .serverKeygen) rfl
    hcl (by have := hS.small; omega) (by have := hS.small; simp [bufSize]; omega)
    ⟨harr.1, by have := harr.2; simp; omega⟩
  obtain ⟨ca, gkey, csr2, a1, a2, a3⟩ := hI.app
  obtain ⟨sv, g1, _, g2⟩ := handle_keygen s
    ⟨[80, 79, 83, 84], path cfg .serverKeygen, [49, 46, 49], postHeaders cfg csr.length none⟩ csr p cfg.seg gkey csr2
    ca rfl hp hu f2 f4 hI.http hI.peer hI.noPassword a1 a2 hI.texts (by rw [a3]) (by rw [a3]; exact hc)
    (by rw [a3]; exact hk) (by rw [a3]; exact hI.fits.2.1) (by rw [a3]; exact hI.fits.1) hI.fits.2.2
  rw [a3] at g2
  refine ⟨_, h1, ?_⟩
  unfold reply
  have hmap : ((hd ++ (csr ++ [13, 10])).map some).map (fun x : Option Nat => x.getD 0) =
      hd ++ (csr ++ [13, 10]) := by
    rw [List.map_map]; exact List.map_id _
  simp only [hmap, hserve, g1]
  exact congrArg _ g2

/-- The result of the client's call, for texts of any length. -/
theorem keygen_call (lib : Flow.Lib) (cfg : ClientReq.Cfg) (base tmp : Nat) (c : Flow.Client)
    (u : Flow.Up) (n2 : Flow.Conn) (id : List Nat) (csr : Flow.Csr) (s : Site) (key cert : List Nat)
    (hready : c.ready = true) (huid : u.uid = some id)
    (hgen : Flow.generate c u base tmp id = .ok csr) (hl : KeyLink lib cfg c u csr s)
    (hI : KeyIssued s cfg.seg (lib.text csr) key cert) (hk : PartText key) (hc : PartText cert)
    (hc4 : cert.length ≤ 4096) :
    ∃ sent, Flow.enroll lib cfg .keygen base (some tmp) (.up u, n2) c =
      if key.length < 256 ∨ cert.length < 128 then
        some ({ err := .zeroLengthBuf, sent := sent }, c)
      else some ({ err := if lib.keyFits key cert then .none else .validation, sent := sent },
        { c with cert := some cert, key := some key }) := by
  obtain ⟨sched, harr, hrep⟩ := hl.joined
  obtain ⟨b, h1, h2⟩ := reply_keygen cfg s sched (lib.text csr) key cert hl.sendable hl.routes hI harr
    hk.ne_nil hc.ne_nil
  rw [h1, h2] at hrep
  have hm := hl.noAuth
  have hau : Flow.authOf u c.mode = .none := by rw [hm]; rfl
  have hans := Multipart.server_general lib.tokensOk ⟨c.mode, c.delay⟩ key cert hk hc
  refine ⟨[⟨.serverKeygen, .none, some csr, b, c.trust⟩], ?_⟩
  have hreq : Flow.enrollReq lib cfg .keygen c u csr =
      if key.length < 256 ∨ cert.length < 128 then
        some ⟨.zeroLengthBuf, c, csr, [⟨.serverKeygen, .none, some csr, b, c.trust⟩]⟩
      else some ⟨if lib.keyFits key cert then .none else .validation,
        { c with cert := some cert, key := some key }, csr,
        [⟨.serverKeygen, .none, some csr, b, c.trust⟩]⟩ := by
    unfold Flow.enrollReq
    rw [show Flow.Kind.uri .keygen = .serverKeygen from rfl]
    simp only [hau, h1, hrep]
    unfold Flow.answer
    rw [if_pos rfl, hans]
    by_cases hs : key.length < 256 ∨ cert.length < 128
    · rw [if_pos hs, if_pos hs]
      rfl
    · rw [if_neg hs, if_neg hs]
      have hcs : Flow.checkSizes .keygen cert key = .none := by
        unfold Flow.checkSizes
        have := hk.len
        rw [if_neg (by omega), if_neg (by omega), if_pos rfl, if_neg (by omega), if_neg (by omega)]
      simp only [if_true]
      unfold Flow.store
      rw [hcs, if_neg (by simp), if_pos rfl]
  unfold Flow.enroll
  rw [if_neg (by simp [hready])]
  simp only
  by_cases hs : key.length < 256 ∨ cert.length < 128
  · rw [if_pos hs] at hreq ⊢
    have ht : Flow.twice lib.fips (.up u, n2) (Flow.enrollCn lib cfg .keygen base tmp) c
        ⟨base, [], none⟩ = some (⟨.zeroLengthBuf, c, csr,
          [⟨.serverKeygen, .none, some csr, b, c.trust⟩]⟩, false) := by
      unfold Flow.twice
      simp only [Flow.enrollCn, huid, hgen, hreq]
      rw [if_neg (by simp)]
    rw [ht]
    simp only [Bool.false_eq_true, if_false, ← hm]
  · rw [if_neg hs] at hreq ⊢
    have ht : Flow.twice lib.fips (.up u, n2) (Flow.enrollCn lib cfg .keygen base tmp) c
        ⟨base, [], none⟩ = some (⟨if lib.keyFits key cert then .none else .validation,
          { c with cert := some cert, key := some key }, csr,
          [⟨.serverKeygen, .none, some csr, b, c.trust⟩]⟩, false) := by
      unfold Flow.twice
      simp only [Flow.enrollCn, huid, hgen, hreq]
      rw [if_neg (by rintro ⟨h, _⟩; split at h <;> simp at h)]
    rw [ht]
    simp only [Bool.false_eq_true, if_false, ← hm]

/-- C93: the key and the certificate that the server's application handed out are those that the
client's application gets, if the certificate is for the key.  Missing: keys with less than 256
characters and certificates with less than 128, see `C93_short_key_false`; clients that log in
with a password. -/
theorem C93_keygen_partial (lib : Flow.Lib) (cfg : ClientReq.Cfg) (base tmp : Nat) (c : Flow.Client)
    (u : Flow.Up) (n2 : Flow.Conn) (id : List Nat) (csr : Flow.Csr) (s : Site) (key cert : List Nat)
    (hready : c.ready = true) (huid : u.uid = some id)
    (hgen : Flow.generate c u base tmp id = .ok csr) (hl : KeyLink lib cfg c u csr s)
    (hI : KeyIssued s cfg.seg (lib.text csr) key cert) (hk : PartText key) (hc : PartText cert)
    (hc4 : cert.length ≤ 4096) (hk2 : 256 ≤ key.length) (hc2 : 128 ≤ cert.length)
    (hfit : lib.keyFits key cert = true) :
    ∃ ret c', Flow.run cfg c [(lib, .keygenEnroll base (some tmp) (.up u, n2)), (lib, .copyCert),
        (lib, .copyKey)] = some ([ret, copied cert, copied key], c') ∧
      ret.err = .none ∧ c'.cert = none ∧ c'.key = none := by
  obtain ⟨sent, h⟩ := keygen_call lib cfg base tmp c u n2 id csr s key cert hready huid hgen hl hI hk hc
    hc4
  rw [if_neg (by omega), hfit] at h
  refine ⟨{ err := .none, sent := sent }, { c with cert := none, key := none }, ?_, rfl, rfl, rfl⟩
  simp [Flow.run, Flow.step, h, Flow.copyCert, Flow.copyKey, hready, copied]

/-- C93: if the certificate is not for the key, the client reports it, although both can still
be copied. -/
theorem C93_mismatch (lib : Flow.Lib) (cfg : ClientReq.Cfg) (base tmp : Nat) (c : Flow.Client)
    (u : Flow.Up) (n2 : Flow.Conn) (id : List Nat) (csr : Flow.Csr) (s : Site) (key cert : List Nat)
    (hready : c.ready = true) (huid : u.uid = some id)
    (hgen : Flow.generate c u base tmp id = .ok csr) (hl : KeyLink lib cfg c u csr s)
    (hI : KeyIssued s cfg.seg (lib.text csr) key cert) (hk : PartText key) (hc : PartText cert)
    (hc4 : cert.length ≤ 4096) (hk2 : 256 ≤ key.length) (hc2 : 128 ≤ cert.length)
    (hfit : lib.keyFits key cert = false) :
    ∃ ret c', Flow.enroll lib cfg .keygen base (some tmp) (.up u, n2) c = some (ret, c') ∧
      ret.err = .validation ∧ c'.cert = some cert ∧ c'.key = some key := by
  obtain ⟨sent, h⟩ := keygen_call lib cfg base tmp c u n2 id csr s key cert hready huid hgen hl hI hk hc
    hc4
  rw [if_neg (by omega), hfit] at h
  exact ⟨_, _, h, rfl, rfl, rfl⟩

/-- C93 is false of the code for short keys: the server has made key and certificate and sent
them, and the client throws both away and reports an error.  (A key on the curve P-256 has 184
characters.) -/
theorem C93_short_key_false (lib : Flow.Lib) (cfg : ClientReq.Cfg) (base tmp : Nat) (c : Flow.Client)
    (u : Flow.Up) (n2 : Flow.Conn) (id : List Nat) (csr : Flow.Csr) (s : Site) (key cert : List Nat)
    (hready : c.ready = true) (huid : u.uid = some id)
    (hgen : Flow.generate c u base tmp id = .ok csr) (hl : KeyLink lib cfg c u csr s)
    (hI : KeyIssued s cfg.seg (lib.text csr) key cert) (hk : PartText key) (hc : PartText cert)
    (hc4 : cert.length ≤ 4096) (hshort : key.length < 256) :
    ∃ ret, Flow.enroll lib cfg .keygen base (some tmp) (.up u, n2) c = some (ret, c) ∧
      ret.err = .zeroLengthBuf := by
  obtain ⟨sent, h⟩ := keygen_call lib cfg base tmp c u n2 id csr s key cert hready huid hgen hl hI hk hc
    hc4
  rw [if_pos (.inl hshort)] at h
  exact ⟨_, h, rfl⟩

/-! ### Example values -/

/-- A server that makes keys with `n` characters. -/
def exKeySite (n : Nat) : Site :=
  { exSite with
    srv := { exSrv with
      kg := { Server.demoKeygen with
        caCb := some fun _ key => (⟨.none, List.replicate 1500 66⟩, key)
        keygenCb := some (some (List.replicate n 65)) }
      mp := ⟨Multipart.partHdr Multipart.serverBoundary Multipart.ctKey,
        [13, 10] ++ Multipart.partHdr Multipart.serverBoundary Multipart.ctCert,
        [13, 10] ++ [45, 45] ++ Multipart.serverBoundary ++ [45, 45] ++ [13, 10, 13, 10]⟩ } }

def exKeyUp (n : Nat) : Flow.Up where
  uid := some [100, 87, 108, 107]
  auth := fun _ => .value [66, 97, 115, 105, 99, 32, 100, 84, 112, 119]
  reply := reply (exKeySite n) exSched (ClientReq.enrollRequest exCfg .serverKeygen .none [77, 73, 73, 61])

/-- A library that accepts the pair of key and certificate, or does not. -/
def exKeyLib (fit : Bool) : Flow.Lib := { exLib with keyFits := fun _ _ => fit }

theorem exKeyReply (n : Nat) (fit : Bool) (csr : Flow.Csr) : (exKeyUp n).reply =
    reply (exKeySite n) exSched
      (ClientReq.enrollRequest exCfg .serverKeygen .none ((exKeyLib fit).text csr)) := by
  rw [show (exKeyLib fit).text csr = [77, 73, 73, 61] from rfl]
  unfold exKeyUp
  dsimp only

theorem exKeyLinked (n : Nat) (fit : Bool) (csr : Flow.Csr) :
    KeyLink (exKeyLib fit) exCfg Flow.exInit (exKeyUp n) csr (exKeySite n) := by
  refine ⟨?_, ?_, rfl, exSched, ?_, exKeyReply n fit csr⟩
  · refine C89_routes_segment _ exCfg .serverKeygen true (fun _ => true) [] (fun _ => rfl) rfl ?_
      (fun h => by cases h)
    intro g hg
    injection hg with hg
    subst hg
    refine ⟨by decide, by intro t; simp, by simp, by decide, ?_⟩
    intro o; cases o <;> decide
  · rw [show (exKeyLib fit).text csr = [77, 73, 73, 61] from rfl]
    refine ⟨⟨by decide, by decide⟩, ⟨by decide, by decide⟩, by decide, ?_, ?_, by decide +kernel,
      by decide⟩
    · intro s hs; injection hs with hs; subst hs; decide
    · intro v hv; cases hv
  · rw [show (exKeyLib fit).text csr = [77, 73, 73, 61] from rfl]
    exact exArrives _ (by decide)

theorem exKeyIssued (n : Nat) (h : n ≤ 5000) (body : List Nat) :
    KeyIssued (exKeySite n) exCfg.seg body (List.replicate n 65) (List.replicate 1500 66) := by
  refine ⟨rfl, .inl rfl, .inl rfl, rfl, ?_, ?_⟩
  · rw [List.length_replicate, List.length_replicate]
    rw [show (exKeySite n).out = 5000 from rfl]
    exact ⟨h, by decide, by decide⟩
  · exact ⟨_, List.replicate n 65, Server.demoCsr, rfl,
      ⟨rfl, ⟨_, _, rfl, rfl, rfl⟩, ⟨rfl, by decide⟩, .inr rfl, fun h => by cases h⟩, rfl⟩

theorem exCertText : PartText (List.replicate 1500 66) :=
  Multipart.partText_replicate _ _ (by decide) (by decide) (by decide)

example : ∃ ret c', Flow.run exCfg Flow.exInit
      [(exKeyLib true, .keygenEnroll 1 (some 7) (.up (exKeyUp 1624), .down .connect)),
        (exKeyLib true, .copyCert), (exKeyLib true, .copyKey)] =
      some ([ret, copied (List.replicate 1500 66), copied (List.replicate 1624 65)], c') ∧
    ret.err = .none ∧ c'.cert = none ∧ c'.key = none :=
  C93_keygen_partial (exKeyLib true) exCfg 1 7 Flow.exInit (exKeyUp 1624) _ [100, 87, 108, 107] _ (exKeySite 1624)
    _ _ rfl rfl rfl (exKeyLinked _ _ _) (exKeyIssued 1624 (by decide) _)
    (Multipart.partText_replicate _ _ (by decide) (by decide) (by decide)) exCertText
    (by rw [List.length_replicate]; decide) (by rw [List.length_replicate]; decide)
    (by rw [List.length_replicate]; decide) rfl

example : ∃ ret c', Flow.enroll (exKeyLib false) exCfg .keygen 1 (some 7)
      (.up (exKeyUp 1624), .down .connect) Flow.exInit = some (ret, c') ∧
    ret.err = .validation ∧ c'.cert = some (List.replicate 1500 66) ∧
      c'.key = some (List.replicate 1624 65) :=
  C93_mismatch (exKeyLib false) exCfg 1 7 Flow.exInit (exKeyUp 1624) _ [100, 87, 108, 107] _ (exKeySite 1624)
    _ _ rfl rfl rfl (exKeyLinked _ _ _) (exKeyIssued 1624 (by decide) _)
    (Multipart.partText_replicate _ _ (by decide) (by decide) (by decide)) exCertText
    (by rw [List.length_replicate]; decide) (by rw [List.length_replicate]; decide)
    (by rw [List.length_replicate]; decide) rfl

example : ∃ ret, Flow.enroll (exKeyLib true) exCfg .keygen 1 (some 7)
      (.up (exKeyUp 184), .down .connect) Flow.exInit = some (ret, Flow.exInit) ∧
    ret.err = .zeroLengthBuf :=
  C93_short_key_false (exKeyLib true) exCfg 1 7 Flow.exInit (exKeyUp 184) _ [100, 87, 108, 107] _ (exKeySite 184)
    _ _ rfl rfl rfl (exKeyLinked _ _ _) (exKeyIssued 184 (by decide) _)
    (Multipart.partText_replicate _ _ (by decide) (by decide) (by decide)) exCertText
    (by rw [List.length_replicate]; decide) (by rw [List.length_replicate]; decide)

end Verif.Wire
