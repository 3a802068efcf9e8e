import Verif.CoapEnrollModel
import Verif.CoapSourceProps

/-!
# Enrolment and key generation over CoAP end to end (C99)
-/
namespace Verif.Coap
open Verif.Base64 (Bytes enc wrap)
open Verif.Server (CertVerified AppAccepted IsRA PopHeld Cfg Tls Csr KeygenCfg Multi CaReq CaRes
  simpleEnroll serverKeygen CaKind caOf kindOf)

/-! ## Authorisation over CoAP -/

theorem coap_auth {cfg : Cfg} {tls : Tls} {hdr parse ty buf} {a : Server.AuthOut}
    (ht : cfg.transport = .coap) (h : Server.enrollAuth cfg tls hdr parse ty buf = some a)
    (hok : Server.Authorised a.st) :
    CertVerified tls ∧ a.user = none ∧ (cfg.ecaEnabled = true → AppAccepted cfg a.evs) := by
  unfold Server.enrollAuth at h
  cases hc : Server.checkTlsCert tls with
  | none => simp [hc] at h; subst h; simp [Server.Authorised] at hok
  | some st0 =>
    simp only [hc, ht] at h
    by_cases h1 : (if st0 ≠ .certAuth ∧ tls.srpUser = true then Server.AuthState.srpAuth else st0) ≠
        .certAuth
    · rw [if_pos h1] at h; simp at h; subst h; simp [Server.Authorised] at hok
    · rw [if_neg h1] at h
      have hst : st0 = .certAuth := by
        by_cases h2 : st0 = .certAuth
        · exact h2
        · exfalso
          apply h1
          split
          · exact nofun
          · exact h2
      have hv : CertVerified tls := by
        rw [hst] at hc
        unfold Server.checkTlsCert at hc
        unfold CertVerified
        cases hp : tls.peer with
        | none => simp [hp] at hc
        | some v => cases v <;> simp [hp] at hc ⊢
      refine ⟨hv, ?_⟩
      by_cases h2 : cfg.ecaEnabled = true
      · simp only [h2, if_true] at h
        by_cases h3 : buf = []
        · simp [h3] at h; subst h; simp [Server.Authorised] at hok
        · simp only [h3, if_false] at h
          generalize Server.handleEca cfg tls parse buf cfg.ecaCsrCheck = e at h
          cases he : e.1 with
          | good =>
            simp only [he] at h
            cases hcb : cfg.authCb with
            | none => simp [hcb] at h
            | some cb =>
              simp only [hcb, Option.some.injEq] at h
              subst h
              refine ⟨rfl, fun _ => ⟨cb, e.2.1, hcb, by simp, ?_⟩⟩
              simp only [Server.Authorised] at hok
              by_cases hx : cb e.2.1 = true
              · exact hx
              · simp [hx] at hok
          | _ =>
            simp only [he, Option.some.injEq] at h
            subst h; simp [Server.Authorised] at hok
      · simp only [h2] at h
        simp at h
        subst h
        exact ⟨rfl, fun h => absurd h h2⟩

/-! ## What a certificate means -/

/-- What the server made sure of before its CA was asked for the certificate `text` ↦ `cert`. -/
def Checked (cfg : Cfg) (tls : Tls) (parse : List Nat → Option Csr) (re : Bool)
    (text cert : List Nat) : Prop :=
  CertVerified tls ∧
  (cfg.ecaEnabled = true → ∃ cb c, cfg.authCb = some cb ∧ cb c = true) ∧
  (∃ csr, parse text = some csr ∧ csr.hasPubkey = true ∧ csr.verifyRc > 0 ∧
    (IsRA tls ∨ PopHeld cfg tls csr)) ∧
  (cfg.enforceAttrs = true → cfg.attrsPresent text = true) ∧
  ∃ ca, (if re then cfg.reenrollCb else cfg.enrollCb) = some ca ∧
    (ca ⟨text, [], true, none⟩).rc = .none ∧ (ca ⟨text, [], true, none⟩).cert = cert ∧ cert ≠ []

theorem verified_peer {tls : Tls} (h : CertVerified tls) : tls.peer.isSome = true := by
  rcases h with h | h <;> rw [h] <;> rfl

theorem lastCa_snoc (evs : List Server.Ev) (k : CaKind) (q : CaReq) :
    lastCa (evs ++ [Server.Ev.ca k q]) = some q := by
  simp only [lastCa, List.getLast?_append, List.getLast?_singleton, Option.some_or]

/-- The EST layer returns a certificate exactly if everything was checked and the CA issued it
for just this text. -/
theorem coapEnroll_sound {cfg : Cfg} {tls : Tls} {parse} {re : Bool} {text cert : List Nat}
    (ht : cfg.transport = .coap) (h : coapEnroll cfg tls parse re text = some (.none, cert)) :
    Checked cfg tls parse re text cert := by
  unfold coapEnroll at h
  cases hs : simpleEnroll cfg tls noNet parse re (coapRq text) with
  | none => rw [hs] at h; cases h
  | some o =>
    rw [hs] at h
    simp only at h
    have hrc : o.rc = .none := by
      split at h <;> simp at h <;> exact h.1
    rcases Server.simpleEnroll_cases hs with hst | ⟨ca, a, csr, hr, ho⟩
    · exact absurd hrc hst.rc.1
    · obtain ⟨hv, hu, heca⟩ := coap_auth ht hr.auth hr.ok
      obtain ⟨hev, _, hcsr, _⟩ := Server.enrollAuth_facts hr.auth
      have hq : Server.caReqOf cfg tls (coapRq text) a = ⟨text, [], true, none⟩ := by
        simp only [Server.caReqOf, ht, coapRq, verified_peer hv]
        rfl
      rw [hq] at ho
      have hca : (ca ⟨text, [], true, none⟩).rc = .none ∧ (ca ⟨text, [], true, none⟩).cert ≠ [] ∧
          o.evs = a.evs ++ [.ca (kindOf re) ⟨text, [], true, none⟩] := by
        rw [ho] at hrc ⊢
        simp only [Server.enrollAnswer] at hrc ⊢
        by_cases hx : (ca ⟨text, [], true, none⟩).rc = .none ∧ (ca ⟨text, [], true, none⟩).cert ≠ []
        · rw [if_pos hx, ht]
          exact ⟨hx.1, hx.2, rfl⟩
        · rw [if_neg hx] at hrc
          split at hrc <;> cases hrc
      have hcb : (if re then cfg.reenrollCb else cfg.enrollCb) = some ca := hr.cb
      rw [hcb, hca.2.2, lastCa_snoc] at h
      simp only [hrc, if_true, Option.some.injEq, Prod.mk.injEq, true_and] at h
      have hck := hr.checked
      simp only [Server.checkCsr, Bool.and_eq_true, decide_eq_true_eq] at hck
      refine ⟨hv, ?_, ⟨csr, hr.parsed, hck.1, hck.2, ?_⟩, hr.attrs, ca, hcb, hca.1, h,
        by rw [← h]; exact hca.2.1⟩
      · intro he
        obtain ⟨cb, c, h1, _, h3⟩ := heca he
        exact ⟨cb, c, h1, h3⟩
      · rcases hr.pop with hp | hp
        · left
          exact ⟨by intro hn; simp [hn] at hp, hp.2⟩
        · exact Or.inr (Server.popHeld_of_ok hp)

/-- What the server made sure of before it let a key and a certificate out. -/
def CheckedKey (cfg : Cfg) (kg : KeygenCfg) (tls : Tls) (parse : List Nat → Option Csr)
    (text cert key : List Nat) : Prop :=
  CertVerified tls ∧
  (cfg.ecaEnabled = true → ∃ cb c, cfg.authCb = some cb ∧ cb c = true) ∧
  ∃ csr new csr1 csr2 ca, parse text = some csr ∧ kg.keygenCb = some (some new) ∧
    kg.setPubkey new csr = some csr1 ∧ kg.sign new csr1 = some csr2 ∧ csr2.hasPubkey = true ∧
    csr2.verifyRc > 0 ∧ (IsRA tls ∨ PopHeld cfg tls csr2) ∧
    (cfg.enforceAttrs = true → cfg.attrsPresent (kg.encode csr2) = true) ∧
    kg.caCb = some ca ∧ (ca ⟨kg.encode csr2, [], true, none⟩ new).1.rc = .none ∧
    (ca ⟨kg.encode csr2, [], true, none⟩ new).1.cert = cert ∧ cert ≠ [] ∧
    (ca ⟨kg.encode csr2, [], true, none⟩ new).2 = key

theorem coapKeygen_sound {cfg : Cfg} {kg : KeygenCfg} {mp : Multi} {tls : Tls} {parse}
    {text cert key : List Nat} (ht : cfg.transport = .coap)
    (h : coapKeygen cfg kg mp tls parse text = some (.none, cert, key)) :
    CheckedKey cfg kg tls parse text cert key := by
  unfold coapKeygen at h
  cases hs : serverKeygen cfg kg mp tls noNet (fun _ => 0) parse (coapRq text) with
  | none => rw [hs] at h; cases h
  | some o =>
    rw [hs] at h
    simp only at h
    have hrc : o.rc = .none := by
      split at h
      · split at h
        · assumption
        · simp at h; exact h.1
      · simp at h; exact h.1
    rcases Server.serverKeygen_cases hs with hst | ⟨ca, a, csr, new, csr2, hr, ho⟩
    · exact absurd hrc hst.rc.1
    · obtain ⟨hv, hu, heca⟩ := coap_auth ht hr.auth hr.ok
      obtain ⟨csr1, hc1, hc2⟩ := hr.rekeyed
      have hq : Server.keygenReq cfg tls (coapRq text) a (kg.encode csr2) =
          ⟨kg.encode csr2, [], true, none⟩ := by
        simp only [Server.keygenReq, ht, coapRq, verified_peer hv]
        rfl
      rw [hq] at ho
      have hca : (ca ⟨kg.encode csr2, [], true, none⟩ new).1.rc = .none ∧
          (ca ⟨kg.encode csr2, [], true, none⟩ new).1.cert ≠ [] ∧
          o.evs = a.evs ++ [.ca .keygen ⟨kg.encode csr2, [], true, none⟩] := by
        rw [ho] at hrc ⊢
        simp only [Server.keygenAnswer] at hrc ⊢
        by_cases hx : (ca ⟨kg.encode csr2, [], true, none⟩ new).1.rc = .none ∧
            (ca ⟨kg.encode csr2, [], true, none⟩ new).1.cert ≠ []
        · rw [if_pos hx, ht]
          exact ⟨hx.1, hx.2, rfl⟩
        · rw [if_neg hx] at hrc
          split at hrc <;> cases hrc
      rw [hr.cb, hr.gen, hca.2.2, lastCa_snoc] at h
      simp only [hrc, if_true, Option.some.injEq, Prod.mk.injEq, true_and] at h
      have hck := hr.checked
      simp only [Server.checkCsr, Bool.and_eq_true, decide_eq_true_eq] at hck
      refine ⟨hv, ?_, csr, new, csr1, csr2, ca, hr.parsed, hr.gen, hc1, hc2, hck.1, hck.2, ?_,
        hr.attrs, hr.cb, hca.1, h.1, by rw [← h.1]; exact hca.2.1, h.2⟩
      · intro he
        obtain ⟨cb, c, h1, _, h3⟩ := heca he
        exact ⟨cb, c, h1, h3⟩
      · rcases hr.pop with hp | hp
        · left
          exact ⟨by intro hn; simp [hn] at hp, hp.2⟩
        · exact Or.inr (Server.popHeld_of_ok hp)

/-- The EST layer behind a message is the server with this configuration on a connection with
this TLS state (and its runs are defined). -/
structure Serves (cfg : Cfg) (kg : KeygenCfg) (mp : Multi) (parse : List Nat → Option Csr)
    (tls : Tls) (est : Est) : Prop where
  enroll : ∀ text, coapEnroll cfg tls parse false text = some (est.enroll text)
  reenroll : ∀ text, coapEnroll cfg tls parse true text = some (est.reenroll text)
  keygen : ∀ text, coapKeygen cfg kg mp tls parse text = some (est.keygen text)

/-- C99: over CoAP, whatever is sent as the response to an enrolment, re-enrolment or key
generation, at any time in any history of any sessions, is a piece of what the CA issued for a
request of this very session, and before the CA was asked the client's certificate was verified
by TLS (no password helps over CoAP), with enhanced certificate authentication the application
agreed, and the CSR parsed, its signature was verified, proof of possession held (or the client
is a registration authority) and the enforced attributes were there. -/
theorem C99_only_after_checks (L : Libc) (hL : L.Ok) (odd) (cut : Cut) (cap : Nat) (cfg : Cfg)
    (kg : KeygenCfg) (mp : Multi) (parse) (ht : cfg.transport = .coap) (past : List Act)
    (hkeys : ∀ a ∈ past, a.key ≠ []) (est : Est) (peer : Peer) (hk : peer.key ≠ []) (path : Path)
    (m : Msg)
    (hserves : ∀ e p q x, Act.msg e p q x ∈ past ++ [.msg est peer path m] →
      ∃ tls, Serves cfg kg mp parse tls e)
    (c f : Nat) (b : List Nat)
    (h : (handle L odd cut est (after L odd cut (initTbl cap) past) peer path m).1.1 =
      .reply c (some f) b) :
    ∃ body, b = (cut m.block2 body).1 ∧ ∃ e p x tls csr text,
      Act.msg e p path x ∈ past ++ [.msg est peer path m] ∧ p.key = peer.key ∧
      Serves cfg kg mp parse tls e ∧
      (path = .sen → Submitted csr text ∧
        ∃ cert, Checked cfg tls parse false text cert ∧ DecodesTo odd cert body) ∧
      (path = .sren → Submitted csr text ∧
        ∃ cert, Checked cfg tls parse true text cert ∧ DecodesTo odd cert body) ∧
      (path = .skg → Submitted csr text ∧ ∃ cert key, CheckedKey cfg kg tls parse text cert key ∧
        Cbor.skgPayload odd key cert = .payload body) := by
  obtain ⟨body, h1, before, e, p, x, aft, h2, h3, h4, h5, h6⟩ :=
    C98_everything_sent_has_a_source L hL odd cut cap past hkeys est peer hk path m c f b h
  have hmem : Act.msg e p path x ∈ past ++ [.msg est peer path m] := by rw [h2]; simp
  obtain ⟨tls, hserve⟩ := hserves e p path x hmem
  refine ⟨body, h1, e, p, x, tls, ?_⟩
  cases path with
  | crts => exact ⟨[], [], hmem, h3, hserve, nofun, nofun, nofun⟩
  | att => exact ⟨[], [], hmem, h3, hserve, nofun, nofun, nofun⟩
  | sen =>
    obtain ⟨csr, text, cert, m1, m2, m3⟩ := h5
    refine ⟨csr, text, hmem, h3, hserve, fun _ => ⟨m1, cert, ?_, m3⟩, nofun, nofun⟩
    exact coapEnroll_sound ht (by rw [hserve.enroll, m2])
  | sren =>
    obtain ⟨csr, text, cert, m1, m2, m3⟩ := h5
    refine ⟨csr, text, hmem, h3, hserve, nofun, fun _ => ⟨m1, cert, ?_, m3⟩, nofun⟩
    exact coapEnroll_sound ht (by rw [hserve.reenroll, m2])
  | skg =>
    obtain ⟨csr, text, cert, key, m1, m2, m3⟩ := h5
    refine ⟨csr, text, hmem, h3, hserve, nofun, nofun, fun _ => ⟨m1, cert, key, ?_, m3⟩⟩
    exact coapKeygen_sound ht (by rw [hserve.keygen, m2])

/-! ## Who is served -/

/-- A CSR that passes: parsed, signed, with proof of possession if need be, with the enforced
attributes. -/
def Good (cfg : Cfg) (tls : Tls) (csr : Csr) (body : List Nat) : Prop :=
  csr.hasPubkey = true ∧ csr.verifyRc > 0 ∧
  (IsRA tls ∨ csr.chal = .absent ∧ cfg.enablePop = false ∨
    ∃ u, u ≠ [] ∧ csr.chal = .str u ∧ tls.uid = some u) ∧
  (cfg.enforceAttrs = true → cfg.attrsPresent body = true)

theorem good_pop {cfg : Cfg} {tls : Tls} {csr : Csr} {body} (h : Good cfg tls csr body) :
    (if (tls.peer.isSome && tls.cmcRA) = true then Server.Pop.ok
      else Server.tlsUidAuth cfg.enablePop tls.uid csr.chal) = .ok := by
  obtain ⟨_, _, h, _⟩ := h
  split
  · rfl
  · rename_i hra
    rcases h with h | ⟨h1, h2⟩ | ⟨u, h1, h2, h3⟩
    · obtain ⟨h1, h2⟩ := h
      exfalso; apply hra
      cases hp : tls.peer with
      | none => exact absurd hp h1
      | some v => simp [h2]
    · rw [h1, h2]; rfl
    · rw [h2, h3]
      simp [Server.tlsUidAuth, h1]

theorem coap_authorised {cfg : Cfg} {tls : Tls} (hdr parse ty buf) (ht : cfg.transport = .coap)
    (heca : cfg.ecaEnabled = false) (hv : CertVerified tls) :
    Server.enrollAuth cfg tls hdr parse ty buf = some { st := .certAuth } := by
  have hc : Server.checkTlsCert tls = some .certAuth := by
    unfold Server.checkTlsCert
    rcases hv with h | h <;> rw [h]
  unfold Server.enrollAuth
  simp [hc, ht, heca]

theorem coapEnroll_complete {cfg : Cfg} {tls : Tls} {parse} {re : Bool} {text : List Nat}
    (ht : cfg.transport = .coap) (heca : cfg.ecaEnabled = false) (hv : CertVerified tls) {csr : Csr}
    (hp : parse text = some csr) (hg : Good cfg tls csr text) {ca : CaReq → CaRes}
    (hcb : (if re then cfg.reenrollCb else cfg.enrollCb) = some ca) {cert : List Nat}
    (hca : ca ⟨text, [], true, none⟩ = ⟨.none, cert⟩) (hne : cert ≠ []) :
    coapEnroll cfg tls parse re text = some (.none, cert) := by
  have hpop := good_pop hg
  have hs : simpleEnroll cfg tls noNet parse re (coapRq text) =
      some ⟨.none, [.ca (if re then .reenroll else .enroll) ⟨text, [], true, none⟩], []⟩ := by
    unfold simpleEnroll
    rw [hcb]
    simp only [ht, reduceCtorEq, false_and, if_false, coap_authorised _ _ _ _ ht heca hv]
    have hck : Server.checkCsr csr = true := by simp [Server.checkCsr, hg.1, hg.2.1]
    have hat : (cfg.enforceAttrs && !cfg.attrsPresent text) = false := by
      cases he : cfg.enforceAttrs with
      | false => rfl
      | true => simp [hg.2.2.2 he]
    have hq : ∀ a : Server.AuthOut, Server.caReqOf cfg tls (coapRq text) a =
        ⟨text, [], true, none⟩ := by
      intro a
      simp only [Server.caReqOf, ht, coapRq, verified_peer hv]
      rfl
    unfold Server.enrollCsr
    simp only [Option.none_or, show (coapRq text).body = text from rfl, hp, hck, Bool.not_true,
      Bool.false_eq_true, if_false, hpop, hat, hq, hca, Server.enrollAnswer, hne, ne_eq,
      not_false_eq_true, and_self, if_true, ht]
    rfl
  unfold coapEnroll
  rw [hs]
  simp only [hcb, lastCa, List.getLast?_singleton, if_true, hca]

theorem coapKeygen_complete {cfg : Cfg} {kg : KeygenCfg} {mp : Multi} {tls : Tls} {parse}
    {text : List Nat} (ht : cfg.transport = .coap) (heca : cfg.ecaEnabled = false)
    (hv : CertVerified tls) {csr csr1 csr2 : Csr} {new : List Nat} (hp : parse text = some csr)
    (hkey : kg.keygenCb = some (some new)) (h1 : kg.setPubkey new csr = some csr1)
    (h2 : kg.sign new csr1 = some csr2) (hg : Good cfg tls csr2 (kg.encode csr2))
    {ca : CaReq → List Nat → CaRes × List Nat} (hcb : kg.caCb = some ca) {cert key : List Nat}
    (hca : ca ⟨kg.encode csr2, [], true, none⟩ new = (⟨.none, cert⟩, key)) (hne : cert ≠ []) :
    coapKeygen cfg kg mp tls parse text = some (.none, cert, key) := by
  have hpop := good_pop hg
  have hs : serverKeygen cfg kg mp tls noNet (fun _ => 0) parse (coapRq text) =
      some ⟨.none, [.ca .keygen ⟨kg.encode csr2, [], true, none⟩], []⟩ := by
    unfold serverKeygen
    rw [hcb, hkey]
    simp only [ht, reduceCtorEq, false_and, if_false, coap_authorised _ _ _ _ ht heca hv]
    have hck : Server.checkCsr csr2 = true := by simp [Server.checkCsr, hg.1, hg.2.1]
    have hat : (cfg.enforceAttrs && !cfg.attrsPresent (kg.encode csr2)) = false := by
      cases he : cfg.enforceAttrs with
      | false => rfl
      | true => simp [hg.2.2.2 he]
    have hq : ∀ a : Server.AuthOut, Server.keygenReq cfg tls (coapRq text) a (kg.encode csr2) =
        ⟨kg.encode csr2, [], true, none⟩ := by
      intro a
      simp only [Server.keygenReq, ht, coapRq, verified_peer hv]
      rfl
    have hrk : Server.rekey kg (some new) csr = .ok (new, csr2) := by
      simp only [Server.rekey, h1, h2, hck, if_true]
    unfold Server.keygenCsr
    simp only [Option.none_or, show (coapRq text).body = text from rfl, hp, hrk,
      Bool.false_eq_true, if_false, hpop, hat, hq, hca, Server.keygenAnswer, hne, ne_eq,
      not_false_eq_true, and_self, if_true, ht]
    rfl
  unfold coapKeygen
  rw [hs]
  simp only [hcb, hkey, lastCa, List.getLast?_singleton, if_true, hca]

/-! ## A whole upload -/

/-- The messages of an upload in blocks. -/
def upload (est : Est) (peer : Peer) (path : Path) (p : List Nat) (szx n : Nat) : List Act :=
  (List.range n).map fun i => .msg est peer path ⟨msg p szx i, none⟩

/-- The record after a number of blocks. -/
theorem post_block (f : Nat) (r : Req) (p : List Nat)
    (szx i : Nat) (n : Node) (hne : p ≠ []) (hmax : p.length ≤ 16384)
    (hi : i * 2 ^ (szx + 4) < p.length) (hcur : n.cur = r) (hresp : begun n.resp = false)
    (hreq : i = 0 ∨ n.req = p.take (i * 2 ^ (szx + 4))) :
    ∃ m : Node, begun m.resp = false ∧ m.key = n.key ∧ m.cur = r ∧
      m.req = p.take ((i + 1) * 2 ^ (szx + 4)) ∧
      recv f r (msg p szx i) n =
        if (i + 1) * 2 ^ (szx + 4) < p.length then .more m else .ready m := by
  have hb : ∀ x, min x p.length ≤ bufMax := fun x => by simp only [bufMax]; omega
  by_cases h0 : i = 0
  · subst h0
    obtain ⟨m, m1, m2, m3, m4⟩ := recv_first f r p szx n hne (hb _) (by rw [hresp]; exact nofun)
    refine ⟨{ m with req := p.take (2 ^ (szx + 4)) }, m1, m2, m3 hcur, by simp, ?_⟩
    rw [m4]
    simp only [Nat.zero_add, Nat.one_mul]
  · have hr := recv_next f r p szx i n (by omega) hi (hb _) hresp (Or.inl (hreq.resolve_left h0))
    exact ⟨{ n with req := p.take ((i + 1) * 2 ^ (szx + 4)) }, hresp, rfl, hcur, rfl, hr⟩

/-- What an upload is answered: "continue" for all blocks but the last. -/
theorem upload_run (odd) (cut : Cut) (est : Est) (peer : Peer) (path : Path) (f : Nat)
    (proc : Node → Out × Node)
    (hpath : ∀ m n, nodeStep odd cut est path m n = postNode cut f path.req proc m n)
    (p : List Nat) (szx : Nat) (hne : p ≠ []) (hmax : p.length ≤ 16384)
    (hadm : ∀ i, precheck peer path ⟨msg p szx i, none⟩ = none) (i : Nat) :
    i * 2 ^ (szx + 4) < p.length →
    ∃ s, (i = 0 → s = none) ∧
      (ownRun odd cut none (upload est peer path p szx (i + 1))).map (fun x => x.2.1) =
        (List.replicate i (.reply 231 none [])) ++
          [(ownStep odd cut s (.msg est peer path ⟨msg p szx i, none⟩)).1.1] ∧
      (0 < i → ∃ n, s = some n ∧ n.cur = path.req ∧ begun n.resp = false ∧
        n.req = p.take (i * 2 ^ (szx + 4))) := by
  have hr : path.req ≠ .reset := by cases path <;> exact nofun
  have split : ∀ (as : List Act) (s : Option Node) (a : Act), ∃ s',
      ownRun odd cut s (as ++ [a]) = ownRun odd cut s as ++ [(a.key, (ownStep odd cut s' a).1)] ∧
      s' = as.foldl (fun s a => (ownStep odd cut s a).2) s := by
    intro as
    induction as with
    | nil => intro s a; exact ⟨s, rfl, rfl⟩
    | cons b as ih =>
      intro s a
      obtain ⟨s', h1, h2⟩ := ih (ownStep odd cut s b).2 a
      exact ⟨s', by simp only [List.cons_append, ownRun, h1], by simp only [List.foldl_cons, h2]⟩
  have hup : ∀ i, upload est peer path p szx (i + 1) =
      upload est peer path p szx i ++ [.msg est peer path ⟨msg p szx i, none⟩] := by
    intro i; simp only [upload, List.range_succ, List.map_append, List.map_cons, List.map_nil]
  have main : ∀ i, i * 2 ^ (szx + 4) < p.length →
      ((ownRun odd cut none (upload est peer path p szx i)).map (fun x => x.2.1) =
        List.replicate i (.reply 231 none [])) ∧
      (0 < i → ∃ n, (upload est peer path p szx i).foldl (fun s a => (ownStep odd cut s a).2) none =
        some n ∧ n.cur = path.req ∧ begun n.resp = false ∧ n.req = p.take (i * 2 ^ (szx + 4))) := by
    intro i
    induction i with
    | zero => intro _; exact ⟨rfl, fun h => absurd h (Nat.lt_irrefl 0)⟩
    | succ i ih =>
      intro hi
      have h2 : 0 < 2 ^ (szx + 4) := Nat.two_pow_pos _
      have hlt : i * 2 ^ (szx + 4) < p.length := by rw [Nat.add_mul] at hi; omega
      obtain ⟨a1, a2⟩ := ih hlt
      obtain ⟨s', b1, b2⟩ := split (upload est peer path p szx i) none
        (.msg est peer path ⟨msg p szx i, none⟩)
      have hrec : ∃ n : Node, ownRecord s' peer.key path.req = n ∧ n.cur = path.req ∧
          begun n.resp = false ∧ (i = 0 ∨ n.req = p.take (i * 2 ^ (szx + 4))) := by
        by_cases h0 : i = 0
        · subst h0
          rw [b2]
          exact ⟨_, rfl, rfl, rfl, Or.inl rfl⟩
        · obtain ⟨n, n1, n2, n3, n4⟩ := a2 (by omega)
          rw [b2, n1]
          exact ⟨n, by simp [ownRecord, n2], n2, n3, Or.inr n4⟩
      obtain ⟨n, n1, n2, n3, n4⟩ := hrec
      obtain ⟨m, m1, m2, m3, m4, m5⟩ := post_block f path.req p szx i n hne hmax hlt n2 n3 n4
      rw [if_pos hi] at m5
      have hstep : ownStep odd cut s' (.msg est peer path ⟨msg p szx i, none⟩) =
          ((.reply 231 none [], postStart path.req (msg p szx i) n), some m) := by
        simp only [ownStep, hadm, n1, hpath, postNode, m5]
      constructor
      · rw [hup, b1, List.map_append, a1, List.map_singleton, hstep, List.replicate_succ']
      · intro _
        rw [hup, List.foldl_append, ← b2]
        simp only [List.foldl_cons, List.foldl_nil, hstep]
        exact ⟨m, rfl, m3, m1, m4⟩
  intro hi
  obtain ⟨a1, a2⟩ := main i hi
  obtain ⟨s', b1, b2⟩ := split (upload est peer path p szx i) none
    (.msg est peer path ⟨msg p szx i, none⟩)
  refine ⟨s', ?_, ?_, ?_⟩
  · intro h0; subst h0; rw [b2]; rfl
  · rw [hup, b1, List.map_append, a1]; rfl
  · intro h0
    obtain ⟨n, n1, n2⟩ := a2 h0
    exact ⟨n, by rw [b2, n1], n2⟩

theorem upload_last (odd) (cut : Cut) (est : Est) (peer : Peer) (path : Path) (f : Nat)
    (proc : Node → Out × Node)
    (hpath : ∀ m n, nodeStep odd cut est path m n = postNode cut f path.req proc m n)
    (p : List Nat) (szx : Nat) (hne : p ≠ []) (hmax : p.length ≤ 16384)
    (hadm : ∀ i, precheck peer path ⟨msg p szx i, none⟩ = none) (i : Nat)
    (hi : i * 2 ^ (szx + 4) < p.length) (hlast : p.length ≤ (i + 1) * 2 ^ (szx + 4)) :
    ∃ x : Node, x.req = p ∧
      (ownRun odd cut none (upload est peer path p szx (i + 1))).map (fun x => x.2.1) =
        (List.replicate i (.reply 231 none [])) ++ [(postEnd cut f none
          (postStart path.req (msg p szx i) x) (proc x)).reply] := by
  obtain ⟨s, h1, h2, h3⟩ := upload_run odd cut est peer path f proc hpath p szx hne hmax hadm i hi
  have hrec : ∃ n : Node, ownRecord s peer.key path.req = n ∧ n.cur = path.req ∧
      begun n.resp = false ∧ (i = 0 ∨ n.req = p.take (i * 2 ^ (szx + 4))) := by
    by_cases h0 : i = 0
    · rw [h1 h0]; exact ⟨_, rfl, rfl, rfl, Or.inl h0⟩
    · obtain ⟨n, n1, n2, n3, n4⟩ := h3 (by omega)
      rw [n1]
      exact ⟨n, by simp [ownRecord, n2], n2, n3, Or.inr n4⟩
  obtain ⟨n, n1, n2, n3, n4⟩ := hrec
  obtain ⟨x, x1, x2, x3, x4, x5⟩ := post_block f path.req p szx i n hne hmax hi n2 n3 n4
  rw [if_neg (by omega)] at x5
  refine ⟨x, by rw [x4]; exact List.take_of_length_le hlast, ?_⟩
  rw [h2]
  congr 2
  simp only [ownStep, hadm, n1, hpath, postNode, x5, postEnd]
  split <;> rfl

/-- C99: a client with a verified certificate that uploads a good CSR over CoAP, in blocks of any
size, is told to continue after each block and gets, with the last one, exactly the certificate
its CA issued; whatever other sessions do in between, as long as there is room for all. -/
theorem C99_enrolled (L : Libc) (hL : L.Ok) (odd) (cut : Cut) (cap : Nat) (cfg : Cfg)
    (parse) (tls : Tls) (est : Est) (peer : Peer) (re : Bool) (as : List Act)
    (ks : List (List Nat)) (hroom : ks.length ≤ cap) (hks : ∀ a ∈ as, a.key ≠ [] ∧ a.key ∈ ks)
    (hk : peer.key ≠ []) (htls : peer.tls = true) (hpc : peer.cert = true)
    (ht : cfg.transport = .coap) (heca : cfg.ecaEnabled = false) (hv : CertVerified tls)
    (der : List Nat) (h5 : 5 ≤ der.length) (hmax : der.length ≤ 16384) (szx i : Nat)
    (hi : i * 2 ^ (szx + 4) < der.length) (hlast : der.length ≤ (i + 1) * 2 ^ (szx + 4))
    (hown : as.filter (fun a => decide (a.key = peer.key)) =
      upload est peer (if re then .sren else .sen) der szx (i + 1))
    (hest : coapEnroll cfg tls parse re (wrap (enc der)) =
      some ((if re then est.reenroll else est.enroll) (wrap (enc der))))
    (csr : Csr) (hp : parse (wrap (enc der)) = some csr)
    (hg : Good cfg tls csr (wrap (enc der))) (ca : CaReq → CaRes)
    (hcb : (if re then cfg.reenrollCb else cfg.enrollCb) = some ca) (cert text : List Nat)
    (hb : Bytes cert) (hne : cert ≠ []) (hlen : cert.length ≤ 16384) (htext : TextOf cert text)
    (hca : ca ⟨wrap (enc der), [], true, none⟩ = ⟨.none, text⟩) :
    ((serve L odd cut (initTbl cap) as).filter (fun x => decide (x.1 = peer.key))).map
        (fun x => x.2.1) =
      (List.replicate i (.reply 231 none [])) ++ [.reply 204 (some 281) (cut none cert).1] := by
  have ha : Among ks (initTbl cap) := by
    intro k' hk' hl
    have := (init_repr cap).stored k' hk'
    simp only [Map.empty, Option.map_eq_none_iff] at this
    exact absurd this hl
  have h0 : look (initTbl cap).slots peer.key = none := by
    have := (init_repr cap).stored peer.key hk
    simpa only [Map.empty, Option.map_eq_none_iff] using this
  rw [serve_own hL odd cut hroom peer.key hk as _ (init_inv cap) ha hks, hown, h0]
  have htn : text ≠ [] := by
    have hl := Base64.enc_length cert
    have hpos : 0 < cert.length := List.length_pos_iff.2 hne
    rcases htext with rfl | rfl <;> intro e <;> have := congrArg List.length e
    · rw [hl] at this; simp at this; omega
    · rw [Base64.wrap_length, hl] at this; simp at this; omega
  have hc := coapEnroll_complete ht heca hv hp hg hcb hca htn
  rw [hest] at hc
  have hc' : (if re then est.reenroll else est.enroll) (wrap (enc der)) = (.none, text) :=
    Option.some.inj hc
  have hadm : ∀ i, precheck peer (if re then .sren else .sen) ⟨msg der szx i, none⟩ = none := by
    intro i
    rw [precheck_iff]
    cases re <;> exact ⟨rfl, htls, hpc⟩
  have hdn : der ≠ [] := by intro e; rw [e] at h5; simp at h5
  obtain ⟨len, mem, e1, e2, e3⟩ := encode_request h5
  have hpos : cert.length ≠ 0 := by simpa using hne
  have hproc : ∀ (en : List Nat → EstErr × List Nat), en (wrap (enc der)) = (.none, text) →
      ∀ x : Node, x.req = der → process odd en x = (.content cert, { x with resp := cert }) := by
    intro en hen x hx
    simp only [process, hx, e1, e2, if_false, e3, hen, ne_eq, not_true_eq_false, storeCert,
      text_decodes odd hb hne hlen htext, hpos, List.take_length]
  cases re with
  | false =>
    obtain ⟨x, x1, x2⟩ := upload_last odd cut est peer .sen 281 (process odd est.enroll)
      (fun _ _ => rfl) der szx hdn hmax hadm i hi hlast
    exact x2.trans (by rw [hproc est.enroll hc' x x1]; rfl)
  | true =>
    obtain ⟨x, x1, x2⟩ := upload_last odd cut est peer .sren 281 (process odd est.reenroll)
      (fun _ _ => rfl) der szx hdn hmax hadm i hi hlast
    exact x2.trans (by rw [hproc est.reenroll hc' x x1]; rfl)

/-- C99, key generation: such a client gets the key and the certificate that belong to the
re-signed CSR, in the CBOR form of C96. -/
theorem C99_key_generated (L : Libc) (hL : L.Ok) (odd) (cut : Cut) (cap : Nat) (cfg : Cfg)
    (kg : KeygenCfg) (mp : Multi) (parse) (tls : Tls) (est : Est) (peer : Peer) (as : List Act)
    (ks : List (List Nat)) (hroom : ks.length ≤ cap) (hks : ∀ a ∈ as, a.key ≠ [] ∧ a.key ∈ ks)
    (hk : peer.key ≠ []) (htls : peer.tls = true) (hpc : peer.cert = true)
    (ht : cfg.transport = .coap) (heca : cfg.ecaEnabled = false) (hv : CertVerified tls)
    (der : List Nat) (h5 : 5 ≤ der.length) (hmax : der.length ≤ 16384) (szx i : Nat)
    (hi : i * 2 ^ (szx + 4) < der.length) (hlast : der.length ≤ (i + 1) * 2 ^ (szx + 4))
    (hown : as.filter (fun a => decide (a.key = peer.key)) = upload est peer .skg der szx (i + 1))
    (hest : coapKeygen cfg kg mp tls parse (wrap (enc der)) = some (est.keygen (wrap (enc der))))
    (csr csr1 csr2 : Csr) (new : List Nat) (hp : parse (wrap (enc der)) = some csr)
    (hkey : kg.keygenCb = some (some new)) (h1 : kg.setPubkey new csr = some csr1)
    (h2 : kg.sign new csr1 = some csr2) (hg : Good cfg tls csr2 (kg.encode csr2))
    (ca : CaReq → List Nat → CaRes × List Nat) (hcb : kg.caCb = some ca) (key cert : List Nat)
    (hkb : Bytes key) (hb : Bytes cert) (hkn : key ≠ []) (hne : cert ≠ [])
    (hlen : key.length + cert.length ≤ 16360)
    (hca : ca ⟨kg.encode csr2, [], true, none⟩ new = (⟨.none, enc cert⟩, enc key)) :
    ∃ body, Cbor.readItem 8 body =
        some (.array [.uint 284, .bytes key, .uint 281, .bytes cert], []) ∧
      ((serve L odd cut (initTbl cap) as).filter (fun x => decide (x.1 = peer.key))).map
        (fun x => x.2.1) =
      (List.replicate i (.reply 231 none [])) ++ [.reply 204 (some 62) (cut none body).1] := by
  have ha : Among ks (initTbl cap) := by
    intro k' hk' hl
    have := (init_repr cap).stored k' hk'
    simp only [Map.empty, Option.map_eq_none_iff] at this
    exact absurd this hl
  have h0 : look (initTbl cap).slots peer.key = none := by
    have := (init_repr cap).stored peer.key hk
    simpa only [Map.empty, Option.map_eq_none_iff] using this
  rw [serve_own hL odd cut hroom peer.key hk as _ (init_inv cap) ha hks, hown, h0]
  have htn : enc cert ≠ [] := by
    have hl := Base64.enc_length cert
    have hpos : 0 < cert.length := List.length_pos_iff.2 hne
    intro e
    have := congrArg List.length e
    rw [hl] at this; simp at this; omega
  have hc := coapKeygen_complete (mp := mp) ht heca hv hp hkey h1 h2 hg hcb hca htn
  rw [hest] at hc
  have hc' := Option.some.inj hc
  have hadm : ∀ i, precheck peer .skg ⟨msg der szx i, none⟩ = none := by
    intro i
    rw [precheck_iff]
    exact ⟨rfl, htls, hpc⟩
  have hdn : der ≠ [] := by intro e; rw [e] at h5; simp at h5
  obtain ⟨len, mem, e1, e2, e3⟩ := encode_request h5
  have hm : ∀ l, l ≤ 16384 → (Cbor.mkHead l).2 ≤ 2 := by
    intro l hl; simp only [Cbor.mkHead]; repeat' split
    all_goals first | omega | simp
  have hfit : (Cbor.allBytes key cert).length ≤ 16384 := by
    rw [Cbor.allBytes_length]
    simp only [Cbor.len2, Cbor.len1, Cbor.len0]
    have := hm key.length (by omega)
    have := hm cert.length (by omega)
    omega
  obtain ⟨x, x1, x2⟩ := upload_last odd cut est peer .skg 62 (keygenProcess odd est.keygen)
    (fun _ _ => rfl) der szx hdn hmax hadm i hi hlast
  refine ⟨Cbor.allBytes key cert, Cbor.read_all key cert (by omega) (by omega), x2.trans ?_⟩
  have hproc : keygenProcess odd est.keygen x =
      (.content (Cbor.allBytes key cert), { x with resp := Cbor.allBytes key cert }) := by
    simp only [keygenProcess, x1, e1, e2, if_false, e3, hc', ne_eq, not_true_eq_false,
      Cbor.C03_sent_iff_fits odd key cert hkb hb hkn hne, hfit, if_true]
  rw [hproc]
  rfl

/-! ## Examples -/

def coapCfg : Cfg :=
  { Server.demoCfg with
    transport := .coap
    enrollCb := some fun _ => ⟨.none, [65, 81, 73, 68, 66, 65, 85, 71]⟩
    reenrollCb := some fun _ => ⟨.none, [65, 81, 73, 68, 66, 65, 85, 71]⟩ }

def coapKg : KeygenCfg :=
  { Server.demoKeygen with caCb := some fun _ _ => (⟨.none, [65, 81, 73, 68, 66, 65, 85, 71]⟩, [84, 87, 70, 117]) }

/-- The EST layer of this configuration for clients with a verified certificate. -/
def coapEst : Est where
  cacerts := (.none, some [77, 87, 70, 117])
  attrs := (.none, none)
  enroll := fun _ => (.none, [65, 81, 73, 68, 66, 65, 85, 71])
  reenroll := fun _ => (.none, [65, 81, 73, 68, 66, 65, 85, 71])
  keygen := fun _ => (.none, [65, 81, 73, 68, 66, 65, 85, 71], [84, 87, 70, 117])

theorem coapEst_serves : Serves coapCfg coapKg Server.demoMulti (fun _ => some Server.demoCsr)
    Server.certTls coapEst where
  enroll := fun _ => rfl
  reenroll := fun _ => rfl
  keygen := fun _ => rfl

/-- A request of 20 bytes, that is two blocks of 16. -/
def exDer : List Nat := [48, 18, 2, 1, 5, 6, 7, 8, 9, 10, 11, 12, 13, 14, 15, 16, 17, 18, 19, 20]

/-- An upload for an enrolment, one for a key generation and a session that comes and goes, mixed. -/
def exUploads : List Act := [
  .connect [50], .msg coapEst (exPeer 49) .sen ⟨msg exDer 0 0, none⟩,
  .msg coapEst (exPeer 51) .skg ⟨msg exDer 0 0, none⟩, .msg coapEst (exPeer 50) .crts exGet,
  .msg coapEst (exPeer 51) .skg ⟨msg exDer 0 1, none⟩, .close [50],
  .msg coapEst (exPeer 49) .sen ⟨msg exDer 0 1, none⟩]

example : ((serve simpleLibc (fun _ l => l) exCut (initTbl 3) exUploads).filter
      (fun x => decide (x.1 = [49]))).map (fun x => x.2.1) =
    [.reply 231 none [], .reply 204 (some 281) [1, 2, 3, 4, 5, 6]] :=
  C99_enrolled simpleLibc simpleLibc_ok (fun _ l => l) exCut 3 coapCfg
    (fun _ => some Server.demoCsr) Server.certTls coapEst (exPeer 49) false exUploads
    [[49], [50], [51]] (by decide) (by decide) (by decide) rfl rfl rfl rfl (Or.inl rfl) exDer
    (by decide) (by decide) 0 1 (by decide) (by decide) rfl (coapEst_serves.enroll _)
    Server.demoCsr rfl ⟨rfl, by decide, Or.inr (Or.inl ⟨rfl, rfl⟩), nofun⟩ _ rfl
    [1, 2, 3, 4, 5, 6] [65, 81, 73, 68, 66, 65, 85, 71] (by unfold Bytes; decide) (by decide) (by decide) (Or.inl (by decide +kernel)) rfl

example : ((serve simpleLibc (fun _ l => l) exCut (initTbl 3) exUploads).filter
      (fun x => decide (x.1 = [51]))).map (fun x => x.2.1) =
    [.reply 231 none [], .reply 204 (some 62)
      [132, 25, 1, 28, 67, 77, 97, 110, 25, 1, 25, 70, 1, 2, 3, 4, 5, 6]] := by decide +kernel

example : ∃ body, Cbor.readItem 8 body =
        some (.array [.uint 284, .bytes [77, 97, 110], .uint 281, .bytes [1, 2, 3, 4, 5, 6]], []) ∧
      ((serve simpleLibc (fun _ l => l) exCut (initTbl 3) exUploads).filter
        (fun x => decide (x.1 = [51]))).map (fun x => x.2.1) =
      (List.replicate 1 (.reply 231 none [])) ++ [.reply 204 (some 62) (exCut none body).1] :=
  C99_key_generated simpleLibc simpleLibc_ok (fun _ l => l) exCut 3 coapCfg coapKg
    Server.demoMulti (fun _ => some Server.demoCsr) Server.certTls coapEst (exPeer 51) exUploads
    [[49], [50], [51]] (by decide) (by decide) (by decide) rfl rfl rfl rfl (Or.inl rfl) exDer
    (by decide) (by decide) 0 1 (by decide) (by decide) rfl (coapEst_serves.keygen _)
    Server.demoCsr Server.demoCsr Server.demoCsr [7] rfl rfl rfl rfl
    ⟨rfl, by decide, Or.inr (Or.inl ⟨rfl, rfl⟩), nofun⟩ _ rfl [77, 97, 110] [1, 2, 3, 4, 5, 6]
    (by unfold Bytes; decide) (by unfold Bytes; decide) (by decide) (by decide) (by decide)
    (by rw [show Base64.enc [1, 2, 3, 4, 5, 6] = [65, 81, 73, 68, 66, 65, 85, 71] by decide +kernel,
      show Base64.enc [77, 97, 110] = [84, 87, 70, 117] by decide +kernel])

example : ∃ body, [1, 2, 3, 4, 5, 6] = (exCut none body).1 ∧ ∃ tls csr text cert,
    Submitted csr text ∧
    Checked coapCfg tls (fun _ => some Server.demoCsr) false text cert ∧
      DecodesTo (fun _ l => l) cert body := by
  obtain ⟨body, h1, e, p, x, tls, csr, text, _, _, _, h2, _⟩ :=
    C99_only_after_checks simpleLibc simpleLibc_ok (fun _ l => l) exCut 3 coapCfg coapKg
      Server.demoMulti (fun _ => some Server.demoCsr) rfl (exUploads.take 6) (by decide) coapEst
      (exPeer 49) (by decide) .sen ⟨msg exDer 0 1, none⟩
      (fun e p q x h => by
        refine ⟨Server.certTls, ?_⟩
        have : e = coapEst := by
          simp only [exUploads, List.take, List.cons_append, List.nil_append, List.mem_cons,
            Act.msg.injEq, reduceCtorEq, List.not_mem_nil, false_or, or_false] at h
          rcases h with h | h | h | h | h <;> exact h.1
        rw [this]; exact coapEst_serves)
      204 281 [1, 2, 3, 4, 5, 6] (by decide +kernel)
  exact ⟨body, h1, tls, csr, text, (h2 rfl).2.imp fun cert hc => ⟨(h2 rfl).1, hc⟩⟩

/-- Without a verified certificate nothing is issued, whatever the rest of the request is. -/
example : coapEnroll coapCfg { Server.certTls with peer := none } (fun _ => some Server.demoCsr)
    false [77] = some (.authFail, []) := rfl

end Verif.Coap
