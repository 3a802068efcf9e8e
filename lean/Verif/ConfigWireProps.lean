import Verif.ConfigProps
import Verif.WireEnrollProps

/-!
# C104: what a configured server writes

The answers to enrolment requests over HTTPS, byte for byte, as the configuration calls decide
them.
-/
namespace Verif.Config
open Verif.Setter (Srv SrvOp Lib run runFrom step)
open Verif.Wire (Site Sendable Routes Arrives hdrOf toMode reply outcome)
open Verif.ClientResp (Mode retryText errorText)

/-- The scheme of a challenge, by the number given to `est_server_set_auth_mode`. -/
def Scheme (n : Int) (m : Mode) : Prop :=
  n = 1 ∧ m = .basic ∨ n = 2 ∧ m = .digest ∨ n = 3 ∧ m = .token

theorem lastSet_mem {α β : Type} (f : α → Option β) (d : β) (ops : List α) :
    lastSet f d ops = d ∨ ∃ op ∈ ops, f op = some (lastSet f d ops) := by
  induction ops generalizing d with
  | nil => exact .inl rfl
  | cons op ops ih =>
    rw [lastSet_cons]
    rcases ih ((f op).getD d) with h | ⟨x, h1, h2⟩
    · rw [h]
      cases hf : f op with
      | none => exact .inl rfl
      | some b => exact .inr ⟨op, by simp, hf⟩
    · exact .inr ⟨x, by simp [h1], h2⟩

theorem mode_scheme (lib : Lib) (ops : List SrvOp) (a : App) :
    Scheme (lastSet (saysMode lib) 1 ops) (toMode (cfgOf (run lib ops) a).authMode) := by
  have h := (C104_last_call_decides lib ops).2.2.1
  have hr : lastSet (saysMode lib) 1 ops = 1 ∨ lastSet (saysMode lib) 1 ops = 2 ∨
      lastSet (saysMode lib) 1 ops = 3 := by
    rcases lastSet_mem (saysMode lib) 1 ops with h | ⟨op, _, h⟩
    · exact .inl h
    · cases op <;> simp only [saysMode] at h <;> try cases h
      split at h
      · injection h with h; rw [← h]; omega
      · cases h
  show Scheme _ (toMode (modeOf (run lib ops).authMode))
  rw [h]
  rcases hr with hr | hr | hr <;> rw [hr]
  · exact .inl ⟨rfl, rfl⟩
  · exact .inr (.inl ⟨rfl, rfl⟩)
  · exact .inr (.inr ⟨rfl, rfl⟩)

theorem retry_range (ops : List SrvOp) :
    60 ≤ lastSet saysRetry 3600 ops ∧ lastSet saysRetry 3600 ops ≤ 172800 := by
  rcases lastSet_mem saysRetry 3600 ops with h | ⟨op, _, h⟩
  · rw [h]; decide
  · cases op <;> simp only [saysRetry] at h <;> try cases h
    split at h
    · injection h with h; rw [← h]; assumption
    · cases h

/-- C104: what a server writes after any sequence of configuration calls, if CoAP was not
started.  A challenge names the scheme of the last accepted `est_server_set_auth_mode` (Basic if
there was none); a client that is to come back is told the delay of the last accepted
`est_server_set_retry_period` (an hour if there was none); a certificate comes from the callback
registered for the operation; anything else is an error.  The realm, the time and the callback's
certificates must fit. -/
theorem C104_answers_as_configured (lib : Lib) (ops : List SrvOp) (a : App)
    (hcoap : ∀ op ∈ ops, ¬ Starts lib op) (s : Site) (hs : s.srv.cfg = cfgOf (run lib ops) a)
    (hrealm : Challenge.RealmText s.realm) (hlen : s.realm.length ≤ 255) (htime : s.time < 2 ^ 64)
    (hcert : ∀ ca rq, a.enrollCb = some ca ∨ a.reenrollCb = some ca →
      (ca rq).cert.length ≤ s.out ∧ (ca rq).cert.length ≤ 4096 ∧
      (ca rq).cert.head? ≠ some 13 ∧ (ca rq).cert.head? ≠ some 10)
    (cfg : ClientReq.Cfg) (re : Bool)
    (sched : List HttpConn.Ev) (csr : List Nat) (auth : Option (List Nat))
    (hdr : Server.HdrRes × Server.Cred) (o : Server.Out)
    (hS : Sendable cfg (if re then .simpleReenroll else .simpleEnroll) auth csr)
    (hR : Routes s cfg (if re then .simpleReenroll else .simpleEnroll))
    (hh : hdrOf (AuthHdr.parseAuthHeader s.odd (toMode s.srv.cfg.authMode) auth) = some hdr)
    (ho : outcome s re cfg.seg csr hdr = some o) (harr : Arrives sched (1028 + csr.length)) :
    ∃ b text, ClientReq.enrollRequest cfg (if re then .simpleReenroll else .simpleEnroll)
        (ClientReq.toAuth auth) csr = .sent b ∧
      reply s sched (.sent b) = .bytes text ∧
      ((∃ ca rq, o.rc = .none ∧ (if re then a.reenrollCb else a.enrollCb) = some ca ∧
          rq.body = csr ∧ rq.seg = cfg.seg ∧ (ca rq).rc = .none ∧
          text = Proxy.head200 Proxy.ctCert (ca rq).cert.length ++ (ca rq).cert) ∨
       (o.rc = .caEnrollRetry ∧ text = retryText (lastSet saysRetry 3600 ops).toNat) ∨
       (o.rc = .authPending ∧ ∃ m, Scheme (lastSet (saysMode lib) 1 ops) m ∧
          text = Challenge.challengeText m s.realm s.time) ∨
       (o.rc ≠ .none ∧ o.rc ≠ .caEnrollRetry ∧ o.rc ≠ .authPending ∧
          ∃ t keep, text = errorText (Server.errStatus o.rc) t keep)) := by
  have hl := C104_last_call_decides lib ops
  have hc : (run lib ops).coap = false := by
    cases hc : (run lib ops).coap with
    | false => rfl
    | true =>
      obtain ⟨op, ho, hs⟩ := hl.2.2.2.2.2.1.mp hc
      exact absurd hs (hcoap op ho)
  have hm := mode_scheme lib ops a
  have hV : Wire.Sound s := by
    refine ⟨by rw [hs]; simp [cfgOf, hc], ?_, hrealm, hlen, htime, ?_, ?_⟩
    · rw [hs]
      rcases hm with ⟨_, h⟩ | ⟨_, h⟩ | ⟨_, h⟩ <;> rw [h] <;> simp [Challenge.Asks]
    · rw [hs]
      show (run lib ops).retry.toNat ≤ _
      rw [hl.2.2.2.1]
      have := retry_range ops
      omega
    · intro ca rq h
      rw [hs] at h
      exact hcert ca rq h
  have hk : (if re then Flow.Kind.reenroll else .enroll) ≠ .keygen := by cases re <;> decide
  have hu : (if re then Flow.Kind.reenroll else .enroll).uri =
      (if re then .simpleReenroll else .simpleEnroll) := by cases re <;> rfl
  have hb : ((if re then Flow.Kind.reenroll else .enroll) == .reenroll) = re := by cases re <;> rfl
  have h := Wire.reply_enroll cfg _ hk s sched csr auth hdr o (by rw [hu]; exact hS) hV
    (by rw [hu]; exact hR) hh (by rw [hb]; exact ho) harr
  rw [hu, hb] at h
  obtain ⟨b, text, h1, h2, h3⟩ := h
  refine ⟨b, text, h1, h2, ?_⟩
  rcases h3 with ⟨cert, hrc, ⟨ca, rq, i1, i2, i3, i4, i5, i6, i7⟩, ht⟩ | ⟨hrc, ht⟩ | ⟨hrc, ht⟩ |
    ⟨r1, r2, r3, keep, ht⟩
  · left
    refine ⟨ca, rq, hrc, ?_, i3, i4, i5, by rw [i6]; exact ht⟩
    rw [hs] at i1
    exact i1
  · refine .inr (.inl ⟨hrc, ?_⟩)
    rw [ht, hs, ← hl.2.2.2.1]
    rfl
  · refine .inr (.inr (.inl ⟨hrc, _, hm, ?_⟩))
    rw [ht, hs]
  · exact .inr (.inr (.inr ⟨r1, r2, r3, _, keep, ht⟩))

/-- C104: with a CSR attributes callback and enforcement on, what the callback says is demanded,
whatever attributes were configured; a callback that gives nothing stops every request. -/
theorem C104_attributes_of_the_callback (lib : Lib) (ops : List SrvOp) (a : App)
    (r : Option (List Nat)) (hcb : a.csrCb = some r) (henf : ∃ op ∈ ops, Enforces op)
    {tls : Server.Tls} {net : Server.Net} {parse} {re : Bool} {rq : Server.Req} {o : Server.Out}
    (h : Server.simpleEnroll (cfgOf (run lib ops) a) tls net parse re rq = some o)
    (hca : CaCalled o.evs) :
    Asn1.allPresent a.text a.odd (.callback r) rq.body = .ret .none := by
  obtain ⟨k, q, hca⟩ := hca
  have h20 := (Server.C20_ca_only_after_checks h hca).2.2.2.2.1
  have := h20 ((C104_last_call_decides lib ops).2.2.2.2.2.2.mpr henf)
  simpa [cfgOf, sourceOf, hcb] using this

/-- A server configured with a delay of 90 seconds (and a refused one of 30) and tokens. -/
def exOps : List SrvOp := [.setRetry 90, .setRetry 30, .setAuthMode 3, .setAuthMode 9]

def exWireApp : App := { exApp with enrollCb := some fun _ => ⟨.caEnrollRetry, []⟩ }

/-- Its hypotheses are met by a request without credentials, and the client is asked for a
token. -/
example : (∀ op ∈ exOps, ¬ Starts exLib op) ∧ lastSet saysRetry 3600 exOps = 90 ∧
    Scheme (lastSet (saysMode exLib) 1 exOps) .token ∧
    (Server.simpleEnroll (cfgOf (run exLib exOps) exWireApp) exTls ⟨true, 100, true⟩ exParse false
      ⟨[97, 112, 112, 108, 105, 99, 97, 116, 105, 111, 110, 47, 112, 107, 99, 115, 49, 48], [77, 65, 65, 61], none, (.missing, ⟨.none, [], [], []⟩), []⟩).map (·.rc) =
      some .authPending := by
  refine ⟨by decide, by decide, .inr (.inr ⟨by decide, rfl⟩), by decide +kernel⟩

/-- The server of the wire examples with this configuration. -/
def exCfgSite : Site :=
  { Wire.exSite with srv := { Wire.exSite.srv with cfg := cfgOf (run exLib exOps) exWireApp } }

example : ∃ b text, ClientReq.enrollRequest Wire.exCfg .simpleEnroll .none [77, 73, 73, 61] = .sent b ∧
    reply exCfgSite Wire.exSched (.sent b) = .bytes text ∧
    text = Challenge.challengeText .token [101, 115, 116, 114, 101, 97, 108, 109] 1700000000 := by
  obtain ⟨b, text, h1, h2, h3⟩ := C104_answers_as_configured exLib exOps exWireApp (by decide) exCfgSite
    rfl (by unfold Challenge.RealmText exCfgSite; decide) (by decide) (by decide)
    (by
      intro ca rq h
      rcases h with h | h
      · injection h with h; subst h; simp
      · cases h)
    Wire.exCfg false Wire.exSched [77, 73, 73, 61] none (.missing, ⟨.none, [], [], []⟩) _
    (Wire.exSendable none (.inl rfl)) (Wire.exRoutes _ rfl) rfl rfl (Wire.exArrives _ (by decide))
  refine ⟨b, text, h1, h2, ?_⟩
  rcases h3 with ⟨_, _, h, _⟩ | ⟨h, _⟩ | ⟨_, m, h, ht⟩ | ⟨_, _, h, _⟩
  · exact absurd h (by decide +kernel)
  · exact absurd h (by decide +kernel)
  · rcases h with ⟨h, _⟩ | ⟨h, _⟩ | ⟨_, h⟩
    · exact absurd h (by decide)
    · exact absurd h (by decide)
    · rw [ht, h]; rfl
  · exact absurd rfl h

example : (∃ op ∈ [SrvOp.enforceCsrattr], Enforces op) ∧
    asked (Server.simpleEnroll (cfgOf (run exLib [.enforceCsrattr])
      { exApp with csrCb := some (some [77, 65, 85, 71, 65, 49, 85, 69, 65, 119, 61, 61]) }) exTls ⟨true, 100, true⟩ exParse false
      { exRq with body := [77, 65, 85, 71, 65, 49, 85, 69, 65, 119, 61, 61] }) = true := by
  refine ⟨⟨_, List.mem_singleton.2 rfl, trivial⟩, by decide +kernel⟩

end Verif.Config
