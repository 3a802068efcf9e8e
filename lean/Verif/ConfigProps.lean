import Verif.ConfigModel
import Verif.EnrollProps
import Verif.DispatchProps
import Verif.SetterProps
import Verif.Asn1Props

/-!
# C104: the configuration calls decide who reaches the CA

The calls made on a new context, in any number and order, and the requests served afterwards.
-/
namespace Verif.Config
open Verif.Server (Cfg Tls Net Csr Req Out Ev CaKind CaReq CertVerified SrpLogin AppAccepted IsRA
  PopHeld simpleEnroll serverKeygen)
open Verif.Setter (Srv SrvOp Lib run runFrom step)

/-! ## What a sequence of calls amounts to -/

/-- The last value that a sequence of calls sets, or the default. -/
def lastSet {α β : Type} (f : α → Option β) (d : β) (ops : List α) : β :=
  ((ops.filterMap f).getLast?).getD d

/-- A call that starts CoAP. -/
def Starts (lib : Lib) : SrvOp → Prop
  | .coapStart port ok => lib.libcoap = true ∧ 0 ≤ port ∧ port ≤ 65535 ∧ ok = true
  | _ => False

instance (lib : Lib) (op : SrvOp) : Decidable (Starts lib op) := by
  cases op <;> unfold Starts <;> infer_instance

/-- What a call says about the need for HTTP authentication (1: required). -/
def saysRequired (lib : Lib) (op : SrvOp) : Option Int :=
  match op with
  | .setRequired v => some v
  | op => if Starts lib op then some 0 else none

/-- What a call says about proof of possession. -/
def saysPop : SrvOp → Option Bool
  | .enablePop => some true
  | .disablePop => some false
  | _ => none

/-- What a call says about the authentication mode (1 Basic, 2 Digest, 3 Token). -/
def saysMode (lib : Lib) : SrvOp → Option Int
  | .setAuthMode m => if m = 1 ∨ m = 3 ∨ (m = 2 ∧ lib.fips = false) then some m else none
  | _ => none

/-- What a call says about the delay clients are told. -/
def saysRetry : SrvOp → Option Int
  | .setRetry v => if 60 ≤ v ∧ v ≤ 172800 then some v else none
  | _ => none

/-- What a call says about the time to wait for a client. -/
def saysTimeout : SrvOp → Option Int
  | .setReadTimeout v => if 1 ≤ v ∧ v ≤ 3600 then some v else none
  | _ => none

theorem lastSet_nil {α β} (f : α → Option β) (d : β) : lastSet f d [] = d := rfl

theorem lastSet_cons {α β} (f : α → Option β) (d : β) (op : α) (ops : List α) :
    lastSet f d (op :: ops) = lastSet f ((f op).getD d) ops := by
  unfold lastSet
  cases hf : f op with
  | none => simp [hf]
  | some b =>
    simp only [List.filterMap_cons, hf, Option.getD_some]
    cases hl : ops.filterMap f with
    | nil => simp
    | cons x xs => simp [List.getLast?_cons]

/-- A field that each call changes as `f` says holds the last value set. -/
theorem field_lastSet {β : Type} (lib : Lib) (g : Srv → β) (f : SrvOp → Option β)
    (h : ∀ s op, g (step lib s op).2 = (f op).getD (g s)) (s : Srv) (ops : List SrvOp) :
    g (runFrom lib s ops) = lastSet f (g s) ops := by
  induction ops generalizing s with
  | nil => rfl
  | cons op ops ih => rw [lastSet_cons, ← h]; exact ih _

/-- A call that switches the enforcement of attributes on. -/
def Enforces : SrvOp → Prop
  | .enforceCsrattr => True
  | _ => False

instance (op : SrvOp) : Decidable (Enforces op) := by
  cases op <;> unfold Enforces <;> infer_instance

theorem addMfg_fields (lib : Lib) (s : Srv) (n c : Option (List Nat)) (i : Int) (a b d : Bool) :
    ∃ m, (step lib s (.addMfg n i c a b d)).2 = { s with mfgs := m } := by
  simp only [step, Setter.addMfg]
  split
  · split
    · exact ⟨s.mfgs, rfl⟩
    · split
      · exact ⟨s.mfgs, rfl⟩
      · split
        · split
          · exact ⟨s.mfgs, rfl⟩
          · exact ⟨_, rfl⟩
        · exact ⟨_, rfl⟩
  · exact ⟨s.mfgs, rfl⟩

theorem initCsrattrs_fields (lib : Lib) (s : Srv) (t : Option (List Nat)) (a : Bool) :
    ∃ p c, (step lib s (.initCsrattrs t a)).2 = { s with popPresent := p, csrattrs := c } := by
  simp only [step, Setter.initCsrattrs]
  repeat' split
  all_goals exact ⟨_, _, rfl⟩

theorem enableEca_fields (s : Srv) (lib : Lib) (n : Int) (p : Option (List Nat)) (c : Int) :
    ∃ a b d e, (step lib s (.enableEca n p c)).2 =
      { s with ecaNid := a, ecaPwd := b, ecaCheck := d, eca := e } := by
  simp only [step, Setter.enableEca]
  repeat' split
  all_goals exact ⟨_, _, _, _, rfl⟩

theorem step_fields (lib : Lib) (s : Srv) (op : SrvOp) :
    (step lib s op).2.required = (saysRequired lib op).getD s.required ∧
    (step lib s op).2.pop = (saysPop op).getD s.pop ∧
    (step lib s op).2.authMode = (saysMode lib op).getD s.authMode ∧
    (step lib s op).2.retry = (saysRetry op).getD s.retry ∧
    (step lib s op).2.readTimeout = (saysTimeout op).getD s.readTimeout ∧
    (step lib s op).2.coap = (if Starts lib op then some true else none).getD s.coap ∧
    (step lib s op).2.enforce = (if Enforces op then some true else none).getD s.enforce := by
  cases op with
  | addMfg n i c a b d =>
    obtain ⟨m, h⟩ := addMfg_fields lib s n c i a b d
    rw [h]
    simp [saysRequired, saysPop, saysMode, saysRetry, saysTimeout, Starts, Enforces]
  | initCsrattrs t a =>
    obtain ⟨p, c, h⟩ := initCsrattrs_fields lib s t a
    rw [h]
    simp [saysRequired, saysPop, saysMode, saysRetry, saysTimeout, Starts, Enforces]
  | enableEca n p c =>
    obtain ⟨a, b, d, e, h⟩ := enableEca_fields s lib n p c
    rw [h]
    simp [saysRequired, saysPop, saysMode, saysRetry, saysTimeout, Starts, Enforces]
  | setRetry v =>
    rw [(Setter.C30_setters lib s v).1]
    simp only [saysRequired, saysPop, saysMode, saysRetry, saysTimeout, Starts, Enforces]
    split <;> simp
  | setReadTimeout v =>
    rw [(Setter.C30_setters lib s v).2.2.1]
    simp only [saysRequired, saysPop, saysMode, saysRetry, saysTimeout, Starts, Enforces]
    split <;> simp
  | setAuthMode v =>
    rw [(Setter.C30_setters lib s v).2.2.2.2.2.2]
    simp only [saysRequired, saysPop, saysMode, saysRetry, saysTimeout, Starts, Enforces]
    split <;> simp
  | setBrskiRetry v =>
    rw [(Setter.C30_setters lib s v).2.1]
    simp only [saysRequired, saysPop, saysMode, saysRetry, saysTimeout, Starts, Enforces]
    split <;> simp
  | coapStart p ok =>
    simp only [step, Setter.coapStart, saysRequired, saysPop, saysMode, saysRetry, saysTimeout,
      Starts, Enforces]
    by_cases hl : lib.libcoap = true
    case neg => simp [hl]
    case pos =>
      by_cases hp : p < 0 ∨ p > 65535
      · have : ¬ (0 ≤ p ∧ p ≤ 65535 ∧ ok = true) := by omega
        simp [hl, hp, this]
      · have h1 : 0 ≤ p := by omega
        have h2 : p ≤ 65535 := by omega
        cases ok <;> simp [hl, hp, h1, h2]
  | setDtlsTimeout v =>
    simp only [step, Setter.setDtlsTimeout, saysRequired, saysPop, saysMode, saysRetry, saysTimeout, Starts,
      Enforces, Option.getD_none]
    repeat' split
    all_goals simp
  | setDtlsMtu v =>
    simp only [step, Setter.setDtlsMtu, saysRequired, saysPop, saysMode, saysRetry, saysTimeout, Starts,
      Enforces, Option.getD_none]
    repeat' split
    all_goals simp
  | setSessionMax v a =>
    simp only [step, Setter.setSessionMax, Setter.initReqArray, saysRequired, saysPop, saysMode,
      saysRetry, saysTimeout, Starts, Enforces, Option.getD_none]
    repeat' split
    all_goals simp
  | disableEca =>
    simp only [step, Setter.disableEca, saysRequired, saysPop, saysMode, saysRetry, saysTimeout, Starts,
      Enforces, Option.getD_none]
    repeat' split
    all_goals simp
  | setRequired v =>
    simp [step, saysRequired, saysPop, saysMode, saysRetry, saysTimeout, Starts, Enforces]
  | enablePop =>
    simp [step, saysRequired, saysPop, saysMode, saysRetry, saysTimeout, Starts, Enforces]
  | disablePop =>
    simp [step, saysRequired, saysPop, saysMode, saysRetry, saysTimeout, Starts, Enforces]
  | enforceCsrattr =>
    simp [step, saysRequired, saysPop, saysMode, saysRetry, saysTimeout, Starts, Enforces]

theorem lastSet_switch {α} (p : α → Prop) [DecidablePred p] (d : Bool) (ops : List α) :
    lastSet (fun op => if p op then some true else none) d ops = (d || ops.any (fun op => decide (p op))) := by
  induction ops generalizing d with
  | nil => simp [lastSet]
  | cons op ops ih =>
    rw [lastSet_cons, ih]
    by_cases h : p op <;> simp [h]

/-- C104: whatever calls are made on a new context, in whatever order, each of these settings ends
up as the last accepted call for it said, and at its documented default if there was none: HTTP
authentication required, proof of possession on, Basic authentication, a delay of an hour, ten
seconds to wait for a client.  Calls refused and calls about something else do not count.
Enforcement of attributes, once on, stays on, and so does CoAP, which ends the need for HTTP
authentication. -/
theorem C104_last_call_decides (lib : Lib) (ops : List SrvOp) :
    (run lib ops).required = lastSet (saysRequired lib) 1 ops ∧
    (run lib ops).pop = lastSet saysPop true ops ∧
    (run lib ops).authMode = lastSet (saysMode lib) 1 ops ∧
    (run lib ops).retry = lastSet saysRetry 3600 ops ∧
    (run lib ops).readTimeout = lastSet saysTimeout 10 ops ∧
    ((run lib ops).coap = true ↔ ∃ op ∈ ops, Starts lib op) ∧
    ((run lib ops).enforce = true ↔ ∃ op ∈ ops, Enforces op) := by
  refine ⟨?_, ?_, ?_, ?_, ?_, ?_, ?_⟩
  · exact field_lastSet lib (·.required) _ (fun s op => (step_fields lib s op).1) _ _
  · exact field_lastSet lib (·.pop) _ (fun s op => (step_fields lib s op).2.1) _ _
  · exact field_lastSet lib (·.authMode) _ (fun s op => (step_fields lib s op).2.2.1) _ _
  · exact field_lastSet lib (·.retry) _ (fun s op => (step_fields lib s op).2.2.2.1) _ _
  · exact field_lastSet lib (·.readTimeout) _ (fun s op => (step_fields lib s op).2.2.2.2.1) _ _
  · have := field_lastSet lib (·.coap) _ (fun s op => (step_fields lib s op).2.2.2.2.2.1) Srv.init ops
    rw [lastSet_switch] at this
    unfold run
    rw [this]
    simp [Srv.init]
  · have := field_lastSet lib (·.enforce) _ (fun s op => (step_fields lib s op).2.2.2.2.2.2) Srv.init ops
    rw [lastSet_switch] at this
    unfold run
    rw [this]
    simp [Srv.init]

/-- A library for the examples: libcoap present, no FIPS mode, attribute texts of 77, … accepted. -/
def exLib : Lib := ⟨true, false, fun _ => none, fun t => if t.head? = some 77 then some true else none,
  fun _ => none⟩

example : (run exLib [.disablePop, .setRetry 30, .setRetry 90, .enablePop, .setAuthMode 7,
      .setRequired 0, .setRequired 1]).required = 1 ∧
    (run exLib [.disablePop, .setRetry 30, .setRetry 90, .enablePop, .setAuthMode 7]).pop = true ∧
    (run exLib [.disablePop, .setRetry 30, .setRetry 90, .enablePop, .setAuthMode 7]).retry = 90 := by
  decide

/-! ## Who reaches the CA -/

/-- The CA callback ran. -/
def CaCalled (evs : List Ev) : Prop := ∃ k q, Ev.ca k q ∈ evs

/-- The client's CSR carries the id of its own TLS session as challengePassword (followed by
anything, see C22). -/
def PopShown (tls : Tls) (csr : Csr) : Prop :=
  ∃ d u, csr.chal = .str d ∧ tls.uid = some u ∧ u ≠ [] ∧ u <+: d ++ [0]

theorem cfg_pop (lib : Lib) (ops : List SrvOp) (a : App) (h : lastSet saysPop true ops = true) :
    (cfgOf (run lib ops) a).enablePop = true := by
  show (run lib ops).pop = true
  rw [(C104_last_call_decides lib ops).2.1, h]

/-- C104: unless the last call about proof of possession switched it off, the CA is asked to
enrol only for registration authorities and for CSRs that carry the id of the client's own TLS
session.  This holds for every other configuration, over HTTP and over CoAP. -/
theorem C104_pop_unless_disabled (lib : Lib) (ops : List SrvOp) (a : App)
    (hp : lastSet saysPop true ops = true) {tls : Tls} {net : Net} {parse} {re : Bool} {rq : Req}
    {o : Out} (h : simpleEnroll (cfgOf (run lib ops) a) tls net parse re rq = some o)
    (hca : CaCalled o.evs) :
    IsRA tls ∨ ∃ csr, parse rq.body = some csr ∧ PopShown tls csr := by
  obtain ⟨k, q, hca⟩ := hca
  obtain ⟨_, _, _, ⟨csr, h1, _, _, h2⟩, _⟩ := Server.C20_ca_only_after_checks h hca
  rcases h2 with h2 | h2
  · exact .inl h2
  · refine .inr ⟨csr, h1, ?_⟩
    rcases h2 with ⟨_, h3⟩ | h2
    · rw [cfg_pop lib ops a hp] at h3; cases h3
    · exact h2

/-- The same for key generation: here it is the CSR with the new key and its signature that
carries the id. -/
theorem C104_pop_unless_disabled_keygen (lib : Lib) (ops : List SrvOp) (a : App)
    (hp : lastSet saysPop true ops = true) {kg : Server.KeygenCfg} {mp : Server.Multi} {tls : Tls}
    {net : Net} {bodyOut : Nat → Nat} {parse} {rq : Req} {o : Out}
    (h : serverKeygen (cfgOf (run lib ops) a) kg mp tls net bodyOut parse rq = some o)
    (hca : CaCalled o.evs) :
    IsRA tls ∨ ∃ csr key csr1 csr2, parse rq.body = some csr ∧ kg.setPubkey key csr = some csr1 ∧
      kg.sign key csr1 = some csr2 ∧ PopShown tls csr2 := by
  obtain ⟨k, q, hca⟩ := hca
  obtain ⟨_, _, _, csr, key, csr1, csr2, h1, _, h2, h3, _, _, _, h4, _⟩ :=
    Server.C54_ca_gets_server_key h hca
  rcases h4 with h4 | h4
  · exact .inl h4
  · refine .inr ⟨csr, key, csr1, csr2, h1, h2, h3, ?_⟩
    rcases h4 with ⟨_, h5⟩ | h4
    · rw [cfg_pop lib ops a hp] at h5; cases h5
    · exact h4

/-- The authentication of a request that reaches the CA. -/
theorem enroll_auth {cfg : Cfg} {tls : Tls} {net : Net} {parse} {re : Bool}
    {rq : Req} {o : Out} (h : simpleEnroll cfg tls net parse re rq = some o)
    (hca : CaCalled o.evs) :
    ∃ a, Server.enrollAuth cfg tls rq.hdr parse (Server.tyOf re) rq.body = some a ∧
      Server.Authorised a.st ∧ ∀ e ∈ a.evs, e ∈ o.evs := by
  obtain ⟨k, q, hca⟩ := hca
  rcases Server.simpleEnroll_cases h with hs | ⟨ca, a, csr, hr, ho⟩
  · rcases hs.evs _ hca with ⟨c, hc⟩ | hc <;> simp at hc
  · obtain ⟨_, hA⟩ := Server.enrollAnswer_cases cfg net (ca (Server.caReqOf cfg tls rq a))
        (a.evs ++ [.ca (Server.kindOf re) (Server.caReqOf cfg tls rq a)]) (a.user.getD rq.connUser)
    rw [← ho] at hA
    refine ⟨a, hr.auth, hr.ok, ?_⟩
    intro e he
    rcases hA with ⟨_, _, ⟨_, _, h3⟩ | ⟨_, _, _, h3⟩ | ⟨_, _, h3, _⟩⟩ | ⟨_, h3, _⟩ <;>
      rw [h3] <;> simp [he]

/-- The application was asked about the credentials of the request, and accepted them. -/
def Accepted (a : App) (evs : List Ev) : Prop :=
  ∃ cb c, a.authCb = some cb ∧ Ev.askApp c ∈ evs ∧ cb c = true

/-- C104: if the application registered an authentication callback, the last call about HTTP
authentication (if any) required it, and CoAP was not started, then no enrolment reaches the CA
without credentials accepted by the application in this very request, whatever certificate the
client presents and whatever else is configured; and no re-enrolment unless the Authorization
header is malformed.  Missing: malformed headers on re-enrolment (`C19_certificate_alone_false`), and
re-enrolment with enhanced certificate authentication. -/
theorem C104_credentials_unless_waived_partial (lib : Lib) (ops : List SrvOp) (a : App)
    (hcb : a.authCb.isSome) (hreq : lastSet (saysRequired lib) 1 ops = 1)
    (hcoap : ∀ op ∈ ops, ¬ Starts lib op)
    {tls : Tls} {net : Net} {parse} {re : Bool} {rq : Req} {o : Out}
    (hre : re = false ∨ ((run lib ops).eca = false ∧ rq.hdr.1 ≠ .bad))
    (h : simpleEnroll (cfgOf (run lib ops) a) tls net parse re rq = some o)
    (hca : CaCalled o.evs) : Accepted a o.evs := by
  obtain ⟨x, h1, h2, h3⟩ := enroll_auth h hca
  have hl := C104_last_call_decides lib ops
  have ht : (cfgOf (run lib ops) a).transport = .http := by
    have : (run lib ops).coap = false := by
      cases hc : (run lib ops).coap with
      | false => rfl
      | true =>
        obtain ⟨op, ho, hs⟩ := hl.2.2.2.2.2.1.mp hc
        exact absurd hs (hcoap op ho)
    simp [cfgOf, this]
  have hr : (cfgOf (run lib ops) a).requireHttpAuth = true := by
    simp [cfgOf, hl.1, hreq]
  obtain ⟨cb, c, h4, h5, h6⟩ := Server.C19_http_auth_enforced_partial ht hcb hr (by
    rcases hre with h | h
    · exact .inl (by simp [Server.tyOf, h])
    · exact .inr h) h1 h2
  exact ⟨cb, c, h4, h3 _ h5, h6⟩

/-- The same for key generation, unless the Authorization header is malformed or enhanced
certificate authentication is on. -/
theorem C104_credentials_keygen_partial (lib : Lib) (ops : List SrvOp) (a : App)
    (hcb : a.authCb.isSome) (hreq : lastSet (saysRequired lib) 1 ops = 1)
    (hcoap : ∀ op ∈ ops, ¬ Starts lib op)
    {kg : Server.KeygenCfg} {mp : Server.Multi} {tls : Tls} {net : Net} {bodyOut : Nat → Nat} {parse}
    {rq : Req} {o : Out} (heca : (run lib ops).eca = false) (hbad : rq.hdr.1 ≠ .bad)
    (h : serverKeygen (cfgOf (run lib ops) a) kg mp tls net bodyOut parse rq = some o)
    (hca : CaCalled o.evs) : Accepted a o.evs := by
  obtain ⟨k, q, hca⟩ := hca
  rcases Server.serverKeygen_cases h with hs | ⟨ca, x, csr, key, csr2, hr, ho⟩
  · rcases hs.evs _ hca with ⟨c, hc⟩ | hc <;> simp at hc
  · have hA := Server.keygenAnswer_cases (cfgOf (run lib ops) a) mp net bodyOut
        (ca (Server.keygenReq (cfgOf (run lib ops) a) tls rq x (kg.encode csr2)) key)
        (x.evs ++ [.ca .keygen (Server.keygenReq (cfgOf (run lib ops) a) tls rq x (kg.encode csr2))])
        (x.user.getD rq.connUser)
    simp only [← ho] at hA
    have h3 : ∀ e ∈ x.evs, e ∈ o.evs := by
      intro e he
      rcases hA with ⟨_, _, ⟨_, _, h3⟩ | ⟨_, _, _, h3⟩ | ⟨_, _, h3, _⟩⟩ | ⟨_, h3, _⟩ <;>
        rw [h3] <;> simp [he]
    have hl := C104_last_call_decides lib ops
    have ht : (cfgOf (run lib ops) a).transport = .http := by
      have : (run lib ops).coap = false := by
        cases hc : (run lib ops).coap with
        | false => rfl
        | true =>
          obtain ⟨op, ho, hs⟩ := hl.2.2.2.2.2.1.mp hc
          exact absurd hs (hcoap op ho)
      simp [cfgOf, this]
    have hrq : (cfgOf (run lib ops) a).requireHttpAuth = true := by
      simp [cfgOf, hl.1, hreq]
    obtain ⟨cb, c, h4, h5, h6⟩ := Server.C19_http_auth_enforced_partial ht hcb hrq
      (.inr ⟨heca, hbad⟩) hr.auth hr.ok
    exact ⟨cb, c, h4, h3 _ h5, h6⟩

/-- C104: when CoAP was started, only clients with a verified certificate reach the CA (with
enhanced certificate authentication also the application's consent is needed, see C99). -/
theorem C104_coap_needs_certificate (lib : Lib) (ops : List SrvOp) (a : App)
    (hcoap : ∃ op ∈ ops, Starts lib op)
    {tls : Tls} {net : Net} {parse} {re : Bool} {rq : Req} {o : Out}
    (h : simpleEnroll (cfgOf (run lib ops) a) tls net parse re rq = some o)
    (hca : CaCalled o.evs) : CertVerified tls := by
  obtain ⟨x, h1, h2, _⟩ := enroll_auth h hca
  have ht : (cfgOf (run lib ops) a).transport = .coap := by
    simp [cfgOf, (C104_last_call_decides lib ops).2.2.2.2.2.1.mpr hcoap]
  unfold Server.enrollAuth Server.checkTlsCert at h1
  unfold CertVerified
  cases hp : tls.peer with
  | none =>
    cases hs : tls.srpUser <;> simp [hp, hs, ht] at h1 <;> subst h1 <;>
      simp [Server.Authorised] at h2
  | some v => cases v <;> simp [hp] at h1 ⊢; subst h1; simp [Server.Authorised] at h2

/-- A call about the CSR attributes. -/
def IsInit : SrvOp → Prop
  | .initCsrattrs _ _ => True
  | _ => False

theorem csrattrs_kept (lib : Lib) (s : Srv) (op : SrvOp) (h : ¬ IsInit op) :
    (step lib s op).2.csrattrs = s.csrattrs := by
  cases op with
  | initCsrattrs t a => exact absurd trivial h
  | addMfg n i c a b d => obtain ⟨m, h⟩ := addMfg_fields lib s n c i a b d; rw [h]
  | enableEca n p c => obtain ⟨a, b, d, e, h⟩ := enableEca_fields s lib n p c; rw [h]
  | setAuthMode m => simp only [step, Setter.setAuthMode]; repeat' split
                     all_goals rfl
  | setRetry v => simp only [step, Setter.setRetry]; repeat' split
                  all_goals rfl
  | setBrskiRetry v => simp only [step, Setter.setBrskiRetry]; repeat' split
                       all_goals rfl
  | setReadTimeout v => simp only [step, Setter.setReadTimeout]; repeat' split
                        all_goals rfl
  | setDtlsTimeout v => simp only [step, Setter.setDtlsTimeout]; repeat' split
                        all_goals rfl
  | setDtlsMtu v => simp only [step, Setter.setDtlsMtu]; repeat' split
                    all_goals rfl
  | setSessionMax v a => simp only [step, Setter.setSessionMax, Setter.initReqArray]; repeat' split
                         all_goals rfl
  | coapStart p ok => simp only [step, Setter.coapStart]; repeat' split
                      all_goals rfl
  | disableEca => simp only [step, Setter.disableEca]; repeat' split
                  all_goals rfl
  | _ => rfl

theorem csrattrs_kept_run (lib : Lib) (s : Srv) (ops : List SrvOp) (h : ∀ op ∈ ops, ¬ IsInit op) :
    (runFrom lib s ops).csrattrs = s.csrattrs := by
  induction ops generalizing s with
  | nil => rfl
  | cons op ops ih =>
    show (runFrom lib (step lib s op).2 ops).csrattrs = _
    rw [ih _ (fun x hx => h x (by simp [hx])), csrattrs_kept lib s op (h op (by simp))]

theorem runFrom_append (lib : Lib) (s : Srv) (a b : List SrvOp) :
    runFrom lib s (a ++ b) = runFrom lib (runFrom lib s a) b := by
  induction a generalizing s with
  | nil => rfl
  | cons op a ih => exact ih _

/-- C104: if enforcement of CSR attributes was switched on at any time and the last call that
configured attributes was accepted, then every CSR that the CA is asked to enrol passed the check
against the text of that call, or, if proof of possession was on at the time of the call and the
text did not mention it, against the text with challengePassword added.  (What passing the check means is
C23.)  Missing: the last call about attributes was refused, see `C104_enforcement_lapses_false`. -/
theorem C104_attributes_enforced_partial (lib : Lib) (pre post : List SrvOp) (t : List Nat)
    (al : Bool) (a : App) (hcb : a.csrCb = none)
    (hpost : ∀ op ∈ post, ¬ IsInit op)
    (hacc : (step lib (run lib pre) (.initCsrattrs (some t) al)).1 = .none)
    (henf : ∃ op ∈ pre ++ post, Enforces op)
    {tls : Tls} {net : Net} {parse} {re : Bool} {rq : Req} {o : Out}
    (h : simpleEnroll (cfgOf (run lib (pre ++ .initCsrattrs (some t) al :: post)) a) tls net parse re
      rq = some o)
    (hca : CaCalled o.evs) :
    ∃ t' present, lib.attrs t = some present ∧
      (lastSet saysPop true pre = true ∧ present = false → lib.addPop t = some t') ∧
      (lastSet saysPop true pre = false ∨ present = true → t' = t) ∧
      Asn1.allPresent a.text a.odd (.stored t') rq.body = .ret .none := by
  obtain ⟨present, t', h1, h2, h3, h4⟩ := Setter.C31_csrattrs_accepted lib (run lib pre) t al hacc
  have hpop := (C104_last_call_decides lib pre).2.1
  refine ⟨t', present, h1, ?_, ?_, ?_⟩
  · rintro ⟨h5, h6⟩; exact h4 (by rw [hpop, h5]) h6
  · intro h5; exact h3 (by rw [hpop]; exact h5)
  · obtain ⟨k, q, hca⟩ := hca
    have h20 := (Server.C20_ca_only_after_checks h hca).2.2.2.2.1
    have hst : (run lib (pre ++ .initCsrattrs (some t) al :: post)).csrattrs = some t' := by
      unfold run at h2 ⊢
      rw [runFrom_append]
      show (runFrom lib (step lib _ _).2 post).csrattrs = _
      rw [csrattrs_kept_run lib _ post hpost, h2]
    have he : (run lib (pre ++ .initCsrattrs (some t) al :: post)).enforce = true := by
      refine (C104_last_call_decides lib _).2.2.2.2.2.2.mpr ?_
      obtain ⟨op, h5, h6⟩ := henf
      refine ⟨op, ?_, h6⟩
      simp only [List.mem_append, List.mem_cons] at h5 ⊢
      rcases h5 with h5 | h5
      · exact .inl h5
      · exact .inr (.inr h5)
    have := h20 he
    simpa [cfgOf, sourceOf, hcb, hst] using this

/-- The application of the examples: every certificate or credential is fine, and the CA issues a
certificate. -/
def exApp : App :=
  { authCb := some fun c => c.user == [97, 100, 97]
    enrollCb := some fun _ => ⟨.none, [1, 2, 3]⟩
    reenrollCb := none
    csrCb := none
    initOk := fun _ => true
    verify := fun _ => 1
    text := fun o => o
    odd := fun _ _ => [] }

/-- A request with the credentials of the user and a CSR, here the text of an empty SEQUENCE. -/
def exRq : Req := ⟨[97, 112, 112, 108, 105, 99, 97, 116, 105, 111, 110, 47, 112, 107, 99, 115, 49, 48], [77, 65, 65, 61], none, (.good, ⟨.basic, [97, 100, 97], [120], []⟩), []⟩

/-- A connection without client certificate, with TLS unique id 7. -/
def exTls : Tls := ⟨none, false, false, some [7], fun _ => none, false⟩

/-- What the CSR says: a key, a signature that verifies, the TLS unique id. -/
def exParse : List Nat → Option Csr := fun _ => some ⟨true, 1, .str [7], fun _ => none⟩

/-- Whether the CA is asked. -/
def asked (o : Option Out) : Bool :=
  match o with
  | some o => o.evs.any fun e => match e with | .ca _ _ => true | _ => false
  | none => false

/-- The default configuration lets the request through to the CA: the hypotheses of the theorems
above can be met. -/
example : lastSet saysPop true ([] : List SrvOp) = true ∧
    lastSet (saysRequired exLib) 1 [] = 1 ∧ exApp.authCb.isSome = true ∧
    asked (simpleEnroll (cfgOf (run exLib []) exApp) exTls ⟨true, 100, true⟩ exParse false exRq) =
      true := by
  refine ⟨rfl, rfl, rfl, ?_⟩
  decide +kernel

/-- And after CoAP was started, for a client with a certificate. -/
example : Starts exLib (.coapStart 5684 true) ∧
    asked (simpleEnroll (cfgOf (run exLib [.coapStart 5684 true]) exApp)
      { exTls with peer := some .ok } ⟨true, 100, true⟩ exParse false exRq) = true ∧
    asked (simpleEnroll (cfgOf (run exLib [.coapStart 5684 true]) exApp)
      exTls ⟨true, 100, true⟩ exParse false exRq) = false := by
  refine ⟨by decide, ?_, ?_⟩ <;> decide +kernel

/-- Requests that miss what is demanded do not reach the CA; switching the demand off lets them
through. -/
example :
    asked (simpleEnroll (cfgOf (run exLib []) exApp) exTls ⟨true, 100, true⟩
      (fun _ => some ⟨true, 1, .absent, fun _ => none⟩) false exRq) = false ∧
    asked (simpleEnroll (cfgOf (run exLib [.disablePop]) exApp) exTls ⟨true, 100, true⟩
      (fun _ => some ⟨true, 1, .absent, fun _ => none⟩) false exRq) = true ∧
    asked (simpleEnroll (cfgOf (run exLib []) exApp) { exTls with peer := some .ok } ⟨true, 100, true⟩
      exParse false { exRq with hdr := (.missing, ⟨.none, [], [], []⟩) }) = false ∧
    asked (simpleEnroll (cfgOf (run exLib [.setRequired 0]) exApp) { exTls with peer := some .ok }
      ⟨true, 100, true⟩ exParse false { exRq with hdr := (.missing, ⟨.none, [], [], []⟩) }) = true := by
  refine ⟨?_, ?_, ?_, ?_⟩ <;> decide +kernel

/-- A CSR text with the demanded attribute reaches the CA. -/
example :
    (step exLib (run exLib [.enforceCsrattr]) (.initCsrattrs (some [77, 65, 85, 71, 65, 49, 85, 69, 65, 119, 61, 61]) true)).1 = .none ∧
    asked (simpleEnroll (cfgOf (run exLib ([.enforceCsrattr] ++
        SrvOp.initCsrattrs (some [77, 65, 85, 71, 65, 49, 85, 69, 65, 119, 61, 61]) true :: [.setRetry 60])) exApp) exTls ⟨true, 100, true⟩
      exParse false { exRq with body := [77, 65, 85, 71, 65, 49, 85, 69, 65, 119, 61, 61] }) = true := by
  refine ⟨?_, ?_⟩ <;> decide +kernel

/-- C104 is false of re-enrolment: in the default configuration, where HTTP authentication is
required, with an application that accepts no credentials at all, a client that sends a
malformed Authorization header gets as far as the CA with its certificate alone. -/
theorem C104_default_reenroll_false :
    ∃ (a : App) (tls : Tls) (net : Net) (parse : List Nat → Option Csr) (rq : Req),
      (∃ cb, a.authCb = some cb ∧ ∀ c, cb c = false) ∧
      asked (simpleEnroll (cfgOf (run exLib []) a) tls net parse true rq) = true :=
  ⟨{ exApp with authCb := some fun _ => false, reenrollCb := some fun _ => ⟨.none, [1]⟩ },
    { exTls with peer := some .ok }, ⟨true, 100, true⟩, exParse,
    { exRq with hdr := (.bad, ⟨.none, [], [], []⟩) }, ⟨_, rfl, fun _ => rfl⟩, by decide +kernel⟩

/-- C104 is false of attributes: enforcement is on and the attribute commonName is demanded, so a
CSR without it does not reach the CA; then the application tries to configure other attributes,
and the call is refused; from then on nothing is demanded, and the same CSR reaches the CA. -/
theorem C104_enforcement_lapses_false :
    ∃ (lib : Lib) (good bad : SrvOp) (a : App) (tls : Tls) (net : Net) (parse : List Nat → Option Csr)
      (rq : Req),
      (step lib (run lib [.enforceCsrattr]) good).1 = .none ∧
      (step lib (run lib [.enforceCsrattr, good]) bad).1 ≠ .none ∧
      (run lib [.enforceCsrattr, good, bad]).enforce = true ∧
      asked (simpleEnroll (cfgOf (run lib [.enforceCsrattr, good]) a) tls net parse false rq) = false ∧
      asked (simpleEnroll (cfgOf (run lib [.enforceCsrattr, good, bad]) a) tls net parse false rq) =
        true :=
  ⟨exLib, .initCsrattrs (some [77, 65, 85, 71, 65, 49, 85, 69, 65, 119, 61, 61]) true, .initCsrattrs (some [98, 97, 100]) true, exApp, exTls,
    ⟨true, 100, true⟩, exParse, exRq, by decide +kernel, by decide +kernel, by decide +kernel,
    by decide +kernel, by decide +kernel⟩

end Verif.Config
