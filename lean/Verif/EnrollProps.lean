import Verif.AuthProps
import Verif.DispatchModel

/-!
# C20, C21: enrolment, C54: server-side key generation, C55: user id given to the CA,
C56: BRSKI requests
-/
namespace Verif.Server

/-! ## Helper lemmas -/

theorem handleEca_csr {cfg : Cfg} {tls : Tls} {parse buf b c}
    (hc : (handleEca cfg tls parse buf b).2.2 = some c) : parse buf = some c := by
  unfold handleEca at hc
  cases hp : parse buf <;> simp only [hp] at hc <;> (repeat' split at hc) <;> simp_all

theorem enrollAuth_pending {cfg : Cfg} {tls : Tls} {hdr parse ty buf} {a : AuthOut}
    (h : enrollAuth cfg tls hdr parse ty buf = some a) :
    (a.st = .httpAuthPending ∧ a.evs = challenge cfg.authMode) ∨
      (a.st ≠ .httpAuthPending ∧ ∀ e ∈ a.evs, ∃ c, e = .askApp c) := by
  unfold enrollAuth checkTlsCert at h
  cases hp : tls.peer with
  | none =>
    cases hs : tls.srpUser <;> cases ht : cfg.transport <;> cases hcb : cfg.authCb <;>
      simp [hp, hs, ht, hcb] at h ⊢ <;> (repeat' split at h) <;>
      (try (simp at h)) <;> (try subst h) <;> (try simp) <;> (try split) <;> simp_all
  | some v =>
    cases v <;> cases ht : cfg.transport <;> cases hcb : cfg.authCb <;>
      simp [hp, ht, hcb] at h ⊢ <;> (repeat' split at h) <;>
      (try (simp at h)) <;> (try subst h) <;> (try simp) <;> (try split) <;> simp_all

/-- What an authentication result can look like. -/
theorem enrollAuth_facts {cfg : Cfg} {tls : Tls} {hdr parse ty buf} {a : AuthOut}
    (h : enrollAuth cfg tls hdr parse ty buf = some a) :
    (∀ e ∈ a.evs, (∃ c, e = .askApp c) ∨ e = .head 401) ∧
    (Authorised a.st → Ev.head 401 ∉ a.evs) ∧
    (∀ c, a.csr = some c → parse buf = some c) ∧
    (∀ u, a.user = some u → hdr.1 = .good ∧ hdr.2.mode ≠ .token ∧ u = hdr.2.user ∧
      a.evs = [.askApp hdr.2] ∧
      (Authorised a.st → ∃ cb, cfg.authCb = some cb ∧ cb hdr.2 = true)) := by
  have hch : ∀ m, ∀ e ∈ challenge m, (∃ c, e = Ev.askApp c) ∨ e = .head 401 := by
    intro m e he
    cases m <;> simp [challenge] at he <;> exact .inr he
  unfold enrollAuth at h
  cases hc : checkTlsCert tls with
  | none => simp [hc] at h; subst h; simp
  | some st0 =>
    simp only [hc] at h
    generalize (if st0 ≠ .certAuth ∧ tls.srpUser = true then AuthState.srpAuth else st0) = rv at h
    cases ht : cfg.transport with
    | coap =>
      simp only [ht] at h
      by_cases h1 : rv ≠ .certAuth
      · simp [h1] at h; subst h; simp
      · simp only [h1, if_false] at h
        by_cases h2 : cfg.ecaEnabled = true
        · simp only [h2, if_true] at h
          by_cases h3 : buf = []
          · simp [h3] at h; subst h; simp
          · simp only [h3, if_false] at h
            have hcs := fun c => @handleEca_csr cfg tls parse buf cfg.ecaCsrCheck c
            generalize handleEca cfg tls parse buf cfg.ecaCsrCheck = e at h hcs
            cases hcb : cfg.authCb <;> simp only [hcb] at h <;> split at h <;>
              simp at h <;> subst h <;> simp <;> exact hcs
        · simp [h2] at h; subst h; simp
    | http =>
      simp only [ht] at h
      cases hcb : cfg.authCb with
      | none => simp [hcb] at h; subst h; simp
      | some cb =>
        simp only [hcb] at h
        by_cases h1 : rv = .unauthorized ∨ cfg.requireHttpAuth = true
        · simp only [h1, if_true] at h
          have hcs := fun c => @handleEca_csr cfg tls parse buf cfg.ecaCsrCheck c
          generalize handleEca cfg tls parse buf cfg.ecaCsrCheck = e at h hcs
          generalize (cfg.ecaEnabled && rv == .certAuth) = eca at h
          cases eca with
          | true =>
            simp only [Bool.not_true, Bool.false_and, if_true, Bool.false_eq_true, if_false] at h
            split at h
            case h_6 =>
              split at h <;> simp at h <;> subst h <;> simp <;> exact hcs
            all_goals
              simp at h
              subst h
              simp [Authorised]
              try exact ⟨hch _, hcs⟩
              try exact hcs
          | false =>
            simp only [Bool.not_false, Bool.true_and, if_false, Bool.false_eq_true] at h
            split at h
            case h_6 =>
              split at h <;> simp at h <;> subst h <;> simp
            case h_1 =>
              rename_i hg
              simp only [Option.some.injEq] at h
              subst h
              simp only [hg, beq_self_eq_true, Bool.true_and]
              refine ⟨by simp, by simp, by simp, ?_⟩
              intro u hu
              split at hu
              · rename_i hm
                simp at hu hm
                refine ⟨trivial, hm, hu.symm, trivial, ?_⟩
                intro ha
                refine ⟨cb, rfl, ?_⟩
                unfold Authorised at ha
                cases hb : cb hdr.2 <;> simp [hb] at ha ⊢
              · simp at hu
            all_goals
              simp at h
              subst h
              simp [Authorised]
              try exact hch _
        · simp [h1] at h; subst h; simp

/-- The configured CA callback of the request. -/
def caOf (cfg : Cfg) (re : Bool) : Option (CaReq → CaRes) :=
  if re then cfg.reenrollCb else cfg.enrollCb

def kindOf (re : Bool) : CaKind := if re then .reenroll else .enroll
def tyOf (re : Bool) : ReqType := if re then .reenroll else .enroll

/-- Conditions met by a request that reaches the CA callback. -/
structure Reaches (cfg : Cfg) (tls : Tls) (parse : List Nat → Option Csr) (re : Bool)
    (rq : Req) (ca : CaReq → CaRes) (a : AuthOut) (csr : Csr) : Prop where
  cb : caOf cfg re = some ca
  auth : enrollAuth cfg tls rq.hdr parse (tyOf re) rq.body = some a
  ok : Authorised a.st
  parsed : parse rq.body = some csr
  checked : checkCsr csr = true
  ct : cfg.transport = .http → ctPkcs10 rq.ct = true
  pop : (tls.peer.isSome = true ∧ tls.cmcRA = true) ∨
        tlsUidAuth cfg.enablePop tls.uid csr.chal = .ok
  attrs : cfg.enforceAttrs = true → cfg.attrsPresent rq.body = true

/-- Nothing but questions to the application and authentication challenges happened. -/
def OnlyAuth (evs : List Ev) : Prop := ∀ e ∈ evs, (∃ c, e = .askApp c) ∨ e = .head 401

/-- The run stopped before the CA was reached: with a challenge, or with an error. -/
def Stopped (cfg : Cfg) (o : Out) : Prop :=
  (o.rc = .authPending ∧ o.evs = challenge cfg.authMode) ∨
  (o.rc ≠ .none ∧ o.rc ≠ .caEnrollRetry ∧ o.rc ≠ .authPending ∧ ∀ e ∈ o.evs, ∃ c, e = .askApp c)

theorem Stopped.rc {cfg : Cfg} {o : Out} (h : Stopped cfg o) :
    o.rc ≠ .none ∧ o.rc ≠ .caEnrollRetry := by
  rcases h with ⟨h, _⟩ | ⟨h1, h2, _⟩
  · simp [h]
  · exact ⟨h1, h2⟩

theorem Stopped.evs {cfg : Cfg} {o : Out} (h : Stopped cfg o) : OnlyAuth o.evs := by
  intro e he
  rcases h with ⟨_, h⟩ | ⟨_, _, _, h⟩
  · rw [h] at he
    cases hm : cfg.authMode <;> simp [challenge, hm] at he <;> exact .inr he
  · exact .inl (h e he)

theorem csr_from_body {parse : List Nat → Option Csr} {body : List Nat} {a : AuthOut} {csr}
    (hcsr : ∀ c, a.csr = some c → parse body = some c)
    (hm : a.csr.or (parse body) = some csr) :
    parse body = some csr := by
  cases hac : a.csr with
  | none => simpa [hac] using hm
  | some c => rw [hcsr c hac]; simpa [hac] using hm

theorem pop_cases {tls : Tls} {pop uid chal} (hp : (if (tls.peer.isSome && tls.cmcRA) = true
      then Pop.ok else tlsUidAuth pop uid chal) = Pop.ok) :
    (tls.peer.isSome = true ∧ tls.cmcRA = true) ∨ tlsUidAuth pop uid chal = .ok := by
  split at hp
  · rename_i hra; simp at hra; exact .inl hra
  · exact .inr hp

/-- Every run of `simpleEnroll`: it stops before the CA with an error, or the conditions
hold and the CA is called once. -/
theorem simpleEnroll_cases {cfg : Cfg} {tls : Tls} {net : Net} {parse} {re : Bool} {rq : Req}
    {o : Out} (h : simpleEnroll cfg tls net parse re rq = some o) :
    Stopped cfg o ∨
    ∃ (ca : CaReq → CaRes) (a : AuthOut) (csr : Csr),
      Reaches cfg tls parse re rq ca a csr ∧
      o = enrollAnswer cfg net (ca (caReqOf cfg tls rq a))
        (a.evs ++ [.ca (kindOf re) (caReqOf cfg tls rq a)]) (a.user.getD rq.connUser) := by
  unfold simpleEnroll at h
  cases hca : (if re = true then cfg.reenrollCb else cfg.enrollCb) with
  | none => simp only [hca] at h; simp at h; subst h; simp [Stopped]
  | some ca =>
    simp only [hca] at h
    by_cases hct : cfg.transport = .http ∧ (!ctPkcs10 rq.ct) = true
    · simp only [hct, and_self, if_true] at h; simp at h; subst h; simp [Stopped]
    · simp only [hct, if_false] at h
      cases ha : enrollAuth cfg tls rq.hdr parse (if re then .reenroll else .enroll) rq.body with
      | none => simp [ha] at h
      | some a =>
        simp only [ha] at h
        have hst := enrollAuth_pending ha
        obtain ⟨_, _, hcsr, _⟩ := enrollAuth_facts ha
        have hfail : ∀ (e : EstErr) (u : List Nat), a.st ≠ .httpAuthPending →
            (e ≠ .none ∧ e ≠ .caEnrollRetry ∧ e ≠ .authPending) →
            some ({ rc := e, evs := a.evs, connUser := u } : Out) = some o → Stopped cfg o := by
          intro e u hn he ho
          simp only [Option.some.injEq] at ho
          rcases hst with ⟨h1, _⟩ | ⟨_, h1⟩
          · exact absurd h1 hn
          subst ho; exact .inr ⟨he.1, he.2.1, he.2.2, h1⟩
        have hgo : Authorised a.st →
            enrollCsr cfg tls net parse (kindOf re) ca rq a = some o →
            Stopped cfg o ∨ ∃ (ca : CaReq → CaRes) (a : AuthOut) (csr : Csr),
              Reaches cfg tls parse re rq ca a csr ∧
              o = enrollAnswer cfg net (ca (caReqOf cfg tls rq a))
                (a.evs ++ [.ca (kindOf re) (caReqOf cfg tls rq a)])
                (a.user.getD rq.connUser) := by
          intro hauth hx
          have hnp : a.st ≠ .httpAuthPending := by
            rcases hauth with h | h | h <;> simp [h]
          unfold enrollCsr at hx
          cases hm : a.csr.or (parse rq.body) with
          | none =>
            simp only [hm] at hx
            exact .inl (hfail _ _ hnp (by decide) hx)
          | some csr =>
            simp only [hm] at hx
            have hparse := csr_from_body hcsr hm
            by_cases hck : ¬ checkCsr csr = true
            · simp only [hck, Bool.not_false, if_true] at hx
              exact .inl (hfail _ _ hnp (by decide) hx)
            simp only [Decidable.not_not] at hck
            simp only [hck, Bool.not_true, Bool.false_eq_true, if_false] at hx
            have key := @pop_cases tls cfg.enablePop tls.uid csr.chal
            generalize (if (tls.peer.isSome && tls.cmcRA) = true then Pop.ok
                else tlsUidAuth cfg.enablePop tls.uid csr.chal) = p at hx key
            cases p with
            | ub => simp at hx
            | fail => exact .inl (hfail _ _ hnp (by decide) hx)
            | ok =>
              simp only at hx
              by_cases hat : (cfg.enforceAttrs && !cfg.attrsPresent rq.body) = true
              · simp only [hat, if_true] at hx
                exact .inl (hfail _ _ hnp (by decide) hx)
              · simp only [hat] at hx
                right
                refine ⟨ca, a, csr, ⟨hca, ha, hauth, hparse, hck, ?_, key rfl, ?_⟩, ?_⟩
                · intro ht
                  cases hcc : ctPkcs10 rq.ct with
                  | true => rfl
                  | false => exact absurd ⟨ht, by simp [hcc]⟩ hct
                · intro he
                  cases hcc : cfg.attrsPresent rq.body with
                  | true => rfl
                  | false => exact absurd (by simp [he, hcc]) hat
                · simpa using hx.symm
        cases hs : a.st <;> simp only [hs] at h
        all_goals first
          | (simp only [Option.some.injEq] at h
             subst h
             rcases hst with ⟨_, h1⟩ | ⟨h1, _⟩
             · exact .inl (.inl ⟨rfl, h1⟩)
             · exact absurd hs h1)
          | exact .inl (hfail _ _ (by simp [hs]) (by decide) h)
          | exact hgo (by simp [Authorised, hs]) h

theorem writeBody_evs (n : Nat) (b : List Nat) :
    ∀ e ∈ (writeBody n b).1, ∃ p, e = .body p ∧ p <+: b ∧ p ≠ [] := by
  intro e he
  simp only [writeBody] at he
  by_cases h : b.take n = []
  · simp [h] at he
  · simp only [h, if_false, List.mem_singleton] at he
    exact ⟨_, he, List.take_prefix _ _, h⟩

/-- What the handler does with the answer of the CA. -/
theorem enrollAnswer_cases (cfg : Cfg) (net : Net) (r : CaRes) (evs : List Ev) (u : List Nat) :
    let o := enrollAnswer cfg net r evs u
    o.connUser = u ∧
    ((r.rc = .none ∧ r.cert ≠ [] ∧
      ((cfg.transport = .coap ∧ o.rc = .none ∧ o.evs = evs) ∨
       (cfg.transport = .http ∧ net.hdrOut = false ∧ o.rc = .httpWrite ∧ o.evs = evs) ∨
       (cfg.transport = .http ∧ net.hdrOut = true ∧
         o.evs = evs ++ [.head 200] ++ (writeBody net.bodyOut r.cert).1 ∧
         o.rc = if (writeBody net.bodyOut r.cert).2 then .none else .httpWrite))) ∨
     (¬ (r.rc = .none ∧ r.cert ≠ []) ∧ o.evs = evs ∧
       o.rc = if r.rc = .caEnrollRetry then .caEnrollRetry else .caEnrollFail)) := by
  unfold enrollAnswer
  by_cases hr : r.rc = .none ∧ r.cert ≠ []
  · simp only [hr, and_self, if_true, ne_eq, not_false_eq_true]
    cases ht : cfg.transport <;> cases hn : net.hdrOut <;> simp
  · simp only [hr, if_false]
    by_cases h2 : r.rc = .caEnrollRetry <;> simp [h2]

/-! ## C20 -/

/-- The peer presented a certificate marked as registration authority. -/
def IsRA (tls : Tls) : Prop := tls.peer ≠ none ∧ tls.cmcRA = true

/-- Proof of possession as far as the code checks it: no challengePassword and none demanded,
or the challengePassword (followed by its NUL) starts with the id of the TLS session. -/
def PopHeld (cfg : Cfg) (tls : Tls) (csr : Csr) : Prop :=
  (csr.chal = .absent ∧ cfg.enablePop = false) ∨
  ∃ d u, csr.chal = .str d ∧ tls.uid = some u ∧ u ≠ [] ∧ u <+: d ++ [0]

theorem popHeld_of_ok {cfg : Cfg} {tls : Tls} {csr : Csr}
    (h : tlsUidAuth cfg.enablePop tls.uid csr.chal = .ok) : PopHeld cfg tls csr := by
  unfold tlsUidAuth at h
  unfold PopHeld
  cases hc : csr.chal with
  | absent => simp only [hc] at h; cases hp : cfg.enablePop <;> simp [hp] at h ⊢
  | malformed => simp [hc] at h
  | str d =>
    simp only [hc] at h
    cases hu : tls.uid with
    | none => simp [hu] at h
    | some u =>
      simp only [hu] at h
      by_cases h1 : u = []
      · simp [h1] at h
      · simp only [h1, if_false] at h
        by_cases h2 : d.length + 1 < u.length
        · simp [h2] at h
        · simp only [h2, if_false] at h
          by_cases h3 : u = (d ++ [0]).take u.length
          · right
            refine ⟨d, u, rfl, rfl, h1, ?_⟩
            rw [h3]; exact List.take_prefix _ _
          · simp [h3] at h

/-- C20: whatever the configuration, the connection and the request, the CA callback is
called only for the right kind of request, only if the client is authorised, over HTTP only
for content types starting with application/pkcs10, only if the CSR parsed, carries a public
key and its signature verified, only if the client is a registration authority or proof of
possession held, and only if all enforced attributes are present; and the CA gets the bytes
that were checked.  (The strength of the proof-of-possession check itself is C22.) -/
theorem C20_ca_only_after_checks {cfg : Cfg} {tls : Tls} {net : Net} {parse} {re : Bool}
    {rq : Req} {o : Out} (h : simpleEnroll cfg tls net parse re rq = some o)
    {k : CaKind} {q : CaReq} (hca : Ev.ca k q ∈ o.evs) :
    k = (if re then .reenroll else .enroll) ∧
    (cfg.transport = .http → [97, 112, 112, 108, 105, 99, 97, 116, 105, 111, 110, 47, 112, 107, 99, 115, 49, 48] <+: rq.ct) ∧
    (CertVerified tls ∨ SrpLogin tls ∨ AppAccepted cfg o.evs) ∧
    (∃ csr, parse rq.body = some csr ∧ csr.hasPubkey = true ∧ csr.verifyRc > 0 ∧
      (IsRA tls ∨ PopHeld cfg tls csr)) ∧
    (cfg.enforceAttrs = true → cfg.attrsPresent rq.body = true) ∧
    q.body = rq.body ∧ q.seg = rq.seg ∧ (q.hasPeer = true ↔ tls.peer ≠ none) := by
  rcases simpleEnroll_cases h with hs | ⟨ca, a, csr, hr, ho⟩
  · rcases hs.evs _ hca with ⟨c, hc⟩ | hc <;> simp at hc
  · obtain ⟨_, hA⟩ := enrollAnswer_cases cfg net (ca (caReqOf cfg tls rq a))
        (a.evs ++ [.ca (kindOf re) (caReqOf cfg tls rq a)]) (a.user.getD rq.connUser)
    rw [← ho] at hA
    obtain ⟨hev, _, _, _⟩ := enrollAuth_facts hr.auth
    have hsub : ∀ e ∈ a.evs, e ∈ o.evs := by
      intro e he
      rcases hA with ⟨_, _, ⟨_, _, h3⟩ | ⟨_, _, _, h3⟩ | ⟨_, _, h3, _⟩⟩ | ⟨_, h3, _⟩ <;>
        rw [h3] <;> simp [he]
    have hmem : Ev.ca k q ∈ a.evs ++ [.ca (kindOf re) (caReqOf cfg tls rq a)] := by
      rcases hA with ⟨_, _, ⟨_, _, h3⟩ | ⟨_, _, _, h3⟩ | ⟨_, _, h3, _⟩⟩ | ⟨_, h3, _⟩ <;>
        rw [h3] at hca
      · exact hca
      · exact hca
      · simp only [List.mem_append, List.mem_singleton, reduceCtorEq, or_false] at hca ⊢
        rcases hca with hca | hca
        · exact hca
        · obtain ⟨p, hp, _⟩ := writeBody_evs _ _ _ hca
          simp at hp
      · exact hca
    have hq : k = kindOf re ∧ q = caReqOf cfg tls rq a := by
      rcases List.mem_append.mp hmem with hm | hm
      · rcases hev _ hm with ⟨c, hc⟩ | hc <;> simp at hc
      · simpa using hm
    obtain ⟨hk, hq⟩ := hq
    have hck := hr.checked
    simp only [checkCsr, Bool.and_eq_true, decide_eq_true_eq] at hck
    refine ⟨hk, ?_, ?_, ⟨csr, hr.parsed, hck.1, hck.2, ?_⟩, hr.attrs, by rw [hq]; rfl,
      by rw [hq]; rfl, ?_⟩
    · intro ht
      have := hr.ct ht
      simpa [ctPkcs10] using this
    · rcases C19_authorised_only_with_evidence hr.auth hr.ok with h1 | h1 | h1
      · exact .inl h1
      · exact .inr (.inl h1)
      · obtain ⟨cb, c, h1, h2, h3⟩ := h1
        exact .inr (.inr ⟨cb, c, h1, hsub _ h2, h3⟩)
    · rcases hr.pop with hp | hp
      · left
        refine ⟨?_, hp.2⟩
        intro hn; simp [hn] at hp
      · exact .inr (popHeld_of_ok hp)
    · rw [hq]
      show tls.peer.isSome = true ↔ _
      cases tls.peer <;> simp


/-- Example configuration: certificate-authenticated HTTP server with an enrolment callback
that answers with three bytes. -/
def demoCfg : Cfg :=
  { strictCfg with
    authCb := none
    requireHttpAuth := false
    enablePop := false
    enrollCb := some fun _ => ⟨.none, [1, 2, 3]⟩
    reenrollCb := some fun _ => ⟨.caEnrollRetry, []⟩ }

def demoCsr : Csr := ⟨true, 1, .absent, fun _ => none⟩
def demoReq : Req := ⟨[97, 112, 112, 108, 105, 99, 97, 116, 105, 111, 110, 47, 112, 107, 99, 115, 49, 48], [77], none, (.missing, ⟨.none, [], [], []⟩), []⟩
def demoNet : Net := ⟨true, 100, true⟩

example : ∃ o, simpleEnroll demoCfg certTls demoNet (fun _ => some demoCsr) false demoReq = some o ∧
    Ev.ca .enroll ⟨[77], [], true, none⟩ ∈ o.evs := ⟨_, rfl, by decide⟩

/-! ## C21 -/

/-- C21 (safety), for an arbitrary network: every body byte that leaves the server during an
enrolment is part of a prefix of the certificate that the CA callback returned, with success,
for this very request; and a 200 header only leaves in that case. -/
theorem C21_only_ca_output_sent {cfg : Cfg} {tls : Tls} {net : Net} {parse} {re : Bool}
    {rq : Req} {o : Out} (h : simpleEnroll cfg tls net parse re rq = some o) {e : Ev}
    (he : e ∈ o.evs) (hbody : e = .head 200 ∨ ∃ b, e = .body b) :
    ∃ ca q, (if re then cfg.reenrollCb else cfg.enrollCb) = some ca ∧
      Ev.ca (if re then .reenroll else .enroll) q ∈ o.evs ∧
      (ca q).rc = .none ∧ (ca q).cert ≠ [] ∧ ∀ b, e = .body b → b <+: (ca q).cert := by
  rcases simpleEnroll_cases h with hs | ⟨ca, a, csr, hr, ho⟩
  · rcases hs.evs _ he with ⟨c, hc⟩ | hc <;> rcases hbody with hb | ⟨b, hb⟩ <;>
      simp [hb] at hc
  · obtain ⟨_, hA⟩ := enrollAnswer_cases cfg net (ca (caReqOf cfg tls rq a))
        (a.evs ++ [.ca (kindOf re) (caReqOf cfg tls rq a)]) (a.user.getD rq.connUser)
    rw [← ho] at hA
    obtain ⟨hev, _, _, _⟩ := enrollAuth_facts hr.auth
    have hno : e ∉ a.evs ++ [.ca (kindOf re) (caReqOf cfg tls rq a)] := by
      intro hm
      rcases List.mem_append.mp hm with hm | hm
      · rcases hev _ hm with ⟨c, hc⟩ | hc <;> rcases hbody with hb | ⟨b, hb⟩ <;>
          simp [hb] at hc
      · rcases hbody with hb | ⟨b, hb⟩ <;> simp [hb] at hm
    rcases hA with ⟨h1, h2, ⟨_, _, h3⟩ | ⟨_, _, _, h3⟩ | ⟨_, _, h3, _⟩⟩ | ⟨_, h3, _⟩
    · rw [h3] at he; exact absurd he hno
    · rw [h3] at he; exact absurd he hno
    · refine ⟨ca, _, hr.cb, ?_, h1, h2, ?_⟩
      · rw [h3]; simp [kindOf]
      · intro b hb
        subst hb
        rw [h3] at he
        simp only [List.mem_append] at he hno
        rcases he with (he | he) | he
        · exact absurd he hno
        · simp at he
        · obtain ⟨p, hp, hp2, _⟩ := writeBody_evs _ _ _ he
          simp at hp
          rw [hp]; exact hp2
    · rw [h3] at he; exact absurd he hno

/-- C21, when the network delivers: over HTTP the handler answers in one of four ways, decided
by the CA alone once it is reached.  A certificate: a 200 header and then exactly the
certificate, reported as success.  A retry: `EST_ERR_CA_ENROLL_RETRY` and nothing sent.
Anything else (an error, or an empty certificate): `EST_ERR_CA_ENROLL_FAIL` and nothing sent.
The CA not reached: an error or a pending authentication, and no certificate. -/
theorem C21_answers {cfg : Cfg} {tls : Tls} {net : Net} {parse} {re : Bool}
    {rq : Req} {o : Out} (ht : cfg.transport = .http)
    (h : simpleEnroll cfg tls net parse re rq = some o) (hh : net.hdrOut = true)
    (hb : ∀ ca q, (if re then cfg.reenrollCb else cfg.enrollCb) = some ca →
      (ca q).cert.length ≤ net.bodyOut) :
    (∃ ca q pre, (if re then cfg.reenrollCb else cfg.enrollCb) = some ca ∧
      (∀ e ∈ pre, ∃ c, e = Ev.askApp c) ∧
      (((ca q).rc = .none ∧ (ca q).cert ≠ [] ∧ o.rc = .none ∧
          o.evs = pre ++ [.ca (if re then .reenroll else .enroll) q, .head 200,
            .body (ca q).cert]) ∨
       (((ca q).rc ≠ .none ∨ (ca q).cert = []) ∧
          o.evs = pre ++ [.ca (if re then .reenroll else .enroll) q] ∧
          ((ca q).rc = .caEnrollRetry → o.rc = .caEnrollRetry) ∧
          ((ca q).rc ≠ .caEnrollRetry → o.rc = .caEnrollFail)))) ∨
    (o.rc ≠ .none ∧ o.rc ≠ .caEnrollRetry ∧ ∀ e ∈ o.evs, (∃ c, e = .askApp c) ∨ e = .head 401) := by
  rcases simpleEnroll_cases h with hs | ⟨ca, a, csr, hr, ho⟩
  · exact .inr ⟨hs.rc.1, hs.rc.2, hs.evs⟩
  · left
    obtain ⟨_, hA⟩ := enrollAnswer_cases cfg net (ca (caReqOf cfg tls rq a))
        (a.evs ++ [.ca (kindOf re) (caReqOf cfg tls rq a)]) (a.user.getD rq.connUser)
    rw [← ho] at hA
    refine ⟨ca, caReqOf cfg tls rq a, a.evs, hr.cb, ?_, ?_⟩
    · rcases enrollAuth_pending hr.auth with ⟨hp, _⟩ | ⟨_, hp⟩
      · have := hr.ok; simp [Authorised, hp] at this
      · exact hp
    · have hb' := hb ca (caReqOf cfg tls rq a) hr.cb
      rcases hA with ⟨h1, h2, ⟨h4, _⟩ | ⟨_, h4, _⟩ | ⟨_, _, h3, h4⟩⟩ | ⟨h1, h3, h4⟩
      · simp [ht] at h4
      · simp [hh] at h4
      · left
        refine ⟨h1, h2, ?_, ?_⟩
        · rw [h4]; simp [writeBody, List.take_of_length_le hb', h2]
        · rw [h3]; simp [writeBody, List.take_of_length_le hb', h2, kindOf]
      · right
        refine ⟨?_, by rw [h3]; simp [kindOf], ?_, ?_⟩
        · by_cases hx : (ca (caReqOf cfg tls rq a)).rc = .none
          · right; simpa [hx] using h1
          · exact .inl hx
        · intro hx; rw [h4]; simp [hx]
        · intro hx; rw [h4]; simp [hx]

example : ∃ o, simpleEnroll demoCfg certTls demoNet (fun _ => some demoCsr) false demoReq = some o ∧
    o.rc = .none ∧ Ev.body [1, 2, 3] ∈ o.evs := ⟨_, rfl, by decide⟩
example : ∃ o, simpleEnroll demoCfg certTls demoNet (fun _ => some demoCsr) true demoReq = some o ∧
    o.rc = .caEnrollRetry := ⟨_, rfl, by decide⟩

/-! ## C55 -/

/-- C55 over CoAP: no user id is given to the CA, whatever is left on the connection. -/
theorem C55_coap_no_user {cfg : Cfg} {tls : Tls} {net : Net} {parse}
    {re : Bool} {rq : Req} {o : Out} (ht : cfg.transport = .coap)
    (h : simpleEnroll cfg tls net parse re rq = some o)
    {k : CaKind} {q : CaReq} (hca : Ev.ca k q ∈ o.evs) : q.user = [] := by
  rcases simpleEnroll_cases h with hs | ⟨ca, a, csr, hr, ho⟩
  · rcases hs.evs _ hca with ⟨c, hc⟩ | hc <;> simp at hc
  · obtain ⟨_, hA⟩ := enrollAnswer_cases cfg net (ca (caReqOf cfg tls rq a))
        (a.evs ++ [.ca (kindOf re) (caReqOf cfg tls rq a)]) (a.user.getD rq.connUser)
    rw [← ho] at hA
    obtain ⟨hev, _, _, _⟩ := enrollAuth_facts hr.auth
    have hmem : Ev.ca k q ∈ a.evs ++ [.ca (kindOf re) (caReqOf cfg tls rq a)] := by
      rcases hA with ⟨_, _, ⟨_, _, h3⟩ | ⟨_, _, _, h3⟩ | ⟨h3, _, _, _⟩⟩ | ⟨_, h3, _⟩
      · rw [h3] at hca; exact hca
      · rw [h3] at hca; exact hca
      · rw [ht] at h3; simp at h3
      · rw [h3] at hca; exact hca
    rcases List.mem_append.mp hmem with hm | hm
    · rcases hev _ hm with ⟨c, hc⟩ | hc <;> simp at hc
    · simp only [List.mem_singleton, Ev.ca.injEq] at hm
      rw [hm.2]
      simp [caReqOf, ht]

example : ∃ o, simpleEnroll { demoCfg with transport := .coap } certTls demoNet
      (fun _ => some demoCsr) false { demoReq with connUser := [1] } = some o ∧
    Ev.ca .enroll ⟨[77], [], true, none⟩ ∈ o.evs := ⟨_, rfl, by decide⟩

/-- C55, the part that holds: the user id given to the CA over HTTP is the name from
credentials that the application accepted during this request, or it was already on the
connection before the request.  Missing: that the latter is empty, see
`C55_stale_user_id_false`. -/
theorem C55_user_from_accepted_credentials_partial {cfg : Cfg} {tls : Tls} {net : Net} {parse}
    {re : Bool} {rq : Req} {o : Out} (ht : cfg.transport = .http)
    (h : simpleEnroll cfg tls net parse re rq = some o)
    {k : CaKind} {q : CaReq} (hca : Ev.ca k q ∈ o.evs) :
    (∃ cb, cfg.authCb = some cb ∧ rq.hdr.1 = .good ∧ cb rq.hdr.2 = true ∧
      Ev.askApp rq.hdr.2 ∈ o.evs ∧ q.user = rq.hdr.2.user) ∨ q.user = rq.connUser := by
  rcases simpleEnroll_cases h with hs | ⟨ca, a, csr, hr, ho⟩
  · rcases hs.evs _ hca with ⟨c, hc⟩ | hc <;> simp at hc
  · obtain ⟨_, hA⟩ := enrollAnswer_cases cfg net (ca (caReqOf cfg tls rq a))
        (a.evs ++ [.ca (kindOf re) (caReqOf cfg tls rq a)]) (a.user.getD rq.connUser)
    rw [← ho] at hA
    obtain ⟨hev, _, _, hus⟩ := enrollAuth_facts hr.auth
    have hsub : ∀ e ∈ a.evs, e ∈ o.evs := by
      intro e he
      rcases hA with ⟨_, _, ⟨_, _, h3⟩ | ⟨_, _, _, h3⟩ | ⟨_, _, h3, _⟩⟩ | ⟨_, h3, _⟩ <;>
        rw [h3] <;> simp [he]
    have hq : q = caReqOf cfg tls rq a := by
      have hmem : Ev.ca k q ∈ a.evs ++ [.ca (kindOf re) (caReqOf cfg tls rq a)] := by
        rcases hA with ⟨_, _, ⟨_, _, h3⟩ | ⟨_, _, _, h3⟩ | ⟨_, _, h3, _⟩⟩ | ⟨_, h3, _⟩ <;>
          rw [h3] at hca
        · exact hca
        · exact hca
        · simp only [List.mem_append, List.mem_singleton, reduceCtorEq, or_false] at hca ⊢
          rcases hca with hca | hca
          · exact hca
          · obtain ⟨p, hp, _⟩ := writeBody_evs _ _ _ hca
            simp at hp
        · exact hca
      rcases List.mem_append.mp hmem with hm | hm
      · rcases hev _ hm with ⟨c, hc⟩ | hc <;> simp at hc
      · simp at hm; exact hm.2
    have hu : q.user = a.user.getD rq.connUser := by rw [hq]; simp [caReqOf, ht]
    cases hau : a.user with
    | none => right; simp [hu, hau]
    | some u =>
      left
      obtain ⟨h1, _, h3, h4, h5⟩ := hus u hau
      obtain ⟨cb, hcb, hok⟩ := h5 hr.ok
      refine ⟨cb, hcb, h1, hok, hsub _ (by rw [h4]; simp), ?_⟩
      rw [hu, hau, h3]; rfl

/-- C55 for the first request of a connection: without accepted credentials the CA gets an
empty user id. -/
theorem C55_first_request_partial {cfg : Cfg} {tls : Tls} {net : Net} {parse}
    {re : Bool} {rq : Req} {o : Out} (ht : cfg.transport = .http)
    (h : simpleEnroll cfg tls net parse re rq = some o) (hfirst : rq.connUser = [])
    {k : CaKind} {q : CaReq} (hca : Ev.ca k q ∈ o.evs) (hne : q.user ≠ []) :
    AppAccepted cfg o.evs ∧ q.user = rq.hdr.2.user := by
  rcases C55_user_from_accepted_credentials_partial ht h hca with ⟨cb, h1, _, h3, h4, h5⟩ | h1
  · exact ⟨⟨cb, _, h1, h4, h3⟩, h5⟩
  · exact absurd (h1.trans hfirst) hne

/-- A server that requires HTTP authentication and knows one user, "a" with password "b";
clients may re-enrol with a certificate. -/
def oneUserCfg : Cfg :=
  { strictCfg with
    authCb := some fun c => c.user == [97] && c.pwd == [98]
    enablePop := false
    enrollCb := some fun _ => ⟨.none, [1]⟩
    reenrollCb := some fun _ => ⟨.none, [2]⟩ }

/-- Requests served one after the other on one connection; the user id stays on it.  Every
answer but a 200 closes the connection (`should_keep_alive`, `est_server_http.c` 342-362). -/
def session (cfg : Cfg) (tls : Tls) (net : Net) (parse : List Nat → Option Csr) :
    List Nat → List (Bool × Req) → Option (List (List Ev))
  | _, [] => some []
  | u, (re, rq) :: rest =>
    match simpleEnroll cfg tls net parse re { rq with connUser := u } with
    | none => none
    | some o =>
      if o.rc = .none then (session cfg tls net parse o.connUser rest).map (o.evs :: ·)
      else some [o.evs]

/-- C55, over a whole connection: every user id that reaches the CA is empty, or belongs to
credentials that the application accepted in this request or in an earlier request of the same
connection. -/
theorem C55_user_accepted_on_connection_partial {cfg : Cfg} {tls : Tls} {net : Net} {parse}
    (ht : cfg.transport = .http) (rqs : List (Bool × Req)) (u : List Nat)
    {past : List Ev}
    (hu : u = [] ∨ ∃ cb c, cfg.authCb = some cb ∧ Ev.askApp c ∈ past ∧ cb c = true ∧ c.user = u)
    {evss : List (List Ev)} (h : session cfg tls net parse u rqs = some evss)
    {k : CaKind} {q : CaReq} (hca : Ev.ca k q ∈ evss.flatten) :
    q.user = [] ∨ ∃ cb c, cfg.authCb = some cb ∧ Ev.askApp c ∈ past ++ evss.flatten ∧
      cb c = true ∧ c.user = q.user := by
  induction rqs generalizing u past evss with
  | nil => simp [session] at h; subst h; simp at hca
  | cons x rest ih =>
    obtain ⟨re, rq⟩ := x
    unfold session at h
    cases ho : simpleEnroll cfg tls net parse re { rq with connUser := u } with
    | none => simp [ho] at h
    | some o =>
      simp only [ho] at h
      have hthis : ∀ k q, Ev.ca k q ∈ o.evs → q.user = [] ∨
          ∃ cb c, cfg.authCb = some cb ∧ Ev.askApp c ∈ past ++ o.evs ∧ cb c = true ∧
            c.user = q.user := by
        intro k q hm
        rcases C55_user_from_accepted_credentials_partial ht ho hm with ⟨cb, h1, _, h3, h4, h5⟩ | h1
        · exact .inr ⟨cb, _, h1, by simp only [List.mem_append]; exact .inr h4, h3, h5.symm⟩
        · simp only at h1
          rcases hu with hu | ⟨cb, c, h2, h3, h4, h5⟩
          · exact .inl (h1.trans hu)
          · exact .inr ⟨cb, c, h2, by simp [h3], h4, h5.trans h1.symm⟩
      by_cases hrc : o.rc = .none
      · simp only [hrc, if_true, Option.map_eq_some_iff] at h
        obtain ⟨rest', hrest, he⟩ := h
        subst he
        simp only [List.flatten_cons, List.mem_append] at hca
        rcases hca with hca | hca
        · rcases hthis _ _ hca with h1 | ⟨cb, c, h1, h2, h3, h4⟩
          · exact .inl h1
          · refine .inr ⟨cb, c, h1, ?_, h3, h4⟩
            simp only [List.flatten_cons, List.mem_append] at h2 ⊢
            rcases h2 with h2 | h2
            · exact .inl h2
            · exact .inr (.inl h2)
        · have hnext : o.connUser = [] ∨ ∃ cb c, cfg.authCb = some cb ∧
              Ev.askApp c ∈ past ++ o.evs ∧ cb c = true ∧ c.user = o.connUser := by
            rcases simpleEnroll_cases ho with hs | ⟨ca, a, csr, hr, hoo⟩
            · exact absurd hrc hs.rc.1
            · obtain ⟨hcu, hA⟩ := enrollAnswer_cases cfg net
                (ca (caReqOf cfg tls { rq with connUser := u } a))
                (a.evs ++ [.ca (kindOf re) (caReqOf cfg tls { rq with connUser := u } a)])
                (a.user.getD u)
              rw [← hoo] at hA hcu
              have hm : Ev.ca (kindOf re) (caReqOf cfg tls { rq with connUser := u } a) ∈
                  o.evs := by
                rcases hA with ⟨_, _, ⟨_, _, h3⟩ | ⟨_, _, _, h3⟩ | ⟨_, _, h3, _⟩⟩ | ⟨_, h3, _⟩ <;>
                  rw [h3] <;> simp
              have := hthis _ _ hm
              have hq : (caReqOf cfg tls { rq with connUser := u } a).user = o.connUser := by
                rw [hcu]; simp [caReqOf, ht]
              rw [hq] at this
              exact this
          rcases ih _ hnext hrest hca with h1 | ⟨cb, c, h1, h2, h3, h4⟩
          · exact .inl h1
          · refine .inr ⟨cb, c, h1, ?_, h3, h4⟩
            simp only [List.flatten_cons, List.mem_append] at h2 ⊢
            rcases h2 with (h2 | h2) | h2
            · exact .inl h2
            · exact .inr (.inl h2)
            · exact .inr (.inr h2)
      · simp only [hrc, if_false, Option.some.injEq] at h
        subst h
        simp only [List.flatten_cons, List.flatten_nil, List.append_nil] at hca ⊢
        exact hthis _ _ hca

/-- The requests of `C55_stale_user_id_false`: an enrolment by user "a" with the right
password, then a re-enrolment with a malformed Authorization header. -/
def staleRequests : List (Bool × Req) :=
  [(false, { demoReq with hdr := (.good, ⟨.basic, [97], [98], []⟩) }),
   (true, { demoReq with hdr := (.bad, ⟨.none, [], [], []⟩) })]

/-- C55 is false of the code: the user id is not cleared between the requests of a connection
(`reset_per_request_attributes`, `est_server_http.c` 1495-1501).  After an enrolment by user
"a", a re-enrolment with a malformed Authorization header on the same connection is authorised
by the certificate and reaches the CA with the user id "a", although the application was not
asked about any credentials during that request. -/
theorem C55_stale_user_id_false :
    ∃ e1 e2, session oneUserCfg certTls demoNet (fun _ => some demoCsr) [] staleRequests
        = some [e1, e2] ∧
      Ev.ca .reenroll ⟨[77], [97], true, none⟩ ∈ e2 ∧ (∀ c, Ev.askApp c ∉ e2) := by
  refine ⟨_, _, rfl, by decide, ?_⟩
  intro c hm
  simp [certTls, oneUserCfg, strictCfg, demoReq, enrollAnswer, caReqOf, demoNet, writeBody] at hm

end Verif.Server
