import Verif.ServerModel

/-!
# C19: client authentication, C22: proof of possession, C48: manufacturer look-up
-/
namespace Verif.Server

/-! ## C19 -/

/-- The TLS layer verified the client's certificate (a missing CRL is tolerated). -/
def CertVerified (tls : Tls) : Prop := tls.peer = some .ok ∨ tls.peer = some .unableToGetCrl

/-- The client logged in with SRP and sent no certificate. -/
def SrpLogin (tls : Tls) : Prop := tls.peer = none ∧ tls.srpUser = true

/-- The application was asked about some credentials and accepted them. -/
def AppAccepted (cfg : Cfg) (evs : List Ev) : Prop :=
  ∃ cb c, cfg.authCb = some cb ∧ Ev.askApp c ∈ evs ∧ cb c = true

/-- The states that let an enrolment go on. -/
def Authorised (s : AuthState) : Prop := s = .httpAuth ∨ s = .srpAuth ∨ s = .certAuth

theorem enrollAuth_evidence {cfg : Cfg} {tls : Tls} {hdr parse ty buf} {a : AuthOut}
    (h : enrollAuth cfg tls hdr parse ty buf = some a) :
    (a.st = .certAuth → CertVerified tls) ∧ (a.st = .srpAuth → SrpLogin tls) ∧
    (a.st = .httpAuth → AppAccepted cfg a.evs) := by
  unfold enrollAuth checkTlsCert at h
  unfold CertVerified SrpLogin AppAccepted
  cases hp : tls.peer with
  | none =>
    cases hs : tls.srpUser <;> cases ht : cfg.transport <;> cases hcb : cfg.authCb <;>
      simp [hp, hs, ht, hcb] at h ⊢ <;> (repeat' split at h) <;>
      (try (simp at h)) <;> (try subst h) <;> (try simp) <;> (try split) <;> simp_all
  | some v =>
    cases v <;> cases ht : cfg.transport <;> cases hcb : cfg.authCb <;>
      simp [hp, ht, hcb] at h ⊢ <;> (repeat' split at h) <;>
      (try (simp at h)) <;> (try subst h) <;> (try simp) <;> (try split) <;> simp_all

/-- C19 (first half): whatever the configuration, the connection, the header and the
request, the client counts as authorised only with evidence: a verified certificate, an
SRP login, or credentials that the application accepted. -/
theorem C19_authorised_only_with_evidence {cfg : Cfg} {tls : Tls} {hdr parse ty buf}
    {a : AuthOut} (h : enrollAuth cfg tls hdr parse ty buf = some a) (ha : Authorised a.st) :
    CertVerified tls ∨ SrpLogin tls ∨ AppAccepted cfg a.evs := by
  obtain ⟨h1, h2, h3⟩ := enrollAuth_evidence h
  rcases ha with ha | ha | ha
  · exact .inr (.inr (h3 ha))
  · exact .inr (.inl (h2 ha))
  · exact .inl (h1 ha)

/-- C19: a client certificate that does not verify is refused, whatever else the client
presents. -/
theorem C19_bad_certificate_refused {cfg : Cfg} {tls : Tls} {hdr parse ty buf}
    (hp : tls.peer = some .other) :
    ∃ a, enrollAuth cfg tls hdr parse ty buf = some a ∧ a.st = .unauthorized ∧ a.evs = [] := by
  simp [enrollAuth, checkTlsCert, hp]

/-- C19 (second half), the part that holds: over HTTP, with a callback registered and HTTP
authentication required, being authorised means that the application accepted the
credentials, for an enrol request, and for the other requests unless the Authorization
header is malformed (for clients handled by enhanced certificate authentication: unless the
manufacturer look-up fails).  Missing: malformed headers on re-enrol and key generation, see
`C19_certificate_alone_false`. -/
theorem C19_http_auth_enforced_partial {cfg : Cfg} {tls : Tls} {hdr parse ty buf}
    {a : AuthOut} (ht : cfg.transport = .http) (hcb : cfg.authCb.isSome)
    (hreq : cfg.requireHttpAuth = true)
    (hbad : ty = .enroll ∨ (cfg.ecaEnabled = false ∧ hdr.1 ≠ .bad))
    (h : enrollAuth cfg tls hdr parse ty buf = some a) (ha : Authorised a.st) :
    AppAccepted cfg a.evs := by
  obtain ⟨h1, h2, h3⟩ := enrollAuth_evidence h
  obtain ⟨cb, hcb⟩ := Option.isSome_iff_exists.mp hcb
  apply h3
  unfold enrollAuth at h
  unfold Authorised at ha
  cases hc : checkTlsCert tls with
  | none => simp [hc] at h; subst h; simp at ha
  | some st0 =>
    simp only [hc, ht, hcb, hreq, or_true, if_true] at h
    generalize (if st0 ≠ .certAuth ∧ tls.srpUser = true then AuthState.srpAuth else st0) = rv at h
    split at h
    case h_1 =>
      simp only [Option.some.injEq] at h
      subst h
      simp only at ha ⊢
      generalize cb _ = b at ha ⊢
      cases b <;> simp at ha ⊢
    case h_6 =>
      rename_i hpr
      split at h
      · rename_i hcond
        rcases hbad with hb | ⟨hb1, hb2⟩
        · exact absurd hb hcond.1
        · simp [hb1] at hpr; exact absurd hpr hb2
      · simp at h; subst h; simp at ha
    all_goals (simp at h; subst h; simp_all)

/-- A server that requires HTTP authentication and whose application rejects every
credential; re-enrolment is configured. -/
def strictCfg : Cfg where
  transport := .http
  authMode := .basic
  authCb := some fun _ => false
  requireHttpAuth := true
  ecaEnabled := false
  ecaCsrCheck := false
  mfgs := none
  localNid := 0
  ecaPwd := []
  enablePop := true
  enforceAttrs := false
  attrsPresent := fun _ => true
  enrollCb := none
  reenrollCb := none
  retryPeriod := 3600

/-- A connection with a verified client certificate. -/
def certTls : Tls where
  peer := some .ok
  chain := true
  srpUser := false
  uid := some [1]
  peerField := fun _ => none
  cmcRA := false

/-- C19 is false of the code for re-enrolment: HTTP authentication is required, the
application would reject every credential, and still a client that sends a malformed
Authorization header is authorised by its certificate alone; the application is not even
asked. -/
theorem C19_certificate_alone_false :
    ∃ (cfg : Cfg) (tls : Tls) (hdr : HdrRes × Cred) (a : AuthOut),
      cfg.transport = .http ∧ cfg.requireHttpAuth = true ∧
      (∃ cb, cfg.authCb = some cb ∧ ∀ c, cb c = false) ∧
      enrollAuth cfg tls hdr (fun _ => none) .reenroll [] = some a ∧ Authorised a.st ∧
      a.evs = [] :=
  ⟨strictCfg, certTls, (.bad, ⟨.none, [], [], []⟩), _, rfl, rfl, ⟨_, rfl, fun _ => rfl⟩, rfl,
    .inr (.inr rfl), rfl⟩

/-- The hypotheses of `C19_http_auth_enforced_partial` can be met with an authorised
client. -/
example : ∃ (cfg : Cfg) (tls : Tls) (hdr : HdrRes × Cred) (a : AuthOut),
    cfg.transport = .http ∧ cfg.authCb.isSome ∧ cfg.requireHttpAuth = true ∧ hdr.1 ≠ .bad ∧
    enrollAuth cfg tls hdr (fun _ => none) .reenroll [] = some a ∧ Authorised a.st :=
  ⟨{ strictCfg with authCb := some fun c => c.user == [97] }, certTls,
    (.good, ⟨.basic, [97], [98], []⟩), _, rfl, rfl, rfl, by decide, rfl, .inl rfl⟩

/-! ## C22 -/

/-- What proof of possession should mean: the challenge password is the TLS unique id, or
there is none and the server does not insist. -/
def PopIntended (enablePop : Bool) (uid : Option (List Nat)) (chal : Chal) : Prop :=
  (chal = .absent ∧ enablePop = false) ∨ ∃ u, uid = some u ∧ chal = .str u

/-- C22, the part that holds: whenever the check accepts, either there was no challenge
password and none is demanded, or the connection has a non-empty unique id that the
challenge password (with its terminating NUL) starts with.  Missing: nothing may follow the
id, see `C22_extended_password_false`. -/
theorem C22_accepts_only_own_id_partial {pop : Bool} {uid : Option (List Nat)} {chal : Chal}
    (h : tlsUidAuth pop uid chal = .ok) :
    (chal = .absent ∧ pop = false) ∨
    ∃ u d, uid = some u ∧ chal = .str d ∧ u ≠ [] ∧ u <+: d ++ [0] := by
  unfold tlsUidAuth at h
  split at h
  · left; cases pop <;> simp_all
  · simp at h
  · right
    split at h
    · simp at h
    · rename_i d _ u
      split at h
      · simp at h
      · split at h
        · simp at h
        · split at h
          · rename_i hne _ heq
            exact ⟨u, d, rfl, rfl, hne, by rw [heq]; exact List.take_prefix _ _⟩
          · simp at h

/-- C22, the part that holds exactly: for a challenge password as long as the unique id the
check accepts exactly the id itself. -/
theorem C22_exact_for_equal_length_partial {pop : Bool} {u d : List Nat}
    (hlen : d.length = u.length) (hne : u ≠ []) :
    (tlsUidAuth pop (some u) (.str d) = .ok ↔ PopIntended pop (some u) (.str d)) ∧
    tlsUidAuth pop (some u) (.str d) ≠ .ub := by
  have ht : (d ++ [0]).take u.length = d := by
    rw [List.take_append_of_le_length (by omega), List.take_of_length_le (by omega)]
  have hl : ¬ d.length + 1 < u.length := by omega
  constructor
  · simp only [tlsUidAuth, if_neg hne, if_neg hl, ht, PopIntended]
    constructor
    · intro h
      split at h
      · rename_i he; exact .inr ⟨u, rfl, by rw [he]⟩
      · simp at h
    · rintro (⟨h, _⟩ | ⟨u', h1, h2⟩)
      · simp at h
      · simp at h1 h2; subst h1; subst h2; simp
  · simp only [tlsUidAuth, if_neg hne, if_neg hl, ht]
    split <;> simp

/-- C22: a CSR without challenge password is accepted exactly if the server does not insist
on one. -/
theorem C22_absent {pop : Bool} {uid : Option (List Nat)} :
    tlsUidAuth pop uid .absent = .ok ↔ pop = false := by
  cases pop <;> simp [tlsUidAuth]

/-- C22: without a unique id for the connection no challenge password is accepted. -/
theorem C22_no_id_rejects {pop : Bool} {chal : Chal} (hc : chal ≠ .absent) :
    tlsUidAuth pop none chal ≠ .ok := by
  unfold tlsUidAuth; split <;> simp_all

/-- C22 is false of the code: a challenge password that only starts with the TLS unique id
is accepted. -/
theorem C22_extended_password_false :
    ∃ u d, tlsUidAuth true (some u) (.str d) = .ok ∧ d ≠ u ∧
      ¬ PopIntended true (some u) (.str d) := by
  refine ⟨[97, 98], [97, 98, 99], by decide, by decide, ?_⟩
  rintro (⟨h, _⟩ | ⟨u', h1, h2⟩)
  · simp at h
  · simp at h1 h2; rw [← h1] at h2; simp at h2

/-- C22 is false of the code: a challenge password shorter than the id makes the server read
beyond the end of the attribute value. -/
theorem C22_short_password_undefined_false :
    ∃ u d, tlsUidAuth true (some u) (.str d) = .ub :=
  ⟨[97, 98, 99], [97], by decide⟩

/-- C22 is false of the code: a challengePassword attribute without a value, or whose value
is not a string, makes the server follow an invalid pointer, for every configuration. -/
theorem C22_malformed_attribute_undefined_false (pop : Bool) (uid : Option (List Nat)) :
    tlsUidAuth pop uid .malformed = .ub := rfl

/-- Hypotheses of the partial theorems are met. -/
example : tlsUidAuth true (some [97, 98]) (.str [97, 98]) = .ok := by decide
example : tlsUidAuth true (some [97, 98]) (.str [97, 99]) = .fail := by decide
example : tlsUidAuth false (some [97, 98]) .absent = .ok := by decide

/-! ## C48 -/

/-- `i` is the first entry in use whose trust store verifies the peer. -/
def FirstVerifying (ms : List Mfg) (i : Nat) : Prop :=
  ∃ m, ms[i]? = some m ∧ m.active = true ∧ m.verify = 1 ∧
    ∀ j m', j < i → ms[j]? = some m' → m'.active = true → m'.verify ≠ 1

theorem getMfgLoop_spec (ms : List Mfg)
    (hv : ∀ m ∈ ms, m.active = true → m.initOk = true ∧ (m.verify = 0 ∨ m.verify = 1)) :
    ∀ (k : Nat) (rv : EstErr), rv = .none ∨ rv = .validation →
      ((getMfgLoop k rv ms).1 = .none ∨ (getMfgLoop k rv ms).1 = .validation) ∧
      ∀ i, (getMfgLoop k rv ms).2 = some i ↔ ∃ j, i = k + j ∧ FirstVerifying ms j := by
  induction ms with
  | nil => intro k rv hr; simp [getMfgLoop, FirstVerifying, hr]
  | cons m ms ih =>
    intro k rv hr
    have ih := ih (fun x hx => hv x (by simp [hx]))
    have hshift : (¬ (m.active = true ∧ m.verify = 1)) → ∀ i,
        ((∃ j, i = k + 1 + j ∧ FirstVerifying ms j) ↔
          ∃ j, i = k + j ∧ FirstVerifying (m :: ms) j) := by
      intro hm i
      constructor
      · rintro ⟨j, rfl, m', h1, h2, h3, h4⟩
        refine ⟨j + 1, by omega, m', by simpa using h1, h2, h3, ?_⟩
        intro j' m'' hj hget hact
        cases j' with
        | zero => simp at hget; subst hget; exact fun h => hm ⟨hact, h⟩
        | succ j' => exact h4 j' m'' (by omega) (by simpa using hget) hact
      · rintro ⟨j, rfl, m', h1, h2, h3, h4⟩
        cases j with
        | zero => simp at h1; subst h1; exact absurd ⟨h2, h3⟩ hm
        | succ j =>
          refine ⟨j, by omega, m', by simpa using h1, h2, h3, ?_⟩
          intro j' m'' hj hget hact
          exact h4 (j' + 1) m'' (by omega) (by simpa using hget) hact
    unfold getMfgLoop
    by_cases ha : m.active = true
    · obtain ⟨hi, hv'⟩ := hv m (by simp) ha
      rcases hv' with h0 | h1
      · simp only [ha, hi, h0, if_true, Bool.not_true, Bool.false_eq_true, if_false]
        obtain ⟨ih1, ih2⟩ := ih (k + 1) .none (.inl rfl)
        refine ⟨ih1, fun i => ?_⟩
        rw [ih2 i]
        exact hshift (by simp [h0]) i
      · simp only [ha, hi, h1, if_true, Bool.not_true, Bool.false_eq_true, if_false]
        refine ⟨.inl (by simp), fun i => ?_⟩
        simp only [show ¬ ((1 : Int) = 0) by decide, if_false, Option.some.injEq]
        constructor
        · rintro rfl
          exact ⟨0, by omega, m, by simp, ha, h1, fun j _ hj => absurd hj (by omega)⟩
        · rintro ⟨j, rfl, m', g1, g2, g3, g4⟩
          cases j with
          | zero => omega
          | succ j => exact absurd h1 (g4 0 m (by omega) (by simp) ha)
    · simp only [ha]
      obtain ⟨ih1, ih2⟩ := ih (k + 1) rv hr
      refine ⟨by simpa using ih1, fun i => ?_⟩
      have := ih2 i
      simp only [Bool.false_eq_true, if_false]
      rw [this]
      exact hshift (by simp [ha]) i

/-- C48, the part that holds: as long as the certificate library reports only "verified"
and "not verified", the peer is attributed to the first registered manufacturer whose trust
store verifies it, and to none if there is no such manufacturer.  Missing: internal errors
of the verification, see `C48_internal_error_false`. -/
theorem C48_first_verifying_partial {ms : List Mfg}
    (hv : ∀ m ∈ ms, m.active = true → m.initOk = true ∧ (m.verify = 0 ∨ m.verify = 1)) :
    ∀ i, (getMfg (some ms)).2 = some i ↔ FirstVerifying ms i := by
  intro i
  have := (getMfgLoop_spec ms hv 0 .validation (.inr rfl)).2 i
  simp only [getMfg]
  rw [this]
  simp

/-- C48 is false of the code: when the verification reports an internal error (a negative
result) for the first manufacturer, the peer is attributed to it although it verifies only
against the second. -/
theorem C48_internal_error_false :
    ∃ ms : List Mfg, (getMfg (some ms)).2 = some 0 ∧ ¬ FirstVerifying ms 0 ∧
      FirstVerifying ms 1 := by
  refine ⟨[⟨13, true, true, -1⟩, ⟨17, true, true, 1⟩], by decide, ?_, ?_⟩
  · rintro ⟨m, h1, _, h3, _⟩; simp at h1; subst h1; simp at h3
  · refine ⟨_, rfl, rfl, rfl, ?_⟩
    intro j m' hj hg _
    have : j = 0 := by omega
    subst this; simp at hg; subst hg; decide

example : (getMfg (some [⟨13, true, true, 0⟩, ⟨14, false, true, 1⟩, ⟨17, true, true, 1⟩])).2
    = some 2 := by decide

/-- C48: with the CSR check on, credentials for a peer attributed to manufacturer `i` are
built only if the CSR repeats that manufacturer's subject field of the certificate (first
256 characters), and the user name handed to the application is that field. -/
theorem C48_csr_repeats_identity {cfg : Cfg} {tls : Tls} {parse buf} {ms : List Mfg} {i : Nat}
    {m : Mfg} {cred : Cred} {csr : Option Csr} (hm : cfg.mfgs = some ms)
    (hi : (getMfg (some ms)).2 = some i) (hg : ms[i]? = some m)
    (h : handleEca cfg tls parse buf true = (.good, cred, csr)) :
    ∃ c f g, parse buf = some c ∧ csr = some c ∧ tls.peerField m.nid = some f ∧
      c.field m.nid = some g ∧ f.take 256 = g.take 256 ∧ cred.user = f.take 256 ∧
      cred.pwd = cfg.ecaPwd.take 256 := by
  unfold handleEca at h
  simp only [hm, hi, hg, if_true] at h
  split at h
  · simp at h
  · split at h
    · split at h
      · simp at h
      · rename_i c hc
        split at h
        · rename_i hcheck
          unfold csrCheck at hcheck
          simp only [hm, hg] at hcheck
          cases hf : tls.peerField m.nid with
          | none => simp [hf] at hcheck
          | some f =>
            cases hgf : c.field m.nid with
            | none => simp [hf, hgf] at hcheck
            | some g =>
              simp only [hf, hgf] at hcheck
              have hne : cap f = cap g := by
                by_cases h1 : (cap f).length ≠ (cap g).length
                · rw [if_pos h1] at hcheck; simp at hcheck
                · rw [if_neg h1] at hcheck
                  by_cases h2 : cap f = []
                  · rw [if_pos h2] at hcheck; simp at hcheck
                  · rw [if_neg h2] at hcheck
                    by_cases h3 : (cap f == cap g) = true
                    · simpa using h3
                    · rw [if_neg h3] at hcheck; simp at hcheck
              simp only [buildEcaHeader, hf, Prod.mk.injEq, true_and] at h
              obtain ⟨h4, h5⟩ := h
              subst h4
              exact ⟨c, f, g, hc, h5.symm, rfl, hgf, hne, rfl, rfl⟩
        · rename_i hng
          simp only [Prod.mk.injEq] at h
          exact absurd h.1 hng
    · simp at h

/-- A configuration meeting the hypotheses. -/
example : ∃ (cfg : Cfg) (tls : Tls) (m : Mfg) (cred : Cred) (csr : Csr),
    cfg.mfgs = some [m] ∧ (getMfg (some [m])).2 = some 0 ∧
    handleEca cfg tls (fun _ => some csr) [1] true = (.good, cred, some csr) :=
  ⟨{ strictCfg with ecaEnabled := true, ecaCsrCheck := true, mfgs := some [⟨5, true, true, 1⟩] },
   { certTls with peerField := fun n => if n = 5 then some [65, 66] else none },
   ⟨5, true, true, 1⟩, _, ⟨true, 1, .absent, fun n => if n = 5 then some [65, 66] else none⟩,
   rfl, rfl, rfl⟩

end Verif.Server
