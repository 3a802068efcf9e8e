import Verif.EnrollProps

/-!
# C54: server-side key generation, C56: BRSKI requests, C47: the dispatcher
-/
namespace Verif.Server

/-! ## C54 -/

theorem rekey_ok {k : KeygenCfg} {g csr key csr2} (h : rekey k g csr = .ok (key, csr2)) :
    g = some key ∧ (∃ csr1, k.setPubkey key csr = some csr1 ∧ k.sign key csr1 = some csr2) ∧
      checkCsr csr2 = true := by
  unfold rekey at h
  repeat' split at h
  all_goals simp at h
  obtain ⟨h1, h2⟩ := h
  subst h1 h2
  exact ⟨rfl, ⟨_, by assumption, by assumption⟩, by assumption⟩

theorem rekey_err {k : KeygenCfg} {g csr e} (h : rekey k g csr = .error e) :
    e = .noKey ∨ e = .badPkcs10 ∨ e = .x509Sign := by
  unfold rekey at h
  repeat' split at h
  all_goals simp at h
  all_goals subst h; simp

/-- Conditions met by a key generation request that reaches the CA. -/
structure KeygenReaches (cfg : Cfg) (k : KeygenCfg) (tls : Tls)
    (parse : List Nat → Option Csr) (rq : Req) (ca : CaReq → List Nat → CaRes × List Nat)
    (a : AuthOut) (csr : Csr) (key : List Nat) (csr2 : Csr) : Prop where
  cb : k.caCb = some ca
  gen : k.keygenCb = some (some key)
  auth : enrollAuth cfg tls rq.hdr parse .keygen rq.body = some a
  ok : Authorised a.st
  parsed : parse rq.body = some csr
  rekeyed : ∃ csr1, k.setPubkey key csr = some csr1 ∧ k.sign key csr1 = some csr2
  checked : checkCsr csr2 = true
  ct : cfg.transport = .http → ctPkcs10 rq.ct = true
  pop : (tls.peer.isSome = true ∧ tls.cmcRA = true) ∨
        tlsUidAuth cfg.enablePop tls.uid csr2.chal = .ok
  attrs : cfg.enforceAttrs = true → cfg.attrsPresent (k.encode csr2) = true

theorem serverKeygen_cases {cfg : Cfg} {k : KeygenCfg} {mp : Multi} {tls : Tls} {net : Net}
    {bodyOut : Nat → Nat} {parse} {rq : Req} {o : Out}
    (h : serverKeygen cfg k mp tls net bodyOut parse rq = some o) :
    Stopped cfg o ∨
    ∃ ca a csr key csr2, KeygenReaches cfg k tls parse rq ca a csr key csr2 ∧
      o = keygenAnswer cfg mp net bodyOut
        (ca (keygenReq cfg tls rq a (k.encode csr2)) key)
        (a.evs ++ [.ca .keygen (keygenReq cfg tls rq a (k.encode csr2))])
        (a.user.getD rq.connUser) := by
  unfold serverKeygen at h
  cases hca : k.caCb with
  | none => simp only [hca] at h; simp at h; subst h; simp [Stopped]
  | some ca =>
  simp only [hca] at h
  cases hg : k.keygenCb with
  | none => simp only [hg] at h; simp at h; subst h; simp [Stopped]
  | some gk =>
  simp only [hg] at h
  by_cases hct : cfg.transport = .http ∧ (!ctPkcs10 rq.ct) = true
  · simp only [hct, and_self, if_true] at h; simp at h; subst h; simp [Stopped]
  simp only [hct, if_false] at h
  cases ha : enrollAuth cfg tls rq.hdr parse .keygen rq.body with
  | none => simp [ha] at h
  | some a =>
    simp only [ha] at h
    have hst := enrollAuth_pending ha
    obtain ⟨_, _, hcsr, _⟩ := enrollAuth_facts ha
    have hfail : ∀ (e : EstErr) (u : List Nat), a.st ≠ .httpAuthPending →
        (e ≠ .none ∧ e ≠ .caEnrollRetry ∧ e ≠ .authPending) →
        some ({ rc := e, evs := a.evs, connUser := u } : Out) = some o → Stopped cfg o := by
      intro e u hn he ho
      simp only [Option.some.injEq] at ho
      rcases hst with ⟨h1, _⟩ | ⟨_, h1⟩
      · exact absurd h1 hn
      subst ho; exact .inr ⟨he.1, he.2.1, he.2.2, h1⟩
    have hgo : Authorised a.st →
        keygenCsr cfg k mp tls net bodyOut parse ca gk rq a = some o →
        Stopped cfg o ∨ ∃ ca a csr key csr2, KeygenReaches cfg k tls parse rq ca a csr key csr2 ∧
          o = keygenAnswer cfg mp net bodyOut
            (ca (keygenReq cfg tls rq a (k.encode csr2)) key)
            (a.evs ++ [.ca .keygen (keygenReq cfg tls rq a (k.encode csr2))])
            (a.user.getD rq.connUser) := by
      intro hauth hx
      have hnp : a.st ≠ .httpAuthPending := by
        rcases hauth with h | h | h <;> simp [h]
      unfold keygenCsr at hx
      cases hm : a.csr.or (parse rq.body) with
      | none =>
        simp only [hm] at hx
        exact .inl (hfail _ _ hnp (by decide) hx)
      | some csr =>
        simp only [hm] at hx
        have hparse := csr_from_body hcsr hm
        cases hrk : rekey k gk csr with
        | error e =>
          simp only [hrk] at hx
          refine .inl (hfail _ _ hnp ?_ hx)
          rcases rekey_err hrk with h | h | h <;> subst h <;> decide
        | ok r =>
          obtain ⟨key, csr2⟩ := r
          simp only [hrk] at hx
          obtain ⟨hk1, hk2, hk3⟩ := rekey_ok hrk
          have key := @pop_cases tls cfg.enablePop tls.uid csr2.chal
          generalize (if (tls.peer.isSome && tls.cmcRA) = true then Pop.ok
              else tlsUidAuth cfg.enablePop tls.uid csr2.chal) = p at hx key
          cases p with
          | ub => simp at hx
          | fail => exact .inl (hfail _ _ hnp (by decide) hx)
          | ok =>
            simp only at hx
            by_cases hat : (cfg.enforceAttrs && !cfg.attrsPresent (k.encode csr2)) = true
            · simp only [hat, if_true] at hx
              exact .inl (hfail _ _ hnp (by decide) hx)
            · simp only [hat] at hx
              right
              refine ⟨ca, a, csr, _, csr2, ⟨hca, by rw [hg, hk1], ha, hauth, hparse, hk2, hk3,
                ?_, key rfl, ?_⟩, ?_⟩
              · intro ht
                cases hcc : ctPkcs10 rq.ct with
                | true => rfl
                | false => exact absurd ⟨ht, by simp [hcc]⟩ hct
              · intro he
                cases hcc : cfg.attrsPresent (k.encode csr2) with
                | true => rfl
                | false => exact absurd (by simp [he, hcc]) hat
              · simpa using hx.symm
    cases hs : a.st <;> simp only [hs] at h
    all_goals first
      | (simp only [Option.some.injEq] at h
         subst h
         rcases hst with ⟨_, h1⟩ | ⟨h1, _⟩
         · exact .inl (.inl ⟨rfl, h1⟩)
         · exact absurd hs h1)
      | exact .inl (hfail _ _ (by simp [hs]) (by decide) h)
      | exact hgo (by simp [Authorised, hs]) h

theorem writeAll_evs (n : Nat → Nat) (i : Nat) (bs : List (List Nat)) :
    ∀ e ∈ (writeAll n i bs).1, ∃ p b, e = .body p ∧ b ∈ bs ∧ p <+: b := by
  induction bs generalizing i with
  | nil => simp [writeAll]
  | cons b bs ih =>
    intro e he
    simp only [writeAll] at he
    by_cases hw : (writeBody (n i) b).2 = true
    · simp only [hw, if_true, List.mem_append] at he
      rcases he with he | he
      · obtain ⟨p, h1, h2, _⟩ := writeBody_evs _ _ _ he
        exact ⟨p, b, h1, by simp, h2⟩
      · obtain ⟨p, b', h1, h2, h3⟩ := ih _ _ he
        exact ⟨p, b', h1, by simp [h2], h3⟩
    · simp only [hw] at he
      obtain ⟨p, h1, h2, _⟩ := writeBody_evs _ _ _ he
      exact ⟨p, b, h1, by simp, h2⟩

theorem keygenAnswer_cases (cfg : Cfg) (mp : Multi) (net : Net) (bodyOut : Nat → Nat)
    (r : CaRes × List Nat) (evs : List Ev) (u : List Nat) :
    let o := keygenAnswer cfg mp net bodyOut r evs u
    let w := writeAll bodyOut 0 [mp.keyHdr, r.2, mp.certHdr, r.1.cert, mp.final]
    (r.1.rc = .none ∧ r.1.cert ≠ [] ∧
      ((cfg.transport = .coap ∧ o.rc = .none ∧ o.evs = evs) ∨
       (cfg.transport = .http ∧ net.hdrOut = false ∧ o.rc = .httpWrite ∧ o.evs = evs) ∨
       (cfg.transport = .http ∧ net.hdrOut = true ∧ o.evs = evs ++ [.head 200] ++ w.1 ∧
         o.rc = if w.2 then .none else .httpWrite))) ∨
     (¬ (r.1.rc = .none ∧ r.1.cert ≠ []) ∧ o.evs = evs ∧
       o.rc = if r.1.rc = .caEnrollRetry then .caEnrollRetry else .caEnrollFail) := by
  unfold keygenAnswer
  by_cases hr : r.1.rc = .none ∧ r.1.cert ≠ []
  · simp only [hr, and_self, if_true, ne_eq, not_false_eq_true]
    cases ht : cfg.transport <;> cases hn : net.hdrOut <;> simp
  · simp only [hr, if_false]
    by_cases h2 : r.1.rc = .caEnrollRetry <;> simp [h2]

/-- C54: in a key generation request the CA callback is reached only if the client is
authorised, over HTTP only with a content type starting with application/pkcs10; the CSR it
gets is the client's CSR with the freshly generated key put in and signed with that key; and
the registration authority, proof-of-possession and attribute checks passed for it. -/
theorem C54_ca_gets_server_key {cfg : Cfg} {k : KeygenCfg} {mp : Multi} {tls : Tls} {net : Net}
    {bodyOut : Nat → Nat} {parse} {rq : Req} {o : Out}
    (h : serverKeygen cfg k mp tls net bodyOut parse rq = some o)
    {kd : CaKind} {q : CaReq} (hca : Ev.ca kd q ∈ o.evs) :
    kd = .keygen ∧ (cfg.transport = .http → [97, 112, 112, 108, 105, 99, 97, 116, 105, 111, 110, 47, 112, 107, 99, 115, 49, 48] <+: rq.ct) ∧
    (CertVerified tls ∨ SrpLogin tls ∨ AppAccepted cfg o.evs) ∧
    ∃ csr key csr1 csr2, parse rq.body = some csr ∧ k.keygenCb = some (some key) ∧
      k.setPubkey key csr = some csr1 ∧ k.sign key csr1 = some csr2 ∧
      q.body = k.encode csr2 ∧ csr2.hasPubkey = true ∧ csr2.verifyRc > 0 ∧
      (IsRA tls ∨ PopHeld cfg tls csr2) ∧
      (cfg.enforceAttrs = true → cfg.attrsPresent q.body = true) ∧
      q.seg = rq.seg ∧ (q.hasPeer = true ↔ tls.peer ≠ none) ∧
      (cfg.transport = .coap → q.user = []) := by
  rcases serverKeygen_cases h with hs | ⟨ca, a, csr, key, csr2, hr, ho⟩
  · rcases hs.evs _ hca with ⟨c, hc⟩ | hc <;> simp at hc
  · have hA := keygenAnswer_cases cfg mp net bodyOut
        (ca (keygenReq cfg tls rq a (k.encode csr2)) key)
        (a.evs ++ [.ca .keygen (keygenReq cfg tls rq a (k.encode csr2))])
        (a.user.getD rq.connUser)
    simp only [← ho] at hA
    obtain ⟨hev, _, _, _⟩ := enrollAuth_facts hr.auth
    have hsub : ∀ e ∈ a.evs, e ∈ o.evs := by
      intro e he
      rcases hA with ⟨_, _, ⟨_, _, h3⟩ | ⟨_, _, _, h3⟩ | ⟨_, _, h3, _⟩⟩ | ⟨_, h3, _⟩ <;>
        rw [h3] <;> simp [he]
    have hmem : Ev.ca kd q ∈ a.evs ++ [.ca .keygen (keygenReq cfg tls rq a (k.encode csr2))] := by
      rcases hA with ⟨_, _, ⟨_, _, h3⟩ | ⟨_, _, _, h3⟩ | ⟨_, _, h3, _⟩⟩ | ⟨_, h3, _⟩ <;>
        rw [h3] at hca
      · exact hca
      · exact hca
      · simp only [List.mem_append, List.mem_singleton, reduceCtorEq, or_false] at hca ⊢
        rcases hca with hca | hca
        · exact hca
        · obtain ⟨p, b, hp, _⟩ := writeAll_evs _ _ _ _ hca
          simp at hp
      · exact hca
    have hq : kd = .keygen ∧ q = keygenReq cfg tls rq a (k.encode csr2) := by
      rcases List.mem_append.mp hmem with hm | hm
      · rcases hev _ hm with ⟨c, hc⟩ | hc <;> simp at hc
      · simpa using hm
    obtain ⟨hk, hq⟩ := hq
    have hck := hr.checked
    simp only [checkCsr, Bool.and_eq_true, decide_eq_true_eq] at hck
    obtain ⟨csr1, hc1, hc2⟩ := hr.rekeyed
    refine ⟨hk, ?_, ?_, csr, key, csr1, csr2, hr.parsed, hr.gen, hc1, hc2, by rw [hq]; rfl,
      hck.1, hck.2, ?_, by rw [hq]; exact hr.attrs, by rw [hq]; rfl, ?_,
      by intro ht; rw [hq]; simp [keygenReq, ht]⟩
    · intro ht
      have := hr.ct ht
      simpa [ctPkcs10] using this
    · rcases C19_authorised_only_with_evidence hr.auth hr.ok with h1 | h1 | h1
      · exact .inl h1
      · exact .inr (.inl h1)
      · obtain ⟨cb, c, h1, h2, h3⟩ := h1
        exact .inr (.inr ⟨cb, c, h1, hsub _ h2, h3⟩)
    · rcases hr.pop with hp | hp
      · left
        refine ⟨?_, hp.2⟩
        intro hn; simp [hn] at hp
      · exact .inr (popHeld_of_ok hp)
    · rw [hq]
      show tls.peer.isSome = true ↔ _
      cases tls.peer <;> simp

/-- C54: no byte of a response body, in particular of the private key, leaves the server in a
key generation request unless the CA callback was called for it and returned success and a
certificate. -/
theorem C54_key_only_with_certificate {cfg : Cfg} {k : KeygenCfg} {mp : Multi} {tls : Tls}
    {net : Net} {bodyOut : Nat → Nat} {parse} {rq : Req} {o : Out}
    (h : serverKeygen cfg k mp tls net bodyOut parse rq = some o) {b : List Nat}
    (hb : Ev.body b ∈ o.evs) :
    ∃ ca q key, k.caCb = some ca ∧ k.keygenCb = some (some key) ∧ Ev.ca .keygen q ∈ o.evs ∧
      Ev.head 200 ∈ o.evs ∧ (ca q key).1.rc = .none ∧ (ca q key).1.cert ≠ [] ∧
      ∃ part ∈ [mp.keyHdr, (ca q key).2, mp.certHdr, (ca q key).1.cert, mp.final],
        b <+: part := by
  rcases serverKeygen_cases h with hs | ⟨ca, a, csr, key, csr2, hr, ho⟩
  · rcases hs.evs _ hb with ⟨c, hc⟩ | hc <;> simp at hc
  · have hA := keygenAnswer_cases cfg mp net bodyOut
        (ca (keygenReq cfg tls rq a (k.encode csr2)) key)
        (a.evs ++ [.ca .keygen (keygenReq cfg tls rq a (k.encode csr2))])
        (a.user.getD rq.connUser)
    simp only [← ho] at hA
    obtain ⟨hev, _, _, _⟩ := enrollAuth_facts hr.auth
    have hno : Ev.body b ∉
        a.evs ++ [.ca .keygen (keygenReq cfg tls rq a (k.encode csr2))] := by
      intro hm
      rcases List.mem_append.mp hm with hm | hm
      · rcases hev _ hm with ⟨c, hc⟩ | hc <;> simp at hc
      · simp at hm
    rcases hA with ⟨h1, h2, ⟨_, _, h3⟩ | ⟨_, _, _, h3⟩ | ⟨_, _, h3, _⟩⟩ | ⟨_, h3, _⟩
    · rw [h3] at hb; exact absurd hb hno
    · rw [h3] at hb; exact absurd hb hno
    · refine ⟨ca, _, key, hr.cb, hr.gen, by rw [h3]; simp, by rw [h3]; simp, h1, h2, ?_⟩
      rw [h3] at hb
      simp only [List.mem_append] at hb hno
      rcases hb with (hb | hb) | hb
      · exact absurd hb hno
      · simp at hb
      · obtain ⟨p, b', hp, hp2, hp3⟩ := writeAll_evs _ _ _ _ hb
        simp only [Ev.body.injEq] at hp
        exact ⟨b', hp2, hp ▸ hp3⟩
    · rw [h3] at hb; exact absurd hb hno

/-- Example: a key generation server whose key text is [7]. -/
def demoKeygen : KeygenCfg where
  caCb := some fun _ key => (⟨.none, [1, 2, 3]⟩, key)
  keygenCb := some (some [7])
  setPubkey := fun _ c => some c
  sign := fun _ c => some c
  encode := fun _ => [66]

def demoMulti : Multi := ⟨[45], [46], [47]⟩

example : ∃ o, serverKeygen demoCfg demoKeygen demoMulti certTls demoNet (fun _ => 100)
      (fun _ => some demoCsr) demoReq = some o ∧
    Ev.ca .keygen ⟨[66], [], true, none⟩ ∈ o.evs ∧ Ev.body [7] ∈ o.evs :=
  ⟨_, rfl, by decide, by decide⟩

/-! ## C56 -/

theorem brskiAuth_evidence {cfg : Cfg} {tls : Tls} {hdr} {st : AuthState} {evs : List Ev}
    (h : brskiAuth cfg tls hdr = some (st, evs)) (ha : Authorised st) :
    CertVerified tls ∨ SrpLogin tls ∨ AppAccepted cfg evs := by
  unfold brskiAuth checkTlsCert at h
  unfold Authorised at ha
  unfold CertVerified SrpLogin AppAccepted
  cases hp : tls.peer with
  | none =>
    cases hs : tls.srpUser <;> cases ht : cfg.transport <;> cases hcb : cfg.authCb <;>
      simp [hp, hs, ht, hcb] at h ⊢ <;> (repeat' split at h) <;>
      (try (simp at h)) <;> (try (obtain ⟨h1, h2⟩ := h; subst h1 h2)) <;> (try simp at ha) <;>
      (try simp) <;> (try split at ha) <;> simp_all
  | some v =>
    cases v <;> cases ht : cfg.transport <;> cases hcb : cfg.authCb <;>
      simp [hp, ht, hcb] at h ⊢ <;> (repeat' split at h) <;>
      (try (simp at h)) <;> (try (obtain ⟨h1, h2⟩ := h; subst h1 h2)) <;> (try simp at ha) <;>
      (try simp) <;> (try split at ha) <;> simp_all

theorem brskiAuth_evs {cfg : Cfg} {tls : Tls} {hdr} {st : AuthState} {evs : List Ev}
    (h : brskiAuth cfg tls hdr = some (st, evs)) :
    (st = .httpAuthPending ∧ evs = challenge cfg.authMode) ∨
      (st ≠ .httpAuthPending ∧ ∀ e ∈ evs, ∃ c, e = .askApp c) := by
  unfold brskiAuth checkTlsCert at h
  cases hp : tls.peer with
  | none =>
    cases hs : tls.srpUser <;> cases ht : cfg.transport <;> cases hcb : cfg.authCb <;>
      simp [hp, hs, ht, hcb] at h ⊢ <;> (repeat' split at h) <;>
      (try (simp at h)) <;> (try (obtain ⟨h1, h2⟩ := h; subst h1 h2)) <;>
      (try simp) <;> (try split) <;> simp_all
  | some v =>
    cases v <;> cases ht : cfg.transport <;> cases hcb : cfg.authCb <;>
      simp [hp, ht, hcb] at h ⊢ <;> (repeat' split at h) <;>
      (try (simp at h)) <;> (try (obtain ⟨h1, h2⟩ := h; subst h1 h2)) <;>
      (try simp) <;> (try split) <;> simp_all

/-- Every run of a BRSKI handler: a challenge, an error before the callback, or the callback
is called once for an authorised client. -/
theorem handleBrski_cases {cfg : Cfg} {tls : Tls} {net : Net} {op : BrskiOp} {cb} {rq : Req}
    {rc : EstErr} {evs : List BEv} (h : handleBrski cfg tls net op cb rq = some (rc, evs)) :
    (rc = .authPending ∧ evs = (challenge cfg.authMode).map BEv.ev) ∨
    (rc ≠ .none ∧ rc ≠ .authPending ∧ ∃ pre : List Ev, evs = pre.map BEv.ev ∧
      ∀ e ∈ pre, ∃ c, e = .askApp c) ∨
    ∃ f pre, cb = some f ∧ brskiCt op rq.ct = true ∧ (∀ e ∈ pre, ∃ c, e = Ev.askApp c) ∧
      (CertVerified tls ∨ SrpLogin tls ∨ AppAccepted cfg pre) ∧
      rc = (brskiAnswer net op (f rq.body)).1 ∧
      evs = pre.map BEv.ev ++ [.brskiCb op rq.body] ++
        (brskiAnswer net op (f rq.body)).2.map BEv.ev := by
  unfold handleBrski at h
  cases cb with
  | none =>
    simp at h
    exact .inr (.inl ⟨by simp [← h.1], by simp [← h.1], [], by simp [h.2], by simp⟩)
  | some f =>
    simp only at h
    by_cases hct : (!brskiCt op rq.ct) = true
    · simp only [hct, if_true, Option.some.injEq, Prod.mk.injEq] at h
      exact .inr (.inl ⟨by simp [← h.1], by simp [← h.1], [], by simp [h.2], by simp⟩)
    · simp only [hct] at h
      simp only [Bool.not_eq_true', Bool.not_eq_false] at hct
      cases ha : brskiAuth cfg tls rq.hdr with
      | none => simp [ha] at h
      | some r =>
        obtain ⟨st, pre⟩ := r
        simp only [ha] at h
        have he := brskiAuth_evs ha
        have hok : Authorised st → st ≠ .httpAuthPending := by
          rintro (h | h | h) <;> simp [h]
        have hgo : Authorised st →
            some ((brskiAnswer net op (f rq.body)).1, pre.map BEv.ev ++ [.brskiCb op rq.body] ++
              (brskiAnswer net op (f rq.body)).2.map BEv.ev) = some (rc, evs) →
            ∃ f' pre, some f = some f' ∧ brskiCt op rq.ct = true ∧
              (∀ e ∈ pre, ∃ c, e = Ev.askApp c) ∧
              (CertVerified tls ∨ SrpLogin tls ∨ AppAccepted cfg pre) ∧
              rc = (brskiAnswer net op (f' rq.body)).1 ∧
              evs = pre.map BEv.ev ++ [.brskiCb op rq.body] ++
                (brskiAnswer net op (f' rq.body)).2.map BEv.ev := by
          intro hau hx
          simp only [Option.some.injEq, Prod.mk.injEq] at hx
          rcases he with ⟨h1, _⟩ | ⟨_, h1⟩
          · exact absurd h1 (hok hau)
          · exact ⟨f, pre, rfl, hct, h1, brskiAuth_evidence ha hau, hx.1.symm, hx.2.symm⟩
        cases hs : st <;> simp only [hs] at h he
        all_goals first
          | exact .inr (.inr (hgo (by simp [Authorised, hs]) (by simpa using h)))
          | skip
        all_goals
          simp only [Bool.false_eq_true, if_false, Option.some.injEq, Prod.mk.injEq] at h
          rcases he with ⟨h1, h2⟩ | ⟨h1, h2⟩
        all_goals first
          | (simp at h1; done)
          | (exact absurd rfl h1)
          | exact .inl ⟨h.1.symm, by rw [← h.2, h2]⟩
          | exact .inr (.inl ⟨by simp [← h.1], by simp [← h.1], pre, h.2.symm, h2⟩)

theorem ev_mem_map {e : Ev} {l : List Ev} : BEv.ev e ∈ l.map BEv.ev ↔ e ∈ l := by simp

/-- C56: the application's BRSKI callbacks see only requests of clients that are authorised,
with the documented content type, and get the body of the request. -/
theorem C56_callback_only_authorised {cfg : Cfg} {tls : Tls} {net : Net} {op : BrskiOp} {cb}
    {rq : Req} {rc : EstErr} {evs : List BEv}
    (h : handleBrski cfg tls net op cb rq = some (rc, evs))
    {op' : BrskiOp} {b : List Nat} (hcb : BEv.brskiCb op' b ∈ evs) :
    op' = op ∧ b = rq.body ∧ cb.isSome = true ∧
    (rq.ct = [97, 112, 112, 108, 105, 99, 97, 116, 105, 111, 110, 47, 106, 115, 111, 110] ∨
      (op = .voucher ∧ rq.ct = [97, 112, 112, 108, 105, 99, 97, 116, 105, 111, 110, 47, 112, 107, 99, 115, 55, 45, 109, 105, 109, 101, 59, 32, 115, 109, 105, 109, 101, 45, 116, 121, 112, 101, 61, 118, 111, 117, 99, 104, 101, 114, 45, 114, 101, 113, 117, 101, 115, 116])) ∧
    (CertVerified tls ∨ SrpLogin tls ∨
      ∃ f c, cfg.authCb = some f ∧ BEv.ev (.askApp c) ∈ evs ∧ f c = true) := by
  rcases handleBrski_cases h with ⟨_, h2⟩ | ⟨_, _, pre, h2, _⟩ | ⟨f, pre, h1, h2, h3, h4, h5, h6⟩
  · rw [h2] at hcb; simp at hcb
  · rw [h2] at hcb; simp at hcb
  · have hx : op' = op ∧ b = rq.body := by
      rw [h6] at hcb; simpa using hcb
    refine ⟨hx.1, hx.2, by simp [h1], ?_, ?_⟩
    · unfold brskiCt at h2
      cases op <;> simp at h2 ⊢
      · rcases h2 with h2 | h2
        · exact .inr h2
        · exact .inl h2
      · exact h2
      · exact h2
    · rcases h4 with h4 | h4 | ⟨g, c, h7, h8, h9⟩
      · exact .inl h4
      · exact .inr (.inl h4)
      · exact .inr (.inr ⟨g, c, h7, by rw [h6]; simp [h8], h9⟩)

/-- C56: a voucher leaves the server only if the callback was called for this request and
returned success, and then it is a prefix of what the callback returned. -/
theorem C56_voucher_only_from_callback {cfg : Cfg} {tls : Tls} {net : Net} {op : BrskiOp} {cb}
    {rq : Req} {rc : EstErr} {evs : List BEv}
    (h : handleBrski cfg tls net op cb rq = some (rc, evs))
    {v : List Nat} (hv : BEv.ev (.body v) ∈ evs) :
    op = .voucher ∧ ∃ f, cb = some f ∧ BEv.brskiCb op rq.body ∈ evs ∧
      (f rq.body).1 = .success ∧ v <+: (f rq.body).2 := by
  rcases handleBrski_cases h with ⟨_, h2⟩ | ⟨_, _, pre, h2, h3⟩ | ⟨f, pre, h1, h2, h3, h4, h5, h6⟩
  · rw [h2] at hv; cases hm : cfg.authMode <;> simp [challenge, hm] at hv
  · rw [h2] at hv; simp at hv; obtain ⟨c, hc⟩ := h3 _ hv; simp at hc
  · have hno : Ev.body v ∉ pre := by
      intro hm; obtain ⟨c, hc⟩ := h3 _ hm; simp at hc
    have hm : Ev.body v ∈ (brskiAnswer net op (f rq.body)).2 := by
      rw [h6] at hv; simpa [hno] using hv
    unfold brskiAnswer at hm
    cases op with
    | voucher =>
      simp only at hm
      by_cases hs : (f rq.body).1 = .success ∧ (f rq.body).2 ≠ []
      · simp only [hs, ne_eq, not_false_eq_true, and_self, if_true] at hm
        cases hn : net.hdrOut
        · simp [hn] at hm
        · simp only [hn, Bool.not_true, Bool.false_eq_true, if_false, List.mem_append,
            List.mem_singleton, reduceCtorEq, false_or] at hm
          obtain ⟨p, hp, hp2, _⟩ := writeBody_evs _ _ _ hm
          simp only [Ev.body.injEq] at hp
          exact ⟨rfl, f, h1, by rw [h6]; simp, hs.1, hp ▸ hp2⟩
      · simp only [hs, if_false] at hm
        split at hm
        · cases hn : net.hdrOut <;> simp [hn] at hm
        · simp at hm
    | _ =>
      simp only at hm
      split at hm
      · cases hn : net.hdrOut <;> simp [hn] at hm
      · simp at hm

example : ∃ rc evs, handleBrski demoCfg certTls demoNet .voucher
      (some fun _ => (.success, [5, 6])) { demoReq with ct := [97, 112, 112, 108, 105, 99, 97, 116, 105, 111, 110, 47, 106, 115, 111, 110] } = some (rc, evs) ∧
    BEv.brskiCb .voucher [77] ∈ evs ∧ BEv.ev (.body [5, 6]) ∈ evs :=
  ⟨_, _, rfl, by decide, by decide⟩

/-! ## C47 -/

/-- C47, the part that holds: a handler is entered only for its own operation, for a method
that starts with the right name, and, apart from the two GET operations, with a content type.
Missing: exact methods, see `C47_extended_method_false`. -/
theorem C47_handler_gate_partial {s : Server} {haveSsl : Bool} {tls : Tls} {net : Net}
    {bodyOut : Nat → Nat} {method : List Nat} {uri : EstUri.Res} {ct : Option (List Nat)}
    {rq : Req} {d : DOut} (h : httpRequest s haveSsl tls net bodyOut method uri ct rq = some d)
    {hd : Handler} (hh : d.handler = some hd) :
    haveSsl = true ∧ ∃ op seg, uri = .ok op seg ∧
      match hd with
      | .cacerts => op = .cacerts ∧ [71, 69, 84] <+: method
      | .csrattrs => op = .csrattrs ∧ method = [71, 69, 84]
      | .enroll => op = .simpleEnroll ∧ [80, 79, 83, 84] <+: method ∧ ct ≠ none
      | .reenroll => op = .simpleReenroll ∧ [80, 79, 83, 84] <+: method ∧ ct ≠ none
      | .keygen => op = .serverKeygen ∧ [80, 79, 83, 84] <+: method ∧ ct ≠ none
      | .brski .voucher => op = .reqVoucher ∧ [80, 79, 83, 84] <+: method ∧ ct ≠ none
      | .brski .voucherStatus => op = .voucherStatus ∧ [80, 79, 83, 84] <+: method ∧ ct ≠ none
      | .brski .enrollStatus => op = .enrollStatus ∧ [80, 79, 83, 84] <+: method ∧ ct ≠ none := by
  unfold httpRequest at h
  cases haveSsl with
  | false => simp at h; subst h; simp at hh
  | true =>
    refine ⟨rfl, ?_⟩
    simp only [Bool.not_true, Bool.false_eq_true, if_false] at h
    cases uri with
    | ub => simp at h
    | err e => cases e <;> (simp only [Option.some.injEq] at h; subst h; simp at hh)
    | ok op seg =>
      refine ⟨op, seg, rfl, ?_⟩
      simp only at h
      cases op <;> simp only at h
      case cacerts =>
        by_cases hm : methodGetPrefix method = true
        · simp only [hm, Bool.not_true, Bool.false_eq_true, if_false, Option.some.injEq] at h
          have : hd = .cacerts := by
            split at h <;> subst h <;> simpa [orError] using hh.symm
          subst this
          exact ⟨rfl, by simpa [methodGetPrefix] using hm⟩
        · simp [hm] at h; subst h; simp at hh
      case csrattrs =>
        by_cases hm : methodGetExact method = true
        · simp only [hm, Bool.not_true, Bool.false_eq_true, if_false, Option.some.injEq] at h
          have : hd = .csrattrs := by
            split at h <;> subst h <;> simpa [orError] using hh.symm
          subst this
          exact ⟨rfl, by simpa [methodGetExact] using hm⟩
        · simp [hm] at h; subst h; simp at hh
      all_goals
        by_cases hm : ¬ methodPostPrefix method = true
        · simp [hm] at h; subst h; simp at hh
        simp only [Decidable.not_not] at hm
        simp only [hm, Bool.not_true, Bool.false_eq_true, if_false] at h
        have hm' : [80, 79, 83, 84] <+: method := by simpa [methodPostPrefix] using hm
        cases ct with
        | none => simp at h; subst h; simp at hh
        | some c =>
          simp only [Option.map_eq_some_iff] at h
          obtain ⟨o, _, ho⟩ := h
          split at ho <;> subst ho <;> simp [orError] at hh <;> subst hh <;>
            simp [hm']

/-- Status lines among the effects. -/
def heads (evs : List BEv) : List Nat :=
  evs.filterMap fun e => match e with
    | .ev (.head n) => some n
    | _ => none

def demoServer : Server where
  cfg := demoCfg
  kg := demoKeygen
  mp := demoMulti
  cacertsCb := none
  caCerts := some [9, 9]
  lib := ⟨fun _ => (.none, false), fun d => .ok d⟩
  csrCb := none
  csrattrs := none
  brskiCb := fun _ => some fun _ => (.success, [5])
  parse := fun _ => some demoCsr

/-- C47 is false of the code: "GETX" is served as GET for the CA certificates, and "POSTX" as
POST for an enrolment, because only a prefix of the method is compared (`est_server.c` lines
2770, 2802, 2993). -/
theorem C47_extended_method_false :
    (∃ d, httpRequest demoServer true certTls demoNet (fun _ => 100) [71, 69, 84, 88]
        (.ok .cacerts none) none demoReq = some d ∧ d.handler = some .cacerts ∧
        heads d.evs = [200]) ∧
    (∃ d, httpRequest demoServer true certTls demoNet (fun _ => 100) [80, 79, 83, 84, 88]
        (.ok .simpleEnroll none) (some [97, 112, 112, 108, 105, 99, 97, 116, 105, 111, 110, 47, 112, 107, 99, 115, 49, 48]) demoReq = some d ∧
        d.handler = some .enroll ∧ heads d.evs = [200]) := by
  exact ⟨⟨_, rfl, by decide, by decide⟩, ⟨_, rfl, by decide, by decide⟩⟩

/-- C47 is false of the code: if the CA certificates callback returns an empty buffer (not
NULL), the 200 header is sent, the empty write counts as a failure, and a second response
follows. -/
theorem C47_two_responses_false :
    ∃ d, httpRequest { demoServer with cacertsCb := some (some []) } true certTls demoNet
        (fun _ => 100) [71, 69, 84] (.ok .cacerts none) none demoReq = some d ∧
      heads d.evs = [200, 500] := by
  exact ⟨_, rfl, by decide⟩

/-- The network takes everything it is given, and the application never hands over an empty
buffer as a success. -/
structure Delivers (s : Server) (net : Net) (bodyOut : Nat → Nat) : Prop where
  hdr : net.hdrOut = true
  body : 0 < net.bodyOut
  parts : ∀ i, 0 < bodyOut i
  retry : net.retryOut = true
  cacertsCb : s.cacertsCb ≠ some (some [])
  caCerts : s.caCerts ≠ some []
  keyHdr : s.mp.keyHdr ≠ []
  certHdr : s.mp.certHdr ≠ []
  final : s.mp.final ≠ []
  key : ∀ ca q k, s.kg.caCb = some ca → s.kg.keygenCb = some (some k) → (ca q k).2 ≠ []

theorem heads_append (a b : List BEv) : heads (a ++ b) = heads a ++ heads b := by
  simp [heads, List.filterMap_append]

theorem heads_sendError (e : EstErr) : heads ((sendError true e).map BEv.ev) = [errStatus e] := by
  unfold sendError
  by_cases h : e = .caEnrollRetry
  · subst h; rfl
  · simp [h, heads]

theorem heads_none {evs : List Ev} (h : ∀ e ∈ evs, ∀ n, e ≠ .head n) :
    heads (evs.map BEv.ev) = [] := by
  induction evs with
  | nil => rfl
  | cons e es ih =>
    have h1 := ih (fun x hx => h x (List.mem_cons_of_mem _ hx))
    have h2 := h e List.mem_cons_self
    simp only [List.map_cons]
    cases e with
    | head n => exact absurd rfl (h2 n)
    | _ => simpa [heads] using h1

theorem heads_ask {evs : List Ev} (h : ∀ e ∈ evs, ∃ c, e = Ev.askApp c) :
    heads (evs.map BEv.ev) = [] := by
  apply heads_none
  intro e he n hn
  obtain ⟨c, hc⟩ := h e he
  simp [hc] at hn

theorem heads_challenge {m : AuthMode} (h : m = .basic ∨ m = .digest ∨ m = .token) :
    heads ((challenge m).map BEv.ev) = [401] := by
  rcases h with h | h | h <;> subst h <;> rfl

theorem writeBody_ok {n : Nat} {b : List Nat} (hn : 0 < n) (hb : b ≠ []) :
    (writeBody n b).2 = true ∧ heads ((writeBody n b).1.map BEv.ev) = [] := by
  constructor
  · unfold writeBody
    cases b with
    | nil => exact absurd rfl hb
    | cons x xs => cases n with
      | zero => omega
      | succ n => simp
  · apply heads_none
    intro e he k hk
    obtain ⟨p, hp, _⟩ := writeBody_evs _ _ _ he
    simp [hp] at hk

theorem writeAll_ok {n : Nat → Nat} {bs : List (List Nat)} (hn : ∀ i, 0 < n i)
    (hb : ∀ b ∈ bs, b ≠ []) (i : Nat) :
    (writeAll n i bs).2 = true ∧ heads ((writeAll n i bs).1.map BEv.ev) = [] := by
  constructor
  · induction bs generalizing i with
    | nil => rfl
    | cons b bs ih =>
      have h1 := (writeBody_ok (hn i) (hb b List.mem_cons_self)).1
      simp [writeAll, h1, ih (fun x hx => hb x (List.mem_cons_of_mem _ hx))]
  · apply heads_none
    intro e he k hk
    obtain ⟨p, b, hp, _⟩ := writeAll_evs _ _ _ _ he
    simp [hp] at hk

/-- An enrolment handler's output: no status line on error, one on success. -/
theorem simpleEnroll_heads {cfg : Cfg} {tls : Tls} {net : Net} {parse} {re : Bool} {rq : Req}
    {o : Out} (ht : cfg.transport = .http) (hm : cfg.authMode = .basic ∨ cfg.authMode = .digest ∨
      cfg.authMode = .token) (hh : net.hdrOut = true) (hb : 0 < net.bodyOut)
    (h : simpleEnroll cfg tls net parse re rq = some o) :
    (o.rc = .none ∧ heads (o.evs.map BEv.ev) = [200]) ∨
    (o.rc = .authPending ∧ heads (o.evs.map BEv.ev) = [401]) ∨
    (o.rc ≠ .none ∧ o.rc ≠ .authPending ∧ heads (o.evs.map BEv.ev) = []) := by
  rcases simpleEnroll_cases h with hs | ⟨ca, a, csr, hr, ho⟩
  · rcases hs with ⟨h1, h2⟩ | ⟨h1, _, h2, h3⟩
    · exact .inr (.inl ⟨h1, by rw [h2]; exact heads_challenge hm⟩)
    · exact .inr (.inr ⟨h1, h2, heads_ask h3⟩)
  · obtain ⟨_, hA⟩ := enrollAnswer_cases cfg net (ca (caReqOf cfg tls rq a))
        (a.evs ++ [.ca (kindOf re) (caReqOf cfg tls rq a)]) (a.user.getD rq.connUser)
    rw [← ho] at hA
    have hpre : heads ((a.evs ++ [Ev.ca (kindOf re) (caReqOf cfg tls rq a)]).map BEv.ev) = [] := by
      apply heads_none
      intro e he n hn
      rcases enrollAuth_pending hr.auth with ⟨hp, _⟩ | ⟨_, hp⟩
      · have := hr.ok; simp [Authorised, hp] at this
      · rcases List.mem_append.mp he with he | he
        · obtain ⟨c, hc⟩ := hp _ he; simp [hc] at hn
        · simp [hn] at he
    rcases hA with ⟨_, h2, ⟨h4, _⟩ | ⟨_, h4, _⟩ | ⟨_, _, h3, h4⟩⟩ | ⟨_, h3, h4⟩
    · simp [ht] at h4
    · simp [hh] at h4
    · left
      have hw := writeBody_ok hb h2
      refine ⟨by rw [h4]; simp [hw.1], ?_⟩
      rw [h3, List.map_append, List.map_append, heads_append, heads_append, hpre, hw.2]
      rfl
    · right; right
      rw [h3, h4]
      refine ⟨?_, ?_, hpre⟩ <;> split <;> simp

theorem serverKeygen_heads {cfg : Cfg} {k : KeygenCfg} {mp : Multi} {tls : Tls} {net : Net}
    {bodyOut : Nat → Nat} {parse} {rq : Req} {o : Out} (ht : cfg.transport = .http)
    (hm : cfg.authMode = .basic ∨ cfg.authMode = .digest ∨ cfg.authMode = .token)
    (hh : net.hdrOut = true) (hb : ∀ i, 0 < bodyOut i) (h1 : mp.keyHdr ≠ []) (h2 : mp.certHdr ≠ [])
    (h3 : mp.final ≠ []) (h4 : ∀ ca q key, k.caCb = some ca → k.keygenCb = some (some key) → (ca q key).2 ≠ [])
    (h : serverKeygen cfg k mp tls net bodyOut parse rq = some o) :
    (o.rc = .none ∧ heads (o.evs.map BEv.ev) = [200]) ∨
    (o.rc = .authPending ∧ heads (o.evs.map BEv.ev) = [401]) ∨
    (o.rc ≠ .none ∧ o.rc ≠ .authPending ∧ heads (o.evs.map BEv.ev) = []) := by
  rcases serverKeygen_cases h with hs | ⟨ca, a, csr, key, csr2, hr, ho⟩
  · rcases hs with ⟨h1, h2⟩ | ⟨h1, _, h2, h3⟩
    · exact .inr (.inl ⟨h1, by rw [h2]; exact heads_challenge hm⟩)
    · exact .inr (.inr ⟨h1, h2, heads_ask h3⟩)
  · have hA := keygenAnswer_cases cfg mp net bodyOut
        (ca (keygenReq cfg tls rq a (k.encode csr2)) key)
        (a.evs ++ [.ca .keygen (keygenReq cfg tls rq a (k.encode csr2))])
        (a.user.getD rq.connUser)
    simp only [← ho] at hA
    have hpre : heads ((a.evs ++ [Ev.ca .keygen (keygenReq cfg tls rq a (k.encode csr2))]).map
        BEv.ev) = [] := by
      apply heads_none
      intro e he n hn
      rcases enrollAuth_pending hr.auth with ⟨hp, _⟩ | ⟨_, hp⟩
      · have := hr.ok; simp [Authorised, hp] at this
      · rcases List.mem_append.mp he with he | he
        · obtain ⟨c, hc⟩ := hp _ he; simp [hc] at hn
        · simp [hn] at he
    rcases hA with ⟨_, hc, ⟨h6, _⟩ | ⟨_, h6, _⟩ | ⟨_, _, h5, h6⟩⟩ | ⟨_, h5, h6⟩
    · simp [ht] at h6
    · simp [hh] at h6
    · left
      have hw := writeAll_ok (bs := [mp.keyHdr, (ca (keygenReq cfg tls rq a (k.encode csr2)) key).2,
        mp.certHdr, (ca (keygenReq cfg tls rq a (k.encode csr2)) key).1.cert, mp.final]) hb (by
          intro b hb
          simp only [List.mem_cons, List.not_mem_nil, or_false] at hb
          rcases hb with hb | hb | hb | hb | hb <;> rw [hb]
          · exact h1
          · exact h4 _ _ _ hr.cb hr.gen
          · exact h2
          · exact hc
          · exact h3) 0
      refine ⟨by rw [h6]; simp [hw.1], ?_⟩
      rw [h5, List.map_append, List.map_append, heads_append, heads_append, hpre, hw.2]
      rfl
    · right; right
      rw [h5, h6]
      refine ⟨?_, ?_, hpre⟩ <;> split <;> simp

theorem handleBrski_heads {cfg : Cfg} {tls : Tls} {net : Net} {op : BrskiOp} {cb} {rq : Req}
    {rc : EstErr} {evs : List BEv}
    (hm : cfg.authMode = .basic ∨ cfg.authMode = .digest ∨ cfg.authMode = .token)
    (hh : net.hdrOut = true) (hb : 0 < net.bodyOut)
    (h : handleBrski cfg tls net op cb rq = some (rc, evs)) :
    (rc = .none ∧ (heads evs = [200] ∨ heads evs = [202])) ∨
    (rc = .authPending ∧ heads evs = [401]) ∨
    (rc ≠ .none ∧ rc ≠ .authPending ∧ heads evs = []) := by
  rcases handleBrski_cases h with ⟨h1, h2⟩ | ⟨h1, h2, pre, h3, h4⟩ |
    ⟨f, pre, h1, h2, h3, h4, h5, h6⟩
  · exact .inr (.inl ⟨h1, by rw [h2]; exact heads_challenge hm⟩)
  · exact .inr (.inr ⟨h1, h2, by rw [h3]; exact heads_ask h4⟩)
  · have hpre : heads (pre.map BEv.ev ++ [.brskiCb op rq.body]) = [] := by
      rw [heads_append, heads_ask h3]; rfl
    rw [h6, heads_append, hpre, h5]
    generalize f rq.body = r
    unfold brskiAnswer
    cases op with
    | voucher =>
      simp only [hh]
      by_cases hs : r.1 = .success ∧ r.2 ≠ []
      · simp only [hs, ne_eq, not_false_eq_true, and_self, if_true, Bool.not_true,
          Bool.false_eq_true, if_false]
        have hw := writeBody_ok hb hs.2
        left
        refine ⟨by simp [hw.1], .inl ?_⟩
        rw [List.map_append, heads_append, hw.2]; rfl
      · simp only [hs, if_false]
        by_cases hr : r.1 = .retry
        · simp [hr, heads]
        · simp [hr, heads]
    | _ =>
      simp only [hh]
      by_cases hs : r.1 = .success
      · simp [hs, heads]
      · simp [hs, heads]

theorem handleCacerts_heads {net : Net} {cb stored} (hh : net.hdrOut = true)
    (hb : 0 < net.bodyOut) (hcb : cb ≠ some (some [])) (hst : stored ≠ some []) :
    let r := handleCacerts net cb stored
    (r.1 = .none ∧ heads (r.2.map BEv.ev) = [200]) ∨
    (r.1 ≠ .none ∧ heads (r.2.map BEv.ev) = []) := by
  have hsend : ∀ c : List Nat, c ≠ [] →
      (writeBody net.bodyOut c).2 = true ∧
      heads (([Ev.head 200] ++ (writeBody net.bodyOut c).1).map BEv.ev) = [200] := by
    intro c hc
    have hw := writeBody_ok hb hc
    refine ⟨hw.1, ?_⟩
    rw [List.map_append, heads_append, hw.2]; rfl
  unfold handleCacerts
  simp only [hh, Bool.not_true, Bool.false_eq_true, if_false]
  cases cb with
  | some c =>
    cases c with
    | none => simp [heads]
    | some c =>
      have := hsend c (by intro hc; exact hcb (by rw [hc]))
      left; exact ⟨by simp [this.1], this.2⟩
  | none =>
    cases stored with
    | none => simp [heads]
    | some c =>
      have := hsend c (by intro hc; exact hst (by rw [hc]))
      left; exact ⟨by simp [this.1], this.2⟩

theorem sendCsrattr_heads {net : Net} (hh : net.hdrOut = true) (hb : 0 < net.bodyOut)
    (d : List Nat) :
    let r := sendCsrattr net d
    r.1 = .none ∧ (heads (r.2.map BEv.ev) = [200] ∨ heads (r.2.map BEv.ev) = [204]) := by
  unfold sendCsrattr
  by_cases hd : d = []
  · simp [hd, sendError, errStatus, heads]
  · simp only [hd, if_false, hh, Bool.not_true, Bool.false_eq_true]
    have hw := writeBody_ok hb hd
    refine ⟨by simp [hw.1], .inl ?_⟩
    rw [List.map_append, heads_append, hw.2]; rfl

/-- The attribute helpers never report success as an error. -/
def AttrLib.Sane (lib : AttrLib) : Prop :=
  ∀ d e, lib.addPop d = .error e → e ≠ .none

theorem handleCsrAttrs_heads {net : Net} {lib : AttrLib} (hl : lib.Sane) (hh : net.hdrOut = true)
    (hb : 0 < net.bodyOut) (pop cb stored) :
    let r := handleCsrAttrs net lib pop cb stored
    (r.1 = .none ∧ (heads (r.2.map BEv.ev) = [200] ∨ heads (r.2.map BEv.ev) = [204])) ∨
    (r.1 ≠ .none ∧ heads (r.2.map BEv.ev) = []) := by
  have hs := sendCsrattr_heads (net := net) hh hb
  unfold handleCsrAttrs
  cases cb with
  | none =>
    cases stored with
    | none =>
      cases pop with
      | true => exact .inl (hs popOnly)
      | false => exact .inr ⟨by simp, rfl⟩
    | some d => exact .inl (hs d)
  | some d =>
    simp only
    by_cases h1 : d ≠ [] ∧ (lib.parseAttrs d).1 ≠ .none
    · rw [if_pos h1]
      right; exact ⟨h1.2, rfl⟩
    · simp only [h1, if_false]
      cases pop with
      | false => exact .inl (hs d)
      | true =>
        simp only [if_true]
        by_cases h2 : d = []
        · simp only [h2, if_true]; exact .inl (hs _)
        · simp only [h2, if_false]
          split
          · exact .inl (hs d)
          · cases ha : lib.addPop d with
            | error e => right; exact ⟨hl d e ha, rfl⟩
            | ok d' => exact .inl (hs d')

/-- C47, one response: if the network takes what it is given, the configured authentication
mode is one of the three, and the application never returns an empty buffer as a success,
every request that does not run into undefined behaviour gets exactly one response.
Missing: empty buffers, see `C47_two_responses_false`. -/
theorem C47_exactly_one_response_partial {s : Server} {haveSsl : Bool} {tls : Tls} {net : Net}
    {bodyOut : Nat → Nat} {method : List Nat} {uri : EstUri.Res} {ct : Option (List Nat)}
    {rq : Req} {d : DOut} (ht : s.cfg.transport = .http)
    (hm : s.cfg.authMode = .basic ∨ s.cfg.authMode = .digest ∨ s.cfg.authMode = .token)
    (hl : s.lib.Sane) (hd : Delivers s net bodyOut)
    (h : httpRequest s haveSsl tls net bodyOut method uri ct rq = some d) :
    ∃ n, heads d.evs = [n] := by
  have herr : ∀ e, ∃ n, heads ((sendError net.retryOut e).map BEv.ev) = [n] := by
    intro e; rw [hd.retry]; exact ⟨_, heads_sendError e⟩
  have hor : ∀ hn rc evs e, heads evs = [] → ∃ n, heads (orError net hn rc evs e).evs = [n] := by
    intro hn rc evs e he
    unfold orError
    obtain ⟨n, hn⟩ := herr e
    exact ⟨n, by simp only [heads_append, he, hn, List.nil_append]⟩
  unfold httpRequest at h
  cases haveSsl with
  | false => simp at h; subst h; exact herr _
  | true =>
    simp only [Bool.not_true, Bool.false_eq_true, if_false] at h
    cases uri with
    | ub => simp at h
    | err e => cases e <;> (simp only [Option.some.injEq] at h; subst h; exact herr _)
    | ok op seg =>
      have henr : ∀ (hn : Handler) (o : Out),
          ((o.rc = .none ∧ heads (o.evs.map BEv.ev) = [200]) ∨
            (o.rc = .authPending ∧ heads (o.evs.map BEv.ev) = [401]) ∨
            (o.rc ≠ .none ∧ o.rc ≠ .authPending ∧ heads (o.evs.map BEv.ev) = [])) →
          (if o.rc ≠ .none ∧ o.rc ≠ .authPending then
              orError net hn o.rc (o.evs.map BEv.ev) o.rc
            else (⟨.none, o.evs.map BEv.ev, some hn⟩ : DOut)) = d → ∃ n, heads d.evs = [n] := by
        intro hn o ho hx
        rcases ho with ⟨h1, h2⟩ | ⟨h1, h2⟩ | ⟨h1, h2, h3⟩
        · simp [h1] at hx; subst hx; exact ⟨_, h2⟩
        · simp [h1] at hx; subst hx; exact ⟨_, h2⟩
        · simp only [ne_eq, h1, h2, not_false_eq_true, and_self, if_true] at hx
          subst hx; exact hor _ _ _ _ h3
      simp only at h
      cases op <;> simp only at h
      case cacerts =>
        by_cases hmm : methodGetPrefix method = true
        · simp only [hmm, Bool.not_true, Bool.false_eq_true, if_false, Option.some.injEq] at h
          rcases handleCacerts_heads hd.hdr hd.body hd.cacertsCb hd.caCerts with ⟨h1, h2⟩ | ⟨h1, h2⟩
          · simp [h1] at h; subst h; exact ⟨_, h2⟩
          · simp only [ne_eq, h1, not_false_eq_true, if_true] at h; subst h; exact hor _ _ _ _ h2
        · simp [hmm] at h; subst h; exact herr _
      case csrattrs =>
        by_cases hmm : methodGetExact method = true
        · simp only [hmm, Bool.not_true, Bool.false_eq_true, if_false, Option.some.injEq] at h
          rcases handleCsrAttrs_heads hl hd.hdr hd.body s.cfg.enablePop s.csrCb s.csrattrs with
            ⟨h1, h2⟩ | ⟨h1, h2⟩
          · simp [h1] at h; subst h; rcases h2 with h2 | h2 <;> exact ⟨_, h2⟩
          · simp only [ne_eq, h1, not_false_eq_true, if_true] at h; subst h; exact hor _ _ _ _ h2
        · simp [hmm] at h; subst h; exact herr _
      all_goals
        by_cases hmm : ¬ methodPostPrefix method = true
        · simp [hmm] at h; subst h; exact herr _
        simp only [Decidable.not_not] at hmm
        simp only [hmm, Bool.not_true, Bool.false_eq_true, if_false] at h
        cases ct with
        | none => simp at h; subst h; exact herr _
        | some c =>
          simp only [Option.map_eq_some_iff] at h
          obtain ⟨o, ho, hx⟩ := h
          first
            | exact henr _ _ (simpleEnroll_heads ht hm hd.hdr hd.body ho) hx
            | exact henr _ _ (serverKeygen_heads ht hm hd.hdr hd.parts hd.keyHdr hd.certHdr
                hd.final hd.key ho) hx
            | (obtain ⟨rc, evs⟩ := o
               rcases handleBrski_heads hm hd.hdr hd.body ho with ⟨h1, h2⟩ | ⟨h1, h2⟩ | ⟨h1, h2, h3⟩
               · simp [h1] at hx; subst hx; rcases h2 with h2 | h2 <;> exact ⟨_, h2⟩
               · simp [h1] at hx; subst hx; exact ⟨_, h2⟩
               · simp only [ne_eq, h1, h2, not_false_eq_true, and_self, if_true] at hx
                 subst hx; exact hor _ _ _ _ h3)

example : Delivers demoServer demoNet (fun _ => 100) ∧ demoServer.lib.Sane ∧
    ∃ d, httpRequest demoServer true certTls demoNet (fun _ => 100) [80, 79, 83, 84]
      (.ok .simpleEnroll none) (some [97, 112, 112, 108, 105, 99, 97, 116, 105, 111, 110, 47, 112, 107, 99, 115, 49, 48]) demoReq = some d ∧
      heads d.evs = [200] := by
  refine ⟨⟨by decide, by decide, fun _ => by decide, by decide, by decide, by decide, by decide, by decide,
    by decide, ?_⟩, ?_, _, rfl, by decide⟩
  · intro ca q k h h2
    simp [demoServer, demoKeygen] at h h2
    subst h h2
    simp
  · intro d e h; simp [demoServer] at h

/-! ## Which callback, with what -/

theorem writeBody_no_ca (n : Nat) (b : List Nat) (k : CaKind) (q : CaReq) :
    Ev.ca k q ∉ (writeBody n b).1 := by
  unfold writeBody
  simp only
  split <;> simp

theorem sendError_no_ca (r : Bool) (e : EstErr) (k : CaKind) (q : CaReq) :
    Ev.ca k q ∉ sendError r e := by
  unfold sendError
  repeat' split
  all_goals simp

theorem sendCsrattr_no_ca (net : Net) (d : List Nat) (k : CaKind) (q : CaReq) :
    Ev.ca k q ∉ (sendCsrattr net d).2 := by
  unfold sendCsrattr
  split
  · exact sendError_no_ca net.retryOut .httpNoContent k q
  · split
    · simp
    · simp [writeBody_no_ca]

theorem handleCacerts_no_ca (net : Net) (cb) (st) (k : CaKind) (q : CaReq) :
    Ev.ca k q ∉ (handleCacerts net cb st).2 := by
  unfold handleCacerts
  simp only
  repeat' split
  all_goals simp [writeBody_no_ca]

theorem handleCsrAttrs_no_ca (net : Net) (lib : AttrLib) (pop : Bool) (cb) (st) (k : CaKind)
    (q : CaReq) : Ev.ca k q ∉ (handleCsrAttrs net lib pop cb st).2 := by
  unfold handleCsrAttrs
  simp only
  repeat' split
  all_goals first | exact sendCsrattr_no_ca _ _ _ _ | simp

theorem brskiAnswer_no_ca (net : Net) (op : BrskiOp) (r) (k : CaKind) (q : CaReq) :
    Ev.ca k q ∉ (brskiAnswer net op r).2 := by
  unfold brskiAnswer
  simp only
  repeat' split
  all_goals simp [writeBody_no_ca]

/-- C20 at the level of whole requests: a CA callback is called only for its own operation, with
POST and a content type, and gets the path segment of the URI; and unless a key is generated, the
body of the request. -/
theorem C20_callback_of_the_operation {s : Server} {haveSsl : Bool} {tls : Tls} {net : Net}
    {bodyOut : Nat → Nat} {method : List Nat} {uri : EstUri.Res} {ct : Option (List Nat)}
    {rq : Req} {d : DOut} (h : httpRequest s haveSsl tls net bodyOut method uri ct rq = some d)
    {k : CaKind} {q : CaReq} (hca : BEv.ev (.ca k q) ∈ d.evs) :
    [80, 79, 83, 84] <+: method ∧ ∃ seg, q.seg = seg ∧
      ((k = .enroll ∧ uri = .ok .simpleEnroll seg ∧ q.body = rq.body) ∨
       (k = .reenroll ∧ uri = .ok .simpleReenroll seg ∧ q.body = rq.body) ∨
       (k = .keygen ∧ uri = .ok .serverKeygen seg)) ∧
      (s.cfg.transport = .http → ∃ c, ct = some c ∧ [97, 112, 112, 108, 105, 99, 97, 116, 105, 111, 110, 47, 112, 107, 99, 115, 49, 48] <+: c) := by
  have herr : ∀ e, BEv.ev (Ev.ca k q) ∉ (sendError net.retryOut e).map BEv.ev := by
    intro e hm; exact sendError_no_ca _ _ _ _ (ev_mem_map.1 hm)
  have hor : ∀ hn rc evs e, BEv.ev (Ev.ca k q) ∈ (orError net hn rc evs e).evs →
      BEv.ev (Ev.ca k q) ∈ evs := by
    intro hn rc evs e hm
    unfold orError at hm
    rcases List.mem_append.1 hm with hm | hm
    · exact hm
    · exact absurd hm (herr e)
  unfold httpRequest at h
  cases haveSsl with
  | false => simp at h; subst h; exact absurd (by simpa using hca) (sendError_no_ca net.retryOut _ k q)
  | true =>
    simp only [Bool.not_true, Bool.false_eq_true, if_false] at h
    cases uri with
    | ub => simp at h
    | err e =>
      cases e <;> (simp only [Option.some.injEq] at h; subst h; exact absurd hca (herr _))
    | ok op seg =>
      simp only at h
      cases op <;> simp only at h
      case cacerts =>
        by_cases hm : methodGetPrefix method = true
        · simp only [hm, Bool.not_true, Bool.false_eq_true, if_false, Option.some.injEq] at h
          split at h <;> subst h
          · exact absurd (ev_mem_map.1 (hor _ _ _ _ hca)) (handleCacerts_no_ca _ _ _ _ _)
          · exact absurd (ev_mem_map.1 hca) (handleCacerts_no_ca _ _ _ _ _)
        · simp [hm] at h; subst h; exact absurd hca (herr _)
      case csrattrs =>
        by_cases hm : methodGetExact method = true
        · simp only [hm, Bool.not_true, Bool.false_eq_true, if_false, Option.some.injEq] at h
          split at h <;> subst h
          · exact absurd (ev_mem_map.1 (hor _ _ _ _ hca)) (handleCsrAttrs_no_ca _ _ _ _ _ _ _)
          · exact absurd (ev_mem_map.1 hca) (handleCsrAttrs_no_ca _ _ _ _ _ _ _)
        · simp [hm] at h; subst h; exact absurd hca (herr _)
      all_goals
        by_cases hm : ¬ methodPostPrefix method = true
        · simp [hm] at h; subst h; exact absurd hca (herr _)
        simp only [Decidable.not_not] at hm
        simp only [hm, Bool.not_true, Bool.false_eq_true, if_false] at h
        have hm' : [80, 79, 83, 84] <+: method := by simpa [methodPostPrefix] using hm
        cases ct with
        | none => simp at h; subst h; exact absurd hca (herr _)
        | some c =>
          simp only [Option.map_eq_some_iff] at h
          obtain ⟨o, ho, hx⟩ := h
          first
          | -- the enrolments
            (have hev : Ev.ca k q ∈ o.evs := by
              split at hx <;> subst hx
              · exact ev_mem_map.1 (hor _ _ _ _ hca)
              · exact ev_mem_map.1 hca
             first
             | (have := C20_ca_only_after_checks ho hev
                exact ⟨hm', seg, this.2.2.2.2.2.2.1, by
                  first
                  | exact .inl ⟨this.1, rfl, this.2.2.2.2.2.1⟩
                  | exact .inr (.inl ⟨this.1, rfl, this.2.2.2.2.2.1⟩),
                  fun ht => ⟨c, rfl, this.2.1 ht⟩⟩)
             | (have := C54_ca_gets_server_key ho hev
                obtain ⟨t1, t2, -, _, _, _, _, -, -, -, -, -, -, -, -, -, t3, -⟩ := this
                exact ⟨hm', seg, t3, .inr (.inr ⟨t1, rfl⟩), fun ht => ⟨c, rfl, t2 ht⟩⟩))
          | -- BRSKI
            (exfalso
             have hev : BEv.ev (Ev.ca k q) ∈ o.2 := by
              split at hx <;> subst hx
              · exact hor _ _ _ _ hca
              · exact hca
             rcases handleBrski_cases (rc := o.1) (evs := o.2) ho with
              ⟨_, h2⟩ | ⟨_, _, pre, h2, h3⟩ | ⟨f, pre, _, _, h3, _, _, h6⟩
             · rw [h2] at hev
               have := ev_mem_map.1 hev
               cases hmode : s.cfg.authMode <;> simp [challenge, hmode] at this
             · rw [h2] at hev
               obtain ⟨c', hc'⟩ := h3 _ (ev_mem_map.1 hev)
               simp at hc'
             · rw [h6] at hev
               simp only [List.mem_append, List.mem_singleton, reduceCtorEq, or_false] at hev
               rcases hev with hev | hev
               · obtain ⟨c', hc'⟩ := h3 _ (ev_mem_map.1 hev)
                 simp at hc'
               · exact brskiAnswer_no_ca _ _ _ _ _ (ev_mem_map.1 hev))

/-- A re-enrolment with a path segment reaches the re-enrolment callback with that segment. -/
example : ∃ d q, httpRequest demoServer true certTls demoNet (fun _ => 100) [80, 79, 83, 84]
      (.ok .simpleReenroll (some [108, 97, 98])) (some [97, 112, 112, 108, 105, 99, 97, 116, 105, 111, 110, 47, 112, 107, 99, 115, 49, 48]) demoReq = some d ∧
    BEv.ev (.ca .reenroll q) ∈ d.evs ∧ q.seg = some [108, 97, 98] :=
  ⟨_, ⟨[77], [], true, some [108, 97, 98]⟩, rfl, by decide, rfl⟩

/-- C56: what the client of a BRSKI request is told is what the callback decided. -/
theorem C56_response {cfg : Cfg} {tls : Tls} {net : Net} {op : BrskiOp} {cb}
    {rq : Req} {rc : EstErr} {evs : List BEv}
    (h : handleBrski cfg tls net op cb rq = some (rc, evs)) (hn : net.hdrOut = true)
    {op' : BrskiOp} {b : List Nat} (hcb : BEv.brskiCb op' b ∈ evs) :
    ∃ f, cb = some f ∧
      heads evs =
        (if (f rq.body).1 = .success ∧ (op = .voucher → (f rq.body).2 ≠ []) then [200]
         else if op = .voucher ∧ (f rq.body).1 = .retry then [202] else []) ∧
      (heads evs = [] → rc = .caEnrollFail) ∧ (heads evs = [202] → rc = .none) := by
  rcases handleBrski_cases h with ⟨_, h2⟩ | ⟨_, _, pre, h2, _⟩ | ⟨f, pre, h1, h2, h3, h4, h5, h6⟩
  · rw [h2] at hcb; simp at hcb
  · rw [h2] at hcb; simp at hcb
  · refine ⟨f, h1, ?_⟩
    have hpre : heads (pre.map BEv.ev) = [] := by
      unfold heads
      rw [List.filterMap_eq_nil_iff]
      intro e he
      simp only [List.mem_map] at he
      obtain ⟨e', he', rfl⟩ := he
      obtain ⟨c, rfl⟩ := h3 _ he'
      rfl
    have hh : heads evs = heads ((brskiAnswer net op (f rq.body)).2.map BEv.ev) := by
      rw [h6, heads_append, heads_append, hpre]
      rfl
    have hw : ∀ n t, heads ((writeBody n t).1.map BEv.ev) = [] := by
      intro n t
      unfold writeBody
      simp only
      split <;> simp [heads]
    rw [hh, h5]
    unfold brskiAnswer
    rw [hn]
    cases op with
    | voucher =>
      simp only [forall_const, true_and]
      by_cases hs : (f rq.body).1 = .success ∧ (f rq.body).2 ≠ []
      · simp only [hs, ne_eq, not_false_eq_true, and_self, if_true, Bool.not_true,
          Bool.false_eq_true, if_false]
        have : heads (([Ev.head 200] ++ (writeBody net.bodyOut (f rq.body).2).1).map BEv.ev) = [200] := by
          rw [List.map_append, heads_append, hw]
          rfl
        rw [this]
        simp
      · simp only [hs, if_false]
        by_cases hr : (f rq.body).1 = .retry
        · simp [hr, heads]
        · simp [hr, heads]
    | voucherStatus =>
      by_cases hs : (f rq.body).1 = .success <;> simp [hs, heads]
    | enrollStatus =>
      by_cases hs : (f rq.body).1 = .success <;> simp [hs, heads]

example : ∃ rc evs, handleBrski demoCfg certTls demoNet .voucher
      (some fun _ => (.retry, [])) { demoReq with ct := [97, 112, 112, 108, 105, 99, 97, 116, 105, 111, 110, 47, 106, 115, 111, 110] } = some (rc, evs) ∧
    BEv.brskiCb .voucher [77] ∈ evs ∧ heads evs = [202] :=
  ⟨_, _, rfl, by decide, by decide⟩

end Verif.Server
