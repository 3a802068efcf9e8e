import Verif.LifeProps

/-!
# More about starting a server and about the results of its calls (C106)
-/
namespace Verif.Life

/-- C106: a start succeeds exactly if there is memory, OpenSSL knows the curve that was chosen
last, and it accepts suites, certificate and key. -/
theorem C106_start_result {v : Verify} {proxy : Bool} {trust : List Der} {ops : List Op} {h : Hist}
    {c : Ctx} (hr : run v (Ctx.init proxy trust) ops = some (h, c)) {later before : Hist}
    {l : StartLib} {o : Out} (hh : h = later ++ (.start l, o) :: before) :
    o.session = none ∧ (o.ret = .none ∨ o.ret = .noSslCtx) ∧
    (o.ret = .none ↔ l.mem ∧ l.sslCtx ∧ l.curve (curveOf before) ∧ l.ciphers ∧ l.useCert ∧ l.useKey) := by
  obtain ⟨_, h2⟩ := run_inv ops (inv_init proxy trust) hr
  obtain ⟨d, d', hi, hs⟩ := h2 _ _ _ _ hh
  rw [List.append_nil] at hi
  unfold step at hs
  split at hs
  · cases hs
  · have hn : (settingsOf d).curve = curveOf before := hi.nid
    simp only [start, mgStart, hn, Option.some.injEq] at hs
    cases h1 : l.mem <;> cases h2 : l.sslCtx <;> cases h3 : l.curve (curveOf before) <;>
      cases h4 : l.ciphers <;> cases h5 : l.useCert <;> cases h6 : l.useKey <;>
      simp [h1, h2, h3, h4, h5, h6] at hs <;> obtain ⟨rfl, _⟩ := hs <;> simp [ret]

/-- C106: with CoAP, a session is served only if the client has a certificate that verifies with
the trusted certificates; and such a client is served unless the server was stopped or a start of
the other transport has taken the trusted certificates away. -/
theorem C106_coap_sessions {v : Verify} (hv : ∀ crl n d, v [] crl n d = false)
    {proxy : Bool} {trust : List Der} {ops : List Op} {h : Hist} {c : Ctx}
    (hr : run v (Ctx.init proxy trust) ops = some (h, c)) {later before : Hist} {k : Conn} {o : Out}
    (hh : h = later ++ (.handle k, o) :: before) (hc : CoapAsked before) :
    (∀ s, o.session = some s → o.ret = .none ∧ k.run = true ∧
      ∃ d, k.hello.cert = some d ∧ s.cert = some d ∧ v trust false 7 d = true) ∧
    (∀ d, o.ret = .none → k.hello.cert = some d → v trust false 7 d = true →
      (∀ e ∈ before, ¬ Starting e) → o.session.isSome) := by
  obtain ⟨_, h2⟩ := run_inv ops (inv_init proxy trust) hr
  obtain ⟨d, d', hi, hs⟩ := h2 _ _ _ _ hh
  rw [List.append_nil] at hi
  unfold step at hs
  split at hs
  · cases hs
  · next hd =>
    simp only [handle, hi.coap.2 hc, if_true, Option.some.injEq, Prod.mk.injEq] at hs
    obtain ⟨rfl, _⟩ := hs
    constructor
    · intro s he
      split at he
      · cases he
      · split at he
        · cases he
        · next hk =>
          rw [if_neg hk]
          simp only [dtls] at he
          split at he
          · cases he
          · next x hx =>
            split at he
            · next hvv =>
              cases he
              refine ⟨?_, by simpa using hk, x, hx, rfl, ?_⟩
              · split
                · contradiction
                · rfl
              · rcases hi.store with h3 | h3
                · rw [h3] at hvv; exact hvv
                · rw [h3] at hvv
                  have := hv false 7 x
                  simp_all
            · cases he
    · intro x ho hx hvx hn
      split at ho
      · cases ho
      · next h1 =>
        rw [if_neg h1]
        split at ho
        · cases ho
        · next h2 =>
          rw [if_neg h2]
          simp only [dtls, hx, (hi.first (by simpa using hd) hn).1, Option.getD_some, hvx, if_true,
            Option.isSome_some]

/-- What stands behind a success without a session: OpenSSL had no memory, or the handshake
stopped for a reason that the code does not know, or was not finished. -/
def Unserved (k : Conn) : Prop :=
  k.sslNew = false ∨ k.stop = some .other ∨ k.stop = some .wantIo

/-- C106: what the handling of a connection returns on a running HTTPS server.  Success means that
requests were served, except in the cases of `Unserved`; every other failure has its code. -/
theorem C106_handle_result_partial {v : Verify} {proxy : Bool} {trust : List Der} {ops : List Op}
    {h : Hist} {c : Ctx} (hr : run v (Ctx.init proxy trust) ops = some (h, c)) {later before : Hist}
    {k : Conn} {o : Out} (hh : h = later ++ (.handle k, o) :: before) (hc : ¬ CoapAsked before) :
    (o.ret = .none → o.session.isSome ∨ Unserved k) ∧
    (o.ret ≠ .none → o.session = none) ∧
    (o.ret ≠ .noCtx →
      (k.peername = false → o.ret = .unknown) ∧
      (k.peername = true → k.mem = false → o.ret = .malloc) ∧
      (k.peername = true → k.mem = true → k.sslNew = false → o = ⟨.none, none⟩) ∧
      (k.peername = true → k.mem = true → k.sslNew = true → k.stop = some .syscall →
        o.ret = .syscall)) := by
  obtain ⟨_, h2⟩ := run_inv ops (inv_init proxy trust) hr
  obtain ⟨d, d', hi, hs⟩ := h2 _ _ _ _ hh
  rw [List.append_nil] at hi
  have hcoap : d.coap = false := by
    cases hq : d.coap
    · rfl
    · exact absurd (hi.coap.1 hq) hc
  unfold step at hs
  split at hs
  · cases hs
  · simp only [handle, hcoap, Bool.false_eq_true, if_false] at hs
    split at hs
    · simp only [Option.some.injEq, Prod.mk.injEq] at hs
      obtain ⟨rfl, _⟩ := hs
      exact ⟨(fun q => by cases q), fun _ => rfl, fun q => absurd rfl q⟩
    · next t ht =>
      simp only [Option.some.injEq, Prod.mk.injEq] at hs
      obtain ⟨rfl, _⟩ := hs
      unfold handleHttp Unserved
      cases h1 : k.peername
      · simp [ret]
      · cases h2 : k.mem
        · simp [ret]
        · cases h3 : k.sslNew
          · simp [ret]
          · cases h4 : k.stop with
            | none => cases h5 : handshake v t k.hello <;> simp [ret]
            | some f => cases f <;> simp [ret]
    · cases hs

/-! ### Examples -/

example : (run exVerify (Ctx.init false [[7]]) [.coapStart true, .handle exConn]).map
      (fun r => r.1.map fun e => (e.2.ret, e.2.session.map (·.cert))) =
    some [(.none, some exConn.hello.cert), (.none, none)] ∧
    (run exVerify (Ctx.init false [[7]])
      [.coapStart true, .handle { exConn with hello := { exConn.hello with cert := none } }]).map
      (fun r => r.1.map fun e => (e.2.ret, e.2.session.isSome)) = some [(.none, false), (.none, false)] := by
  decide +kernel

example : ∃ h c, run exVerify (Ctx.init false [[7]])
      [.start { exLib with useCert := false }, .start { exLib with mem := false }] = some (h, c) ∧
    h.map (·.2.ret) = [.noSslCtx, .noSslCtx] := by
  refine ⟨_, _, rfl, by decide +kernel⟩

/-- C106, the property does not hold: a connection for which OpenSSL has no memory is dropped and
the call returns success. -/
theorem C106_dropped_false :
    (run exVerify (Ctx.init false [[7]])
        [.start exLib, .handle { exConn with sslNew := false }, .handle exConn]).map
      (fun r => r.1.map fun e => (e.2.ret, e.2.session.isSome)) =
      some [(.none, true), (.none, false), (.none, false)] := by
  decide +kernel

/-- C106, the property does not hold: releasing the context of a server that is running loses its
service. -/
theorem C106_destroy_false :
    (run exVerify (Ctx.init false [[7]]) [.start exLib, .destroy]).map (fun r => r.2.lostMg) = some 1 ∧
    (run exVerify (Ctx.init false [[7]]) [.start exLib, .stop, .destroy]).map (fun r => r.2.lostMg) =
      some 0 := by
  decide +kernel

end Verif.Life
