import Verif.EventModel
import Verif.TlsProps
import Verif.DispatchProps

/-!
# Properties of the event callbacks (C79, C80, C81)
-/
namespace Verif.Event
open Verif.Server

theorem subjText_eq (t : List Nat) (h : 0 ∉ t) : subjText t = some (t.take 255) := by
  obtain ⟨b, h1, _, h2⟩ := Tls.C77_subject_partial (List.replicate 256 0) 255 t h
    (by rw [List.length_replicate]; omega)
  unfold subjText
  rw [h1]
  exact congrArg some h2

/-! ## C79 -/

/-- The address and the port the operating system knows the peer by. -/
def addrText : Peer → List Nat
  | .ip _ (some t) => t
  | _ => []

def addrPort : Peer → Nat
  | .ip p _ => p
  | _ => 0

theorem getIpPort_eq (addr : Peer) : (getIpPort addr).2 = (addrText addr, addrPort addr) := by
  cases addr with
  | unknown => rfl
  | otherFamily => rfl
  | ip p t => cases t <;> rfl

theorem getSubjs_eq (peer : Option (List Nat)) (csr : List Nat) (hp : ∀ t, peer = some t → 0 ∉ t)
    (hc : 0 ∉ csr) :
    getSubjs peer csr = some (if peer = some [] ∨ csr = [] then .unknown else .none,
      (peer.getD []).take 255, csr.take 255) := by
  unfold getSubjs
  cases peer with
  | none => simp [subjText_eq csr hc]
  | some t => simp [subjText_eq csr hc, subjText_eq t (hp t rfl)]

theorem enrolEvent_eq (peer : Option (List Nat)) (csr : List Nat) (addr : Peer)
    (seg : Option (List Nat)) (ty : ReqType) (hp : ∀ t, peer = some t → 0 ∉ t ∧ t ≠ [])
    (hc : 0 ∉ csr ∧ csr ≠ []) : enrolEvent peer (some csr) addr seg ty =
      .told ⟨(peer.getD []).take 255, csr.take 255, some (addrText addr), addrPort addr, seg, ty⟩
        true := by
  have hs := getSubjs_eq peer csr (fun t h => (hp t h).1) hc.1
  rw [if_neg (fun q => q.elim (fun q => (hp [] q).2 rfl) hc.2)] at hs
  unfold enrolEvent
  simp [hs, getIpPort_eq addr]

/-- C79, the part that holds: if the CSR can be read and neither subject is empty, the application is
told the first 255 bytes of both subjects, the peer's address and port, the path segment and the
kind of request. -/
theorem C79_told_partial (peer : Option (List Nat)) (csr : List Nat) (addr : Peer)
    (seg : Option (List Nat)) (ty : ReqType) (hp : ∀ t, peer = some t → 0 ∉ t ∧ t ≠ [])
    (hc : 0 ∉ csr ∧ csr ≠ []) :
    ∃ stray, enrolEvent peer (some csr) addr seg ty =
      .told ⟨(peer.getD []).take 255, csr.take 255, some (addrText addr), addrPort addr, seg, ty⟩
        stray := ⟨true, enrolEvent_eq peer csr addr seg ty hp hc⟩

example : ∃ stray, enrolEvent (some [67, 78, 32, 61, 32, 100, 101, 118]) (some [67, 78, 32, 61, 32, 110, 101, 119]) (.ip 40000 (some [49, 48, 46, 48, 46, 48, 46, 49]))
    none .enroll = .told ⟨[67, 78, 32, 61, 32, 100, 101, 118], [67, 78, 32, 61, 32, 110, 101, 119], some [49, 48, 46, 48, 46, 48, 46, 49], 40000, none, .enroll⟩ stray :=
  C79_told_partial (some [67, 78, 32, 61, 32, 100, 101, 118]) [67, 78, 32, 61, 32, 110, 101, 119] _ _ _
    (by intro t h; cases h; exact ⟨by decide, by decide⟩) ⟨by decide, by decide⟩

/-- C79 is false in the ordinary case: one byte behind the array for the address is cleared. -/
theorem C79_stray_false (peer : Option (List Nat)) (csr : List Nat) (addr : Peer)
    (seg : Option (List Nat)) (ty : ReqType) (hp : ∀ t, peer = some t → 0 ∉ t ∧ t ≠ [])
    (hc : 0 ∉ csr ∧ csr ≠ []) :
    ∃ t, enrolEvent peer (some csr) addr seg ty = .told t true :=
  ⟨_, enrolEvent_eq peer csr addr seg ty hp hc⟩

/-- C79 is false for a CSR without subject (which is legal): the application is handed an array never
written, and the port 0. -/
theorem C79_empty_subject_false (peer : Option (List Nat)) (addr : Peer) (seg : Option (List Nat))
    (ty : ReqType) (hp : ∀ t, peer = some t → 0 ∉ t) :
    enrolEvent peer (some []) addr seg ty =
      .told ⟨(peer.getD []).take 255, [], none, 0, seg, ty⟩ false := by
  have hs := getSubjs_eq peer [] hp (by simp)
  unfold enrolEvent
  simp [hs]

/-- C79: the same for a client certificate without subject. -/
theorem C79_empty_cert_subject_false (csr : List Nat) (addr : Peer) (seg : Option (List Nat))
    (ty : ReqType) (hc : 0 ∉ csr) :
    enrolEvent (some []) (some csr) addr seg ty =
      .told ⟨[], csr.take 255, none, 0, seg, ty⟩ false := by
  have hs := getSubjs_eq (some []) csr (by simp) hc
  unfold enrolEvent
  simp [hs]

/-- C79: an unreadable CSR is not announced at all. -/
theorem C79_unreadable (peer : Option (List Nat)) (addr : Peer) (seg : Option (List Nat))
    (ty : ReqType) : enrolEvent peer none addr seg ty = .nothing := rfl

/-- C79: the endpoint events tell the certificate's subject, the address and the port. -/
theorem C79_endpoint (peer : Option (List Nat)) (addr : Peer) (hp : ∀ t, peer = some t → 0 ∉ t) :
    endpointEvent peer addr = some ((peer.getD []).take 255, addrText addr, addrPort addr) := by
  unfold endpointEvent
  rw [getIpPort_eq]
  cases peer with
  | none => rfl
  | some t => simp only [subjText_eq t (hp t rfl)]; rfl

/-! ## C80 -/

theorem calls_rc (s : Server) (haveSsl : Bool) (tls : Tls) (net : Net) (bodyOut : Nat → Nat)
    (method : List Nat) (uri : EstUri.Res) (ct : Option (List Nat)) (rq : Req) (d : DOut)
    (h : httpRequest s haveSsl tls net bodyOut method uri ct rq = some d) :
    ∃ mid, calls s haveSsl tls net bodyOut method uri ct rq =
      some ((if haveSsl then [.reqStart] else []) ++ mid ++ (if d.rc = .none then [.reqEnd] else [])) ∧
      .reqStart ∉ mid ∧ .reqEnd ∉ mid := by
  unfold calls
  cases haveSsl with
  | false =>
    refine ⟨[], ?_, by simp, by simp⟩
    simp only [httpRequest, Bool.not_false, if_pos] at h
    cases h
    simp
  | true =>
    simp only [Bool.not_true, Bool.false_eq_true, if_neg, if_true, not_false_eq_true]
    cases uri with
    | ub => simp [httpRequest] at h
    | err e =>
      refine ⟨[], ?_, by simp, by simp⟩
      cases e <;> simp [httpRequest] at h <;> subst h <;> simp
    | ok op seg =>
      simp only
      cases ht : enrolType op with
      | none =>
        refine ⟨[], ?_, by simp, by simp⟩
        simp only [h, Option.map_some]
        by_cases hr : d.rc = .none <;> simp [hr]
      | some ty =>
        simp only
        have hop : (op = .simpleEnroll ∧ ty = .enroll) ∨ (op = .simpleReenroll ∧ ty = .reenroll) ∨
            (op = .serverKeygen ∧ ty = .keygen) := by
          cases op <;> simp [enrolType] at ht <;> subst ht <;> simp
        by_cases hm : methodPostPrefix method = true
        · simp only [hm, Bool.not_true, Bool.false_eq_true, if_neg, not_false_eq_true]
          cases ct with
          | none =>
            refine ⟨[], ?_, by simp, by simp⟩
            rcases hop with ⟨rfl, rfl⟩ | ⟨rfl, rfl⟩ | ⟨rfl, rfl⟩ <;>
              simp [httpRequest, hm] at h <;> subst h <;> simp
          | some c =>
            simp only
            have hd : (enrolHandler s tls net bodyOut ty { rq with ct := c, seg := seg }).map
                (fun o => if o.rc ≠ .none ∧ o.rc ≠ .authPending then o.rc else .none) =
                some d.rc := by
              rcases hop with ⟨rfl, rfl⟩ | ⟨rfl, rfl⟩ | ⟨rfl, rfl⟩ <;>
                simp only [httpRequest, hm, Bool.not_true, Bool.false_eq_true, if_neg,
                  not_false_eq_true, Option.map_eq_some_iff] at h <;>
                obtain ⟨o, ho, rfl⟩ := h <;>
                simp only [enrolHandler, ho, Option.map_some, Option.some.injEq] <;>
                by_cases hr : o.rc ≠ .none ∧ o.rc ≠ .authPending <;>
                simp [hr, orError]
            cases hh : enrolHandler s tls net bodyOut ty { rq with ct := c, seg := seg } with
            | none => rw [hh] at hd; cases hd
            | some o =>
              rw [hh] at hd
              simp only [Option.map_some, Option.some.injEq] at hd
              refine ⟨if (s.parse rq.body).isSome then [.enrolReq ty seg, .enrolRsp ty seg o.rc]
                else [], ?_, ?_, ?_⟩
              · simp only [Option.map_some]
                by_cases hr : o.rc ≠ .none ∧ o.rc ≠ .authPending
                · rw [if_pos hr] at hd
                  rw [← hd]
                  cases (s.parse rq.body).isSome <;> simp [hr]
                · rw [if_neg hr] at hd
                  rw [← hd]
                  cases (s.parse rq.body).isSome <;> simp [hr]
              · cases (s.parse rq.body).isSome <;> simp
              · cases (s.parse rq.body).isSome <;> simp
        · refine ⟨[], ?_, by simp, by simp⟩
          have hm' : methodPostPrefix method = false := by simpa using hm
          rcases hop with ⟨rfl, rfl⟩ | ⟨rfl, rfl⟩ | ⟨rfl, rfl⟩ <;>
            simp [httpRequest, hm'] at h <;> subst h <;> simp [hm']

/-- C80, the part that holds: over TLS every request is announced first, once, and its end is
announced last, once, if the dispatcher reports success. -/
theorem C80_success_partial (s : Server) (tls : Tls) (net : Net) (bodyOut : Nat → Nat)
    (method : List Nat) (uri : EstUri.Res) (ct : Option (List Nat)) (rq : Req) (d : DOut)
    (h : httpRequest s true tls net bodyOut method uri ct rq = some d) (hr : d.rc = .none) :
    ∃ mid, calls s true tls net bodyOut method uri ct rq = some (.reqStart :: (mid ++ [.reqEnd])) ∧
      .reqStart ∉ mid ∧ .reqEnd ∉ mid := by
  obtain ⟨mid, h1, h2, h3⟩ := calls_rc s true tls net bodyOut method uri ct rq d h
  exact ⟨mid, by simpa [hr] using h1, h2, h3⟩

/-- C80 is false whenever a request fails: its end is never announced. -/
theorem C80_no_end_false (s : Server) (tls : Tls) (net : Net) (bodyOut : Nat → Nat)
    (method : List Nat) (uri : EstUri.Res) (ct : Option (List Nat)) (rq : Req) (d : DOut)
    (h : httpRequest s true tls net bodyOut method uri ct rq = some d) (hr : d.rc ≠ .none) :
    ∃ mid, calls s true tls net bodyOut method uri ct rq = some (.reqStart :: mid) ∧
      .reqEnd ∉ mid := by
  obtain ⟨mid, h1, h2, h3⟩ := calls_rc s true tls net bodyOut method uri ct rq d h
  exact ⟨mid, by simpa [hr] using h1, h3⟩

/-- C80: an enrolment with a readable CSR that reaches its handler is announced before and reported
after, with the handler's own result, the same kind and segment; a challenge counts as a result. -/
theorem C80_enrolment (s : Server) (tls : Tls) (net : Net) (bodyOut : Nat → Nat)
    (method : List Nat) (op : EstUri.Op) (seg : Option (List Nat)) (ty : ReqType) (c : List Nat)
    (rq : Req) (o : Out) (hop : enrolType op = some ty) (hm : [80, 79, 83, 84] <+: method)
    (hc : (s.parse rq.body).isSome)
    (ho : enrolHandler s tls net bodyOut ty { rq with ct := c, seg := seg } = some o) :
    ∃ tail, calls s true tls net bodyOut method (.ok op seg) (some c) rq =
      some (.reqStart :: .enrolReq ty seg :: .enrolRsp ty seg o.rc :: tail) ∧
      (tail = [.reqEnd] ∧ (o.rc = .none ∨ o.rc = .authPending) ∨
        tail = [] ∧ o.rc ≠ .none ∧ o.rc ≠ .authPending) := by
  have hm' : methodPostPrefix method = true := by
    unfold methodPostPrefix
    exact List.isPrefixOf_iff_prefix.mpr hm
  unfold calls
  simp only [hop, hm', ho, hc, Bool.not_true, Bool.false_eq_true, if_neg, not_false_eq_true,
    Option.map_some]
  by_cases hr : o.rc ≠ .none ∧ o.rc ≠ .authPending
  · exact ⟨[], by simp [hr], Or.inr ⟨rfl, hr⟩⟩
  · refine ⟨[.reqEnd], ?_, Or.inl ⟨rfl, ?_⟩⟩
    · simp only [if_neg hr]
      rfl
    · by_cases h1 : o.rc = .none
      · exact Or.inl h1
      · exact Or.inr (Classical.byContradiction fun h2 => hr ⟨h1, h2⟩)

/-- C80: nothing but an enrolment is announced as one. -/
theorem C80_others (s : Server) (haveSsl : Bool) (tls : Tls) (net : Net) (bodyOut : Nat → Nat)
    (method : List Nat) (uri : EstUri.Res) (ct : Option (List Nat)) (rq : Req) (l : List Call)
    (h : calls s haveSsl tls net bodyOut method uri ct rq = some l)
    (hu : ∀ op seg, uri = .ok op seg → op ≠ .simpleEnroll ∧ op ≠ .simpleReenroll ∧ op ≠ .serverKeygen) :
    ∀ x ∈ l, x = .reqStart ∨ x = .reqEnd := by
  unfold calls at h
  intro x hx
  split at h
  · cases h; simp at hx
  · cases uri with
    | ub => cases h
    | err e => cases h; simp at hx; exact Or.inl hx
    | ok op seg =>
      obtain ⟨h1, h2, h3⟩ := hu op seg rfl
      have : enrolType op = none := by cases op <;> simp_all [enrolType]
      simp only [this, Option.map_eq_some_iff] at h
      obtain ⟨d, _, rfl⟩ := h
      by_cases hd : d.rc = .none <;> simp [hd] at hx <;> simp [hx]

/-- A request for the CA certificates with POST is announced and never reported as ended. -/
example : calls demoServer true ⟨none, false, false, none, fun _ => none, false⟩ demoNet (fun _ => 1)
    [80, 79, 83, 84] (.ok .cacerts none) none demoReq = some [.reqStart] := by decide
example : calls demoServer true ⟨some .ok, true, false, none, fun _ => none, false⟩ demoNet
    (fun _ => 1) [80, 79, 83, 84] (.ok .simpleEnroll none) (some [97, 112, 112, 108, 105, 99, 97, 116, 105, 111, 110, 47, 112, 107, 99, 115, 49, 48]) demoReq =
    some [.reqStart, .enrolReq .enroll none, .enrolRsp .enroll none .none, .reqEnd] := by decide

/-! ## C81 -/

/-- C81: the event reports the very state that decides the request. -/
theorem C81_state (cfg : Cfg) (tls : Tls) (hdr : HdrRes × Cred) (parse : List Nat → Option Csr)
    (ty : ReqType) (csrBuf : List Nat) (a : AuthOut)
    (h : enrollAuth cfg tls hdr parse ty csrBuf = some a) :
    ∃ v, authEvent cfg tls hdr parse ty csrBuf = some (v, a.st) := by
  unfold authEvent
  rw [h]
  exact ⟨_, rfl⟩

/-- C81, the part that holds: when enhanced certificate authentication is off for the connection or
no header is looked at, and the client did not send well-formed credentials, the certificate is not
reported as validated by it; it is reported so if the authentication was done and went well.
`_partial`: `C81_validated_false`. -/
theorem C81_validated_partial (cfg : Cfg) (tls : Tls) (hdr : HdrRes × Cred)
    (parse : List Nat → Option Csr) (ty : ReqType) (csrBuf : List Nat) (v : Bool) (st : AuthState)
    (h : authEvent cfg tls hdr parse ty csrBuf = some (v, st)) (hh : hdr.1 ≠ .good) :
    v = true → cfg.ecaEnabled = true ∧ (tls.peer = some .ok ∨ tls.peer = some .unableToGetCrl) ∧
      (handleEca cfg tls parse csrBuf cfg.ecaCsrCheck).1 = .good := by
  unfold authEvent at h
  simp only [Option.map_eq_some_iff, Prod.mk.injEq] at h
  obtain ⟨a, _, h1, _⟩ := h
  intro hv
  rw [hv] at h1
  have hg : authHdrResult cfg tls hdr parse csrBuf = .good := by
    cases hx : authHdrResult cfg tls hdr parse csrBuf <;> rw [hx] at h1 <;> simp at h1
  unfold authHdrResult at hg
  cases hc : checkTlsCert tls with
  | none => rw [hc] at hg; cases hg
  | some st0 =>
    rw [hc] at hg
    simp only at hg
    have hcert : (if st0 ≠ .certAuth ∧ tls.srpUser then AuthState.srpAuth else st0) = .certAuth →
        (tls.peer = some .ok ∨ tls.peer = some .unableToGetCrl) := by
      intro hb
      have : st0 = .certAuth := by
        by_cases hq : st0 = .certAuth
        · exact hq
        · cases hs : tls.srpUser <;> simp [hq, hs] at hb
      unfold checkTlsCert at hc
      rw [this] at hc
      split at hc <;> simp_all
    generalize (if st0 ≠ .certAuth ∧ tls.srpUser then AuthState.srpAuth else st0) = rv at hg hcert
    cases ht : cfg.transport with
    | http =>
      simp only [ht] at hg
      split at hg
      · split at hg
        · rename_i hq
          simp only [Bool.and_eq_true, beq_iff_eq] at hq
          exact ⟨hq.1, hcert hq.2, hg⟩
        · exact absurd hg hh
      · cases hg
    | coap =>
      simp only [ht] at hg
      split at hg
      · rename_i hq
        exact ⟨hq.2.1, hcert hq.1, hg⟩
      · cases hg

/-- C81 is false for a client without certificate that sends a well-formed Basic header: whether the
password is right or wrong, and although enhanced certificate authentication is off, it is reported
as validated. -/
theorem C81_validated_false (cfg : Cfg) (tls : Tls) (cred : Cred) (parse : List Nat → Option Csr)
    (ty : ReqType) (csrBuf : List Nat) (f : Cred → Bool) (hp : tls.peer = none)
    (hs : tls.srpUser = false) (ht : cfg.transport = .http) (hf : cfg.authCb = some f) :
    authEvent cfg tls (.good, cred) parse ty csrBuf =
      some (true, if f cred then .httpAuth else .unauthorized) := by
  unfold authEvent authHdrResult enrollAuth
  simp [checkTlsCert, hp, hs, ht, hf]

example : authEvent { demoCfg with authCb := some fun _ => false, transport := .http }
    ⟨none, false, false, none, fun _ => none, false⟩ (.good, ⟨.basic, [101, 118, 101], [103, 117, 101, 115, 115], []⟩)
    (fun _ => none) .enroll [77] = some (true, .unauthorized) :=
  C81_validated_false _ _ _ _ _ _ (fun _ => false) rfl rfl rfl rfl

/-- C81: a client refused for its certificate is never reported as validated. -/
theorem C81_refused_cert (cfg : Cfg) (tls : Tls) (hdr : HdrRes × Cred)
    (parse : List Nat → Option Csr) (ty : ReqType) (csrBuf : List Nat)
    (h : tls.peer = some .other) :
    authEvent cfg tls hdr parse ty csrBuf = some (false, .unauthorized) := by
  unfold authEvent authHdrResult enrollAuth
  simp [checkTlsCert, h]

/-- C81: when enhanced certificate authentication of a verified client succeeds, it is reported as
validated. -/
theorem C81_eca_reported (cfg : Cfg) (tls : Tls) (hdr : HdrRes × Cred)
    (parse : List Nat → Option Csr) (ty : ReqType) (csrBuf : List Nat) (v : Bool) (st : AuthState)
    (h : authEvent cfg tls hdr parse ty csrBuf = some (v, st)) (he : cfg.ecaEnabled = true)
    (hp : tls.peer = some .ok) (hb : csrBuf ≠ [])
    (hr : cfg.transport = .http → cfg.authCb.isSome ∧ cfg.requireHttpAuth = true)
    (hg : (handleEca cfg tls parse csrBuf cfg.ecaCsrCheck).1 = .good) : v = true := by
  unfold authEvent at h
  simp only [Option.map_eq_some_iff, Prod.mk.injEq] at h
  obtain ⟨a, _, h1, _⟩ := h
  have : authHdrResult cfg tls hdr parse csrBuf = .good := by
    unfold authHdrResult
    cases ht : cfg.transport with
    | http =>
      obtain ⟨q1, q2⟩ := hr ht
      simp [checkTlsCert, hp, q1, q2, he, hg]
    | coap => simp [checkTlsCert, hp, he, hg, hb]
  rw [this] at h1
  exact h1.symm

end Verif.Event
