import Verif.ClientFlowLemmas

/-!
# Properties of the client's operations: C26, C27, C29, C43, C49, C67, C68

`Challenged lib n m` (in `ClientFlowLemmas`) says that on connection `n` a response came back
that begins with `HTTP/1.1 401` and holds a `WWW-Authenticate` header whose value begins with
the name of the scheme `m` and has usable parameters.  `Asked m` says that in mode `m` the
client has credentials to send.
-/
namespace Verif.Flow
open Verif.ClientResp (Mode getResponse response Good)
open Verif.ClientReq (Auth)
open Verif.HttpHdr (Hdr)

/-! ## Concrete surroundings for the examples -/

def exLib : Lib where
  tokensOk := fun _ => true
  text := fun _ => [77, 73, 73, 61]
  keyFits := fun _ _ => false
  verify := fun t => .ok t
  attrs := fun _ => (.none, true)
  pemOk := true
  loadOk := true
  fips := false

def exCfg : ClientReq.Cfg := ⟨[69, 83, 84], [99, 97, 46, 101, 120, 97, 109, 112, 108, 101], 8085, none⟩

/-- A connection on which this text comes back. -/
def exUp (raw : List Nat) : Conn :=
  .up { uid := some [100, 87, 108, 107], auth := fun _ => .value [66, 97, 115, 105, 99, 32, 100, 84, 112, 119], reply := .bytes raw }

def ex401 : List Nat :=
  [72, 84, 84, 80, 47, 49, 46, 49, 32, 52, 48, 49, 32, 85, 110, 97, 117, 116, 104, 111, 114, 105, 122, 101, 100, 13, 10, 87, 87, 87, 45, 65, 117, 116, 104, 101, 110, 116, 105, 99, 97, 116, 101, 58, 32, 66, 97, 115, 105, 99, 32, 114, 101, 97, 108, 109, 61, 34, 101, 115, 116, 34, 13, 10, 67, 111, 110, 116, 101, 110, 116, 45, 76, 101, 110, 103, 116, 104, 58, 32, 48, 13, 10, 13, 10]

def exCert : List Nat :=
  [72, 84, 84, 80, 47, 49, 46, 49, 32, 50, 48, 48, 32, 79, 75, 13, 10, 67, 111, 110, 116, 101, 110, 116, 45, 84, 121, 112, 101, 58, 32, 97, 112, 112, 108, 105, 99, 97, 116, 105, 111, 110, 47, 112, 107, 99, 115, 55, 45, 109, 105, 109, 101, 59, 32, 115, 109, 105, 109, 101, 45, 116, 121, 112, 101, 61, 99, 101, 114, 116, 115, 45, 111, 110, 108, 121, 13, 10, 67, 111, 110, 116, 101, 110, 116, 45, 76, 101, 110, 103, 116, 104, 58, 32, 52, 13, 10, 13, 10, 77, 73, 73, 67]

def exInit : Client := Client.init [97, 110, 99, 104, 111, 114, 115]

/-! ## C26 -/

/-- C26: an enrolment makes at most two requests.  The first is made on the first connection,
with credentials only if the context was in such a mode; the second only if it was not, and the
first was answered with a challenge; it carries the credentials of that scheme. -/
theorem C26_at_most_two (lib : Lib) (cfg : ClientReq.Cfg) (c : Client) (cmd : Cmd)
    (net : Conn × Conn) (hn : cmd.net? = some net) (ret : Ret) (c' : Client)
    (h : step lib cfg c cmd = some (ret, c')) :
    ret.sent.length ≤ 2 ∧
    (∀ s, ret.sent[0]? = some s → ∃ u, net.1 = .up u ∧
      s.auth = if Asked c.mode then u.auth c.mode else .none) ∧
    (∀ s, ret.sent[1]? = some s → ¬ Asked c.mode ∧
      ∃ u m, net.2 = .up u ∧ Asked m ∧ Challenged lib net.1 m ∧ s.auth = u.auth m) := by
  have hd := step_done lib cfg c cmd net hn ret c' h
  rcases hd with ⟨h1, -, -, -⟩ | ⟨-, r, j, o, -, h2, -, -⟩
  · rw [h1]; simp
  · rw [h2]
    rcases o.sent with q | ⟨u, s, hn, q, f⟩ | ⟨u1, u2, m, s1, s2, hn1, hn2, ha, hm, hc, q, f1, f2⟩
    · rw [q]; simp
    · rw [q]
      refine ⟨by simp, ?_, by simp⟩
      intro s' hs
      simp only [List.getElem?_cons_zero, Option.some.injEq] at hs
      subst hs
      exact ⟨u, hn, by rw [f.2.1, authOf_eq]⟩
    · rw [q]
      refine ⟨by simp, ?_, ?_⟩
      · intro s' hs
        simp only [List.getElem?_cons_zero, Option.some.injEq] at hs
        subst hs
        exact ⟨u1, hn1, by rw [f1.2.1, authOf_eq]⟩
      · intro s' hs
        simp only [List.getElem?_cons_succ, List.getElem?_cons_zero, Option.some.injEq] at hs
        subst hs
        refine ⟨ha, u2, m, hn2, hm, hn1 ▸ hc, ?_⟩
        rw [f2.2.1, authOf_eq, if_pos hm]

/-- Two requests, the second with credentials. -/
example : ((step exLib exCfg exInit (.enroll 1 (some 7) (exUp ex401, exUp exCert))).map
    fun p => (p.1.err, p.1.sent.map (·.auth))) = some (.none, [.none, .value [66, 97, 115, 105, 99, 32, 100, 84, 112, 119]]) := by
  decide +kernel

/-- The second answer is not followed by a third request. -/
example : ((step exLib exCfg exInit (.enroll 1 (some 7) (exUp ex401, exUp ex401))).map
    fun p => (p.1.err, p.1.sent.map (·.auth))) =
      some (.authFail, [.none, .value [66, 97, 115, 105, 99, 32, 100, 84, 112, 119]]) := by
  decide +kernel

/-- The mode of a context that has been used for any calls since it was initialised. -/
theorem run_mode (cfg : ClientReq.Cfg) (cmds : List (Lib × Cmd)) (c : Client) (rets : List Ret)
    (c' : Client) (h : run cfg c cmds = some (rets, c')) (ha : Asked c'.mode) :
    c'.mode = c.mode ∨ (c'.mode = .basic ∧ ∃ x ∈ cmds, x.2 = .basicHint) ∨
      ∃ x ∈ cmds, ∃ n ∈ x.2.conns, Challenged x.1 n c'.mode := by
  induction cmds generalizing c rets with
  | nil => simp only [run, Option.some.injEq, Prod.mk.injEq] at h; exact .inl (by rw [h.2])
  | cons x cmds ih =>
    obtain ⟨lib, cmd⟩ := x
    unfold run at h
    split at h
    · contradiction
    · next r c1 h1 =>
      split at h
      · contradiction
      · next rs c2 h2 =>
        simp only [Option.some.injEq, Prod.mk.injEq] at h
        obtain ⟨-, rfl⟩ := h
        rcases ih c1 rs h2 with q | ⟨q1, x, hx, q2⟩ | ⟨x, hx, q⟩
        · by_cases hb : cmd = .basicHint
          · subst hb
            simp only [step, refuse, Option.some.injEq, Prod.mk.injEq] at h1
            obtain ⟨-, rfl⟩ := h1
            exact .inr (.inl ⟨q, (lib, .basicHint), by simp, rfl⟩)
          · have g := step_gen lib cfg c cmd r c1 h1 hb
            rcases g.mode (by rw [← q]; exact ha) with w | ⟨n, hn, w⟩
            · exact .inl (q.trans w)
            · exact .inr (.inr ⟨(lib, cmd), by simp, n, hn, by rw [q]; exact w⟩)
        · exact .inr (.inl ⟨q1, x, by simp [hx], q2⟩)
        · exact .inr (.inr ⟨x, by simp [hx], q⟩)

/-- C26, over any history of the context: a request carries credentials only if the Basic hint
was enabled before, or some server response, in this call or in an earlier one, was a challenge.
Missing: that the challenge came in this very operation; that is false
(`C26_volunteered_false`). -/
theorem C26_credentials_only_if_asked_partial (cfg : ClientReq.Cfg) (ta : List Nat)
    (cmds : List (Lib × Cmd)) (rets : List Ret) (c : Client)
    (h : run cfg (Client.init ta) cmds = some (rets, c)) (lib : Lib) (cmd : Cmd) (ret : Ret)
    (c' : Client) (h' : step lib cfg c cmd = some (ret, c')) (s : Sent) (hs : s ∈ ret.sent)
    (ha : s.auth ≠ .none) :
    (∃ x ∈ cmds, x.2 = .basicHint) ∨
    ∃ x ∈ cmds ++ [(lib, cmd)], ∃ n ∈ x.2.conns, ∃ m, Asked m ∧ Challenged x.1 n m := by
  by_cases hb : cmd = .basicHint
  · subst hb
    simp only [step, refuse, Option.some.injEq, Prod.mk.injEq] at h'
    obtain ⟨rfl, -⟩ := h'
    simp at hs
  · rcases ((step_gen lib cfg c cmd ret c' h' hb).sent s hs).2 ha with q | ⟨n, hn, m, q1, q2⟩
    · rcases run_mode cfg cmds _ rets c h q with w | ⟨-, w⟩ | ⟨x, hx, n, hn, w⟩
      · rw [w] at q; exact absurd q (by simp [Client.init, Asked])
      · exact .inl w
      · exact .inr ⟨x, by simp [hx], n, hn, _, q, w⟩
    · exact .inr ⟨(lib, cmd), by simp, n, hn, m, q1, q2⟩

/-- C26 is false of the code: a challenge in answer to a request for the CA certificates (which
EST servers give without authentication) is remembered, and the first request of the next
enrolment carries the credentials, although nobody asked for them in this operation. -/
theorem C26_volunteered_false :
    ((run exCfg exInit [(exLib, .getCacerts (exUp ex401)),
        (exLib, .enroll 1 (some 7) (exUp exCert, exUp exCert))]).map
      fun p => p.1.map fun r => (r.err, r.sent.map (·.auth))) =
      some [(.authFail, [.none]), (.none, [.value [66, 97, 115, 105, 99, 32, 100, 84, 112, 119]])] := by
  decide +kernel

/-! ## C27 -/

/-- C27 for `est_client_enroll`, `est_client_server_keygen_enroll` and
`est_client_provision_cert`.  Missing: the operations on a CSR and re-enrolment, for which it is
false. -/
theorem C27_enroll_resets_partial (lib : Lib) (cfg : ClientReq.Cfg) (c : Client) (cmd : Cmd)
    (hc : (∃ b k n, cmd = .enroll b k n) ∨ (∃ b k n, cmd = .keygenEnroll b k n) ∨
      ∃ b k n1 n2 n, cmd = .provision b k n1 n2 n)
    (ret : Ret) (c' : Client) (h : step lib cfg c cmd = some (ret, c')) (he : ret.err = .none) :
    c'.mode = .none := by
  have key : ∀ c1 cmd1 net r1 c2, Cmd.net? cmd1 = some net → step lib cfg c1 cmd1 = some (r1, c2) →
      r1.err = .none → (∃ b k n, cmd1 = .enroll b k n ∨ cmd1 = .keygenEnroll b k n) →
      c2.mode = .none := by
    intro c1 cmd1 net r1 c2 hn h1 h2 h3
    rcases step_done lib cfg c1 cmd1 net hn r1 c2 h1 with ⟨-, -, q, -⟩ | ⟨-, r, j, -, q1, -, -, q2⟩
    · rcases q with q | ⟨o, k, n, q, -⟩
      · exact absurd h2 q
      · obtain ⟨_, _, _, h3 | h3⟩ := h3 <;> rw [q] at h3 <;> cases h3
    · exact q2 h3 (by rw [← q1]; exact h2)
  rcases hc with ⟨b, k, n, rfl⟩ | ⟨b, k, n, rfl⟩ | ⟨b, k, n1, n2, n, rfl⟩
  · exact key c _ n ret c' rfl h he ⟨b, k, n, .inl rfl⟩
  · exact key c _ n ret c' rfl h he ⟨b, k, n, .inr rfl⟩
  · rcases (provision_spec lib cfg b k n1 n2 n c ret c' h).2.2 with q | ⟨c3, r4, -, -, -, q1, q2⟩
    · exact absurd he q.1
    · exact key c3 (.enroll b k n) n r4 c' rfl q2 (by rw [← q1]; exact he) ⟨b, k, n, .inl rfl⟩

/-- Challenged, enrolled, and back in the mode without credentials. -/
example : ((step exLib exCfg exInit (.enroll 1 (some 7) (exUp ex401, exUp exCert))).map
    fun p => (p.1.err, p.2.mode)) = some (.none, .none) := by
  decide +kernel

/-- C27 is false of `est_client_enroll_csr`. -/
theorem C27_enroll_csr_false :
    ((step exLib exCfg exInit (.enrollCsr (some ⟨1, [], none⟩) (some 7)
      (exUp ex401, exUp exCert))).map fun p => (p.1.err, p.2.mode)) = some (.none, .basic) := by
  decide +kernel

/-- C27 is false of `est_client_reenroll`. -/
theorem C27_reenroll_false :
    ((step exLib exCfg exInit (.reenroll (some ⟨true, some ⟨1, [], none⟩, false, true⟩)
      (some (7, true)) (exUp ex401, exUp exCert))).map fun p => (p.1.err, p.2.mode)) =
      some (.none, .basic) := by
  decide +kernel

/-- C27 is false of `est_client_server_keygen_enroll_csr`. -/
theorem C27_keygen_csr_false :
    ((step { exLib with keyFits := fun _ _ => true } exCfg exInit
      (.keygenCsr (some ⟨1, [], none⟩) (some 7) (exUp ex401,
        exUp (Multipart.serverText (List.replicate 256 65) (List.replicate 128 66))))).map
      fun p => (p.1.err, p.2.mode)) = some (.none, .basic) := by
  decide +kernel

/-- What the leak leads to: a context in a mode with credentials is not given a second attempt,
so that a challenge (with a new nonce, or another scheme) makes the operation fail. -/
theorem C27_leaked_mode_no_retry (lib : Lib) (cfg : ClientReq.Cfg) (c : Client) (cmd : Cmd)
    (net : Conn × Conn) (hn : cmd.net? = some net) (ret : Ret) (c' : Client)
    (h : step lib cfg c cmd = some (ret, c')) (ha : Asked c.mode) : ret.sent.length ≤ 1 := by
  have q := (C26_at_most_two lib cfg c cmd net hn ret c' h).2.2
  by_cases hl : ret.sent.length ≤ 1
  · exact hl
  · have : ∃ s, ret.sent[1]? = some s := ⟨ret.sent[1], by simp⟩
    obtain ⟨s, hs⟩ := this
    exact absurd ha (q s hs).1

/-- Re-enrolment after a re-enrolment: the server has a new nonce, the first operation is
retried, the second one fails. -/
example : ((run exCfg exInit [
      (exLib, .reenroll (some ⟨true, some ⟨1, [], none⟩, false, true⟩) (some (7, true))
        (exUp ex401, exUp exCert)),
      (exLib, .reenroll (some ⟨true, some ⟨1, [], none⟩, false, true⟩) (some (7, true))
        (exUp ex401, exUp exCert))]).map
    fun p => p.1.map fun r => (r.err, r.sent.length)) =
      some [(.none, 2), (.authFail, 1)] := by
  decide +kernel

/-! ## C29 -/

/-- Commands that may store or fetch the enrolled certificate. -/
def Cmd.touchesCert : Cmd → Bool
  | .enroll .. => true
  | .keygenEnroll .. => true
  | .reenroll .. => true
  | .enrollCsr .. => true
  | .keygenCsr .. => true
  | .provision .. => true
  | .copyCert => true
  | _ => false

/-- C29: the copy is handed out once. -/
theorem C29_copied_once (lib : Lib) (cfg : ClientReq.Cfg) (c : Client) (t : List Nat)
    (hr : c.ready = true) (hc : c.cert = some t) :
    run cfg c [(lib, .copyCert), (lib, .copyCert)] =
      some ([{ err := .none, data := some t }, { err := .noCertificate }],
        { c with cert := none }) := by
  simp [run, step, copyCert, refuse, hr, hc]

/-- C29: no other call changes what will be returned. -/
theorem C29_other_calls_keep (lib : Lib) (cfg : ClientReq.Cfg) (c : Client) (cmd : Cmd)
    (hc : cmd.touchesCert = false) (ret : Ret) (c' : Client)
    (h : step lib cfg c cmd = some (ret, c')) : c'.cert = c.cert := by
  cases cmd with
  | getCacerts n =>
    obtain ⟨⟨m, d, ca, q⟩, -⟩ := getCacerts_spec lib cfg n c ret c' h
    rw [q]
  | getCsrattrs n =>
    obtain ⟨⟨m, d, a, p, q⟩, -⟩ := getCsrattrs_spec lib cfg n c ret c' h
    rw [q]
  | copyCacerts =>
    obtain ⟨-, q⟩ := copyCacerts_spec c ret c' h
    rcases q with ⟨-, q⟩ | ⟨-, -, q, -⟩ <;> rw [q]
  | copyKey =>
    simp only [step, copyKey] at h
    repeat' split at h
    all_goals
      simp only [refuse, Option.some.injEq, Prod.mk.injEq] at h
      obtain ⟨-, rfl⟩ := h
      rfl
  | setAuth p k =>
    simp only [step, setAuth] at h
    repeat' split at h
    all_goals
      simp only [refuse, Option.some.injEq, Prod.mk.injEq] at h
      obtain ⟨-, rfl⟩ := h
      rfl
  | basicHint =>
    simp only [step, refuse, Option.some.injEq, Prod.mk.injEq] at h
    obtain ⟨-, rfl⟩ := h
    rfl
  | forcePop =>
    simp only [step, refuse, Option.some.injEq, Prod.mk.injEq] at h
    obtain ⟨-, rfl⟩ := h
    rfl
  | unforcePop =>
    simp only [step, refuse, Option.some.injEq, Prod.mk.injEq] at h
    obtain ⟨-, rfl⟩ := h
    rfl
  | _ => simp [Cmd.touchesCert] at hc

/-- C29: between an enrolment and the copy any number of other calls may be made. -/
theorem C29_kept_until_copied (cfg : ClientReq.Cfg) (cmds : List (Lib × Cmd))
    (hc : ∀ x ∈ cmds, x.2.touchesCert = false) (c : Client) (rets : List Ret) (c' : Client)
    (h : run cfg c cmds = some (rets, c')) (t : List Nat) (ht : c.cert = some t) (lib : Lib) :
    step lib cfg c' .copyCert =
      if c'.ready then some ({ err := .none, data := some t }, { c' with cert := none })
      else some ({ err := .clientNotInitialized }, c') := by
  have hk : c'.cert = some t := by
    induction cmds generalizing c rets with
    | nil => simp only [run, Option.some.injEq, Prod.mk.injEq] at h; rw [← h.2]; exact ht
    | cons x cmds ih =>
      obtain ⟨l, cmd⟩ := x
      unfold run at h
      split at h
      · contradiction
      · next r c1 h1 =>
        split at h
        · contradiction
        · next rs c2 h2 =>
          simp only [Option.some.injEq, Prod.mk.injEq] at h
          obtain ⟨-, rfl⟩ := h
          exact ih (fun x hx => hc x (by simp [hx])) c1 rs h2
            ((C29_other_calls_keep l cfg c cmd (hc (l, cmd) (by simp)) r c1 h1).trans ht)
  cases hr : c'.ready <;> simp [step, copyCert, refuse, hr, hk]

/-- C29: an enrolment that fails leaves the certificate of the last successful one.  Missing: the
failure VALIDATION of server key generation, for which it is false. -/
theorem C29_failure_keeps_partial (lib : Lib) (cfg : ClientReq.Cfg) (c : Client) (cmd : Cmd)
    (ret : Ret) (c' : Client) (h : step lib cfg c cmd = some (ret, c')) (he : ret.err ≠ .none)
    (hv : ret.err ≠ .validation) : c'.cert = c.cert := by
  have key : ∀ c1 cmd1 net r1 c2, Cmd.net? cmd1 = some net → step lib cfg c1 cmd1 = some (r1, c2) →
      r1.err ≠ .none → r1.err ≠ .validation → c2.cert = c1.cert := by
    intro c1 cmd1 net r1 c2 hn h1 h2 h3
    rcases step_done lib cfg c1 cmd1 net hn r1 c2 h1 with ⟨-, q, -, -⟩ | ⟨-, r, j, o, q1, -, q2, -⟩
    · rw [q]
    · have := (o.kept (by rw [← q1]; exact h2) (by rw [← q1]; exact h3)).1
      rcases q2 with q2 | q2 <;> rw [q2] <;> exact this
  cases hcmd : cmd.touchesCert
  · exact C29_other_calls_keep lib cfg c cmd hcmd ret c' h
  · cases cmd with
    | enroll b k n => exact key c _ n ret c' rfl h he hv
    | keygenEnroll b k n => exact key c _ n ret c' rfl h he hv
    | reenroll b k n => exact key c _ n ret c' rfl h he hv
    | enrollCsr b k n => exact key c _ n ret c' rfl h he hv
    | keygenCsr b k n => exact key c _ n ret c' rfl h he hv
    | provision b k n1 n2 n =>
      rcases (provision_spec lib cfg b k n1 n2 n c ret c' h).2.2 with q | ⟨c3, r4, q0, -, -, q1, q2⟩
      · exact q.2.1
      · rw [key c3 (.enroll b k n) n r4 c' rfl q2 (by rw [← q1]; exact he)
          (by rw [← q1]; exact hv), q0]
    | copyCert =>
      simp only [step, copyCert] at h
      repeat' split at h
      all_goals
        simp only [refuse, Option.some.injEq, Prod.mk.injEq] at h
        obtain ⟨rfl, rfl⟩ := h
        first | rfl | simp at he
    | _ => simp [Cmd.touchesCert] at hcmd

/-- A failed enrolment after a successful one. -/
example : ((run exCfg exInit [(exLib, .enroll 1 (some 7) (exUp exCert, exUp exCert)),
      (exLib, .enroll 1 (some 7) (exUp [72, 84, 84, 80, 47, 49, 46, 49, 32, 52, 48, 48, 32, 66, 97, 100, 13, 10, 67, 111, 110, 116, 101, 110, 116, 45, 76, 101, 110, 103, 116, 104, 58, 32, 48, 13, 10, 13, 10], exUp exCert)),
      (exLib, .copyCert), (exLib, .copyCert)]).map
    fun p => p.1.map fun r => (r.err, r.data)) =
    some [(.none, none), (.httpBadReq, none), (.none, some [77, 73, 73, 67]), (.noCertificate, none)] := by
  decide +kernel

/-- C29: after a successful enrolment the certificate is what one of the two responses held:
for the operations other than server key generation the body that the response reader returned.
Missing: re-enrolment with a certificate whose extensions cannot be added (false). -/
theorem C29_success_stores_partial (lib : Lib) (cfg : ClientReq.Cfg) (c : Client) (cmd : Cmd)
    (net : Conn × Conn) (hn : cmd.net? = some net) (ret : Ret) (c' : Client)
    (h : step lib cfg c cmd = some (ret, c')) (he : ret.err = .none)
    (hx : ∀ o k n, cmd = .reenroll (some o) k n → o.extsOk = true) (hk : cmd.kind ≠ .keygen) :
    ∃ u raw ctx t, (net.1 = .up u ∨ net.2 = .up u) ∧ u.reply = .bytes raw ∧
      (getResponse lib.tokensOk ctx cmd.kind.op raw).err = .none ∧
      (getResponse lib.tokensOk ctx cmd.kind.op raw).body = some t ∧ c'.cert = some t := by
  rcases step_done lib cfg c cmd net hn ret c' h with ⟨-, -, q, -⟩ | ⟨-, r, j, o, q1, -, q2, -⟩
  · rcases q with q | ⟨o, k, n, q, q'⟩
    · exact absurd he q
    · have := hx o k n q; rw [q'] at this; cases this
  · obtain ⟨u, raw, c1, m, d, cert, key, p1, -, p2, p3, p4, p5, -⟩ := o.stored (by rw [← q1]; exact he)
    unfold answer at p3
    rw [if_neg hk] at p3
    simp only [Option.some.injEq, Prod.mk.injEq] at p3
    obtain ⟨w1, -, -, w2, -⟩ := p3
    refine ⟨u, raw, ⟨c1.mode, c1.delay⟩, cert, p1, p2, w1, ?_, ?_⟩
    · cases hb : (getResponse lib.tokensOk ⟨c1.mode, c1.delay⟩ cmd.kind.op raw).body with
      | none => rw [hb] at w2; simp only [Option.getD_none] at w2; subst w2; simp at p4
      | some t => rw [hb] at w2; simpa using w2
    · rcases q2 with q2 | q2 <;> rw [q2] <;> exact p5

/-- C29 for server key generation: what the parser of the multipart response returned. -/
theorem C29_keygen_stores (lib : Lib) (cfg : ClientReq.Cfg) (c : Client) (cmd : Cmd)
    (net : Conn × Conn) (hn : cmd.net? = some net) (ret : Ret) (c' : Client)
    (h : step lib cfg c cmd = some (ret, c')) (he : ret.err = .none)
    (hk : cmd.kind = .keygen) :
    ∃ u raw ctx m d key t, (net.1 = .up u ∨ net.2 = .up u) ∧ u.reply = .bytes raw ∧
      Multipart.getKeygen lib.tokensOk ctx raw = .res .none m d key t ∧ c'.cert = some t ∧
      c'.key = some key := by
  rcases step_done lib cfg c cmd net hn ret c' h with ⟨-, -, q, -⟩ | ⟨-, r, j, o, q1, -, q2, -⟩
  · rcases q with q | ⟨o, k, n, q, q'⟩
    · exact absurd he q
    · rw [q] at hk; simp [Cmd.kind] at hk
  · obtain ⟨u, raw, c1, m, d, cert, key, p1, -, p2, p3, p4, p5, p6⟩ :=
      o.stored (by rw [← q1]; exact he)
    unfold answer at p3
    rw [if_pos hk] at p3
    rw [if_pos hk] at p6
    split at p3
    · contradiction
    · next e m' d' key' cert' hg =>
      simp only [Option.some.injEq, Prod.mk.injEq] at p3
      obtain ⟨rfl, rfl, rfl, rfl, rfl⟩ := p3
      refine ⟨u, raw, ⟨c1.mode, c1.delay⟩, _, _, _, _, p1, p2, hg, ?_, ?_⟩
      · rcases q2 with q2 | q2 <;> rw [q2] <;> exact p5
      · rcases q2 with q2 | q2 <;> rw [q2] <;> exact p6

/-- C29 from end to end: if the request can be sent and the server answers with a well-formed
response, `est_client_enroll` succeeds and the copy is the body of the response, byte for byte. -/
theorem C29_enroll_then_copy (lib : Lib) (cfg : ClientReq.Cfg) (c : Client) (base key : Nat)
    (u : Up) (n2 : Conn) (id : List Nat) (bytes : List (Option Nat))
    (status : List Nat) (hs : List (Hdr × Nat)) (b : List Nat) (g : Good status hs b)
    (hready : c.ready = true) (huid : u.uid = some id)
    (hok : u.verOk = true ∧ u.cnOk = true ∧ u.addOk = true ∧ u.pubOk = true ∧ u.signOk = true)
    (hsend : ∀ csr, ClientReq.enrollRequest cfg .simpleEnroll (authOf u c.mode) (lib.text csr) =
      .sent bytes)
    (hu : u.reply = .bytes (response status hs b))
    (h200 : [72, 84, 84, 80, 47, 49, 46, 49, 32, 50, 48, 48] <+: status)
    (hct : ∀ p ∈ hs, p.1.name = [67, 111, 110, 116, 101, 110, 116, 45, 84, 121, 112, 101] → ClientResp.opType .enroll <+: p.1.value)
    (hct1 : ∃ p ∈ hs, p.1.name = [67, 111, 110, 116, 101, 110, 116, 45, 84, 121, 112, 101])
    (hcl : ∀ p ∈ hs, p.1.name = [67, 111, 110, 116, 101, 110, 116, 45, 76, 101, 110, 103, 116, 104] → p.1.value = ClientResp.decimal b.length)
    (hcl1 : ∃ p ∈ hs, p.1.name = [67, 111, 110, 116, 101, 110, 116, 45, 76, 101, 110, 103, 116, 104])
    (hb : b ≠ [] ∧ b.length ≤ 4096) :
    ∃ sent c', run cfg c [(lib, .enroll base (some key) (.up u, n2)), (lib, .copyCert)] =
      some ([{ err := .none, sent := sent }, { err := .none, data := some b }], c') ∧
      c'.cert = none ∧ c'.mode = .none := by
  have hg := ClientResp.C28_complete_response_accepted lib.tokensOk ⟨c.mode, c.delay⟩ .enroll status
    hs b g h200 (by decide) hct hct1 hcl hcl1 (by omega)
  rw [if_neg hb.1] at hg
  have hlen : b.length ≠ 0 := by
    intro h; exact hb.1 (List.eq_nil_of_length_eq_zero h)
  have hgen : ∃ x, generate c u base key id = .ok x := by
    obtain ⟨h1, h2, h3, h4, h5⟩ := hok
    simp [generate, h1, h2, h3, h4, h5]
  obtain ⟨x, hx⟩ := hgen
  have hcs : checkSizes .enroll b [] = .none := by
    unfold checkSizes
    rw [if_neg hlen, if_neg (by omega), if_neg (by decide)]
  have hst : store lib c .enroll b [] = (.none, { c with cert := some b }) := by
    unfold store
    rw [hcs, if_neg (by simp), if_neg (by decide)]
  have hreq : enrollReq lib cfg .enroll c u x = some ⟨.none, { c with cert := some b }, x,
      [⟨.simpleEnroll, authOf u c.mode, some x, bytes, c.trust⟩]⟩ := by
    unfold enrollReq
    simp only [Kind.uri, hsend x, hu]
    unfold answer
    simp only [if_neg (by decide : ¬ (Kind.enroll = Kind.keygen)), Kind.op, hg, Option.getD_some,
      if_true]
    rw [hst]
  have henr : enroll lib cfg .enroll base (some key) (.up u, n2) c =
      some ({ err := .none, sent := [⟨.simpleEnroll, authOf u c.mode, some x, bytes, c.trust⟩] },
        { c with cert := some b, mode := .none }) := by
    unfold enroll twice enrollCn
    simp only [hready, huid, hx, hreq]
    simp
  refine ⟨[⟨.simpleEnroll, authOf u c.mode, some x, bytes, c.trust⟩],
    { c with cert := none, mode := .none }, ?_, rfl, rfl⟩
  simp only [run, step, henr, copyCert, hready]
  simp

example : ((run exCfg exInit [(exLib, .enroll 1 (some 7) (exUp exCert, exUp exCert)),
      (exLib, .copyCert)]).map fun p => p.1.map (·.data)) = some [none, some [77, 73, 73, 67]] := by
  decide +kernel

/-- C29 is false of the code (1): re-enrolment with a certificate whose extensions cannot be put
into the request reports success, although nothing was sent and no certificate received. -/
theorem C29_reenroll_no_request_false :
    ((run exCfg exInit [(exLib, .reenroll (some ⟨true, some ⟨1, [], none⟩, true, false⟩)
        (some (7, true)) (exUp exCert, exUp exCert)), (exLib, .copyCert)]).map
      fun p => p.1.map fun r => (r.err, r.sent.length, r.data)) =
      some [(.none, 0, none), (.noCertificate, 0, none)] := by
  decide +kernel

/-- C29 is false of the code (2): server key generation that failed because the key does not fit
the certificate leaves both in the context, and they are handed out. -/
theorem C29_invalid_pair_false :
    ((run exCfg exInit [(exLib, .keygenEnroll 1 (some 7)
        (exUp (Multipart.serverText (List.replicate 256 65) (List.replicate 128 66)), exUp [])),
        (exLib, .copyCert)]).map fun p => p.1.map fun r => (r.err, r.data)) =
      some [(.validation, none), (.none, some (List.replicate 128 66))] := by
  decide +kernel

/-! ## C43 -/

/-- C43, `est_client_enroll_csr` and `est_client_server_keygen_enroll_csr` with a key: each
request holds the attributes of the given CSR without any challengePassword and, if required or
forced, the unique id of the connection it is sent on as the only one; it is signed with the
key over just these attributes. -/
theorem C43_csr_attributes (lib : Lib) (cfg : ClientReq.Cfg) (c : Client) (cmd : Cmd) (x : Csr)
    (key : Nat) (net : Conn × Conn)
    (hc : cmd = .enrollCsr (some x) (some key) net ∨ cmd = .keygenCsr (some x) (some key) net ∨
      ∃ o f, cmd = .reenroll (some o) (some (key, f)) net ∧ o.csr = some x)
    (ret : Ret) (c' : Client) (h : step lib cfg c cmd = some (ret, c')) (i : Nat) (s : Sent)
    (hi : ret.sent[i]? = some s) :
    ∃ u y, (i = 0 ∧ net.1 = .up u ∨ i = 1 ∧ net.2 = .up u) ∧ s.csr = some y ∧ y.base = x.base ∧
      y.attrs.filter (fun a => !a.isChal) = x.attrs.filter (fun a => !a.isChal) ∧
      (if c.popReq || c.forcePop then
        ∃ id, u.uid = some id ∧ y.attrs.filter Attr.isChal = [.chal id]
       else y.attrs.filter Attr.isChal = []) ∧
      y.sig = some (key, y.attrs) := by
  have hP : cmd.csr c = Wanted (c.popReq || c.forcePop) x.base x.attrs key ∧ cmd.net? = some net := by
    rcases hc with rfl | rfl | ⟨o, f, rfl, ho⟩
    · exact ⟨rfl, rfl⟩
    · exact ⟨rfl, rfl⟩
    · obtain ⟨a1, a2, a3, a4⟩ := o
      simp only at ho
      subst ho
      exact ⟨rfl, rfl⟩
  have hw : ∀ u y, Wanted (c.popReq || c.forcePop) x.base x.attrs key u y →
      y.base = x.base ∧ y.attrs.filter (fun a => !a.isChal) = x.attrs.filter (fun a => !a.isChal) ∧
      (if c.popReq || c.forcePop then
        ∃ id, u.uid = some id ∧ y.attrs.filter Attr.isChal = [.chal id]
       else y.attrs.filter Attr.isChal = []) ∧ y.sig = some (key, y.attrs) := by
    rintro u y ⟨extra, w1, w2, w3, w4⟩
    have hz : (plain x.attrs).filter Attr.isChal = [] := by
      rw [List.filter_eq_nil_iff]
      intro a ha
      have := (List.mem_filter.1 ha).2
      simpa using this
    refine ⟨w2, ?_, ?_, w4⟩
    · rw [w3, List.filter_append]
      show plain (plain x.attrs) ++ _ = _
      rw [plain_plain]
      cases hp : (c.popReq || c.forcePop) with
      | true =>
        rw [hp] at w1
        simp only [if_true] at w1
        obtain ⟨id, -, rfl⟩ := w1
        simp [Attr.isChal, plain]
      | false =>
        rw [hp] at w1
        simp only [Bool.false_eq_true, if_false] at w1
        subst w1
        simp [plain]
    · rw [w3, List.filter_append, hz]
      cases hp : (c.popReq || c.forcePop) with
      | true =>
        rw [hp] at w1
        simp only [if_true] at w1 ⊢
        obtain ⟨id, w5, rfl⟩ := w1
        exact ⟨id, w5, by simp [Attr.isChal]⟩
      | false =>
        rw [hp] at w1
        simp only [Bool.false_eq_true, if_false] at w1 ⊢
        subst w1
        simp
  rcases step_done lib cfg c cmd net hP.2 ret c' h with ⟨q, -, -, -⟩ | ⟨-, r, j, o, -, q, -, -⟩
  · rw [q] at hi; simp at hi
  · rw [q] at hi
    have os := o.sent
    rw [hP.1] at os
    rcases os with w | ⟨u, s', hn, w, f⟩ | ⟨u1, u2, m, s1, s2, hn1, hn2, -, -, -, w, f1, f2⟩
    · rw [w] at hi; simp at hi
    · rw [w] at hi
      match i, hi with
      | 0, hi =>
        simp only [List.getElem?_cons_zero, Option.some.injEq] at hi
        subst hi
        obtain ⟨-, -, -, y, hy, hP'⟩ := f
        exact ⟨u, y, .inl ⟨rfl, hn⟩, hy, hw u y hP'⟩
      | i + 1, hi => simp at hi
    · rw [w] at hi
      match i, hi with
      | 0, hi =>
        simp only [List.getElem?_cons_zero, Option.some.injEq] at hi
        subst hi
        obtain ⟨-, -, -, y, hy, hP'⟩ := f1
        exact ⟨u1, y, .inl ⟨rfl, hn1⟩, hy, hw u1 y hP'⟩
      | 1, hi =>
        simp only [List.getElem?_cons_succ, List.getElem?_cons_zero, Option.some.injEq] at hi
        subst hi
        obtain ⟨-, -, -, y, hy, hP'⟩ := f2
        exact ⟨u2, y, .inr ⟨rfl, hn2⟩, hy, hw u2 y hP'⟩
      | i + 2, hi => simp at hi

/-- A request with two stale challengePasswords, sent on two connections: each time the id of
the connection. -/
example : ((step exLib exCfg { exInit with forcePop := true }
      (.enrollCsr (some ⟨1, [.chal [1], .other 5, .chal [2], .other 6], none⟩) (some 7)
        (exUp ex401, .up { uid := some [9], auth := fun _ => .none, reply := .bytes exCert }))).map
    fun p => p.1.sent.map fun s => s.csr.map (·.attrs)) =
    some [some [.other 5, .other 6, .chal [100, 87, 108, 107]], some [.other 5, .other 6, .chal [9]]] := by
  decide +kernel

/-- C43 for the requests the library makes itself: the challengePassword is the only
attribute. -/
theorem C43_generated_request (lib : Lib) (cfg : ClientReq.Cfg) (c : Client) (cmd : Cmd)
    (base key : Nat) (net : Conn × Conn)
    (hc : cmd = .enroll base (some key) net ∨ cmd = .keygenEnroll base (some key) net)
    (ret : Ret) (c' : Client) (h : step lib cfg c cmd = some (ret, c')) (s : Sent)
    (hs : s ∈ ret.sent) :
    ∃ u y, (net.1 = .up u ∨ net.2 = .up u) ∧ s.csr = some y ∧ y.base = base ∧
      (if c.popReq || c.forcePop then ∃ id, u.uid = some id ∧ y.attrs = [.chal id]
       else y.attrs = []) ∧ y.sig = some (key, y.attrs) := by
  have hP : cmd.csr c = Wanted (c.popReq || c.forcePop) base [] key ∧ cmd.net? = some net := by
    rcases hc with rfl | rfl <;> exact ⟨rfl, rfl⟩
  have hw : ∀ u y, Wanted (c.popReq || c.forcePop) base [] key u y → y.base = base ∧
      (if c.popReq || c.forcePop then ∃ id, u.uid = some id ∧ y.attrs = [.chal id]
       else y.attrs = []) ∧ y.sig = some (key, y.attrs) := by
    rintro u y ⟨extra, w1, w2, w3, w4⟩
    refine ⟨w2, ?_, w4⟩
    rw [w3]
    cases hp : (c.popReq || c.forcePop) with
    | true =>
      rw [hp] at w1
      simp only [if_true] at w1 ⊢
      obtain ⟨id, w5, rfl⟩ := w1
      exact ⟨id, w5, by simp [plain]⟩
    | false =>
      rw [hp] at w1
      simp only [Bool.false_eq_true, if_false] at w1 ⊢
      subst w1
      simp [plain]
  rcases step_done lib cfg c cmd net hP.2 ret c' h with ⟨q, -, -, -⟩ | ⟨-, r, j, o, -, q, -, -⟩
  · rw [q] at hs; simp at hs
  · rw [q] at hs
    have os := o.sent
    rw [hP.1] at os
    rcases os with w | ⟨u, s', hn, w, f⟩ | ⟨u1, u2, m, s1, s2, hn1, hn2, -, -, -, w, f1, f2⟩
    · rw [w] at hs; simp at hs
    · rw [w] at hs
      simp only [List.mem_singleton] at hs
      subst hs
      obtain ⟨-, -, -, y, hy, hP'⟩ := f
      exact ⟨u, y, .inl hn, hy, hw u y hP'⟩
    · rw [w] at hs
      simp only [List.mem_cons, List.not_mem_nil, or_false] at hs
      rcases hs with rfl | rfl
      · obtain ⟨-, -, -, y, hy, hP'⟩ := f1
        exact ⟨u1, y, .inl hn1, hy, hw u1 y hP'⟩
      · obtain ⟨-, -, -, y, hy, hP'⟩ := f2
        exact ⟨u2, y, .inr hn2, hy, hw u2 y hP'⟩

/-- Beside C43: if the application gives a CSR without a key, the request is sent as it is, also
if a challengePassword is required. -/
theorem C43_no_key_unchanged (lib : Lib) (cfg : ClientReq.Cfg) (c : Client) (x : Csr)
    (net : Conn × Conn) (ret : Ret) (c' : Client)
    (h : step lib cfg c (.enrollCsr (some x) none net) = some (ret, c')) (s : Sent)
    (hs : s ∈ ret.sent) : s.csr = some x := by
  rcases step_done lib cfg c _ net rfl ret c' h with ⟨q, -, -, -⟩ | ⟨-, r, j, o, -, q, -, -⟩
  · rw [q] at hs; simp at hs
  · rw [q] at hs
    rcases o.sent with w | ⟨u, s', hn, w, f⟩ | ⟨u1, u2, m, s1, s2, hn1, hn2, -, -, -, w, f1, f2⟩
    · rw [w] at hs; simp at hs
    · rw [w] at hs
      simp only [List.mem_singleton] at hs
      subst hs
      obtain ⟨-, -, -, y, hy, rfl⟩ := f
      exact hy
    · rw [w] at hs
      simp only [List.mem_cons, List.not_mem_nil, or_false] at hs
      rcases hs with rfl | rfl
      · obtain ⟨-, -, -, y, hy, rfl⟩ := f1
        exact hy
      · obtain ⟨-, -, -, y, hy, rfl⟩ := f2
        exact hy

example : ((step exLib exCfg { exInit with popReq := true }
      (.enrollCsr (some ⟨1, [.chal [1], .other 5], none⟩) none (exUp exCert, exUp exCert))).map
    fun p => p.1.sent.map fun s => s.csr.map (·.attrs)) = some [some [.chal [1], .other 5]] := by
  decide +kernel

/-! ## C49 -/

/-- A context that is not initialised (any more) stays so. -/
theorem step_not_ready (lib : Lib) (cfg : ClientReq.Cfg) (c : Client) (cmd : Cmd) (ret : Ret)
    (c' : Client) (h : step lib cfg c cmd = some (ret, c')) (hr : c.ready = false) :
    c'.ready = false := by
  have key : ∀ net, cmd.net? = some net → c'.ready = false := by
    intro net hn
    rcases step_done lib cfg c cmd net hn ret c' h with ⟨-, q, -, -⟩ | ⟨q, -⟩
    · rw [q]; exact hr
    · rw [hr] at q; cases q
  cases cmd with
  | enroll b k n => exact key n rfl
  | keygenEnroll b k n => exact key n rfl
  | reenroll b k n => exact key n rfl
  | enrollCsr b k n => exact key n rfl
  | keygenCsr b k n => exact key n rfl
  | provision b k n1 n2 n => rw [((provision_spec lib cfg b k n1 n2 n c ret c' h).2.1 hr).2]; exact hr
  | getCacerts n =>
    obtain ⟨⟨m, d, ca, q⟩, -⟩ := getCacerts_spec lib cfg n c ret c' h
    rw [q]; exact hr
  | getCsrattrs n =>
    obtain ⟨⟨m, d, a, p, q⟩, -⟩ := getCsrattrs_spec lib cfg n c ret c' h
    rw [q]; exact hr
  | copyCacerts =>
    obtain ⟨-, q⟩ := copyCacerts_spec c ret c' h
    rcases q with ⟨-, q⟩ | ⟨-, -, q, -⟩ <;> rw [q]
    exact hr
  | copyCert =>
    simp only [step, copyCert] at h
    repeat' split at h
    all_goals
      simp only [refuse, Option.some.injEq, Prod.mk.injEq] at h
      obtain ⟨-, rfl⟩ := h
      exact hr
  | copyKey =>
    simp only [step, copyKey] at h
    repeat' split at h
    all_goals
      simp only [refuse, Option.some.injEq, Prod.mk.injEq] at h
      obtain ⟨-, rfl⟩ := h
      exact hr
  | setAuth p k =>
    simp only [step, setAuth] at h
    repeat' split at h
    all_goals
      simp only [refuse, Option.some.injEq, Prod.mk.injEq] at h
      obtain ⟨-, rfl⟩ := h
      exact hr
  | basicHint =>
    simp only [step, refuse, Option.some.injEq, Prod.mk.injEq] at h
    obtain ⟨-, rfl⟩ := h
    exact hr
  | forcePop =>
    simp only [step, refuse, Option.some.injEq, Prod.mk.injEq] at h
    obtain ⟨-, rfl⟩ := h
    exact hr
  | unforcePop =>
    simp only [step, refuse, Option.some.injEq, Prod.mk.injEq] at h
    obtain ⟨-, rfl⟩ := h
    exact hr

/-- C49: after the CA certificates were copied, no sequence of calls makes the context usable
for an enrolment (or for provisioning) again; it is refused and nothing is sent. -/
theorem C49_refused_after_copy (cfg : ClientReq.Cfg) (c : Client) (ret : Ret) (c1 : Client)
    (hcopy : copyCacerts c = some (ret, c1)) (hok : ret.err = .none)
    (cmds : List (Lib × Cmd)) (rets : List Ret) (c2 : Client)
    (h : run cfg c1 cmds = some (rets, c2)) (lib : Lib) (cmd : Cmd)
    (he : cmd.net? ≠ none ∨ ∃ b k n1 n2 n, cmd = .provision b k n1 n2 n)
    (ret' : Ret) (c3 : Client) (hs : step lib cfg c2 cmd = some (ret', c3)) :
    ret'.err ≠ .none ∧ ret'.sent = [] ∧ c3 = c2 := by
  have h1 : c1.ready = false := by
    obtain ⟨-, q⟩ := copyCacerts_spec c ret c1 hcopy
    rcases q with ⟨q, -⟩ | ⟨-, -, q, -⟩
    · exact absurd hok q
    · rw [q]
  have h2 : c2.ready = false := by
    clear hcopy hs
    induction cmds generalizing c1 rets with
    | nil => simp only [run, Option.some.injEq, Prod.mk.injEq] at h; rw [← h.2]; exact h1
    | cons x cmds ih =>
      obtain ⟨l, cmd⟩ := x
      unfold run at h
      split at h
      · contradiction
      · next r c1' h1' =>
        split at h
        · contradiction
        · next rs c2' h2 =>
          simp only [Option.some.injEq, Prod.mk.injEq] at h
          obtain ⟨-, rfl⟩ := h
          exact ih c1' rs h2 (step_not_ready l cfg c1 cmd r c1' h1' h1)
  cases hn : cmd.net? with
  | none =>
    rcases he with he | ⟨b, k, n1, n2, n, rfl⟩
    · exact absurd hn he
    · obtain ⟨q1, q2⟩ := (provision_spec lib cfg b k n1 n2 n c2 ret' c3 hs).2.1 h2
      subst q1
      exact ⟨by simp, rfl, q2⟩
  | some net =>
    rcases step_done lib cfg c2 cmd net hn ret' c3 hs with ⟨q1, q2, q3, -⟩ | ⟨q, -⟩
    · refine ⟨?_, q1, q2⟩
      rcases q3 with q3 | ⟨o, k, n, rfl, -⟩
      · exact q3
      · intro hnone
        simp only [step, reenroll] at hs
        split at hs
        · simp only [refuse, Option.some.injEq, Prod.mk.injEq] at hs
          rw [← hs.1] at hnone; simp at hnone
        · simp only [refuse, Option.some.injEq, Prod.mk.injEq] at hs
          rw [← hs.1] at hnone; simp at hnone
        · rw [h2] at hs
          simp only [Bool.not_false, if_true, refuse, Option.some.injEq, Prod.mk.injEq] at hs
          rw [← hs.1] at hnone; simp at hnone
    · rw [h2] at q; cases q

/-- C49: fetching the CA certificates and copying them returns the bytes that were received, if
the verification keeps them.  Missing: messages with CRLs, which are taken out and the rest is
encoded anew (`lib.verify` is what the OpenSSL calls make of it). -/
theorem C49_get_then_copy_partial (lib : Lib) (cfg : ClientReq.Cfg) (c : Client) (net : Conn)
    (ret : Ret) (c' : Client) (h : getCacerts lib cfg net c = some (ret, c'))
    (he : ret.err = .none) (hv : ∀ t t', lib.verify t = .ok t' → t' = t) :
    ∃ u raw t, net = .up u ∧ u.reply = .bytes raw ∧
      (getResponse lib.tokensOk ⟨c.mode, c.delay⟩ .cacerts raw).body = some t ∧
      copyCacerts c' = some ({ err := .none, data := some t }, { c' with ready := false }) := by
  obtain ⟨⟨m, d, ca, q⟩, -, g⟩ := getCacerts_spec lib cfg net c ret c' h
  obtain ⟨hr, u, raw, t, t', p1, p2, p3, p4, p5⟩ := g he
  refine ⟨u, raw, t, p1, p2, p3, ?_⟩
  have hr' : c'.ready = true := by rw [q]; exact hr
  unfold copyCacerts
  rw [hr', p5, hv t t' p4]
  rfl

/-- Fetched, copied, and then refused. -/
example : ((run exCfg exInit [
      (exLib, .getCacerts (exUp exCert)), (exLib, .copyCacerts), (exLib, .setAuth true true),
      (exLib, .enroll 1 (some 7) (exUp exCert, exUp exCert))]).map
    fun p => p.1.map fun r => (r.err, r.data, r.sent.length)) =
    some [(.none, none, 1), (.none, some [77, 73, 73, 67], 0), (.none, none, 0),
      (.clientNotInitialized, none, 0)] := by
  decide +kernel

/-- The refusal does not cover the CSR attributes: that request is sent, with the old trust
anchors. -/
theorem C49_csrattrs_not_refused :
    ((run exCfg exInit [(exLib, .getCacerts (exUp exCert)), (exLib, .copyCacerts),
      (exLib, .getCsrattrs (exUp
        [72, 84, 84, 80, 47, 49, 46, 49, 32, 50, 48, 48, 32, 79, 75, 13, 10, 67, 111, 110, 116, 101, 110, 116, 45, 84, 121, 112, 101, 58, 32, 97, 112, 112, 108, 105, 99, 97, 116, 105, 111, 110, 47, 99, 115, 114, 97, 116, 116, 114, 115, 13, 10, 67, 111, 110, 116, 101, 110, 116, 45, 76, 101, 110, 103, 116, 104, 58, 32, 52, 13, 10, 13, 10, 77, 65, 65, 65]))]).map
    fun p => p.1.map fun r => (r.err, r.data, r.sent.length)) =
    some [(.none, none, 1), (.none, some [77, 73, 73, 67], 0), (.none, some [77, 65, 65, 65], 1)] := by
  decide +kernel

/-! ## C67 -/

/-- C67: whatever calls are made, every request of the context is sent to a server that was
verified against the trust anchors given to `est_client_init`. -/
theorem C67_anchors_never_change (cfg : ClientReq.Cfg) (ta : List Nat) (cmds : List (Lib × Cmd))
    (rets : List Ret) (c : Client) (h : run cfg (Client.init ta) cmds = some (rets, c)) (r : Ret)
    (hr : r ∈ rets) (s : Sent) (hs : s ∈ r.sent) : s.trust = ta := by
  have key : ∀ (cmds : List (Lib × Cmd)) (c0 : Client) (rets : List Ret) (c : Client),
      run cfg c0 cmds = some (rets, c) → ∀ r ∈ rets, ∀ s ∈ r.sent, s.trust = c0.trust := by
    intro cmds
    induction cmds with
    | nil =>
      intro c0 rets c h r hr
      simp only [run, Option.some.injEq, Prod.mk.injEq] at h
      rw [← h.1] at hr; simp at hr
    | cons x cmds ih =>
      obtain ⟨l, cmd⟩ := x
      intro c0 rets c h r hr s hs
      unfold run at h
      split at h
      · contradiction
      · next r1 c1 h1 =>
        split at h
        · contradiction
        · next rs c2 h2 =>
          simp only [Option.some.injEq, Prod.mk.injEq] at h
          obtain ⟨rfl, rfl⟩ := h
          have hc : c1.trust = c0.trust ∧ ∀ s ∈ r1.sent, s.trust = c0.trust := by
            by_cases hb : cmd = .basicHint
            · subst hb
              simp only [step, refuse, Option.some.injEq, Prod.mk.injEq] at h1
              obtain ⟨rfl, rfl⟩ := h1
              exact ⟨rfl, by simp⟩
            · have g := step_gen l cfg c0 cmd r1 c1 h1 hb
              exact ⟨g.trust, fun s hs => (g.sent s hs).1⟩
          simp only [List.mem_cons] at hr
          rcases hr with rfl | hr
          · exact hc.2 s hs
          · rw [ih c1 rs c2 h2 r hr s hs, hc.1]
  exact key cmds _ rets c h r hr s hs

/-- The answers of a server to `est_client_provision_cert`. -/
def exProvision : Cmd :=
  .provision 1 (some 7) (exUp exCert)
    (exUp [72, 84, 84, 80, 47, 49, 46, 49, 32, 50, 48, 52, 32, 78, 111, 32, 67, 111, 110, 116, 101, 110, 116, 13, 10, 67, 111, 110, 116, 101, 110, 116, 45, 76, 101, 110, 103, 116, 104, 58, 32, 48, 13, 10, 13, 10]) (exUp exCert, exUp exCert)

/-- C67, the wish that provisioning uses the CA certificates it has just fetched, is false of
the code: they are put into `trusted_certs_store`, but the enrolment that follows still verifies
the server against the old anchors. -/
theorem C67_new_anchors_unused_false :
    ((step exLib exCfg exInit exProvision).map
      fun p => (p.1.err, p.2.store, p.1.sent.map (·.trust))) =
      some (.none, some [77, 73, 73, 67], [[97, 110, 99, 104, 111, 114, 115], [97, 110, 99, 104, 111, 114, 115], [97, 110, 99, 104, 111, 114, 115]]) := by
  decide +kernel

/-! ## C68 -/

def exAttrs : List Nat :=
  [72, 84, 84, 80, 47, 49, 46, 49, 32, 50, 48, 48, 32, 79, 75, 13, 10, 67, 111, 110, 116, 101, 110, 116, 45, 84, 121, 112, 101, 58, 32, 97, 112, 112, 108, 105, 99, 97, 116, 105, 111, 110, 47, 99, 115, 114, 97, 116, 116, 114, 115, 13, 10, 67, 111, 110, 116, 101, 110, 116, 45, 76, 101, 110, 103, 116, 104, 58, 32, 52, 13, 10, 13, 10, 77, 65, 65, 65]

def ex204 : List Nat := [72, 84, 84, 80, 47, 49, 46, 49, 32, 50, 48, 52, 32, 78, 111, 32, 67, 111, 110, 116, 101, 110, 116, 13, 10, 67, 111, 110, 116, 101, 110, 116, 45, 76, 101, 110, 103, 116, 104, 58, 32, 48, 13, 10, 13, 10]

/-- C68: if the server answers with attributes that can be parsed, the requests that follow hold a
challengePassword exactly if the attributes contain its OID (or it was forced).  Missing: the
answers without attributes and with malformed ones; for the former it is false. -/
theorem C68_pop_follows_attributes_partial (lib : Lib) (cfg : ClientReq.Cfg) (c : Client)
    (net : Conn) (ret : Ret) (c1 : Client) (h : getCsrattrs lib cfg net c = some (ret, c1))
    (t : List Nat) (ht : ret.data = some t) (lib2 : Lib) (cmd : Cmd) (base key : Nat)
    (net2 : Conn × Conn)
    (hc : cmd = .enroll base (some key) net2 ∨ cmd = .keygenEnroll base (some key) net2)
    (ret2 : Ret) (c2 : Client) (h2 : step lib2 cfg c1 cmd = some (ret2, c2)) (s : Sent)
    (hs : s ∈ ret2.sent) :
    lib.attrs t = (.none, c1.popReq) ∧ ∃ y, s.csr = some y ∧
      (y.attrs ≠ [] ↔ (lib.attrs t).2 = true ∨ c.forcePop = true) := by
  have hp : lib.attrs t = (.none, c1.popReq) ∧ c1.forcePop = c.forcePop := by
    obtain ⟨⟨m, d, a, p, q⟩, -⟩ := getCsrattrs_spec lib cfg net c ret c1 h
    refine ⟨?_, by rw [q]⟩
    unfold getCsrattrs at h
    split at h
    · simp only [refuse, Option.some.injEq, Prod.mk.injEq] at h
      rw [← h.1] at ht; simp at ht
    · split at h
      · contradiction
      · split at h
        · simp only [Option.some.injEq, Prod.mk.injEq] at h
          rw [← h.1] at ht; simp at ht
        · split at h
          · simp only [Option.some.injEq, Prod.mk.injEq] at h
            rw [← h.1] at ht; simp at ht
          · simp only at h
            split at h
            · next he =>
              simp only [Option.some.injEq, Prod.mk.injEq] at h
              rw [← h.1] at ht
              simp only [Option.some.injEq] at ht
              subst ht
              rw [← h.2, ← he]
            · simp only [Option.some.injEq, Prod.mk.injEq] at h
              rw [← h.1] at ht; simp at ht
  refine ⟨hp.1, ?_⟩
  obtain ⟨u, y, -, hy, -, ha, -⟩ := C43_generated_request lib2 cfg c1 cmd base key net2 hc ret2 c2 h2 s hs
  refine ⟨y, hy, ?_⟩
  rw [hp.1, ← hp.2]
  by_cases hq : (c1.popReq || c1.forcePop) = true
  · rw [if_pos hq] at ha
    obtain ⟨id, -, ha⟩ := ha
    rw [ha]
    simpa using hq
  · rw [if_neg hq] at ha
    rw [ha]
    simpa using hq

example : ((run exCfg exInit [(exLib, .getCsrattrs (exUp exAttrs)),
      (exLib, .enroll 1 (some 7) (exUp exCert, exUp exCert))]).map
    fun p => p.1.map fun r => (r.data, r.sent.map fun s => s.csr.map (·.attrs))) =
    some [(some [77, 65, 65, 65], [none]), (none, [some [.chal [100, 87, 108, 107]]])] := by
  decide +kernel

/-- C68 is false of the code: a server that no longer demands any attributes (204) is sent the
challengePassword that an earlier answer demanded. -/
theorem C68_stale_demand_false :
    ((run exCfg exInit [(exLib, .getCsrattrs (exUp exAttrs)), (exLib, .getCsrattrs (exUp ex204)),
      (exLib, .enroll 1 (some 7) (exUp exCert, exUp exCert))]).map
    fun p => p.1.map fun r => (r.err, r.sent.map fun s => s.csr.map (·.attrs))) =
    some [(.none, [none]), (.httpNoContent, [none]), (.none, [some [.chal [100, 87, 108, 107]]])] := by
  decide +kernel

end Verif.Flow
