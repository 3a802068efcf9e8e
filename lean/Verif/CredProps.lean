import Verif.CredModel
import Verif.WireEnrollProps

/-!
# C107: the credentials a client presents, in every mode

The first part says which user name, password or token a client uses; the second one follows
them through a challenge, the second request, the server and its application.
-/
namespace Verif.Cred
open Verif.ClientResp (Mode decimal)
open Verif.ClientReq (Auth toAuth)
open Verif.Challenge (Toks)
open Verif.Wire
open Verif.Server (CaReq CaRes)

/-! ## Which credentials -/

/-- The last user name and password that an application gave. -/
def lastPair : List Call → Option (List Nat × List Nat)
  | [] => none
  | .setAuth (some u) (some p) :: cs => (lastPair cs).or (some (u, p))
  | _ :: cs => lastPair cs

/-- The last callback that an application registered or removed. -/
def lastCb : List Call → Option (Option (Mode → Given))
  | [] => none
  | .setCb cb :: cs => (lastCb cs).or (some cb)
  | _ :: cs => lastCb cs

/-- What the callback of the application says when it is asked in mode `m`. -/
def answer (cs : List Call) (m : Mode) : Given :=
  match lastCb cs with
  | some (some cb) => cb m
  | _ => {}

/-- The user name and the password that an application intends: those it set last, unless both
are empty, else those of its callback. -/
def intended (cs : List Call) (m : Mode) : List Nat × List Nat :=
  match lastPair cs with
  | some (u, p) =>
    if u = [] ∧ p = [] then ((answer cs m).user.getD [], (answer cs m).pwd.getD []) else (u, p)
  | none => ((answer cs m).user.getD [], (answer cs m).pwd.getD [])

theorem run_ok (cs : List Call) : ∀ s : Store, (run s cs).1 = true →
    ((run s cs).2.userid, (run s cs).2.password) = (lastPair cs).getD (s.userid, s.password) ∧
      (run s cs).2.cb = (lastCb cs).getD s.cb := by
  induction cs with
  | nil => intro s _; exact ⟨rfl, rfl⟩
  | cons c cs ih =>
    intro s h
    simp only [run, Bool.and_eq_true] at h
    obtain ⟨h1, h2⟩ := ih _ h.2
    simp only [run]
    cases c with
    | setCb cb =>
      rw [h1, h2]
      refine ⟨rfl, ?_⟩
      simp only [lastCb]
      cases lastCb cs <;> rfl
    | setAuth uid pwd =>
      rw [h1, h2]
      have h0 := h.1
      cases uid with
      | none =>
        cases pwd with
        | none => exact ⟨rfl, rfl⟩
        | some p => simp [step, setUidPw] at h0
      | some u =>
        cases pwd with
        | none => simp [step, setUidPw] at h0
        | some p =>
          simp only [step, setUidPw] at h0 ⊢
          split at h0
          · simp at h0
          · rename_i hu
            split at h0
            · simp at h0
            · rename_i hp
              simp only [if_neg hu, if_neg hp, lastPair, lastCb]
              refine ⟨?_, trivial⟩
              cases lastPair cs <;> rfl

/-- C107: if the library accepted all calls, and the values are not longer than 255 characters,
then the credentials it uses are those the application intends. -/
theorem C107_intended_partial (cs : List Call) (m : Mode) (hok : (run {} cs).1 = true)
    (hu : (intended cs m).1.length ≤ 255) (hp : (intended cs m).2.length ≤ 255) :
    pair (run {} cs).2 m = intended cs m := by
  obtain ⟨h1, h2⟩ := run_ok cs {} hok
  have h1a := congrArg Prod.fst h1
  have h1b := congrArg Prod.snd h1
  simp only at h1a h1b
  have hret : ∀ g : Given, g = answer cs m → g.user.getD [] = (g.user.getD []) →
      (g.user.getD []).length ≤ 255 → (g.pwd.getD []).length ≤ 255 →
      retrieve (run {} cs).2 m = (g.user.getD [], g.pwd.getD []) := by
    intro g hg _ hgu hgp
    unfold retrieve
    rw [h2]
    unfold answer at hg
    cases hc : lastCb cs with
    | none => rw [hc] at hg; subst hg; rfl
    | some x =>
      rw [hc] at hg
      cases x with
      | none => subst hg; rfl
      | some cb =>
        simp only at hg
        subst hg
        simp only [Option.getD_some]
        have key : ∀ o : Option (List Nat), (o.getD []).length ≤ 255 → fit o = o.getD [] := by
          intro o ho
          cases o with
          | none => rfl
          | some v => simp only [fit, Option.getD_some] at ho ⊢; rw [if_neg (by omega)]
        rw [key _ hgu, key _ hgp]
  unfold pair configured
  rw [h1a, h1b]
  unfold intended at hu hp ⊢
  cases hl : lastPair cs with
  | none =>
    rw [hl] at hu hp
    simp only [Option.getD_none]
    exact hret _ rfl rfl hu hp
  | some x =>
    obtain ⟨u, p⟩ := x
    rw [hl] at hu hp
    simp only [Option.getD_some] at hu hp ⊢
    by_cases he : u = [] ∧ p = []
    · rw [if_pos he] at hu hp ⊢
      rw [if_neg (by simp [he.1, he.2])]
      exact hret _ rfl rfl hu hp
    · rw [if_neg he, if_pos]
      have : u ≠ [] ∨ p ≠ [] := by
        by_cases h : u = []
        · exact .inr fun h' => he ⟨h, h'⟩
        · exact .inl h
      rcases this with h | h <;> simp [h]

/-- The callback of the examples: it knows a user and a token. -/
def exCb : Mode → Given := fun m =>
  if m = .token then { token := some [116, 111, 107] } else { user := some [99, 117], pwd := some [99, 112] }

example : (run {} [.setCb (some exCb), .setAuth (some [97]) (some [98]), .setAuth none none]).1 = true ∧
    intended [.setCb (some exCb), .setAuth (some [97]) (some [98]), .setAuth none none] .digest =
      ([97], [98]) ∧
    intended [.setCb (some exCb), .setAuth (some []) (some [])] .digest = ([99, 117], [99, 112]) := by
  decide +kernel

/-- C107 is false of calls that the library refuses: `est_client_set_auth` with a password that
is too long has stored the new user name when it returns the error, and this name is then used
with the old password. -/
theorem C107_refused_call_false (u p v q : List Nat) (hu : u.length ≤ 255) (hp : p.length ≤ 255)
    (hv : v.length ≤ 255) (hne : v ≠ []) (hq : 255 < q.length) (m : Mode) :
    (step (step {} (.setAuth (some u) (some p))).2 (.setAuth (some v) (some q))).1 = false ∧
      pair (run {} [.setAuth (some u) (some p), .setAuth (some v) (some q)]).2 m = (v, p) := by
  have h1 : ¬ 255 < u.length := by omega
  have h2 : ¬ 255 < p.length := by omega
  have h3 : ¬ 255 < v.length := by omega
  simp [run, step, setUidPw, h1, h2, h3, hq, pair, configured, hne]

example : (step (step {} (.setAuth (some [97, 108, 105, 99, 101]) (some [111, 108, 100]))).2
      (.setAuth (some [98, 111, 98]) (some (List.replicate 256 120)))).1 = false ∧
    pair (run {} [.setAuth (some [97, 108, 105, 99, 101]) (some [111, 108, 100]),
      .setAuth (some [98, 111, 98]) (some (List.replicate 256 120))]).2 .basic = ([98, 111, 98], [111, 108, 100]) :=
  C107_refused_call_false _ _ _ _ (by decide) (by decide) (by decide) (by decide) (by rw [List.length_replicate]; decide) _

/-- C107 is false of a callback that returns a password of more than 255 characters: no error is
reported, the client sends an empty password. -/
theorem C107_long_password_false (cb : Mode → Given) (u p : List Nat) (m : Mode)
    (hu : (cb m).user = some u) (hp : (cb m).pwd = some p) (hul : u.length ≤ 255)
    (hpl : 255 < p.length) :
    intended [.setCb (some cb)] m = (u, p) ∧ pair (run {} [.setCb (some cb)]).2 m = (u, []) := by
  refine ⟨by simp [intended, lastPair, answer, lastCb, hu, hp], ?_⟩
  have : ¬ 255 < u.length := by omega
  simp [run, step, pair, configured, retrieve, fit, hu, hp, hpl, this]

example : intended [.setCb (some fun _ => { user := some [117], pwd := some (List.replicate 256 120) })] .basic =
      ([117], List.replicate 256 120) ∧
    pair (run {} [.setCb (some fun _ => { user := some [117], pwd := some (List.replicate 256 120) })]).2
      .basic = ([117], []) :=
  C107_long_password_false _ _ _ _ rfl rfl (by decide) (by rw [List.length_replicate]; decide)

theorem token_answer (cs : List Call) (hok : (run {} cs).1 = true) :
    token (run {} cs).2 = (answer cs .token).token.getD [] := by
  obtain ⟨_, h2⟩ := run_ok cs {} hok
  unfold token answer
  rw [h2]
  cases lastCb cs with
  | none => rfl
  | some x => cases x <;> rfl

/-- C107: a token of more than 512 characters, or none, is sent as the empty one; the server
finds no credentials in that header. -/
theorem C107_no_token_false (H) (cs : List Call) (t : Toks) (e : Env) (uri : List Nat) (odd)
    (hok : (run {} cs).1 = true)
    (ht : 512 < ((answer cs .token).token.getD []).length ∨ (answer cs .token).token = none) :
    addAuthHdr H (run {} cs).2 t e uri .token = some (.value [66, 101, 97, 114, 101, 114, 32]) ∧
      AuthHdr.parseAuthHeader odd .token (some [66, 101, 97, 114, 101, 114, 32]) = .bad := by
  have htok := token_answer cs hok
  refine ⟨?_, by simp [AuthHdr.parseAuthHeader, AuthHdr.startsWith, HttpHdr.toLower, List.isPrefixOf, AuthHdr.parseToken, Base64.decode, AuthHdr.judge?, AuthHdr.judge, HttpHdr.isSpace]⟩
  have hv : AuthHdr.tokenValue (token (run {} cs).2) = some [66, 101, 97, 114, 101, 114, 32] := by
    have hb : AuthHdr.b64 1024 [] = some [] := by decide +kernel
    unfold AuthHdr.tokenValue
    rw [htok]
    rcases ht with h | h
    · rw [if_pos h, hb]; rfl
    · rw [h]; simp only [Option.getD_none]; rw [if_neg (by decide), hb]; rfl
  simp [addAuthHdr, hv]

example : addAuthHdr AuthHdr.exampleHash (run {} [.setAuth (some [97]) (some [98])]).2 ⟨[], [], [], []⟩
    ⟨none, true⟩ [] .token = some (.value [66, 101, 97, 114, 101, 114, 32]) :=
  (C107_no_token_false _ _ _ _ _ (fun _ _ => []) rfl (.inr rfl)).1

/-- C107 is false of a user name of 255 characters with Digest: `est_client_set_auth` accepts
it, and the header is then made from a string without end. -/
theorem C107_longest_user_false (H) (u p : List Nat) (t : Toks) (r uri : List Nat)
    (hu : u.length = 255) (hp : p.length ≤ 255) :
    (run {} [.setAuth (some u) (some p)]).1 = true ∧
      addAuthHdr H (run {} [.setAuth (some u) (some p)]).2 t ⟨some r, true⟩ uri .digest = none := by
  have h2 : ¬ 255 < p.length := by omega
  have h3 : u ≠ [] := by intro h; rw [h] at hu; simp at hu
  simp [run, step, setUidPw, h2, addAuthHdr, configured, h3, hu]

example : (run {} [.setAuth (some (List.replicate 255 97)) (some [112])]).1 = true ∧
    addAuthHdr AuthHdr.exampleHash (run {} [.setAuth (some (List.replicate 255 97)) (some [112])]).2
      ⟨[114], [49], [], []⟩ ⟨some [1, 2, 3, 4, 5, 6, 7, 8], true⟩ [47] .digest = none :=
  C107_longest_user_false _ _ _ _ _ _ (by rw [List.length_replicate]) (by decide)

/-- C107: if a path segment is configured, the URI of the digest is not that of the request. -/
theorem C107_digest_uri_false (cfg : ClientReq.Cfg) (op : EstUri.Op) (seg : List Nat)
    (hop : op = .simpleEnroll ∨ op = .simpleReenroll ∨ op = .serverKeygen ∨ op = .csrattrs)
    (h : cfg.seg = some seg) : digestUri op ≠ ClientReq.path cfg op := by
  intro e
  have := congrArg List.length e
  rcases hop with rfl | rfl | rfl | rfl <;> simp [digestUri, ClientReq.path, h, ClientReq.uriName] at this <;> omega

example : digestUri .simpleEnroll ≠ ClientReq.path exCfg .simpleEnroll :=
  C107_digest_uri_false exCfg .simpleEnroll _ (.inl rfl) rfl

/-- Without one it is. -/
theorem C107_digest_uri_partial (cfg : ClientReq.Cfg) (op : EstUri.Op)
    (hop : op = .simpleEnroll ∨ op = .simpleReenroll ∨ op = .serverKeygen ∨ op = .csrattrs)
    (h : cfg.seg = none) : digestUri op = ClientReq.path cfg op := by
  rcases hop with rfl | rfl | rfl | rfl <;> simp [digestUri, ClientReq.path, h] <;> rfl

example : digestUri .serverKeygen = ClientReq.path { exCfg with seg := none } .serverKeygen :=
  C107_digest_uri_partial _ _ (.inr (.inr (.inl rfl))) rfl

/-- C107: what the client stores of the server's challenge. -/
theorem C107_learns (mode : Mode) (realm : List Nat) (time : Nat) (s : Toks) (m : Mode)
    (hm : Challenge.Asks mode) (hr : Challenge.RealmText realm) (hl : realm.length ≤ 255)
    (ht : time < 2 ^ 64) (hc : m = .none ∨ m = .fail) :
    learn m s (Challenge.challengeText mode realm time) =
      some { s with realm := realm
                    nonce := if mode = .digest then decimal time else s.nonce } := by
  have hq : AuthHdr.Quotable realm := fun c hc => ⟨(hr c hc).1, (hr c hc).2.1⟩
  have e : Challenge.challengeText mode realm time = ClientResp.response [72, 84, 84, 80, 47, 49, 46, 49, 32, 52, 48, 49, 32, 85, 110, 97, 117, 116, 104, 111, 114, 105, 122, 101, 100]
      [(⟨[67, 111, 110, 116, 101, 110, 116, 45, 76, 101, 110, 103, 116, 104], [48]⟩, 1), (⟨[87, 87, 87, 45, 65, 117, 116, 104, 101, 110, 116, 105, 99, 97, 116, 101], Challenge.challenge mode realm time⟩, 1)] [] := by
    rcases hm with rfl | rfl | rfl <;>
      simp [Challenge.challengeText, ClientResp.response, HttpHdr.lines, HttpHdr.line]
  have hch := Challenge.challenge_chars mode realm time hr
  have hhead : (Challenge.challenge mode realm time).head? ≠ some 32 := by
    rcases hm with rfl | rfl | rfl <;> simp [Challenge.challenge]
  have g : ClientResp.Good [72, 84, 84, 80, 47, 49, 46, 49, 32, 52, 48, 49, 32, 85, 110, 97, 117, 116, 104, 111, 114, 105, 122, 101, 100]
      [(⟨[67, 111, 110, 116, 101, 110, 116, 45, 76, 101, 110, 103, 116, 104], [48]⟩, 1), (⟨[87, 87, 87, 45, 65, 117, 116, 104, 101, 110, 116, 105, 99, 97, 116, 101], Challenge.challenge mode realm time⟩, 1)] [] := by
    constructor
    · decide
    · intro p hp
      simp only [List.mem_cons, List.not_mem_nil, or_false] at hp
      rcases hp with rfl | rfl
      · exact ClientResp.wf_of (by decide) (by decide) (by decide) (by decide)
      · exact ClientResp.wf_of (by decide) (by decide) (fun c hc => ⟨(hch c hc).1, (hch c hc).2.1⟩) hhead
    · intro p hp
      simp only [List.mem_cons, List.not_mem_nil, or_false] at hp
      rcases hp with rfl | rfl
      · exact ⟨(by decide : ∀ c ∈ [67, 111, 110, 116, 101, 110, 116, 45, 76, 101, 110, 103, 116, 104], c ≠ 0), (by decide : ∀ c ∈ [48], c ≠ 0)⟩
      · exact ⟨(by decide : ∀ c ∈ [87, 87, 87, 45, 65, 117, 116, 104, 101, 110, 116, 105, 99, 97, 116, 101], c ≠ 0), fun c hc => (hch c hc).2.2⟩
    · simp
    · simp
    · simp
  obtain ⟨h1, h2, h3⟩ := ClientResp.split_response g
  have hst : ClientResp.statusCode (ClientResp.response [72, 84, 84, 80, 47, 49, 46, 49, 32, 52, 48, 49, 32, 85, 110, 97, 117, 116, 104, 111, 114, 105, 122, 101, 100]
      [(⟨[67, 111, 110, 116, 101, 110, 116, 45, 76, 101, 110, 103, 116, 104], [48]⟩, 1), (⟨[87, 87, 87, 45, 65, 117, 116, 104, 101, 110, 116, 105, 99, 97, 116, 101], Challenge.challenge mode realm time⟩, 1)] []) =
      some 401 := ClientResp.statusCode_append (by decide) (by decide)
  unfold learn
  rw [e]
  simp only [h1]
  rw [h3]
  simp only [List.takeWhile_nil, hst, ne_eq, not_true, if_false]
  rw [if_neg (by rcases hc with rfl | rfl <;> simp)]
  have hn1 : ([87, 87, 87, 45, 65, 117, 116, 104, 101, 110, 116, 105, 99, 97, 116, 101]).isPrefixOf [67, 111, 110, 116, 101, 110, 116, 45, 76, 101, 110, 103, 116, 104] = false := by decide
  have hn2 : ([87, 87, 87, 45, 65, 117, 116, 104, 101, 110, 116, 105, 99, 97, 116, 101]).isPrefixOf [87, 87, 87, 45, 65, 117, 116, 104, 101, 110, 116, 105, 99, 97, 116, 101] = true := by decide
  simp only [List.map_cons, List.map_nil, List.find?_cons, hn1, hn2]
  rw [if_pos (by rcases hm with rfl | rfl | rfl <;> simp [Challenge.challenge, List.isPrefixOf]),
    Challenge.C63_tokens mode realm time s hm hq hl ht]

example : learn .none ⟨[111, 108, 100], [48], [], []⟩ (Challenge.challengeText .digest [101, 115, 116, 114, 101, 97, 108, 109] 1700000000) =
    some ⟨[101, 115, 116, 114, 101, 97, 108, 109], [49, 55, 48, 48, 48, 48, 48, 48, 48, 48], [], []⟩ := by decide +kernel

/-! ## A challenge, end to end -/

/-- A client without certificate enrols: the server challenges the first request in the mode
`m`, the second one carries a header with the value `v`.  Both requests reach the server, which
finds the CSR of the second one in order. -/
structure Asked (lib : Flow.Lib) (toks : Toks) (cfg : ClientReq.Cfg) (base key : Nat)
    (c : Flow.Client) (u u2 : Flow.Up) (csr csr2 : Flow.Csr) (s s2 : Site)
    (ca : CaReq → CaRes) (cb : Server.Cred → Bool) (m : Mode) (v : List Nat) : Prop where
  tokens : lib.tokensOk = Challenge.tokensOk toks
  ready : c.ready = true
  fresh : c.mode = .none
  gen1 : ∃ id, u.uid = some id ∧ Flow.generate c u base key id = .ok csr
  gen2 : ∃ id, u2.uid = some id ∧ Flow.generate { c with mode := m } u2 base key id = .ok csr2
  send1 : Sendable cfg .simpleEnroll none (lib.text csr)
  send2 : Sendable cfg .simpleEnroll (some v) (lib.text csr2)
  sound1 : Sound s
  sound2 : Sound s2
  route1 : Routes s cfg .simpleEnroll
  route2 : Routes s2 cfg .simpleEnroll
  same : s2.srv = s.srv
  link1 : ∃ sched, u.reply =
      reply s sched (ClientReq.enrollRequest cfg .simpleEnroll .none (lib.text csr)) ∧
    Arrives sched (1028 + (lib.text csr).length)
  link2 : ∃ sched, u2.reply =
      reply s2 sched (ClientReq.enrollRequest cfg .simpleEnroll (.value v) (lib.text csr2)) ∧
    Arrives sched (1028 + (lib.text csr2).length)
  noCert1 : s.tls.peer = none ∧ s.tls.srpUser = false
  noCert2 : s2.tls.peer = none ∧ s2.tls.srpUser = false
  mode : toMode s.srv.cfg.authMode = m
  notFips : ¬ (m = .digest ∧ lib.fips = true)
  app : s.srv.cfg.authCb = some cb
  sent : u2.auth m = .value v
  ca : s.srv.cfg.enrollCb = some ca
  inOrder : CsrAccepted s2 (lib.text csr2)

/-- The answer to the first request is the server's challenge. -/
theorem Asked.challenge {lib toks cfg base key c u u2 csr csr2 s s2 ca cb m v}
    (h : Asked lib toks cfg base key c u u2 csr csr2 s s2 ca cb m v) :
    (∃ o, Link lib cfg .enroll c u csr s (.missing, ⟨.none, [], [], []⟩) o ∧ o.rc = .authPending) ∧
      u.reply = .bytes (Challenge.challengeText m s.realm s.time) := by
  obtain ⟨sched, hu, harr⟩ := h.link1
  have ho1 : ∃ o, outcome s false cfg.seg (lib.text csr) (.missing, ⟨.none, [], [], []⟩) = some o ∧
      o.rc = .authPending := by
    have ha : Server.enrollAuth s.srv.cfg s.tls (.missing, ⟨.none, [], [], []⟩) s.srv.parse
        .enroll (lib.text csr) =
        some { st := .httpAuthPending, csr := none, evs := Server.challenge s.srv.cfg.authMode } := by
      unfold Server.enrollAuth
      simp [Server.checkTlsCert, h.noCert1.1, h.noCert1.2, h.sound1.http, h.app]
    unfold outcome Server.simpleEnroll
    simp only [Bool.false_eq_true, if_false, h.ca]
    rw [if_neg (by simp [Server.ctPkcs10])]
    simp only [ha]
    exact ⟨_, rfl, rfl⟩
  obtain ⟨o1, ho1, ho1rc⟩ := ho1
  refine ⟨⟨o1, ⟨h.sound1, h.route1, ⟨none, sched, h.send1, by rw [h.fresh]; rfl, hu, harr, rfl⟩, ho1⟩,
    ho1rc⟩, ?_⟩
  obtain ⟨b, text, r1, r2, r3⟩ := reply_enroll cfg .enroll (by decide) s sched (lib.text csr) none
    (.missing, ⟨.none, [], [], []⟩) o1 h.send1 h.sound1 h.route1 rfl ho1 harr
  have r1' : ClientReq.enrollRequest cfg .simpleEnroll .none (lib.text csr) = .sent b := r1
  rw [hu, r1', r2]
  rcases r3 with ⟨_, e, _⟩ | ⟨e, _⟩ | ⟨_, e⟩ | ⟨_, _, e, _⟩
  · rw [ho1rc] at e; simp at e
  · rw [ho1rc] at e; simp at e
  · rw [e, h.mode]
  · exact absurd ho1rc e

/-- The request that the CA gets for credentials `ah`: no user name comes with a token. -/
def asks (cfg : ClientReq.Cfg) (csr : List Nat) (ah : AuthHdr.Ah) : CaReq :=
  ⟨csr, if ah.mode = .token then [] else ah.user.getD [], false, cfg.seg⟩

/-- C107: whatever the mode, the enrolment is decided by the server's application: if it
accepts the credentials that the server finds in the second request, the client gets the
certificate that the CA made, else an authentication failure. -/
theorem C107_application_decides {lib toks cfg base key c u u2 csr csr2 s s2 ca cb m v}
    (h : Asked lib toks cfg base key c u u2 csr csr2 s s2 ca cb m v) (ah : AuthHdr.Ah)
    (uid : Option (List Nat)) (hp : AuthHdr.parseAuthHeader s2.odd m (some v) = .good ah uid) :
    (cb (credOf ah) = false → ∃ ret c',
      Flow.enroll lib cfg .enroll base (some key) (.up u, .up u2) c = some (ret, c') ∧
        ret.err = .authFail ∧ c'.cert = c.cert) ∧
    (cb (credOf ah) = true → (ca (asks cfg (lib.text csr2) ah)).rc = .none →
      (ca (asks cfg (lib.text csr2) ah)).cert ≠ [] → ∃ ret c',
      Flow.run cfg c [(lib, .enroll base (some key) (.up u, .up u2)), (lib, .copyCert)] =
        some ([ret, copied (ca (asks cfg (lib.text csr2) ah)).cert], c') ∧ ret.err = .none) := by
  obtain ⟨⟨o1, hl, ho1rc⟩, _⟩ := h.challenge
  obtain ⟨id, huid, hgen⟩ := h.gen1
  obtain ⟨id2, huid2, hgen2⟩ := h.gen2
  obtain ⟨sched2, hu2, harr2⟩ := h.link2
  have hasks : Challenge.Asks m := by rw [← h.mode]; exact h.sound1.mode
  have hmode : ah.mode = m := (AuthHdr.C33_configured_scheme_only s2.odd m v ah uid hp).2.1
  have hauthOf : Flow.authOf u2 m = .value v := by
    have hs := h.sent
    rcases hasks with e | e | e <;> (rw [e] at hs ⊢; exact hs)
  have ha : Server.enrollAuth s2.srv.cfg s2.tls (.good, credOf ah) s2.srv.parse
      (if (false : Bool) then .reenroll else .enroll) (lib.text csr2) =
      some { st := if cb (credOf ah) then .httpAuth else .unauthorized, csr := none,
             user := if m = .token then none else some (ah.user.getD []),
             evs := [.askApp (credOf ah)] } := by
    unfold Server.enrollAuth
    have hh := h.sound2.http
    rw [h.same] at hh ⊢
    have hcm : (credOf ah).mode = ofMode m := by rw [← hmode]; rfl
    have hcu : (credOf ah).user = ah.user.getD [] := rfl
    simp only [Server.checkTlsCert, h.noCert2.1, h.noCert2.2, hh, h.app]
    rcases hasks with e | e | e <;> simp [hcm, hcu, e, ofMode]
  have hnone : s2.tls.peer.isSome = false := by simp [h.noCert2.1]
  have hfirst : s2.srv.cfg.enrollCb = some ca := by rw [h.same]; exact h.ca
  have hjoin : ∀ o, outcome s2 false cfg.seg (lib.text csr2) (.good, credOf ah) = some o →
      Link lib cfg .enroll { c with mode := toMode s.srv.cfg.authMode } u2 csr2 s2 (.good, credOf ah) o := by
    intro o ho
    refine ⟨h.sound2, h.route2, ⟨some v, sched2, h.send2, ?_, hu2, harr2, ?_⟩, ho⟩
    · rw [h.mode]; exact hauthOf
    · rw [h.same, h.mode, hp]; rfl
  have hgo : ∀ o, outcome s2 false cfg.seg (lib.text csr2) (.good, credOf ah) = some o →
      ∃ ret c', Flow.enroll lib cfg .enroll base (some key) (.up u, .up u2) c =
          some (ret, { c' with mode := .none }) ∧
        Reported s2 false cfg.seg (lib.text csr2) { c with mode := toMode s.srv.cfg.authMode } o
          ret.err c' := by
    intro o ho
    refine C89_second_attempt lib toks h.tokens cfg base key c u u2 id id2 csr csr2 s s2 _ _ o1 o
      h.ready huid huid2 hgen (by rw [h.mode]; exact hgen2) hl (hjoin o ho) ho1rc
      (by rw [h.fresh]; simp [Flow.Asked]) ?_
    rintro ⟨e, f⟩
    refine h.notFips ⟨?_, f⟩
    rw [← h.mode, e]; rfl
  refine ⟨fun hb => ?_, fun hb hc1 hc2 => ?_⟩
  · rw [hb] at ha
    have ho : ∃ o, outcome s2 false cfg.seg (lib.text csr2) (.good, credOf ah) = some o ∧
        o.rc = .authFail := by
      unfold outcome Server.simpleEnroll
      simp only [Bool.false_eq_true, if_false, hfirst]
      rw [if_neg (by simp [Server.ctPkcs10])]
      simp only [Bool.false_eq_true, if_false] at ha
      simp only [ha]
      exact ⟨_, rfl, rfl⟩
    obtain ⟨o, ho, horc⟩ := ho
    obtain ⟨ret, c1, g1, g2⟩ := hgo o ho
    obtain ⟨g3, g4⟩ := g2.refused (by simp [horc]) (by simp [horc]) (by simp [horc])
    refine ⟨ret, _, g1, ?_, ?_⟩
    · rw [g3, horc]; rfl
    · simp [g4]
  · rw [hb] at ha
    have hrq : (⟨lib.text csr2, (if m = Mode.token then none else some (ah.user.getD [])).getD [],
        s2.tls.peer.isSome, cfg.seg⟩ : CaReq) = asks cfg (lib.text csr2) ah := by
      rw [hnone, asks, hmode]
      split <;> rfl
    obtain ⟨o, ho, horc, hoev⟩ := outcome_reached s2 false cfg.seg (lib.text csr2) _ _ ca
      (by simpa using hfirst) ha (.inl rfl) rfl h.inOrder (by rw [hrq]; exact hc1)
      (by rw [hrq]; exact hc2) (h.sound2.cert ca _ (.inl hfirst)).1 h.sound2.http
    obtain ⟨ret, c1, g1, g2⟩ := hgo o ho
    obtain ⟨h3, cert, ⟨ca', rq, i1, i2, i3, i4, i5, i6, i7⟩, h5⟩ := g2.issued horc
    have hca : ca' = ca := by
      rw [if_neg (by decide), hfirst] at i1
      exact (Option.some.inj i1).symm
    have hrq' := hoev rq i2
    rw [hrq] at hrq'
    refine ⟨ret, { c1 with mode := .none, cert := none }, ?_, h3⟩
    have := enroll_then_copy (cert := cert) g1 (by simp [h5, h.ready]) (by simp [h5])
    rw [this, ← i6, hca, hrq']

/-! ## An application that knows its users -/

/-- The check of an application with the passwords `db` of its users and the tokens `ok`: in
Digest mode it calls `est_server_generate_auth_digest` with the HA1 of the password. -/
def check (H : List Nat → List Nat) (realm : List Nat) (db : List Nat → Option (List Nat))
    (ok : List Nat → Bool) (ah : AuthHdr.Ah) : Bool :=
  match ah.mode with
  | .basic => db (ah.user.getD []) == some (ah.pwd.getD [])
  | .digest =>
    match db (ah.user.getD []) with
    | none => false
    | some p => ah.response.isSome &&
        AuthHdr.serverDigest H ah (AuthHdr.ha1 H (ah.user.getD []) realm p) == ah.response
  | .token => ok (ah.token.getD [])
  | _ => false

/-- The strings that the application gets end where they should. -/
def Ends (ah : AuthHdr.Ah) : Prop :=
  ∀ f ∈ [ah.uri, ah.nonce, ah.nc, ah.cnonce, ah.qop, ah.response, ah.token], ∀ v, f = some v → 0 ∉ v

/-- The callback `cb` is that check in the mode `m`, for headers with a token in Token mode and for
responses of the length of a digest. -/
def Checks (m : Mode) (H : List Nat → List Nat) (realm : List Nat) (db : List Nat → Option (List Nat))
    (ok : List Nat → Bool) (cb : Server.Cred → Bool) : Prop :=
  ∀ ah, ah.mode = m → Ends ah → (m = .token → ah.token ≠ none) → (∀ r, ah.response = some r → r.length = 32) →
    cb (credOf ah) = check H realm db ok ah

/-- One string of the structure, and the rest of it. -/
def getField : List Nat → Option (List Nat) × List Nat
  | 1 :: r => (some (r.takeWhile (· != 0)), (r.dropWhile (· != 0)).tail)
  | r => (none, r.tail)

theorem getField_field (f : Option (List Nat)) (r : List Nat) (h : ∀ v, f = some v → 0 ∉ v) :
    getField (field f ++ r) = (f, r) := by
  cases f with
  | none => rfl
  | some v =>
    have hv := h v rfl
    have h1 : ∀ t : List Nat, 0 ∉ t → (t ++ 0 :: r).takeWhile (· != 0) = t ∧
        (t ++ 0 :: r).dropWhile (· != 0) = 0 :: r := by
      intro t
      induction t with
      | nil => intro _; exact ⟨rfl, rfl⟩
      | cons c t ih =>
        intro hc
        have hc0 : c ≠ 0 := fun e => hc (by simp [e])
        obtain ⟨a, b⟩ := ih (fun e => hc (by simp [e]))
        simp [hc0, a, b]
    obtain ⟨a, b⟩ := h1 v hv
    simp [field, getField, a, b]

/-- The structure that the application gets. -/
def read (cr : Server.Cred) : AuthHdr.Ah :=
  let a := getField cr.rest
  let b := getField a.2
  let c := getField b.2
  let d := getField c.2
  let e := getField d.2
  let f := getField e.2
  let g := getField f.2
  { mode := toMode cr.mode, user := some cr.user, pwd := some cr.pwd, uri := a.1, nonce := b.1,
    nc := c.1, cnonce := d.1, qop := e.1, response := f.1, token := g.1 }

/-- There is such a callback. -/
theorem checks_exists (m H realm db ok) : Checks m H realm db ok fun cr => check H realm db ok (read cr) := by
  intro ah _ he _ _
  have hx : ∀ f ∈ [ah.uri, ah.nonce, ah.nc, ah.cnonce, ah.qop, ah.response, ah.token],
      ∀ r, getField (field f ++ r) = (f, r) := fun f hf r => getField_field f r (he f hf)
  have hlast : getField (field ah.token) = (ah.token, []) := by
    have := hx ah.token (by simp) []
    simpa using this
  have hr : read (credOf ah) = { ah with user := some (ah.user.getD []), pwd := some (ah.pwd.getD []) } := by
    have hm : toMode (ofMode ah.mode) = ah.mode := by cases ah.mode <;> rfl
    simp only [read, credOf]
    simp only [hx ah.uri (by simp), hx ah.nonce (by simp), hx ah.nc (by simp), hx ah.cnonce (by simp),
      hx ah.qop (by simp), hx ah.response (by simp), hlast, hm]
  show check H realm db ok (read (credOf ah)) = _
  rw [hr]
  cases ah with
  | mk mode user pwd uri nonce nc cnonce qop response token =>
    cases mode <;> rfl

/-! ## The three modes -/

/-- The outcome that the application of the client sees: the certificate of the CA for this CSR
and this user. -/
def Succeeds (lib : Flow.Lib) (cfg : ClientReq.Cfg) (base key : Nat) (c : Flow.Client)
    (u u2 : Flow.Up) (cert : List Nat) : Prop :=
  ∃ ret c', Flow.run cfg c [(lib, .enroll base (some key) (.up u, .up u2)), (lib, .copyCert)] =
    some ([ret, copied cert], c') ∧ ret.err = .none

/-- The other outcome: an authentication failure, nothing stored. -/
def Refused (lib : Flow.Lib) (cfg : ClientReq.Cfg) (base key : Nat) (c : Flow.Client)
    (u u2 : Flow.Up) : Prop :=
  ∃ ret c', Flow.enroll lib cfg .enroll base (some key) (.up u, .up u2) c = some (ret, c') ∧
    ret.err = .authFail ∧ c'.cert = c.cert

/-- C107 for Basic: the enrolment succeeds exactly if the password that the client's application
intends is the one that the server's application has for that user. -/
theorem C107_basic_client_partial {lib toks cfg base key c u u2 csr csr2 s s2 ca cb v}
    (h : Asked lib toks cfg base key c u u2 csr csr2 s s2 ca cb .basic v)
    (H db ok) (hcb : Checks .basic H s.realm db ok cb) (cs : List Call) (t : Toks) (e : Env) (uri : List Nat)
    (hok : (run {} cs).1 = true)
    (hhdr : addAuthHdr H (run {} cs).2 t e uri .basic = some (u2.auth .basic)) (user pwd : List Nat)
    (hint : intended cs .basic = (user, pwd)) (hu : AuthHdr.Chars user) (hp : AuthHdr.Chars pwd)
    (hul : user.length ≤ 255) (hpl : pwd.length ≤ 255) (hcolon : 58 ∉ user) (hune : user ≠ [])
    (hrc : (ca ⟨lib.text csr2, user, false, cfg.seg⟩).rc = .none)
    (hne : (ca ⟨lib.text csr2, user, false, cfg.seg⟩).cert ≠ []) :
    (db user = some pwd → Succeeds lib cfg base key c u u2 (ca ⟨lib.text csr2, user, false, cfg.seg⟩).cert) ∧
    (db user ≠ some pwd → Refused lib cfg base key c u u2) := by
  have hpair := C107_intended_partial cs .basic hok (by rw [hint]; exact hul) (by rw [hint]; exact hpl)
  rw [hint] at hpair
  obtain ⟨v', e1, e2⟩ := AuthHdr.C33_basic_round_trip_partial s2.odd user pwd hu hp hul hpl hcolon hune
  have hv : v' = v := by
    simp only [addAuthHdr, hpair, e1, h.sent, Option.map_some, Option.some.injEq] at hhdr
    injection hhdr
  subst hv
  have hE : Ends { mode := .basic, user := some user, pwd := some pwd } := by
    intro f hf w hw
    simp at hf
    rw [hf] at hw
    cases hw
  have hc := hcb _ rfl hE (by simp) (by intro r hr; cases hr)
  obtain ⟨g1, g2⟩ := C107_application_decides h _ _ e2
  refine ⟨fun hd => g2 ?_ hrc hne, fun hd => g1 ?_⟩
  · rw [hc]; simp [check, hd]
  · rw [hc]; simp [check, hd]

/-- C107 for tokens: the enrolment succeeds exactly if the server's application accepts the
token that the client's callback returned. -/
theorem C107_token_client_partial {lib toks cfg base key c u u2 csr csr2 s s2 ca cb v}
    (h : Asked lib toks cfg base key c u u2 csr csr2 s s2 ca cb .token v)
    (H db ok) (hcb : Checks .token H s.realm db ok cb) (cs : List Call) (t : Toks) (e : Env) (uri : List Nat)
    (hok : (run {} cs).1 = true)
    (hhdr : addAuthHdr H (run {} cs).2 t e uri .token = some (u2.auth .token)) (tok : List Nat)
    (hint : (answer cs .token).token = some tok) (ht : AuthHdr.Chars tok) (hl : tok.length ≤ 512)
    (htne : tok ≠ []) (hrc : (ca ⟨lib.text csr2, [], false, cfg.seg⟩).rc = .none)
    (hne : (ca ⟨lib.text csr2, [], false, cfg.seg⟩).cert ≠ []) :
    (ok tok = true → Succeeds lib cfg base key c u u2 (ca ⟨lib.text csr2, [], false, cfg.seg⟩).cert) ∧
    (ok tok = false → Refused lib cfg base key c u u2) := by
  have htk : token (run {} cs).2 = tok := by
    rw [token_answer cs hok, hint]; rfl
  obtain ⟨v', e1, e2⟩ := AuthHdr.C33_token_round_trip s2.odd tok ht hl htne
  have hv : v' = v := by
    simp only [addAuthHdr, htk, e1, h.sent, Option.map_some, Option.some.injEq] at hhdr
    injection hhdr
  subst hv
  have hE : Ends { mode := .token, token := some tok } := by
    intro f hf w hw
    simp at hf
    rcases hf with hf | hf
    · rw [hf] at hw; cases hw
    · rw [hf] at hw; cases hw; exact fun hz => (ht 0 hz).2 rfl
  have hc := hcb _ rfl hE (by simp) (by intro r hr; cases hr)
  obtain ⟨g1, g2⟩ := C107_application_decides h _ _ e2
  refine ⟨fun hd => g2 ?_ hrc hne, fun hd => g1 ?_⟩
  · rw [hc]; simp [check, hd]
  · rw [hc]; simp [check, hd]

theorem decimal_short (n : Nat) (h : n < 2 ^ 64) : (decimal n).length ≤ 64 := by
  have : ∀ k n, n < 10 ^ (k + 1) → (decimal n).length ≤ k + 1 := by
    intro k
    induction k with
    | zero => intro n hn; unfold decimal; rw [if_pos (by omega)]; simp
    | succ k ih =>
      intro n hn
      unfold decimal
      split
      · simp
      · have := ih (n / 10) (by
          rw [Nat.pow_succ] at hn
          exact Nat.div_lt_of_lt_mul (by omega))
        simp; omega
  exact this 63 n (Nat.lt_of_lt_of_le h (by decide))

/-- What the server finds in a Digest header. -/
def sentAh (user uri nonce cnonce response : List Nat) : AuthHdr.Ah where
  mode := .digest
  user := some user
  uri := some uri
  nonce := some nonce
  nc := some [48, 48, 48, 48, 48, 48, 48, 49]
  cnonce := some cnonce
  qop := some [97, 117, 116, 104]
  response := some response

/-- Two texts with the same digest. -/
def Collision (H : List Nat → List Nat) : Prop := ∃ x y, x ≠ y ∧ H x = H y

/-- C107 for Digest: with the realm and the nonce of the challenge, the enrolment succeeds if
the password that the client's application intends is the one that the server's application has
for that user; if it is another one, the enrolment is refused (or two different texts with the
same digest are at hand).  The password itself is not sent. -/
theorem C107_digest_client_partial {lib toks cfg base key c u u2 csr csr2 s s2 ca cb v}
    (h : Asked lib toks cfg base key c u u2 csr csr2 s s2 ca cb .digest v)
    (H db ok) (hH : AuthHdr.Hash16 H) (hcb : Checks .digest H s.realm db ok cb) (cs : List Call) (t : Toks)
    (r : List Nat) (hr : Base64.Bytes r ∧ r.length = 8) (hok : (run {} cs).1 = true)
    (hlearn : ∃ raw, u.reply = .bytes raw ∧ learn c.mode toks raw = some t)
    (hhdr : addAuthHdr H (run {} cs).2 t ⟨some r, true⟩ (digestUri .simpleEnroll) .digest =
      some (u2.auth .digest)) (user pwd : List Nat)
    (hint : intended cs .digest = (user, pwd)) (hu : AuthHdr.Quotable user)
    (hl : user.length + s.realm.length + (decimal s.time).length ≤ 218) (hpl : pwd.length ≤ 255)
    (hdb : ∀ p, db user = some p → p.length ≤ 255)
    (hrc : (ca ⟨lib.text csr2, user, false, cfg.seg⟩).rc = .none)
    (hne : (ca ⟨lib.text csr2, user, false, cfg.seg⟩).cert ≠ []) :
    (db user = some pwd → Succeeds lib cfg base key c u u2 (ca ⟨lib.text csr2, user, false, cfg.seg⟩).cert) ∧
    (db user ≠ some pwd → Refused lib cfg base key c u u2 ∨ Collision H) := by
  have hpair := C107_intended_partial cs .digest hok (by rw [hint]; simp only; omega)
    (by rw [hint]; exact hpl)
  rw [hint] at hpair
  -- the challenge
  have ht : t.realm = s.realm ∧ t.nonce = decimal s.time := by
    obtain ⟨raw, hr1, hr2⟩ := hlearn
    have := h.challenge.2
    rw [hr1] at this
    injection this with this
    rw [this, h.fresh, C107_learns .digest s.realm s.time toks .none (.inr (.inl rfl)) h.sound1.realm
      h.sound1.realmLen h.sound1.time (.inl rfl)] at hr2
    injection hr2 with hr2
    rw [← hr2]
    exact ⟨rfl, rfl⟩
  -- the header
  have hlen : ¬ (configured (run {} cs).2 = true ∧ 255 ≤ (run {} cs).2.userid.length) := by
    rintro ⟨a, b⟩
    have := congrArg Prod.fst hpair
    simp only [pair, if_pos a] at this
    rw [this] at b
    omega
  have hv : AuthHdr.digestValueText H user s.realm pwd (decimal s.time) (AuthHdr.hex r)
      (digestUri .simpleEnroll) = v := by
    simp only [addAuthHdr, if_neg hlen, hpair, ht.1, ht.2, h.sent, Bool.true_eq_false, if_false,
      Option.some.injEq] at hhdr
    injection hhdr
  have hq : AuthHdr.Quotable s.realm := fun c hc => ⟨(h.sound1.realm c hc).1, (h.sound1.realm c hc).2.1⟩
  obtain ⟨x1, x2⟩ := AuthHdr.hex_text r hr.1
  have hl1 : (decimal s.time).length ≤ 64 := decimal_short _ h.sound1.time
  have huri : AuthHdr.Quotable (digestUri .simpleEnroll) := by
    unfold AuthHdr.Quotable; decide
  have hul : (digestUri .simpleEnroll).length = 29 := by decide
  have hgood := AuthHdr.C34_header_round_trip s2.odd H hH user s.realm pwd (decimal s.time) (AuthHdr.hex r)
    (digestUri .simpleEnroll) hu hq (Challenge.decimal_quotable _) huri x1 hl1 (by omega) (by omega)
  rw [hv] at hgood
  rw [List.take_of_length_le (by omega : user.length ≤ 255),
    List.take_of_length_le (by omega : (digestUri .simpleEnroll).length ≤ 255)] at hgood
  have hz : ∀ c ∈ v, c ≠ 0 := fun c hc e => by
    have := ((h.send2.cred v rfl).chars c hc).1; omega
  rw [← hv] at hz
  have hE : Ends (sentAh user (digestUri .simpleEnroll) (decimal s.time) (AuthHdr.hex r)
      (AuthHdr.clientDigest H user s.realm pwd (decimal s.time) (AuthHdr.hex r) (digestUri .simpleEnroll))) := by
    intro f hf w hw h0
    simp only [List.mem_cons, List.not_mem_nil, or_false] at hf
    rcases hf with rfl | rfl | rfl | rfl | rfl | rfl | rfl <;> cases hw
    · revert h0; decide
    · exact hz 0 (by simp [AuthHdr.digestValueText, h0]) rfl
    · revert h0; decide
    · exact hz 0 (by simp [AuthHdr.digestValueText, h0]) rfl
    · revert h0; decide
    · exact hz 0 (by simp [AuthHdr.digestValueText, h0]) rfl
  have hc := hcb _ rfl hE (by simp) (by
    intro x hx
    cases hx
    exact (AuthHdr.clientDigest_length H hH _ _ _ _ _ _).1)
  obtain ⟨g1, g2⟩ := C107_application_decides h (sentAh user (digestUri .simpleEnroll) (decimal s.time)
    (AuthHdr.hex r) (AuthHdr.clientDigest H user s.realm pwd (decimal s.time) (AuthHdr.hex r)
      (digestUri .simpleEnroll))) _ hgood
  have hsame : ∀ p, AuthHdr.serverDigest H (sentAh user (digestUri .simpleEnroll) (decimal s.time) (AuthHdr.hex r)
      (AuthHdr.clientDigest H user s.realm pwd (decimal s.time) (AuthHdr.hex r) (digestUri .simpleEnroll))) (AuthHdr.ha1 H user s.realm p) =
      some (AuthHdr.clientDigest H user s.realm p (decimal s.time) (AuthHdr.hex r) (digestUri .simpleEnroll)) := by
    intro p
    have hl1 : (AuthHdr.ha1 H user s.realm p).length = 32 := by
      unfold AuthHdr.ha1
      rw [(AuthHdr.hex_text _ (hH _).1).2, (hH _).2]
    simp only [AuthHdr.serverDigest, AuthHdr.clientDigest, sentAh]
    rw [List.take_of_length_le (Nat.le_of_eq hl1)]
  have hck : ∀ p, db user = some p → cb (credOf (sentAh user (digestUri .simpleEnroll) (decimal s.time)
      (AuthHdr.hex r) (AuthHdr.clientDigest H user s.realm pwd (decimal s.time) (AuthHdr.hex r)
      (digestUri .simpleEnroll)))) = decide (AuthHdr.clientDigest H user s.realm p (decimal s.time)
        (AuthHdr.hex r) (digestUri .simpleEnroll) = AuthHdr.clientDigest H user s.realm pwd
        (decimal s.time) (AuthHdr.hex r) (digestUri .simpleEnroll)) := by
    intro p hp
    rw [hc]
    have e : ∀ x : Option (List Nat), x = some p → (match x with
        | none => false
        | some p => true && AuthHdr.serverDigest H (sentAh user (digestUri .simpleEnroll) (decimal s.time)
            (AuthHdr.hex r) (AuthHdr.clientDigest H user s.realm pwd (decimal s.time) (AuthHdr.hex r)
            (digestUri .simpleEnroll))) (AuthHdr.ha1 H user s.realm p) ==
          some (AuthHdr.clientDigest H user s.realm pwd (decimal s.time) (AuthHdr.hex r)
            (digestUri .simpleEnroll))) = decide (AuthHdr.clientDigest H user s.realm p (decimal s.time)
        (AuthHdr.hex r) (digestUri .simpleEnroll) = AuthHdr.clientDigest H user s.realm pwd
        (decimal s.time) (AuthHdr.hex r) (digestUri .simpleEnroll)) := by
      rintro x rfl
      simp only [hsame]
      rw [Bool.eq_iff_iff]
      simp
    exact e _ hp
  constructor
  · intro hd
    exact g2 (by rw [hck _ hd]; simp) hrc hne
  · intro hd
    cases hx : db user with
    | none =>
      refine .inl (g1 ?_)
      rw [hc]
      have e : ∀ x : Option (List Nat), x = none → ∀ f : List Nat → Bool, (match x with
          | none => false
          | some p => f p) = false := by rintro x rfl f; rfl
      exact e _ hx _
    | some p =>
      by_cases hresp : AuthHdr.clientDigest H user s.realm p (decimal s.time) (AuthHdr.hex r)
          (digestUri .simpleEnroll) = AuthHdr.clientDigest H user s.realm pwd (decimal s.time)
          (AuthHdr.hex r) (digestUri .simpleEnroll)
      · right
        have hs := hsame p
        rw [hresp] at hs
        rcases AuthHdr.C34_agreement_means_same_password H hH user s.realm pwd p (decimal s.time)
          (AuthHdr.hex r) (digestUri .simpleEnroll) _ ⟨rfl, rfl, rfl, rfl⟩ (by omega)
          h.sound1.realmLen hpl (hdb p hx) hs with e | ⟨e1, e2⟩ | ⟨y, e1, e2⟩
        · rw [e] at hd; exact absurd hx hd
        · exact ⟨_, _, e1, e2⟩
        · exact ⟨_, _, e1, e2⟩
      · exact .inl (g1 (by rw [hck _ hx]; simpa using hresp))

/-! ## Examples -/

/-- One user and one token. -/
def exDb (u : List Nat) : Option (List Nat) := if u = [117] then some [112] else none
def exOk (t : List Nat) : Bool := t == [116, 111, 107]

/-- A server with an application that knows them; the client has no certificate. -/
def exSrv (m : Server.AuthMode) : Site :=
  { exSite2 with
    srv := { exSite2.srv with
      cfg := { exSite2.srv.cfg with
        authMode := m
        authCb := some fun cr => check AuthHdr.exampleHash [101, 115, 116, 114, 101, 97, 108, 109] exDb exOk (read cr) } } }

/-- A connection to it. -/
def exUp (m : Server.AuthMode) (a : Auth) (v : List Nat) : Flow.Up where
  uid := some [100, 87, 108, 107]
  auth := fun _ => .value v
  reply := reply (exSrv m) exSched (ClientReq.enrollRequest exCfg .simpleEnroll a [77, 73, 73, 61])

theorem exUp_reply (m : Server.AuthMode) (a : Auth) (v : List Nat) (csr : Flow.Csr) : (exUp m a v).reply =
    reply (exSrv m) exSched (ClientReq.enrollRequest exCfg .simpleEnroll a (exLib.text csr)) := by
  rw [show exLib.text csr = [77, 73, 73, 61] from rfl]
  rfl

theorem exAsked (m : Server.AuthMode) (v : List Nat) (hm : Challenge.Asks (toMode m))
    (hv : ClientReq.HeaderText v)
    (hl : (ClientReq.requestText exCfg .simpleEnroll 4 (some v)).length ≤ 1026) :
    Asked exLib exToks exCfg 1 7 Flow.exInit (exUp m .none v) (exUp m (.value v) v)
      (Flow.sign ⟨1, [], none⟩ 7) (Flow.sign ⟨1, [], none⟩ 7) (exSrv m) (exSrv m) exCa
      (fun cr => check AuthHdr.exampleHash [101, 115, 116, 114, 101, 97, 108, 109] exDb exOk (read cr)) (toMode m) v := by
  have hS : Sound (exSrv m) := by
    refine ⟨rfl, hm, ?_, by cases m <;> decide, by cases m <;> decide, by cases m <;> decide, ?_⟩
    · unfold Challenge.RealmText; cases m <;> decide
    · intro ca rq hca
      rcases hca with h | h
      · injection h with h
        subst h
        unfold exCa
        dsimp only
        split <;> cases m <;> decide
      · injection h with h
        subst h
        exact ⟨by simp, by simp, by simp, by simp⟩
  have hR : Routes (exSrv m) exCfg .simpleEnroll := exRoutes _ rfl
  exact {
    tokens := rfl
    ready := rfl
    fresh := rfl
    gen1 := ⟨_, rfl, rfl⟩
    gen2 := ⟨_, rfl, rfl⟩
    send1 := exSendable none (.inl rfl)
    send2 := by
      have h := exSendable none (.inl rfl)
      exact ⟨h.ua, h.host, h.hostSet, h.seg, fun w hw => by injection hw with hw; rw [← hw]; exact hv, hl, h.small⟩
    sound1 := hS
    sound2 := hS
    route1 := hR
    route2 := hR
    same := rfl
    link1 := ⟨exSched, exUp_reply _ _ _ _, exArrives _ (by decide)⟩
    link2 := ⟨exSched, exUp_reply _ _ _ _, exArrives _ (by decide)⟩
    noCert1 := ⟨rfl, rfl⟩
    noCert2 := ⟨rfl, rfl⟩
    mode := rfl
    notFips := by rintro ⟨_, h⟩; cases h
    app := rfl
    sent := rfl
    ca := rfl
    inOrder := ⟨⟨_, rfl, rfl, by decide, .inr rfl⟩, fun h => by cases h⟩ }

/-- The application is asked about the header of an unknown user and refuses. -/
example : ∃ ret c', Flow.enroll exLib exCfg .enroll 1 (some 7)
      (.up (exUp .basic .none [66, 97, 115, 105, 99, 32, 100, 106, 112, 119]), .up (exUp .basic (.value [66, 97, 115, 105, 99, 32, 100, 106, 112, 119]) [66, 97, 115, 105, 99, 32, 100, 106, 112, 119]))
      Flow.exInit = some (ret, c') ∧ ret.err = .authFail ∧ c'.cert = Flow.exInit.cert :=
  (C107_application_decides
    (exAsked .basic [66, 97, 115, 105, 99, 32, 100, 106, 112, 119] (.inl rfl) ⟨by decide, by decide⟩ (by decide +kernel))
    { mode := .basic, user := some [118], pwd := some [112] } (some [118]) (by decide +kernel)).1 rfl

/-- The header of a user with Digest. -/
def exValue (pwd : List Nat) : List Nat :=
  AuthHdr.digestValueText AuthHdr.exampleHash [117] [101, 115, 116, 114, 101, 97, 108, 109] pwd [49, 55, 48, 48, 48, 48, 48, 48, 48, 48]
    (AuthHdr.hex [1, 2, 3, 4, 5, 6, 7, 8]) (digestUri .simpleEnroll)

theorem exDigest (pwd : List Nat) (hv : ClientReq.HeaderText (exValue pwd))
    (hl : (ClientReq.requestText exCfg .simpleEnroll 4 (some (exValue pwd))).length ≤ 1026)
    (hp : pwd.length ≤ 255) :
    (exDb [117] = some pwd → Succeeds exLib exCfg 1 7 Flow.exInit (exUp .digest .none (exValue pwd))
      (exUp .digest (.value (exValue pwd)) (exValue pwd)) [77, 73, 73, 67]) ∧
    (exDb [117] ≠ some pwd → Refused exLib exCfg 1 7 Flow.exInit (exUp .digest .none (exValue pwd))
      (exUp .digest (.value (exValue pwd)) (exValue pwd)) ∨ Collision AuthHdr.exampleHash) :=
  C107_digest_client_partial (exAsked .digest (exValue pwd) (.inr (.inl rfl)) hv hl)
    AuthHdr.exampleHash exDb exOk AuthHdr.exampleHash_ok (checks_exists _ _ _ _ _)
    [.setAuth (some [117]) (some pwd)] ⟨[101, 115, 116, 114, 101, 97, 108, 109], [49, 55, 48, 48, 48, 48, 48, 48, 48, 48], [], []⟩ [1, 2, 3, 4, 5, 6, 7, 8]
    ⟨by unfold Base64.Bytes; decide, rfl⟩
    (by
      have h : ¬ 255 < pwd.length := by omega
      simp [run, step, setUidPw, h])
    ⟨_, (exAsked .digest (exValue pwd) (.inr (.inl rfl)) hv hl).challenge.2, by decide +kernel⟩
    (by
      have h : ¬ 255 < pwd.length := by omega
      simp [run, step, setUidPw, h, addAuthHdr, configured, pair]
      rfl)
    [117] pwd (by simp [intended, lastPair]) (by unfold AuthHdr.Quotable; decide) (by decide +kernel) hp
    (by intro p h; simp [exDb] at h; subst h; decide) rfl (by decide)

/-- The right password. -/
example : Succeeds exLib exCfg 1 7 Flow.exInit (exUp .digest .none (exValue [112]))
    (exUp .digest (.value (exValue [112])) (exValue [112])) [77, 73, 73, 67] :=
  (exDigest [112] ⟨by decide +kernel, by decide +kernel⟩ (by decide +kernel) (by decide)).1 rfl

/-- Another one. -/
example : Refused exLib exCfg 1 7 Flow.exInit (exUp .digest .none (exValue [113]))
    (exUp .digest (.value (exValue [113])) (exValue [113])) ∨ Collision AuthHdr.exampleHash :=
  (exDigest [113] ⟨by decide +kernel, by decide +kernel⟩ (by decide +kernel) (by decide)).2 (by decide)

/-- Basic, with the values of the callback. -/
example : Succeeds exLib exCfg 1 7 Flow.exInit (exUp .basic .none [66, 97, 115, 105, 99, 32, 100, 84, 112, 119])
    (exUp .basic (.value [66, 97, 115, 105, 99, 32, 100, 84, 112, 119]) [66, 97, 115, 105, 99, 32, 100, 84, 112, 119]) [77, 73, 73, 67] :=
  (C107_basic_client_partial (exAsked .basic [66, 97, 115, 105, 99, 32, 100, 84, 112, 119] (.inl rfl) ⟨by decide, by decide⟩ (by decide +kernel))
    AuthHdr.exampleHash exDb exOk (checks_exists _ _ _ _ _)
    [.setCb (some fun _ => { user := some [117], pwd := some [112] })] exToks ⟨none, true⟩ [] rfl
    (by decide +kernel) [117] [112] rfl (by unfold AuthHdr.Chars; decide) (by unfold AuthHdr.Chars; decide)
    (by decide) (by decide) (by decide) (by decide) rfl (by decide)).1 rfl

/-- A token. -/
example : Succeeds exLib exCfg 1 7 Flow.exInit (exUp .token .none [66, 101, 97, 114, 101, 114, 32, 100, 71, 57, 114])
    (exUp .token (.value [66, 101, 97, 114, 101, 114, 32, 100, 71, 57, 114]) [66, 101, 97, 114, 101, 114, 32, 100, 71, 57, 114]) [77, 73, 73, 68] :=
  (C107_token_client_partial (exAsked .token [66, 101, 97, 114, 101, 114, 32, 100, 71, 57, 114] (.inr (.inr rfl)) ⟨by decide, by decide⟩ (by decide +kernel))
    AuthHdr.exampleHash exDb exOk (checks_exists _ _ _ _ _) [.setCb (some exCb)] exToks ⟨none, true⟩ [] rfl
    (by decide +kernel) [116, 111, 107] rfl (by unfold AuthHdr.Chars; decide) (by decide) (by decide) rfl
    (by decide)).1 rfl

end Verif.Cred
