import Verif.WireProps
import Verif.UrlProps
import Verif.DispatchProps

/-!
# C89, the consequences for users of the two APIs
-/
namespace Verif.Wire
open Verif.HttpHdr (getHeader caseEq)
open Verif.ClientResp (Mode decimal clientSees)
open Verif.ClientReq (HeaderText requestText toAuth path)
open Verif.Server (AuthMode Cred HdrRes Ev CaReq CaRes)

/-! ## Paths -/

/-- A path segment without characters that mean something in a URI, and not beginning with two
dots. -/
structure PlainSeg (s : List Nat) : Prop where
  chars : ∀ c ∈ s, c ≠ 0 ∧ c ≠ 37 ∧ c ≠ 47 ∧ c ≠ 92 ∧ c ≠ 63 ∧ c ≠ 35
  dots : ∀ t, s ≠ 46 :: 46 :: t
  set : s ≠ []
  len : s.length ≤ 128
  name : ∀ o, ¬ EstUri.SameFold s (EstUri.opName o)

theorem requestPath_plain (u : List Nat) (hc : ∀ c ∈ u, c ≠ 0 ∧ c ≠ 37 ∧ c ≠ 63)
    (hl : u.length ≤ 272) (hp : Url.CleanPath u) : Url.requestPath u = some u := by
  have h1 : u.takeWhile (· ≠ 63) = u := by
    have := List.takeWhile_append_of_pos (p := fun x : Nat => decide (x ≠ 63)) (l₁ := u) (l₂ := [])
      (fun c h => by simpa using (hc c h).2.2)
    simpa using this
  have h2 : Url.cstr u = u := by
    unfold Url.cstr
    have := List.takeWhile_append_of_pos (p := fun x : Nat => decide (x ≠ 0)) (l₁ := u) (l₂ := [])
      (fun c h => by simpa using (hc c h).1)
    simpa using this
  have henc : ∀ v : List Nat, (∀ c ∈ v, c ≠ 37) → Url.PctEnc v v := by
    intro v
    induction v with
    | nil => intro _; exact .nil
    | cons c t ih => intro h; exact .lit (h c (by simp)) (ih fun c hc => h c (by simp [hc]))
  unfold Url.requestPath
  simp only
  rw [h1, Nat.min_eq_left (by unfold Url.uriMaxLen; exact hl),
    Url.C15_decode_inverts_encoding (henc u fun c h => (hc c h).2.1) [0] _ (by omega)]
  simp only [Option.map_some, h2, Url.C16_clean_unchanged u hp]

theorem clean_word (w t : List Nat) (hw : ∀ c ∈ w, ¬ Url.Sep c) (ht : Url.CleanPath t) :
    Url.CleanPath (w ++ t) := by
  induction w with
  | nil => exact ht
  | cons c w ih =>
    exact Url.cleanPath_cons (ih fun c hc => hw c (by simp [hc])) fun h => absurd h (hw c (by simp))

theorem clean_seg (s t : List Nat) (hs : ∀ c ∈ s, ¬ Url.Sep c) (hne : s ≠ [])
    (hd : ∀ r, s ++ t ≠ 46 :: 46 :: r) (ht : Url.CleanPath t) : Url.CleanPath (47 :: (s ++ t)) := by
  refine Url.cleanPath_cons (clean_word s t hs ht) fun _ => ⟨?_, hd⟩
  intro y r h
  cases s with
  | nil => exact absurd rfl hne
  | cons c s =>
    simp only [List.cons_append, List.cons.injEq] at h
    rw [← h.1]
    exact hs c (by simp)

theorem clean_op (op : EstUri.Op) : Url.CleanPath (47 :: ClientReq.uriName op) := by
  have h := Url.C16_path_is_clean (47 :: ClientReq.uriName op)
  have e : Url.removeDots (47 :: ClientReq.uriName op) = 47 :: ClientReq.uriName op := by
    cases op <;> decide +kernel
  rwa [e] at h

/-- C89: a client without a path segment is understood by a server of either build. -/
theorem C89_routes_plain (s : Site) (cfg : ClientReq.Cfg) (op : EstUri.Op) (brski : Bool)
    (hu : s.uri = EstUri.parseUriPlain brski) (hs : cfg.seg = none)
    (hb : EstUri.isBrski op = true → brski = true) : Routes s cfg op := by
  have h := ClientReq.C62_operation cfg op hs brski hb
  unfold EstUri.dispatched at h
  unfold Routes
  cases hp : Url.requestPath (path cfg op) with
  | none => simp [hp] at h
  | some p =>
    refine ⟨p, rfl, ?_⟩
    simp only [hp] at h
    rw [hu, hs]
    have hseg : ∀ o g, EstUri.parseUriPlain brski p = .ok o g → g = none := by
      intro o g hg
      unfold EstUri.parseUriPlain at hg
      repeat' split at hg
      all_goals first | (simp at hg; exact hg.2.symm) | (simp at hg; done)
    cases hx : EstUri.parseUriPlain brski p with
    | ub => simp [hx] at h
    | err e => simp [hx] at h
    | ok o g =>
      simp [hx] at h
      rw [h, hseg o g hx]

/-- C89: the path segment of the client is the one that the server's CA is told, in the build
with path segments. -/
theorem C89_routes_segment (s : Site) (cfg : ClientReq.Cfg) (op : EstUri.Op) (brski : Bool)
    (uriOk : List Nat → Bool) (after : List Nat) (hok : ∀ u, uriOk u = true)
    (hu : s.uri = EstUri.parseUriLib brski uriOk after)
    (hs : ∀ g, cfg.seg = some g → PlainSeg g)
    (hb : EstUri.isBrski op = true → brski = true) : Routes s cfg op := by
  have hname : ClientReq.uriName op = EstUri.opName op := by cases op <;> rfl
  have hl : (ClientReq.uriName op).length ≤ 14 := by cases op <;> decide
  have hch : ∀ c ∈ 47 :: ClientReq.uriName op, c ≠ 0 ∧ c ≠ 37 ∧ c ≠ 63 := by cases op <;> decide
  have hst : EstUri.SegText (EstUri.opName op) := by
    cases op <;> simp [EstUri.SegText, EstUri.opName]
  have hopne : EstUri.opName op ≠ [] := by cases op <;> simp [EstUri.opName]
  have hlab : PlainSeg [108, 97, 98] := by
    refine ⟨by decide, by intro t; simp, by simp, by decide, ?_⟩
    intro o; cases o <;> decide
  have h53 : ∀ g, PlainSeg g →
      EstUri.parseUriLib brski uriOk after ([47, 46, 119, 101, 108, 108, 45, 107, 110, 111, 119, 110, 47, 101, 115, 116, 47] ++ EstUri.opName op) = .ok op none ∧
      EstUri.parseUriLib brski uriOk after ([47, 46, 119, 101, 108, 108, 45, 107, 110, 111, 119, 110, 47, 101, 115, 116, 47] ++ g ++ 47 :: EstUri.opName op) =
        .ok op (some g) := by
    intro g hg
    refine EstUri.C53_documented_paths_partial brski uriOk after g (EstUri.opName op) op rfl hst hopne
      hb (by cases op <;> decide) ?_ hg.set hg.len hg.name hok
    exact ⟨fun h => (hg.chars _ h).2.2.1 rfl, fun h => (hg.chars _ h).2.2.2.2.1 rfl,
      fun h => (hg.chars _ h).2.2.2.2.2 rfl⟩
  have hpre : ∀ c ∈ [47, 46, 119, 101, 108, 108, 45, 107, 110, 111, 119, 110, 47, 101, 115, 116], c ≠ 0 ∧ c ≠ 37 ∧ c ≠ 63 := by decide
  have hhead : ∀ t, Url.CleanPath (47 :: t) → Url.CleanPath ([47, 46, 119, 101, 108, 108, 45, 107, 110, 111, 119, 110, 47, 101, 115, 116] ++ 47 :: t) := by
    intro t ht
    have h1 := clean_seg [101, 115, 116] (47 :: t) (by intro c hc h; unfold Url.Sep at h; simp at hc; omega) (by simp) (by simp) ht
    have h2 := clean_seg [46, 119, 101, 108, 108, 45, 107, 110, 111, 119, 110] _ (by intro c hc h; unfold Url.Sep at h; simp at hc; omega) (by simp) (by simp) h1
    exact h2
  cases hseg : cfg.seg with
  | none =>
    have e : path cfg op = [47, 46, 119, 101, 108, 108, 45, 107, 110, 111, 119, 110, 47, 101, 115, 116] ++ 47 :: ClientReq.uriName op := by
      simp [path, hseg]
    refine ⟨path cfg op, requestPath_plain _ ?_ ?_ ?_, ?_⟩
    · rw [e]; intro c hc
      rcases List.mem_append.1 hc with h | h
      · exact hpre c h
      · exact hch c h
    · rw [e]; simp; omega
    · rw [e]; exact hhead _ (clean_op op)
    · rw [hu, e, hseg, hname]
      have := (h53 _ hlab).1
      simpa using this
  | some g =>
    have hg := hs g hseg
    have e : path cfg op = [47, 46, 119, 101, 108, 108, 45, 107, 110, 111, 119, 110, 47, 101, 115, 116] ++ 47 :: (g ++ 47 :: ClientReq.uriName op) := by
      simp [path, hseg]
    refine ⟨path cfg op, requestPath_plain _ ?_ ?_ ?_, ?_⟩
    · rw [e]; intro c hc
      rcases List.mem_append.1 hc with h | h
      · exact hpre c h
      · rcases List.mem_cons.1 h with rfl | h
        · decide
        · rcases List.mem_append.1 h with h | h
          · have := hg.chars c h; exact ⟨this.1, this.2.1, this.2.2.2.2.1⟩
          · exact hch c h
    · rw [e]; have := hg.len; simp; omega
    · rw [e]
      refine hhead _ (clean_seg g _ ?_ hg.set ?_ (clean_op op))
      · intro c hc h
        have := hg.chars c hc
        rcases h with h | h
        · exact this.2.2.1 h
        · exact this.2.2.2.1 h
      · intro r h
        cases g with
        | nil => exact hg.set rfl
        | cons a g =>
          cases g with
          | nil =>
            simp at h
          | cons b g =>
            simp only [List.cons_append, List.cons.injEq] at h
            exact hg.dots g (by rw [h.1, h.2.1])
    · rw [hu, e, hseg, hname]
      have := (h53 g hg).2
      simpa using this

example : Routes ⟨Server.demoServer, Server.certTls, EstUri.parseUriPlain false, fun _ _ => [], [], 0,
    true, 0⟩ ⟨[69, 83, 84], [99, 97, 46, 101, 120, 97, 109, 112, 108, 101], 8085, none⟩ .simpleEnroll :=
  C89_routes_plain _ _ _ false rfl rfl (fun h => by cases h)

/-! ## C89: enrolments that succeed -/

/-- `est_client_copy_enrolled_cert` succeeds and hands out this certificate. -/
def copied (cert : List Nat) : Flow.Ret := { err := .none, data := some cert }

/-- `est_client_enroll` followed by `est_client_copy_enrolled_cert`. -/
theorem enroll_then_copy {lib : Flow.Lib} {cfg : ClientReq.Cfg} {base key : Nat}
    {net : Flow.Conn × Flow.Conn} {c : Flow.Client} {ret : Flow.Ret} {c1 : Flow.Client}
    {cert : List Nat} (h : Flow.enroll lib cfg .enroll base (some key) net c = some (ret, c1))
    (hr : c1.ready = true) (hc : c1.cert = some cert) :
    Flow.run cfg c [(lib, .enroll base (some key) net), (lib, .copyCert)] =
      some ([ret, copied cert], { c1 with cert := none }) := by
  simp [Flow.run, Flow.step, h, Flow.copyCert, hr, hc, copied]

/-- C89: a client whose TLS certificate the server verified gets the certificate that the
server's CA made for its CSR. -/
theorem C89_certificate_client (lib : Flow.Lib) (toks : Challenge.Toks)
    (htok : lib.tokensOk = Challenge.tokensOk toks) (cfg : ClientReq.Cfg) (base key : Nat)
    (c : Flow.Client) (u : Flow.Up) (n2 : Flow.Conn) (id : List Nat) (csr : Flow.Csr) (s : Site)
    (sched : List HttpConn.Ev) (ca : CaReq → CaRes) (hready : c.ready = true)
    (hmode : c.mode = .none) (huid : u.uid = some id)
    (hgen : Flow.generate c u base key id = .ok csr) (hsnd : Sendable cfg .simpleEnroll none (lib.text csr))
    (hV : Sound s) (hR : Routes s cfg .simpleEnroll)
    (hu : u.reply = reply s sched (ClientReq.enrollRequest cfg .simpleEnroll .none (lib.text csr)))
    (harr : Arrives sched (1028 + (lib.text csr).length))
    (hpeer : Server.CertVerified s.tls)
    (hreq : s.srv.cfg.requireHttpAuth = false ∨ s.srv.cfg.authCb = none)
    (hcb : s.srv.cfg.enrollCb = some ca) (hcsr : CsrAccepted s (lib.text csr))
    (hrc : (ca ⟨lib.text csr, [], true, cfg.seg⟩).rc = .none)
    (hne : (ca ⟨lib.text csr, [], true, cfg.seg⟩).cert ≠ []) :
    ∃ ret c', Flow.run cfg c [(lib, .enroll base (some key) (.up u, n2)), (lib, .copyCert)] =
        some ([ret, copied (ca ⟨lib.text csr, [], true, cfg.seg⟩).cert], c') ∧
      ret.err = .none := by
  have hsome : s.tls.peer.isSome = true := by
    rcases hpeer with h | h <;> simp [h]
  have ha : Server.enrollAuth s.srv.cfg s.tls (.missing, ⟨.none, [], [], []⟩) s.srv.parse
      (if (false : Bool) then .reenroll else .enroll) (lib.text csr) =
      some { st := .certAuth } := by
    have hc : Server.checkTlsCert s.tls = some .certAuth := by
      rcases hpeer with h | h <;> simp [Server.checkTlsCert, h]
    unfold Server.enrollAuth
    simp only [hc, hV.http]
    cases hcb : s.srv.cfg.authCb with
    | none => simp
    | some cb =>
      have : s.srv.cfg.requireHttpAuth = false := by
        rcases hreq with h | h
        · exact h
        · rw [h] at hcb; cases hcb
      simp [this]
  obtain ⟨o, ho, horc, hoev⟩ := outcome_reached s false cfg.seg (lib.text csr) _ _ ca (by simpa using hcb)
    ha (.inr (.inr rfl)) rfl hcsr (by rw [hsome]; exact hrc) (by rw [hsome]; exact hne)
    (hV.cert ca _ (.inl hcb)).1 hV.http
  have hl : Link lib cfg .enroll c u csr s (.missing, ⟨.none, [], [], []⟩) o :=
    ⟨hV, hR, ⟨none, sched, hsnd, by rw [hmode]; rfl, hu, harr, rfl⟩, ho⟩
  obtain ⟨ret, c1, h1, h2⟩ := C89_first_attempt lib toks htok cfg base key c u n2 id csr s _ o hready
    huid hgen hl (.inl (by simp [horc]))
  obtain ⟨h3, cert, ⟨ca', rq, i1, i2, i3, i4, i5, i6, i7⟩, h5⟩ := h2.issued horc
  have hca : ca' = ca := by
    rw [if_neg (by decide), hcb] at i1
    exact (Option.some.inj i1).symm
  have hrq := hoev rq i2
  rw [hsome] at hrq
  refine ⟨ret, { c1 with mode := .none, cert := none }, ?_, h3⟩
  have := enroll_then_copy (cert := cert) h1 (by simp [h5, hready]) (by simp [h5])
  rw [this, ← i6, hca, hrq]
  rfl

/-! ### Example values -/

/-- A CA that gives the user "u" another certificate than the others. -/
def exCa (rq : CaReq) : CaRes := ⟨.none, if rq.user = [117] then [77, 73, 73, 67] else [77, 73, 73, 68]⟩

def exSrv : Server.Server :=
  { Server.demoServer with
    cfg := { Server.demoCfg with enrollCb := some exCa } }

/-- A server, with a client that has a verified certificate. -/
def exSite : Site where
  srv := exSrv
  tls := Server.certTls
  uri := EstUri.parseUriLib true (fun _ => true) []
  odd := fun _ _ => []
  realm := [101, 115, 116, 114, 101, 97, 108, 109]
  time := 1700000000
  keep := true
  out := 5000

/-- A server that asks for user name and password; the client has no certificate. -/
def exSite2 : Site :=
  { exSite with
    srv := { exSrv with
      cfg := { exSrv.cfg with
        authCb := some fun c => c.user == [117] && c.pwd == [112]
        requireHttpAuth := true } }
    tls := { Server.certTls with
      peer := none } }

def exToks : Challenge.Toks := ⟨[], [], [], []⟩
def exLib : Flow.Lib := { Flow.exLib with tokensOk := Challenge.tokensOk exToks }
def exCfg : ClientReq.Cfg := ⟨[69, 83, 84], [99, 97, 46, 101, 120, 97, 109, 112, 108, 101], 8085, some [108, 97, 98]⟩
def exSched : List HttpConn.Ev := [.avail 100, .avail 30, .avail 2000]

def exLink (s : Site) (a : ClientReq.Auth) : Flow.Up where
  uid := some [100, 87, 108, 107]
  auth := fun _ => .value [66, 97, 115, 105, 99, 32, 100, 84, 112, 119]
  reply := reply s exSched (ClientReq.enrollRequest exCfg .simpleEnroll a [77, 73, 73, 61])

theorem exSound (s : Site) (h : s.srv.cfg.transport = .http) (h2 : s.srv.cfg.authMode = .basic)
    (h3 : s.realm = [101, 115, 116, 114, 101, 97, 108, 109]) (h4 : s.time = 1700000000) (h5 : s.srv.cfg.retryPeriod = 3600)
    (h6 : s.srv.cfg.enrollCb = some exCa)
    (h7 : s.srv.cfg.reenrollCb = some fun _ => ⟨.caEnrollRetry, []⟩) (h8 : s.out = 5000) :
    Sound s := by
  refine ⟨h, .inl (by rw [h2]; rfl), ?_, by rw [h3]; decide, by rw [h4]; decide, by omega, ?_⟩
  · rw [h3]; unfold Challenge.RealmText; decide
  · intro ca rq hca
    rw [h6, h7, h8] at *
    rcases hca with h | h
    · injection h with h
      subst h
      unfold exCa
      dsimp only
      split <;> decide
    · injection h with h
      subst h
      exact ⟨by simp, by simp, by simp, by simp⟩

theorem exSendable (auth : Option (List Nat)) (h : auth = none ∨ auth = some [66, 97, 115, 105, 99, 32, 100, 84, 112, 119]) :
    Sendable exCfg .simpleEnroll auth [77, 73, 73, 61] := by
  refine ⟨⟨by decide, by decide⟩, ⟨by decide, by decide⟩, by decide, ?_, ?_, ?_, by decide⟩
  · intro s hs; injection hs with hs; subst hs; decide
  · intro v hv
    rcases h with h | h
    · rw [h] at hv; cases hv
    · rw [h] at hv; injection hv with hv; subst hv; exact ⟨by decide, by decide⟩
  · rcases h with rfl | rfl <;> decide +kernel

theorem exReply (s : Site) (a : ClientReq.Auth) (csr : Flow.Csr) : (exLink s a).reply =
    reply s exSched (ClientReq.enrollRequest exCfg .simpleEnroll a (exLib.text csr)) := by
  rw [show exLib.text csr = [77, 73, 73, 61] from rfl]
  rfl

theorem exArrives (n : Nat) (h : n ≤ 2130) : Arrives exSched n :=
  ⟨by simp [exSched], by simpa [exSched, total] using h⟩

theorem exRoutes (s : Site) (h : s.uri = EstUri.parseUriLib true (fun _ => true) []) :
    Routes s exCfg .simpleEnroll := by
  refine C89_routes_segment s exCfg .simpleEnroll true (fun _ => true) [] (fun _ => rfl) h ?_
    (fun h => by cases h)
  intro g hg
  injection hg with hg
  subst hg
  refine ⟨by decide, by intro t; simp, by simp, by decide, ?_⟩
  intro o; cases o <;> decide

example : ∃ ret c', Flow.run exCfg Flow.exInit
      [(exLib, .enroll 1 (some 7) (.up (exLink exSite .none), .down .connect)), (exLib, .copyCert)] =
      some ([ret, copied [77, 73, 73, 68]], c') ∧ ret.err = .none :=
  C89_certificate_client exLib exToks rfl exCfg 1 7 Flow.exInit _ _ [100, 87, 108, 107] _ exSite exSched exCa rfl
    rfl rfl rfl (exSendable none (.inl rfl)) (exSound _ rfl rfl rfl rfl rfl rfl rfl rfl)
    (exRoutes _ rfl) (exReply _ _ _) (exArrives _ (by decide)) (.inl rfl) (.inl rfl) rfl
    ⟨⟨_, rfl, rfl, by decide, .inr rfl⟩, by decide⟩ rfl (by decide)

/-- C89: a client without certificate is asked for user name and password; if the server's
application accepts them, the client gets the certificate that the CA made for the CSR of the
second request, and the CA was told the user name. -/
theorem C89_password_client (lib : Flow.Lib) (toks : Challenge.Toks)
    (htok : lib.tokensOk = Challenge.tokensOk toks) (cfg : ClientReq.Cfg) (base key : Nat)
    (c : Flow.Client) (u u2 : Flow.Up) (id id2 : List Nat) (csr csr2 : Flow.Csr) (s s2 : Site)
    (sched sched2 : List HttpConn.Ev) (ca : CaReq → CaRes) (cb : Cred → Bool)
    (user pwd v : List Nat) (hready : c.ready = true)
    (hmode : c.mode = .none) (huid : u.uid = some id) (huid2 : u2.uid = some id2)
    (hgen : Flow.generate c u base key id = .ok csr)
    (hgen2 : Flow.generate { c with mode := .basic } u2 base key id2 = .ok csr2)
    (hsnd : Sendable cfg .simpleEnroll none (lib.text csr))
    (hsnd2 : Sendable cfg .simpleEnroll (some v) (lib.text csr2))
    (hV : Sound s) (hV2 : Sound s2) (hR : Routes s cfg .simpleEnroll)
    (hR2 : Routes s2 cfg .simpleEnroll) (hsame : s2.srv = s.srv)
    (hu : u.reply = reply s sched (ClientReq.enrollRequest cfg .simpleEnroll .none (lib.text csr)))
    (hu2 : u2.reply =
      reply s2 sched2 (ClientReq.enrollRequest cfg .simpleEnroll (.value v) (lib.text csr2)))
    (harr : Arrives sched (1028 + (lib.text csr).length))
    (harr2 : Arrives sched2 (1028 + (lib.text csr2).length))
    (hpeer : s.tls.peer = none ∧ s.tls.srpUser = false)
    (hpeer2 : s2.tls.peer = none ∧ s2.tls.srpUser = false)
    (hbasic : s.srv.cfg.authMode = .basic) (hauth : s.srv.cfg.authCb = some cb)
    (hval : AuthHdr.basicValue user pwd = some v) (hu2a : u2.auth .basic = .value v)
    (huser : AuthHdr.Chars user) (hpwd : AuthHdr.Chars pwd)
    (hul : user.length ≤ 255) (hpl : pwd.length ≤ 255) (hcolon : 58 ∉ user) (hune : user ≠ [])
    (hacc : ∀ cr : Cred, cr.mode = .basic → cr.user = user → cr.pwd = pwd → cb cr = true)
    (hcb : s.srv.cfg.enrollCb = some ca) (hcsr : CsrAccepted s2 (lib.text csr2))
    (hrc : (ca ⟨lib.text csr2, user, false, cfg.seg⟩).rc = .none)
    (hne : (ca ⟨lib.text csr2, user, false, cfg.seg⟩).cert ≠ []) :
    ∃ ret c', Flow.run cfg c [(lib, .enroll base (some key) (.up u, .up u2)), (lib, .copyCert)] =
        some ([ret, copied (ca ⟨lib.text csr2, user, false, cfg.seg⟩).cert], c') ∧
      ret.err = .none := by
  -- the first request is answered with a challenge
  have ho1 : ∃ o, outcome s false cfg.seg (lib.text csr) (.missing, ⟨.none, [], [], []⟩) = some o ∧
      o.rc = .authPending := by
    have ha : Server.enrollAuth s.srv.cfg s.tls (.missing, ⟨.none, [], [], []⟩) s.srv.parse
        .enroll (lib.text csr) =
        some { st := .httpAuthPending, csr := none, evs := Server.challenge s.srv.cfg.authMode } := by
      unfold Server.enrollAuth
      simp [Server.checkTlsCert, hpeer.1, hpeer.2, hV.http, hauth]
    unfold outcome Server.simpleEnroll
    simp only [Bool.false_eq_true, if_false, hcb]
    rw [if_neg (by simp [Server.ctPkcs10])]
    simp only [ha]
    exact ⟨_, rfl, rfl⟩
  obtain ⟨o1, ho1, ho1rc⟩ := ho1
  have hl : Link lib cfg .enroll c u csr s (.missing, ⟨.none, [], [], []⟩) o1 :=
    ⟨hV, hR, ⟨none, sched, hsnd, by rw [hmode]; rfl, hu, harr, rfl⟩, ho1⟩
  -- the second one is accepted
  have hdr2 : AuthHdr.parseAuthHeader s2.odd .basic (some v) =
      .good { mode := .basic, user := some user, pwd := some pwd } (some user) := by
    obtain ⟨v', e1, e2⟩ := AuthHdr.C33_basic_round_trip_partial s2.odd user pwd huser hpwd hul hpl
      hcolon hune
    rw [hval] at e1
    cases e1
    exact e2
  obtain ⟨cr, hcr⟩ : ∃ cr, cr = credOf { mode := .basic, user := some user, pwd := some pwd } := ⟨_, rfl⟩
  have hcm : cr.mode = .basic ∧ cr.user = user ∧ cr.pwd = pwd := by rw [hcr]; exact ⟨rfl, rfl, rfl⟩
  have ha : Server.enrollAuth s2.srv.cfg s2.tls (.good, cr) s2.srv.parse
      (if (false : Bool) then .reenroll else .enroll) (lib.text csr2) =
      some { st := .httpAuth, csr := none, user := some user, evs := [.askApp cr] } := by
    unfold Server.enrollAuth
    have hx := hacc cr hcm.1 hcm.2.1 hcm.2.2
    have hh := hV2.http
    rw [hsame] at hh ⊢
    simp [Server.checkTlsCert, hpeer2.1, hpeer2.2, hh, hauth, hx, hcm.1, hcm.2.1]
  have hnone : s2.tls.peer.isSome = false := by simp [hpeer2.1]
  obtain ⟨o, ho, horc, hoev⟩ := outcome_reached s2 false cfg.seg (lib.text csr2) _ _ ca
    (by rw [hsame]; simpa using hcb) ha (.inl rfl) rfl hcsr (by rw [hnone]; exact hrc)
    (by rw [hnone]; exact hne) (hV2.cert ca _ (.inl (by rw [hsame]; exact hcb))).1 hV2.http
  have htm : toMode s.srv.cfg.authMode = .basic := by rw [hbasic]; rfl
  have hl2 : Link lib cfg .enroll { c with mode := toMode s.srv.cfg.authMode } u2 csr2 s2
      (.good, cr) o := by
    refine ⟨hV2, hR2, ⟨some v, sched2, hsnd2, ?_, hu2, harr2, ?_⟩, ho⟩
    · rw [htm]; exact hu2a
    · rw [hsame, htm, hdr2, hcr]; rfl
  obtain ⟨ret, c1, h1, h2⟩ := C89_second_attempt lib toks htok cfg base key c u u2 id id2 csr csr2 s s2
    _ _ o1 o hready huid huid2 hgen (by rw [htm]; exact hgen2) hl hl2 ho1rc
    (by rw [hmode]; simp [Flow.Asked]) (by simp [hbasic])
  obtain ⟨h3, cert, ⟨ca', rq, i1, i2, i3, i4, i5, i6, i7⟩, h5⟩ := h2.issued horc
  have hca : ca' = ca := by
    rw [if_neg (by decide), hsame, hcb] at i1
    exact (Option.some.inj i1).symm
  have hrq := hoev rq i2
  rw [hnone] at hrq
  refine ⟨ret, { c1 with mode := .none, cert := none }, ?_, h3⟩
  have := enroll_then_copy (cert := cert) h1 (by simp [h5, hready]) (by simp [h5])
  rw [this, ← i6, hca, hrq]
  rfl

example : ∃ ret c', Flow.run exCfg Flow.exInit
      [(exLib, .enroll 1 (some 7) (.up (exLink exSite2 .none),
        .up (exLink exSite2 (.value [66, 97, 115, 105, 99, 32, 100, 84, 112, 119])))), (exLib, .copyCert)] =
      some ([ret, copied [77, 73, 73, 67]], c') ∧ ret.err = .none :=
  C89_password_client exLib exToks rfl exCfg 1 7 Flow.exInit _ _ [100, 87, 108, 107] [100, 87, 108, 107] _ _ exSite2 exSite2
    exSched exSched exCa _ [117] [112] [66, 97, 115, 105, 99, 32, 100, 84, 112, 119] rfl rfl rfl rfl rfl rfl (exSendable none (.inl rfl))
    (exSendable _ (.inr rfl)) (exSound _ rfl rfl rfl rfl rfl rfl rfl rfl)
    (exSound _ rfl rfl rfl rfl rfl rfl rfl rfl) (exRoutes _ rfl) (exRoutes _ rfl) rfl (exReply _ _ _)
    (exReply _ _ _)
    (exArrives _ (by decide)) (exArrives _ (by decide)) ⟨rfl, rfl⟩ ⟨rfl, rfl⟩ rfl rfl
    (by decide +kernel) rfl (by unfold AuthHdr.Chars; decide) (by unfold AuthHdr.Chars; decide)
    (by decide) (by decide) (by decide) (by decide)
    (by intro cr h1 h2 h3; simp [h2, h3]) rfl
    ⟨⟨_, rfl, rfl, by decide, .inr rfl⟩, by decide⟩ rfl (by decide)

/-! ## C89: success means that a certificate was issued -/

theorem Reported.success {s : Site} {re : Bool} {seg : Option (List Nat)} {csr : List Nat}
    {c : Flow.Client} {o : Server.Out} {err : EstErr} {c' : Flow.Client}
    (h : Reported s re seg csr c o err c') (he : err = .none) :
    ∃ cert, Issued s re seg csr o cert ∧ c'.cert = some cert := by
  by_cases h1 : o.rc = .none
  · obtain ⟨_, cert, h2, h3⟩ := h.issued h1
    exact ⟨cert, h2, by rw [h3]⟩
  · exfalso
    by_cases h2 : o.rc = .caEnrollRetry
    · have := (h.later h2).1; rw [he] at this; simp at this
    · by_cases h3 : o.rc = .authPending
      · have := (h.challenged h3).1; rw [he] at this; simp at this
      · have := (h.refused h1 h2 h3).1
        rw [he] at this
        exact clientSees_none _ this.symm

/-- C89: if `est_client_enroll` reports success for a connection that leads to the server, then
the certificate it stored was returned by the CA callback for the CSR of the client, and the
server had authenticated the client and found the CSR in order. -/
theorem C89_success_means_issued (lib : Flow.Lib) (toks : Challenge.Toks)
    (htok : lib.tokensOk = Challenge.tokensOk toks) (cfg : ClientReq.Cfg) (base key : Nat)
    (c : Flow.Client) (u : Flow.Up) (n2 : Flow.Conn) (id : List Nat) (csr : Flow.Csr) (s : Site)
    (hdr : HdrRes × Cred) (o : Server.Out) (hready : c.ready = true) (huid : u.uid = some id)
    (hgen : Flow.generate c u base key id = .ok csr) (hl : Link lib cfg .enroll c u csr s hdr o)
    (hn : o.rc ≠ .authPending ∨ Flow.Asked c.mode) (ret : Flow.Ret) (c' : Flow.Client)
    (h : Flow.enroll lib cfg .enroll base (some key) (.up u, n2) c = some (ret, c'))
    (he : ret.err = .none) :
    ∃ cert, Issued s false cfg.seg (lib.text csr) o cert ∧ c'.cert = some cert ∧
      (Server.CertVerified s.tls ∨ Server.SrpLogin s.tls ∨ Server.AppAccepted s.srv.cfg o.evs) ∧
      (∃ x, s.srv.parse (lib.text csr) = some x ∧ x.hasPubkey = true ∧ x.verifyRc > 0 ∧
        (Server.IsRA s.tls ∨ Server.PopHeld s.srv.cfg s.tls x)) := by
  obtain ⟨ret', c1, h1, h2⟩ := C89_first_attempt lib toks htok cfg base key c u n2 id csr s hdr o
    hready huid hgen hl hn
  rw [h] at h1
  simp only [Option.some.injEq, Prod.mk.injEq] at h1
  obtain ⟨rfl, rfl⟩ := h1
  obtain ⟨cert, h3, h4⟩ := h2.success he
  refine ⟨cert, h3, h4, ?_⟩
  obtain ⟨ca, rq, _, i2, _⟩ := h3
  have := Server.C20_ca_only_after_checks hl.done i2
  exact ⟨this.2.2.1, this.2.2.2.1⟩

/-- The hypotheses of the theorems about attempts hold of the example, the call succeeds. -/
theorem exLinked : ∃ o, Link exLib exCfg .enroll Flow.exInit (exLink exSite .none)
    (Flow.sign ⟨1, [], none⟩ 7) exSite (.missing, ⟨.none, [], [], []⟩) o ∧ o.rc = .none := by
  refine ⟨_, ⟨exSound _ rfl rfl rfl rfl rfl rfl rfl rfl, exRoutes _ rfl,
    ⟨none, exSched, exSendable none (.inl rfl), rfl, exReply _ _ _, exArrives _ (by decide), rfl⟩, rfl⟩, rfl⟩

example : ∃ o ret c', Flow.enroll exLib exCfg .enroll 1 (some 7)
      (.up (exLink exSite .none), .down .connect) Flow.exInit = some (ret, c') ∧ ret.err = .none ∧
    ∃ cert, Issued exSite false exCfg.seg [77, 73, 73, 61] o cert ∧ c'.cert = some cert ∧
      (Server.CertVerified exSite.tls ∨ Server.SrpLogin exSite.tls ∨
        Server.AppAccepted exSite.srv.cfg o.evs) := by
  obtain ⟨o, hl, ho⟩ := exLinked
  obtain ⟨ret, c', h1, h2⟩ := C89_first_attempt exLib exToks rfl exCfg 1 7 Flow.exInit _ (.down .connect)
    [100, 87, 108, 107] _ exSite _ o rfl rfl rfl hl (.inl (by simp [ho]))
  obtain ⟨cert, h3, h4, h5, _⟩ := C89_success_means_issued exLib exToks rfl exCfg 1 7 Flow.exInit _
    (.down .connect) [100, 87, 108, 107] _ exSite _ o rfl rfl rfl hl (.inl (by simp [ho])) _ _ h1 (h2.issued ho).1
  exact ⟨o, ret, _, h1, (h2.issued ho).1, cert, h3, h4, h5⟩

/-- A second request after a challenge. -/
example : ∃ ret c', Flow.enroll exLib exCfg .enroll 1 (some 7) (.up (exLink exSite2 .none),
      .up (exLink exSite2 (.value [66, 97, 115, 105, 99, 32, 100, 84, 112, 119]))) Flow.exInit = some (ret, c') ∧ ret.err = .none := by
  obtain ⟨ret, c1, h1, h2⟩ := C89_second_attempt exLib exToks rfl exCfg 1 7 Flow.exInit
    (exLink exSite2 .none) (exLink exSite2 (.value [66, 97, 115, 105, 99, 32, 100, 84, 112, 119])) [100, 87, 108, 107] [100, 87, 108, 107]
    (Flow.sign ⟨1, [], none⟩ 7) (Flow.sign ⟨1, [], none⟩ 7) exSite2 exSite2
    (.missing, ⟨.none, [], [], []⟩)
    (.good, credOf { mode := .basic, user := some [117], pwd := some [112] }) _ _ rfl rfl rfl rfl rfl
    ⟨exSound _ rfl rfl rfl rfl rfl rfl rfl rfl, exRoutes _ rfl,
      ⟨none, exSched, exSendable none (.inl rfl), rfl, exReply _ _ _, exArrives _ (by decide), rfl⟩, rfl⟩
    ⟨exSound _ rfl rfl rfl rfl rfl rfl rfl rfl, exRoutes _ rfl,
      ⟨some [66, 97, 115, 105, 99, 32, 100, 84, 112, 119], exSched, exSendable _ (.inr rfl), rfl, exReply _ _ _, exArrives _ (by decide),
        by decide +kernel⟩, rfl⟩ rfl (by decide) (by decide)
  exact ⟨ret, _, h1, (h2.issued rfl).1⟩

/-! ## C89: re-enrolment -/

/-- The CSR of a re-enrolment: that made of the certificate, without challengePassword
attributes of its own, with the one for this connection if proof of possession is due, and
signed. -/
def renewed (c : Flow.Client) (id : List Nat) (key : Nat) (csr : Flow.Csr) : Flow.Csr :=
  let as := csr.attrs.filter (!·.isChal)
  let as := if c.popReq || c.forcePop then as ++ [.chal id] else as
  ⟨csr.base, as, some (key, as)⟩

theorem pkcs10_renewed (lib : Flow.Lib) (cfg : ClientReq.Cfg) (k : Flow.Kind) (key : Nat)
    (c : Flow.Client) (u : Flow.Up) (csr : Flow.Csr) (id : List Nat) (huid : u.uid = some id)
    (ha : u.addOk = true) (hs : u.signOk = true) :
    Flow.enrollPkcs10 lib cfg k key c u csr = Flow.enrollReq lib cfg k c u (renewed c id key csr) := by
  unfold Flow.enrollPkcs10 renewed
  rw [Flow.clearPop_eq]
  cases hp : (c.popReq || c.forcePop) <;> simp [huid, ha, hs, Flow.sign, Flow.plain]

/-- C89: `est_client_reenroll`, answered without a challenge.  The context keeps the mode that
the answer left (C27). -/
theorem C89_reenroll (lib : Flow.Lib) (toks : Challenge.Toks)
    (htok : lib.tokensOk = Challenge.tokensOk toks) (cfg : ClientReq.Cfg) (old : Flow.OldCert)
    (key : Nat) (c : Flow.Client) (u : Flow.Up) (n2 : Flow.Conn) (id : List Nat) (csr : Flow.Csr)
    (s : Site) (hdr : HdrRes × Cred) (o : Server.Out) (hready : c.ready = true)
    (hold : old.signed = true ∧ old.csr = some csr ∧ (old.exts = true → old.extsOk = true))
    (huid : u.uid = some id) (ha : u.addOk = true) (hs : u.signOk = true)
    (hl : Link lib cfg .reenroll c u (renewed c id key csr) s hdr o)
    (hn : o.rc ≠ .authPending ∨ Flow.Asked c.mode) :
    ∃ ret c', Flow.reenroll lib cfg (some old) (some (key, true)) (.up u, n2) c = some (ret, c') ∧
      Reported s true cfg.seg (lib.text (renewed c id key csr)) c o ret.err c' := by
  obtain ⟨r, h1, h2, h3⟩ := hl.result htok (by decide)
  replace h3 : Reported s true cfg.seg (lib.text (renewed c id key csr)) c o r.err r.client := h3
  refine ⟨{ err := r.err, sent := r.sent }, r.client, ?_, h3⟩
  have ht : Flow.twice lib.fips (.up u, n2) (Flow.enrollPkcs10 lib cfg .reenroll key) c csr =
      some (r, false) := by
    unfold Flow.twice
    simp only [pkcs10_renewed lib cfg .reenroll key c u csr id huid ha hs, h1]
    rw [if_neg (h3.final hn)]
  unfold Flow.reenroll
  simp only [hready, hold.1, hold.2.1, ht]
  have hx : ¬ ((old.exts && !old.extsOk) = true) := by
    cases he : old.exts with
    | false => simp
    | true => simp [hold.2.2 he]
  rw [if_neg (by simp), if_neg (by simp), if_neg (by simp), if_neg hx]

def exReLink (s : Site) (a : ClientReq.Auth) : Flow.Up where
  uid := some [100, 87, 108, 107]
  auth := fun _ => .value [66, 97, 115, 105, 99, 32, 100, 84, 112, 119]
  reply := reply s exSched (ClientReq.enrollRequest exCfg .simpleReenroll a [77, 73, 73, 61])

/-- The CA of the example asks to come back an hour later. -/
example : ∃ ret c', Flow.reenroll exLib exCfg (some ⟨true, some ⟨1, [.chal [1]], none⟩, false, true⟩)
      (some (7, true)) (.up (exReLink exSite .none), .down .connect) Flow.exInit = some (ret, c') ∧
    ret.err = .caEnrollRetry ∧ c'.delay = 3600 := by
  have hr : Routes exSite exCfg .simpleReenroll := by
    refine C89_routes_segment exSite exCfg .simpleReenroll true (fun _ => true) [] (fun _ => rfl) rfl ?_
      (fun h => by cases h)
    intro g hg
    injection hg with hg
    subst hg
    refine ⟨by decide, by intro t; simp, by simp, by decide, ?_⟩
    intro o; cases o <;> decide
  have hsn : Sendable exCfg .simpleReenroll none [77, 73, 73, 61] := by
    refine ⟨⟨by decide, by decide⟩, ⟨by decide, by decide⟩, by decide, ?_, ?_, by decide +kernel,
      by decide⟩
    · intro s hs; injection hs with hs; subst hs; decide
    · intro v hv; cases hv
  have hrep : (exReLink exSite .none).reply = reply exSite exSched (ClientReq.enrollRequest exCfg
      .simpleReenroll .none (exLib.text (renewed Flow.exInit [100, 87, 108, 107] 7 ⟨1, [.chal [1]], none⟩))) := by
    rw [show exLib.text _ = [77, 73, 73, 61] from rfl]
    rfl
  obtain ⟨ret, c', h1, h2⟩ := C89_reenroll exLib exToks rfl exCfg
    ⟨true, some ⟨1, [.chal [1]], none⟩, false, true⟩ 7 Flow.exInit _ (.down .connect) [100, 87, 108, 107]
    ⟨1, [.chal [1]], none⟩ exSite (.missing, ⟨.none, [], [], []⟩) _ rfl ⟨rfl, rfl, by decide⟩ rfl rfl rfl
    ⟨exSound _ rfl rfl rfl rfl rfl rfl rfl rfl, hr,
      ⟨none, exSched, hsn, rfl, hrep, exArrives _ (by decide), rfl⟩, rfl⟩ (.inl (by decide))
  obtain ⟨h3, h4⟩ := h2.later rfl
  exact ⟨ret, c', h1, h3, by rw [h4]; rfl⟩

end Verif.Wire
