import Verif.WireBrskiModel
import Verif.WireKeygenProps
import Verif.VoucherProps

/-!
# Property C112: BRSKI, from the pledge's API to the registrar's callbacks and back

The client of `Verif.Voucher` and the registrar of `Verif.Wire` are put together: the bytes the
one writes are the bytes the other reads.
-/
namespace Verif.Wire
open Verif.HttpHdr (getHeader caseEq Hdr WellFormed lines line parseRequest)
open Verif.ClientResp (Mode decimal errorText retryText getResponse clientSees wf_of decimal_head
  decimal_digits)
open Verif.ClientReq (HeaderText Printable toAuth path reqLen_lines reqLen_line)
open Verif.Server (AuthMode Cred HdrRes DOut BEv Ev BrskiOp BrskiRc AuthState)

/-! ## The request -/

/-- The headers of a BRSKI request. -/
def brskiHeaders (cfg : ClientReq.Cfg) (ct : List Nat) (n : Nat) (auth : Option (List Nat)) :
    List Hdr :=
  [⟨[85, 115, 101, 114, 45, 65, 103, 101, 110, 116], cfg.ua⟩, ⟨[67, 111, 110, 110, 101, 99, 116, 105, 111, 110], [99, 108, 111, 115, 101]⟩,
   ⟨[72, 111, 115, 116], cfg.server ++ 58 :: decimal cfg.port⟩, ⟨[65, 99, 99, 101, 112, 116], [42, 47, 42]⟩,
   ⟨[67, 111, 110, 116, 101, 110, 116, 45, 84, 121, 112, 101], ct⟩, ⟨[67, 111, 110, 116, 101, 110, 116, 45, 76, 101, 110, 103, 116, 104], decimal n⟩] ++
  (match auth with | none => [] | some v => [⟨[65, 117, 116, 104, 111, 114, 105, 122, 97, 116, 105, 111, 110], v⟩])

/-- The request text, as RFC 7230 has it. -/
def brskiText (cfg : ClientReq.Cfg) (op : EstUri.Op) (ct : List Nat) (n : Nat)
    (auth : Option (List Nat)) : List Nat :=
  [80, 79, 83, 84] ++ 32 :: (path cfg op ++ 32 :: ([72, 84, 84, 80, 47, 49, 46, 49] ++ 13 :: 10 ::
    lines ((brskiHeaders cfg ct n auth).map (fun h => (h, 1))) [13, 10]))

theorem brski_header (cfg : ClientReq.Cfg) (op : EstUri.Op) (ct : List Nat) (n : Nat)
    (auth : Option (List Nat)) (hl : (brskiText cfg op ct n auth).length ≤ 5000) :
    Voucher.header cfg op ct n (toAuth auth) ++ [13, 10] = brskiText cfg op ct n auth ∧
    Voucher.header cfg op ct n (toAuth auth) ≠ [] := by
  have hp : Voucher.hdrText cfg op ct n ++ [13, 10] = brskiText cfg op ct n none := by
    simp [Voucher.hdrText, brskiText, brskiHeaders, ClientReq.common, lines, line]
  cases auth with
  | none =>
    have hpl : (Voucher.hdrText cfg op ct n).length ≤ 5000 := by
      rw [← hp] at hl; simp at hl; omega
    unfold Voucher.header toAuth ClientReq.addAuth
    simp only
    rw [List.take_of_length_le (by unfold ClientReq.totalLen; omega)]
    exact ⟨hp, by simp [Voucher.hdrText]⟩
  | some v =>
    have hv : Voucher.hdrText cfg op ct n ++ ([65, 117, 116, 104, 111, 114, 105, 122, 97, 116, 105, 111, 110, 58, 32] ++ (v ++ [13, 10])) ++ [13, 10] =
        brskiText cfg op ct n (some v) := by
      simp [Voucher.hdrText, brskiText, brskiHeaders, ClientReq.common, lines, line]
    have hpl : (Voucher.hdrText cfg op ct n).length + v.length + 17 ≤ 5000 := by
      rw [← hv] at hl; simp at hl; omega
    unfold Voucher.header toAuth
    simp only
    rw [List.take_of_length_le (by unfold ClientReq.totalLen; omega),
      ClientReq.addAuth_value _ _ (by omega)]
    exact ⟨hv, by simp [Voucher.hdrText]⟩

theorem printable_brskiHeaders (cfg : ClientReq.Cfg) (ct : List Nat) (n : Nat)
    (auth : Option (List Nat)) (hua : HeaderText cfg.ua) (hs : HeaderText cfg.server)
    (hsne : cfg.server ≠ []) (hct : HeaderText ct) (ha : ∀ v, auth = some v → HeaderText v) :
    ∀ h ∈ brskiHeaders cfg ct n auth, WellFormed h ∧ Printable h := by
  have hd : ∀ n, ∀ c ∈ decimal n, 32 ≤ c ∧ c ≤ 126 := by
    intro n c hc; have := decimal_digits n c hc; omega
  have mk : ∀ (name v : List Nat), name ≠ [] → (∀ c ∈ name, 32 ≤ c ∧ c ≤ 126 ∧ c ≠ 58) →
      HeaderText v → WellFormed ⟨name, v⟩ ∧ Printable ⟨name, v⟩ := by
    intro name v h1 h2 h3
    refine ⟨wf_of h1 (fun c hc => ?_) (fun c hc => ?_) h3.start, ⟨fun c hc => ?_, h3.chars⟩⟩
    · have := h2 c hc; omega
    · have := h3.chars c hc; omega
    · have := h2 c hc; exact ⟨this.1, this.2.1⟩
  intro h hh
  unfold brskiHeaders at hh
  simp only [List.cons_append, List.nil_append, List.mem_cons] at hh
  rcases hh with rfl | rfl | rfl | rfl | rfl | rfl | hh
  · exact mk _ _ (by simp) (by decide) hua
  · exact mk _ _ (by simp) (by decide) ⟨by decide, by decide⟩
  · refine mk _ _ (by simp) (by decide) ⟨?_, ?_⟩
    · intro c hc
      rcases List.mem_append.1 hc with h | h
      · exact hs.chars c h
      · rcases List.mem_cons.1 h with rfl | h
        · decide
        · exact hd _ c h
    · cases hcs : cfg.server with
      | nil => exact absurd hcs hsne
      | cons c t => have := hs.start; rw [hcs] at this; simpa using this
  · exact mk _ _ (by simp) (by decide) ⟨by decide, by decide⟩
  · exact mk _ _ (by simp) (by decide) hct
  · exact mk _ _ (by simp) (by decide) ⟨hd _, decimal_head _⟩
  · cases auth with
    | none => cases hh
    | some v =>
      simp only [List.mem_cons, List.not_mem_nil, or_false] at hh
      subst hh
      exact mk _ _ (by simp) (by decide) (ha v rfl)

/-- The pledge's request can be sent: its parts are texts without control characters, and it
fits into the buffer. -/
structure SendableB (cfg : ClientReq.Cfg) (op : EstUri.Op) (ct : List Nat)
    (auth : Option (List Nat)) (body : List Nat) : Prop where
  ua : HeaderText cfg.ua
  host : HeaderText cfg.server
  hostSet : cfg.server ≠ []
  seg : ∀ s, cfg.seg = some s → ∀ c ∈ s, 33 ≤ c ∧ c ≤ 126
  type : HeaderText ct
  cred : ∀ v, auth = some v → HeaderText v
  small : body.length ≤ 4096
  fits : (brskiText cfg op ct body.length auth).length + body.length ≤ 5122
  short : (brskiText cfg op ct body.length auth).length ≤ 5000

theorem brski_reads (cfg : ClientReq.Cfg) (op : EstUri.Op) (ct body : List Nat)
    (auth : Option (List Nat)) (h : SendableB cfg op ct auth body) :
    ∃ hd, Voucher.assemble (Voucher.header cfg op ct body.length (toAuth auth)) body =
        .sent ((hd ++ (body ++ [13, 10])).map some) ∧
      HttpConn.getRequestLen (hd ++ (body ++ [13, 10])) = hd.length ∧
      parseRequest hd = some ⟨[80, 79, 83, 84], path cfg op, [49, 46, 49], brskiHeaders cfg ct body.length auth⟩ ∧
      hd.length + body.length ≤ 5122 := by
  obtain ⟨h1, h2⟩ := brski_header cfg op ct body.length auth h.short
  have hall := printable_brskiHeaders cfg ct body.length auth h.ua h.host h.hostSet h.type h.cred
  have hpath : ∀ c ∈ path cfg op, 33 ≤ c ∧ c ≤ 126 := by
    intro c hc
    unfold path at hc
    rcases List.mem_append.1 hc with h' | h'
    · have q : ∀ c ∈ [47, 46, 119, 101, 108, 108, 45, 107, 110, 111, 119, 110, 47, 101, 115, 116], 33 ≤ c ∧ c ≤ 126 := by decide
      exact q c h'
    · rcases List.mem_append.1 h' with h' | h'
      · cases hcs : cfg.seg with
        | none => rw [hcs] at h'; cases h'
        | some s =>
          rw [hcs] at h'
          rcases List.mem_cons.1 h' with rfl | h'
          · decide
          · exact h.seg s hcs c h'
      · have : ∀ c ∈ 47 :: ClientReq.uriName op, 33 ≤ c ∧ c ≤ 126 := by cases op <;> decide
        exact this c h'
  refine ⟨brskiText cfg op ct body.length auth, ?_, ?_, ?_, h.fits⟩
  · rw [(Voucher.C61_brski_partial _ _ h2).1 h.small (by
      have := congrArg List.length h1
      have := h.fits
      simp at *; omega), ← h1]
    simp
  · have e : brskiText cfg op ct body.length auth ++ (body ++ [13, 10]) =
        ([80, 79, 83, 84] ++ 32 :: (path cfg op ++ 32 :: [72, 84, 84, 80, 47, 49, 46, 49])) ++ 13 :: 10 ::
          lines ((brskiHeaders cfg ct body.length auth).map (fun h => (h, 1)))
            (13 :: 10 :: (body ++ [13, 10])) := by
      unfold brskiText
      have := ClientResp.lines_append ((brskiHeaders cfg ct body.length auth).map (fun h => (h, 1)))
        [13, 10] (body ++ [13, 10])
      simp only [List.cons_append, List.nil_append] at this
      rw [this]; simp
    have hw : ∀ p ∈ (brskiHeaders cfg ct body.length auth).map (fun h => (h, 1)), WellFormed p.1 := by
      intro p hp
      obtain ⟨h, hh, rfl⟩ := List.mem_map.1 hp
      exact (hall h hh).1
    have hpr : ∀ p ∈ (brskiHeaders cfg ct body.length auth).map (fun h => (h, 1)), Printable p.1 := by
      intro p hp
      obtain ⟨h, hh, rfl⟩ := List.mem_map.1 hp
      exact (hall h hh).2
    have hne : (brskiHeaders cfg ct body.length auth).map (fun h => (h, 1)) ≠ [] := by
      simp [brskiHeaders]
    have r := reqLen_lines _ hw hpr hne (body ++ [13, 10])
      (0 + (([80, 79, 83, 84] ++ 32 :: (path cfg op ++ 32 :: [72, 84, 84, 80, 47, 49, 46, 49])).length + 2))
    rw [e]
    unfold HttpConn.getRequestLen
    have hcons : ∃ t, lines ((brskiHeaders cfg ct body.length auth).map (fun h => (h, 1)))
        (13 :: 10 :: (body ++ [13, 10])) = 85 :: t := ⟨_, rfl⟩
    obtain ⟨t, ht⟩ := hcons
    rw [ht] at r ⊢
    rw [reqLen_line _ _ 85 t (by decide) 0, r]
    · unfold brskiText; simp; omega
    · intro c hc
      simp only [List.mem_append, List.mem_cons] at hc
      rcases hc with hc | hc | hc | hc | hc
      · simp at hc; omega
      · omega
      · have := hpath c hc; omega
      · omega
      · simp at hc; omega
  · have hpm := HttpHdr.C46_message_round_trip [80, 79, 83, 84] (path cfg op) [72, 84, 84, 80, 47, 49, 46, 49]
      ((brskiHeaders cfg ct body.length auth).map (fun h => (h, 1)))
      (by decide) (by decide) (by simp) (fun c hc => by have := hpath c hc; omega)
      (by simp [path]) (by decide) (by decide) (by
        intro p hp
        obtain ⟨h, hh, rfl⟩ := List.mem_map.1 hp
        exact (hall h hh).1)
    unfold parseRequest
    rw [show brskiText cfg op ct body.length auth = [80, 79, 83, 84] ++ 32 :: (path cfg op ++ 32 ::
      ([72, 84, 84, 80, 47, 49, 46, 49] ++ 13 :: 10 :: lines ((brskiHeaders cfg ct body.length auth).map (fun h => (h, 1)))
        [13, 10])) from rfl, hpm]
    simp only
    rw [if_pos (by decide)]
    have hmap : ((brskiHeaders cfg ct body.length auth).map (fun h => (h, 1))).map (·.1) =
        brskiHeaders cfg ct body.length auth := by
      rw [List.map_map]; exact List.map_id _
    rw [hmap, List.take_of_length_le (by
      unfold brskiHeaders; cases auth <;> simp)]
    rfl

theorem brski_headers_found (cfg : ClientReq.Cfg) (ct : List Nat) (n : Nat)
    (auth : Option (List Nat)) :
    getHeader (brskiHeaders cfg ct n auth) [67, 111, 110, 116, 101, 110, 116, 45, 76, 101, 110, 103, 116, 104] = some (decimal n) ∧
    getHeader (brskiHeaders cfg ct n auth) [67, 111, 110, 116, 101, 110, 116, 45, 84, 121, 112, 101] = some ct ∧
    getHeader (brskiHeaders cfg ct n auth) [65, 117, 116, 104, 111, 114, 105, 122, 97, 116, 105, 111, 110] = auth := by
  cases auth <;> simp [brskiHeaders, getHeader, HttpHdr.caseEq, HttpHdr.toLower]

/-! ## The registrar -/

/-- The callbacks that were called, with what they were given. -/
def calls (evs : List BEv) : List (BrskiOp × List Nat) :=
  evs.filterMap fun e => match e with
    | .brskiCb op b => some (op, b)
    | _ => none

/-- The operation in the URI. -/
def uriOf : BrskiOp → EstUri.Op
  | .voucher => .reqVoucher
  | .voucherStatus => .voucherStatus
  | .enrollStatus => .enrollStatus

def respOf : BrskiOp → ClientResp.Op
  | .voucher => .voucherReq
  | .voucherStatus => .voucherStatus
  | .enrollStatus => .enrollStatus

/-- The registrar lets the client in, asks for credentials, or refuses. -/
inductive Let
  | admitted | asked | refused
deriving DecidableEq

def letOf : AuthState → Let
  | .httpAuth | .srpAuth | .certAuth => .admitted
  | .httpAuthPending => .asked
  | _ => .refused

theorem letOf_bool (b : Bool) : letOf (if b = true then .httpAuth else .unauthorized) ≠ .asked := by
  cases b <;> decide

theorem brskiAuth_cases (cfg : Server.Cfg) (tls : Server.Tls) (hdr : HdrRes × Cred) (st : AuthState)
    (evs : List Ev) (ht : cfg.transport = .http)
    (h : Server.brskiAuth cfg tls hdr = some (st, evs)) :
    (letOf st = .asked ∧ evs = Server.challenge cfg.authMode) ∨
    (letOf st ≠ .asked ∧ (evs = [] ∨ ∃ c, evs = [.askApp c])) := by
  unfold Server.brskiAuth at h
  cases hc : Server.checkTlsCert tls with
  | none =>
    simp only [hc] at h
    cases h
    exact .inr ⟨by decide, .inl rfl⟩
  | some st0 =>
    have h0 : st0 = .certAuth ∨ st0 = .unauthorized := by
      unfold Server.checkTlsCert at hc
      repeat' split at hc
      all_goals simp_all
    simp only [hc, ht] at h
    have hrv : letOf (if st0 ≠ .certAuth ∧ tls.srpUser = true then .srpAuth else st0) ≠ .asked := by
      rcases h0 with rfl | rfl
      · simp [letOf]
      · by_cases hs : tls.srpUser = true <;> simp [hs, letOf]
    cases hcb : cfg.authCb with
    | none =>
      simp only [hcb] at h
      cases h
      exact .inr ⟨hrv, .inl rfl⟩
    | some cb =>
      simp only [hcb] at h
      generalize (if st0 ≠ .certAuth ∧ tls.srpUser = true then AuthState.srpAuth else st0) = rv at h hrv
      by_cases hq : rv = .unauthorized ∨ cfg.requireHttpAuth = true
      · rw [if_pos hq] at h
        generalize (if (cfg.ecaEnabled && rv == .certAuth) = true then
          (Server.handleEca cfg tls (fun _ => none) [] false).1 else hdr.1) = pr at h
        cases pr
        all_goals simp only at h
        all_goals cases h
        all_goals first
          | exact .inl ⟨rfl, rfl⟩
          | exact .inr ⟨by decide, .inl rfl⟩
          | exact .inr ⟨letOf_bool _, .inr ⟨_, rfl⟩⟩
      · rw [if_neg hq] at h
        cases h
        exact .inr ⟨hrv, .inl rfl⟩

/-- What the registrar writes for the answer of its application. -/
def answerText (r : Registrar) (op : BrskiOp) (a : BrskiRc × List Nat) (keep : Bool) : List Nat :=
  match op, a.1 with
  | .voucher, .success =>
    if a.2 = [] then errorText 400 (explain .badPkcs10) keep
    else Proxy.head200 [97, 112, 112, 108, 105, 99, 97, 116, 105, 111, 110, 47, 118, 111, 117, 99, 104, 101, 114, 43, 99, 109, 115] a.2.length ++ a.2
  | .voucher, .retry => retryText r.period
  | _, .success => [72, 84, 84, 80, 47, 49, 46, 49, 32, 50, 48, 48, 32, 79, 75, 13, 10, 83, 116, 97, 116, 117, 115, 58, 32, 50, 48, 48, 32, 79, 75, 13, 10]
  | _, _ => errorText 400 (explain .badPkcs10) keep

theorem handleB_brski (r : Registrar) (q : HttpHdr.Req) (op : BrskiOp) (body p ct : List Nat)
    (seg : Option (List Nat)) (hdr : HdrRes × Cred) (st : AuthState) (evs : List Ev)
    (f : List Nat → BrskiRc × List Nat) (hm : q.method = [80, 79, 83, 84])
    (hp : Url.requestPath q.uri = some p) (hu : r.site.uri p = .ok (uriOf op) seg)
    (hct : getHeader q.hdrs [67, 111, 110, 116, 101, 110, 116, 45, 84, 121, 112, 101] = some ct) (hok : Server.brskiCt op ct = true)
    (hh : hdrOf (AuthHdr.parseAuthHeader r.site.odd (toMode r.site.srv.cfg.authMode)
        (getHeader q.hdrs [65, 117, 116, 104, 111, 114, 105, 122, 97, 116, 105, 111, 110])) = some hdr)
    (ht : r.site.srv.cfg.transport = .http) (hmode : Challenge.Asks (toMode r.site.srv.cfg.authMode))
    (hf : r.site.srv.brskiCb op = some f) (hout : (f body).2.length ≤ r.site.out)
    (ha : Server.brskiAuth r.site.srv.cfg r.site.tls hdr = some (st, evs)) :
    ∃ sv keep, handleB r q body = some sv ∧
      match letOf st with
      | .admitted => calls sv.evs = [(op, body)] ∧ sv.text = answerText r op (f body) keep
      | .asked => calls sv.evs = [] ∧ sv.text =
          Challenge.challengeText (toMode r.site.srv.cfg.authMode) r.site.realm r.site.time
      | .refused => calls sv.evs = [] ∧ sv.text = errorText 401 (explain .authFail) keep := by
  have hd : handleB r q body = (Server.handleBrski r.site.srv.cfg r.site.tls ⟨true, r.site.out, true⟩
      op (some f) ⟨ct, body, seg, hdr, []⟩).map fun x =>
        (let d : DOut := if x.1 ≠ .none ∧ x.1 ≠ .authPending then
            Server.orError ⟨true, r.site.out, true⟩ (.brski op) x.1 x.2
              (if x.1 = .authFail then .authFail else .badPkcs10)
          else ⟨.none, x.2, some (.brski op)⟩
         (⟨d.evs.flatMap (renderB r q d), d.evs⟩ : Served)) := by
    unfold handleB
    simp only [hp, hh, hu, hct]
    cases op
    all_goals
      unfold Server.httpRequest
      simp only [hm, uriOf]
      rw [if_neg (by decide), if_neg (by decide), hf, Option.map_map]
      rfl
  have hbr : Server.handleBrski r.site.srv.cfg r.site.tls ⟨true, r.site.out, true⟩ op (some f)
      ⟨ct, body, seg, hdr, []⟩ = match letOf st with
        | .admitted => some ((Server.brskiAnswer ⟨true, r.site.out, true⟩ op (f body)).1,
            evs.map BEv.ev ++ [.brskiCb op body] ++
              (Server.brskiAnswer ⟨true, r.site.out, true⟩ op (f body)).2.map BEv.ev)
        | .asked => some (.authPending, evs.map BEv.ev)
        | .refused => some (.authFail, evs.map BEv.ev) := by
    unfold Server.handleBrski
    simp only [hok, ha, Bool.not_true, Bool.false_eq_true, if_false]
    cases st <;> rfl
  rw [hd, hbr]
  rcases brskiAuth_cases _ _ _ _ _ ht ha with ⟨h1, h2⟩ | ⟨h1, h2⟩
  · rw [h1, h2]
    have hch : Server.challenge r.site.srv.cfg.authMode = [.head 401] := by
      revert hmode
      cases r.site.srv.cfg.authMode <;> simp [Challenge.Asks, toMode, Server.challenge]
    refine ⟨_, true, rfl, ?_, ?_⟩
    · rw [hch]; rfl
    · rw [hch]
      simp [renderB]
  · have hpre : ∀ d, (evs.map BEv.ev).flatMap (renderB r q d) = [] := by
      intro d
      rcases h2 with rfl | ⟨c, rfl⟩
      · rfl
      · simp only [List.map_cons, List.map_nil, List.flatMap_cons, List.flatMap_nil, renderB]
        split <;> rfl
    have hcalls : ∀ l, calls (evs.map BEv.ev ++ l) = calls l := by
      intro l
      rcases h2 with rfl | ⟨c, rfl⟩ <;> rfl
    have hbody : ∀ l, bodyOf (evs.map BEv.ev ++ l) = bodyOf l := by
      intro l
      rcases h2 with rfl | ⟨c, rfl⟩ <;> rfl
    cases hl : letOf st with
    | asked => exact absurd hl h1
    | refused =>
      refine ⟨_, keepAfter r.site q 401, rfl, ?_, ?_⟩
      · simp only [if_pos, ne_eq, reduceCtorEq, not_false_eq_true, and_self, Server.orError]
        rw [hcalls]
        rfl
      · simp only [if_pos, ne_eq, reduceCtorEq, not_false_eq_true, and_self, Server.orError]
        rw [List.flatMap_append, hpre]
        simp [Server.sendError, Server.errStatus, renderB, brskiSent]
    | admitted =>
      simp only [Option.map_some]
      refine ⟨_, keepAfter r.site q 400, rfl, ?_⟩
      generalize f body = a at hout ⊢
      obtain ⟨rc, v⟩ := a
      simp only at hout
      -- the application refused
      have hfail : Server.brskiAnswer ⟨true, r.site.out, true⟩ op (rc, v) = (.caEnrollFail, []) →
          answerText r op (rc, v) (keepAfter r.site q 400) =
            errorText 400 (explain .badPkcs10) (keepAfter r.site q 400) →
          (let x := ((Server.brskiAnswer ⟨true, r.site.out, true⟩ op (rc, v)).1,
              evs.map BEv.ev ++ [.brskiCb op body] ++
                (Server.brskiAnswer ⟨true, r.site.out, true⟩ op (rc, v)).2.map BEv.ev)
           let d : DOut := if x.1 ≠ .none ∧ x.1 ≠ .authPending then
              Server.orError ⟨true, r.site.out, true⟩ (.brski op) x.1 x.2
                (if x.1 = .authFail then .authFail else .badPkcs10)
            else ⟨.none, x.2, some (.brski op)⟩
           calls d.evs = [(op, body)] ∧ d.evs.flatMap (renderB r q d) =
             answerText r op (rc, v) (keepAfter r.site q 400)) := by
        intro e1 e2
        rw [e1, e2]
        simp only [ne_eq, reduceCtorEq, not_false_eq_true, and_self, if_true, if_false, Server.orError]
        constructor
        · rw [List.append_assoc, List.append_assoc, hcalls]
          rfl
        · rw [List.append_assoc, List.append_assoc, List.flatMap_append, hpre]
          simp [Server.sendError, Server.errStatus, renderB, brskiSent]
      -- the application answered
      have hgood : ∀ l : List Ev,
          Server.brskiAnswer ⟨true, r.site.out, true⟩ op (rc, v) = (.none, l) →
          (∀ d : DOut, d.rc = .none → d.handler = some (.brski op) →
            bodyOf d.evs = bodyOf (l.map BEv.ev) →
            (l.map BEv.ev).flatMap (renderB r q d) = answerText r op (rc, v) (keepAfter r.site q 400)) →
          (let x := ((Server.brskiAnswer ⟨true, r.site.out, true⟩ op (rc, v)).1,
              evs.map BEv.ev ++ [.brskiCb op body] ++
                (Server.brskiAnswer ⟨true, r.site.out, true⟩ op (rc, v)).2.map BEv.ev)
           let d : DOut := if x.1 ≠ .none ∧ x.1 ≠ .authPending then
              Server.orError ⟨true, r.site.out, true⟩ (.brski op) x.1 x.2
                (if x.1 = .authFail then .authFail else .badPkcs10)
            else ⟨.none, x.2, some (.brski op)⟩
           calls d.evs = [(op, body)] ∧ d.evs.flatMap (renderB r q d) =
             answerText r op (rc, v) (keepAfter r.site q 400)) := by
        intro l e1 e2
        rw [e1]
        simp only [ne_eq, not_true_eq_false, false_and, if_false]
        constructor
        · rw [List.append_assoc, hcalls]
          have : ∀ l : List Ev, calls (l.map BEv.ev) = [] := by
            intro l
            induction l with
            | nil => rfl
            | cons x l ih => simp [calls]
          show (op, body) :: calls (l.map BEv.ev) = _
          rw [this]
        · have := e2 ⟨.none, evs.map BEv.ev ++ [.brskiCb op body] ++ l.map BEv.ev, some (.brski op)⟩
            rfl rfl (by rw [List.append_assoc, hbody]; rfl)
          rw [← this, List.flatMap_append, List.flatMap_append, hpre]
          simp [renderB]
      cases op
      · by_cases hv : v = []
        · subst hv
          cases rc
          · exact hfail rfl rfl
          · exact hfail rfl rfl
          · exact hfail rfl rfl
          · refine hgood [.head 202] rfl ?_
            intro d h3 h4 _
            simp [renderB, h4, answerText]
        · cases rc
          · refine hgood [.head 200, .body v] ?_ ?_
            · simp [Server.brskiAnswer, hv, writeBody_all _ _ hout hv]
            · intro d h3 h4 h5
              simp [renderB, h4, answerText, hv, brskiHead, h5, bodyOf]
          · exact hfail (by simp [Server.brskiAnswer]) rfl
          · exact hfail (by simp [Server.brskiAnswer]) rfl
          · refine hgood [.head 202] (by simp [Server.brskiAnswer]) ?_
            intro d h3 h4 _
            simp [renderB, h4, answerText]
      · cases rc
        · refine hgood [.head 200] rfl ?_
          intro d h3 h4 _
          simp [renderB, h4, answerText, brskiHead]
        all_goals exact hfail rfl rfl
      · cases rc
        · refine hgood [.head 200] rfl ?_
          intro d h3 h4 _
          simp [renderB, h4, answerText, brskiHead]
        all_goals exact hfail rfl rfl

/-! ## One exchange -/

/-- What the callbacks of the registrar's application were called with for this request. -/
def heard (r : Registrar) (sched : List HttpConn.Ev) (w : Voucher.Wire) :
    Option (List (BrskiOp × List Nat)) :=
  match w with
  | .sent b => (serveB r sched (b.map fun x => x.getD 0)).map fun sv => calls sv.evs
  | _ => none

/-- The registrar has sensible settings, and its application answers `body` with `a`, which
fits. -/
structure SoundB (r : Registrar) (op : BrskiOp) (body : List Nat) (a : BrskiRc × List Nat) : Prop where
  http : r.site.srv.cfg.transport = .http
  mode : Challenge.Asks (toMode r.site.srv.cfg.authMode)
  realm : Challenge.RealmText r.site.realm
  realmLen : r.site.realm.length ≤ 255
  time : r.site.time < 2 ^ 64
  period : r.period ≤ 172800
  app : ∃ f, r.site.srv.brskiCb op = some f ∧ f body = a
  out : a.2.length ≤ r.site.out
  small : a.2.length < 2000000
  start : a.2.head? ≠ some 13 ∧ a.2.head? ≠ some 10

/-- The connection `u` leads to the registrar: it reads the bytes of the request, whose
Authorization header is `auth`, the client reads the bytes of the answer, and the registrar
decides `l` about the client. -/
structure Reaches (r : Registrar) (sched : List HttpConn.Ev) (cfg : ClientReq.Cfg) (op : BrskiOp)
    (ct body : List Nat) (auth : Option (List Nat)) (u : Voucher.Up) (mode : Mode) (l : Let) : Prop where
  sendable : SendableB cfg (uriOf op) ct auth body
  type : Server.brskiCt op ct = true
  routes : Routes r.site cfg (uriOf op)
  hdr : Voucher.authOf u mode = toAuth auth
  joined : u.reply = replyB r sched
    (Voucher.assemble (Voucher.header cfg (uriOf op) ct body.length (toAuth auth)) body)
  arrives : Arrives sched 5124
  decision : ∃ hdr st evs,
    hdrOf (AuthHdr.parseAuthHeader r.site.odd (toMode r.site.srv.cfg.authMode) auth) = some hdr ∧
    Server.brskiAuth r.site.srv.cfg r.site.tls hdr = some (st, evs) ∧ letOf st = l

/-- What the client gets to see of the application's answer: result, body, and whether it is
to come back. -/
def seen (op : BrskiOp) (a : BrskiRc × List Nat) : EstErr × List Nat :=
  match op, a.1 with
  | .voucher, .success => if a.2 = [] then (.httpBadReq, []) else (.none, a.2)
  | .voucher, .retry => (.caEnrollRetry, [])
  | _, .success => (.none, [])
  | _, _ => (.httpBadReq, [])

/-- C112, one exchange: the application is told exactly the body of the request, once, if and
only if the registrar lets the client in, and the client gets the application's answer. -/
theorem exchangeB (env : Voucher.Env) (toks : Challenge.Toks)
    (htok : env.tokensOk = Challenge.tokensOk toks) (r : Registrar) (sched : List HttpConn.Ev)
    (cfg : ClientReq.Cfg) (op : BrskiOp) (ct body : List Nat) (auth : Option (List Nat))
    (u : Voucher.Up) (c : Voucher.Ctx) (l : Let) (a : BrskiRc × List Nat)
    (hV : SoundB r op body a) (hR : Reaches r sched cfg op ct body auth u c.mode l) :
    heard r sched
        (Voucher.assemble (Voucher.header cfg (uriOf op) ct body.length (toAuth auth)) body) =
      some (if l = .admitted then [(op, body)] else []) ∧
    ∃ b, Voucher.request env cfg (uriOf op) (respOf op) ct body u c =
      match l with
      | .admitted => some ((seen op a).1, (seen op a).2,
          { c with
            trace := c.trace ++ [.request (uriOf op) (toAuth auth) b]
            delay := if (seen op a).1 = .caEnrollRetry then r.period else c.delay })
      | .asked => some (.authFail, [],
          { c with
            trace := c.trace ++ [.request (uriOf op) (toAuth auth) b]
            mode := if Flow.Asked c.mode then .fail else toMode r.site.srv.cfg.authMode })
      | .refused => some (.authFail, [],
          { c with
            trace := c.trace ++ [.request (uriOf op) (toAuth auth) b]
            mode := .fail }) := by
  obtain ⟨hd, h1, h2, h3, h4⟩ := brski_reads cfg (uriOf op) ct body auth hR.sendable
  obtain ⟨f1, f2, f3⟩ := brski_headers_found cfg ct body.length auth
  obtain ⟨p, hp, hu⟩ := hR.routes
  obtain ⟨f, hf, hfa⟩ := hV.app
  obtain ⟨hdr, st, evs, hh, ha, hl⟩ := hR.decision
  have hsm := hR.sendable.small
  have hne : hd ≠ [] := by
    intro h
    have hn : HttpHdr.parseRequest [] = none := by decide +kernel
    rw [h, hn] at h3
    simp at h3
  have hcl : contentLen ⟨[80, 79, 83, 84], path cfg (uriOf op), [49, 46, 49], brskiHeaders cfg ct body.length auth⟩ =
      body.length := by
    unfold contentLen
    simp only [f1]
    exact strtoll_decimal _ (by omega)
  have hserve : serveB r sched (hd ++ (body ++ [13, 10])) = _ :=
    serveWith_request id (handleB r) sched hd body [13, 10] _ h2 hne h3 (path_valid cfg (uriOf op))
      rfl hcl (by omega) (by simp [bufSize]; omega)
      ⟨hR.arrives.1, by have := hR.arrives.2; simp; omega⟩
  obtain ⟨sv, keep, g1, g2⟩ := handleB_brski r
    ⟨[80, 79, 83, 84], path cfg (uriOf op), [49, 46, 49], brskiHeaders cfg ct body.length auth⟩ op body p ct cfg.seg
    hdr st evs f rfl hp hu f2 hR.type (by rw [f3]; exact hh) hV.http hV.mode hf
    (by rw [hfa]; exact hV.out) ha
  rw [g1] at hserve
  rw [hfa, hl] at g2
  have hmap : ((hd ++ (body ++ [13, 10])).map some).map (fun x : Option Nat => x.getD 0) =
      hd ++ (body ++ [13, 10]) := by
    rw [List.map_map]; exact List.map_id _
  have hrep : u.reply = .bytes sv.text := by
    rw [hR.joined, h1]
    unfold replyB
    simp only [hmap, hserve]
  constructor
  · rw [h1]
    unfold heard
    simp only [hmap, hserve, Option.map_some]
    cases l
    · rw [if_pos rfl, g2.1]
    · rw [if_neg (by decide), g2.1]
    · rw [if_neg (by decide), g2.1]
  · refine ⟨(hd ++ (body ++ [13, 10])).map some, ?_⟩
    have hreq : ∀ e m d bd, getResponse env.tokensOk ⟨c.mode, c.delay⟩ (respOf op) sv.text = ⟨e, m, d, bd⟩ →
        Voucher.request env cfg (uriOf op) (respOf op) ct body u c =
          some (e, bd.getD [], { c with
            trace := c.trace ++ [.request (uriOf op) (toAuth auth) ((hd ++ (body ++ [13, 10])).map some)]
            mode := m
            delay := d }) := by
      intro e m d bd h
      unfold Voucher.request
      simp only [hR.hdr, h1, hrep, h]
    cases l with
    | admitted =>
      have ht := g2.2
      obtain ⟨rc, v⟩ := a
      have h400 : ∀ rop, getResponse env.tokensOk ⟨c.mode, c.delay⟩ rop
          (errorText 400 (explain .badPkcs10) keep) = ⟨.httpBadReq, c.mode, c.delay, none⟩ := by
        intro rop
        exact read_error env.tokensOk ⟨c.mode, c.delay⟩ rop .badPkcs10 (explain .badPkcs10) keep
          (by decide)
      have hbad : answerText r op (rc, v) keep = errorText 400 (explain .badPkcs10) keep →
          seen op (rc, v) = (.httpBadReq, []) →
          Voucher.request env cfg (uriOf op) (respOf op) ct body u c =
            some ((seen op (rc, v)).1, (seen op (rc, v)).2,
              { c with
                trace := c.trace ++ [.request (uriOf op) (toAuth auth) ((hd ++ (body ++ [13, 10])).map some)]
                delay := if (seen op (rc, v)).1 = .caEnrollRetry then r.period else c.delay }) := by
        intro e1 e2
        have hg := h400 (respOf op)
        rw [← e1, ← ht] at hg
        rw [hreq _ _ _ _ hg, e2]
        rfl
      have hok : op ≠ .voucher → rc = .success →
          Voucher.request env cfg (uriOf op) (respOf op) ct body u c =
            some ((seen op (rc, v)).1, (seen op (rc, v)).2,
              { c with
                trace := c.trace ++ [.request (uriOf op) (toAuth auth) ((hd ++ (body ++ [13, 10])).map some)]
                delay := if (seen op (rc, v)).1 = .caEnrollRetry then r.period else c.delay }) := by
        intro e1 e2
        subst e2
        have h200 : getResponse env.tokensOk ⟨c.mode, c.delay⟩ (respOf op) sv.text =
            ⟨.none, c.mode, c.delay, none⟩ := by
          rw [ht]
          cases op
          · exact absurd rfl e1
          · rfl
          · rfl
        rw [hreq _ _ _ _ h200]
        cases op
        · exact absurd rfl e1
        · rfl
        · rfl
      cases op
      · cases rc
        · by_cases hv : v = []
          · exact hbad (by simp [answerText, hv]) (by simp [seen, hv])
          · have hg := read_200 env.tokensOk ⟨c.mode, c.delay⟩ .voucherReq [97, 112, 112, 108, 105, 99, 97, 116, 105, 111, 110, 47, 118, 111, 117, 99, 104, 101, 114, 43, 99, 109, 115]
              (by decide) (by decide) (by decide) (by decide) v hv (by have := hV.small; simp at this; omega)
              hV.start
            simp only [answerText, if_neg hv] at ht
            rw [← ht] at hg
            rw [hreq _ _ _ _ hg]
            simp [seen, hv]
        · exact hbad rfl rfl
        · exact hbad rfl rfl
        · have hg := read_retry env.tokensOk ⟨c.mode, c.delay⟩ .voucherReq r.period hV.period
          simp only [answerText] at ht
          rw [← ht] at hg
          rw [hreq _ _ _ _ hg]
          simp [seen]
      · cases rc
        · exact hok (by decide) rfl
        all_goals exact hbad rfl rfl
      · cases rc
        · exact hok (by decide) rfl
        all_goals exact hbad rfl rfl
    | asked =>
      have ht := g2.2
      by_cases hA : Flow.Asked c.mode
      · have hg := Challenge.challenge_again _ r.site.realm r.site.time env.tokensOk ⟨c.mode, c.delay⟩
          (respOf op) hV.mode hV.realm hA
        rw [← ht] at hg
        rw [hreq _ _ _ _ hg, if_pos hA]
        rfl
      · have hm : c.mode = .none ∨ c.mode = .fail := by
          revert hA; cases c.mode <;> simp [Flow.Asked]
        have hg := Challenge.C63_mode _ r.site.realm r.site.time toks ⟨c.mode, c.delay⟩ (respOf op)
          hV.mode hV.realm hV.realmLen hV.time hm
        rw [← ht, ← htok] at hg
        rw [hreq _ _ _ _ hg, if_neg hA]
        rfl
    | refused =>
      have ht := g2.2
      have hg := read_error env.tokensOk ⟨c.mode, c.delay⟩ (respOf op) .authFail (explain .authFail) keep
        (by decide)
      have hg : getResponse env.tokensOk ⟨c.mode, c.delay⟩ (respOf op) sv.text = ⟨.authFail, .fail, c.delay, none⟩ := by
        rw [ht]; exact hg
      rw [hreq _ _ _ _ hg]
      rfl

/-! ## C112: the status indications -/

/-- A call of one of the two functions that report a status. -/
inductive Report
  | voucher (s : Voucher.Status) (reason : List Nat)
  | enroll (s : Voucher.Status) (reason ski b64 : List Nat)

/-- The operation. -/
def Report.op : Report → BrskiOp
  | .voucher .. => .voucherStatus
  | .enroll .. => .enrollStatus

/-- The text of the report; C75 says what it says. -/
def Report.text : Report → List Nat
  | .voucher s reason => Voucher.voucherStatusText s reason
  | .enroll s reason _ b64 => Voucher.enrollStatusText s reason b64

/-- The call. -/
def Report.call (enc : List Nat → Option (List Nat)) (env : Voucher.Env) (cfg : ClientReq.Cfg)
    (c : Voucher.Ctx) : Report → Option (EstErr × Voucher.Ctx)
  | .voucher s reason => Voucher.sendVoucherStatus env cfg s (some reason) c
  | .enroll s reason ski _ => Voucher.sendEnrollStatus env cfg enc s (some reason) (some ski) c

/-- The arguments are in order. -/
def Report.Ok (enc : List Nat → Option (List Nat)) : Report → Prop
  | .voucher s reason => Voucher.VoucherStatusArgs s (some reason)
  | .enroll s reason ski b64 => Voucher.EnrollStatusArgs enc s (some reason) (some ski) ∧ enc ski = some b64

theorem Report.call_eq (p : Report) (enc) (env : Voucher.Env) (cfg : ClientReq.Cfg) (c : Voucher.Ctx)
    (h1 : c.ready = true) (h2 : c.brski = true) (h : p.Ok enc) :
    p.call enc env cfg c = Voucher.sendStatus env cfg (uriOf p.op) (respOf p.op) p.text c := by
  cases p with
  | voucher s reason => exact Voucher.C75_voucher_status_sent env cfg s reason c h1 h2 h
  | enroll s reason ski b64 =>
    exact Voucher.C75_enroll_status_sent env cfg enc s reason ski b64 c h1 h2 h.1 h.2

/-- The result of a report: success if and only if the application was told and accepted it. -/
def reported (l : Let) (a : BrskiRc × List Nat) : EstErr :=
  match l, a.1 with
  | .admitted, .success => .none
  | .admitted, _ => .httpBadReq
  | _, _ => .authFail

theorem seen_status (p : Report) (a : BrskiRc × List Nat) :
    (seen p.op a).1 = reported .admitted a ∧ (seen p.op a).1 ≠ .authFail := by
  obtain ⟨rc, v⟩ := a
  cases p <;> cases rc <;> simp [seen, reported, Report.op]

/-- C112: a pledge that the registrar knows without a challenge reports a status.  The
registrar's application is told exactly the text of the report, once, if the pledge was let in,
and the pledge's function returns success exactly if the application accepted it. -/
theorem C112_report (enc : List Nat → Option (List Nat)) (p : Report) (hok : p.Ok enc)
    (env : Voucher.Env) (toks : Challenge.Toks) (htok : env.tokensOk = Challenge.tokensOk toks)
    (r : Registrar) (sched : List HttpConn.Ev) (cfg : ClientReq.Cfg) (auth : Option (List Nat))
    (u : Voucher.Up) (c : Voucher.Ctx) (l : Let) (a : BrskiRc × List Nat)
    (h1 : c.ready = true) (h2 : c.brski = true) (hnet : env.net c.conns = .up u)
    (hl : l = .asked → Flow.Asked c.mode) (hV : SoundB r p.op p.text a)
    (hR : Reaches r sched cfg p.op [97, 112, 112, 108, 105, 99, 97, 116, 105, 111, 110, 47, 106, 115, 111, 110] p.text auth u c.mode l) :
    heard r sched (Voucher.assemble
        (Voucher.header cfg (uriOf p.op) [97, 112, 112, 108, 105, 99, 97, 116, 105, 111, 110, 47, 106, 115, 111, 110] p.text.length (toAuth auth)) p.text) =
      some (if l = .admitted then [(p.op, p.text)] else []) ∧
    ∃ c' : Voucher.Ctx, p.call enc env cfg c = some (reported l a, c') ∧ c'.mode = .none ∧
      c'.conns = c.conns + 1 := by
  obtain ⟨g1, b, g2⟩ := exchangeB env toks htok r sched cfg p.op [97, 112, 112, 108, 105, 99, 97, 116, 105, 111, 110, 47, 106, 115, 111, 110] p.text auth u
    { c with conns := c.conns + 1 } l a hV hR
  refine ⟨g1, ?_⟩
  rw [p.call_eq enc env cfg c h1 h2 hok]
  unfold Voucher.sendStatus
  simp only [Voucher.connect, hnet]
  rw [g2]
  cases l with
  | admitted =>
    simp only
    rw [if_neg (fun h => (seen_status p a).2 h.1)]
    exact ⟨_, by rw [(seen_status p a).1], rfl, rfl⟩
  | asked =>
    simp only
    rw [if_pos (hl rfl), if_neg (by simp [Flow.Asked])]
    exact ⟨_, rfl, rfl, rfl⟩
  | refused =>
    simp only
    rw [if_neg (by simp [Flow.Asked])]
    exact ⟨_, rfl, rfl, rfl⟩

/-- C112: a pledge that is asked for credentials opens a second connection and reports the same
text with them.  The application hears of the second request only. -/
theorem C112_report_password (enc : List Nat → Option (List Nat)) (p : Report) (hok : p.Ok enc)
    (env : Voucher.Env) (toks : Challenge.Toks) (htok : env.tokensOk = Challenge.tokensOk toks)
    (r r2 : Registrar) (sched sched2 : List HttpConn.Ev) (cfg : ClientReq.Cfg)
    (auth auth2 : Option (List Nat)) (u u2 : Voucher.Up) (c : Voucher.Ctx) (l : Let)
    (a a2 : BrskiRc × List Nat) (h1 : c.ready = true) (h2 : c.brski = true)
    (hmode : ¬ Flow.Asked c.mode)
    (hfips : env.fips = true → toMode r.site.srv.cfg.authMode ≠ .digest)
    (hnet : env.net c.conns = .up u) (hnet2 : env.net (c.conns + 1) = .up u2)
    (hV : SoundB r p.op p.text a) (hV2 : SoundB r2 p.op p.text a2)
    (hR : Reaches r sched cfg p.op [97, 112, 112, 108, 105, 99, 97, 116, 105, 111, 110, 47, 106, 115, 111, 110] p.text auth u c.mode .asked)
    (hR2 : Reaches r2 sched2 cfg p.op [97, 112, 112, 108, 105, 99, 97, 116, 105, 111, 110, 47, 106, 115, 111, 110] p.text auth2 u2
      (toMode r.site.srv.cfg.authMode) l) :
    heard r sched (Voucher.assemble
        (Voucher.header cfg (uriOf p.op) [97, 112, 112, 108, 105, 99, 97, 116, 105, 111, 110, 47, 106, 115, 111, 110] p.text.length (toAuth auth)) p.text) =
      some [] ∧
    heard r2 sched2 (Voucher.assemble
        (Voucher.header cfg (uriOf p.op) [97, 112, 112, 108, 105, 99, 97, 116, 105, 111, 110, 47, 106, 115, 111, 110] p.text.length (toAuth auth2)) p.text) =
      some (if l = .admitted then [(p.op, p.text)] else []) ∧
    ∃ c' : Voucher.Ctx, p.call enc env cfg c = some (reported l a2, c') ∧ c'.mode = .none ∧
      c'.conns = c.conns + 2 := by
  obtain ⟨g1, b, g2⟩ := exchangeB env toks htok r sched cfg p.op [97, 112, 112, 108, 105, 99, 97, 116, 105, 111, 110, 47, 106, 115, 111, 110] p.text auth u
    { c with conns := c.conns + 1 } .asked a hV hR
  obtain ⟨k1, b2, k2⟩ := exchangeB env toks htok r2 sched2 cfg p.op [97, 112, 112, 108, 105, 99, 97, 116, 105, 111, 110, 47, 106, 115, 111, 110] p.text auth2 u2
    { c with
      trace := c.trace ++ [.request (uriOf p.op) (toAuth auth) b]
      mode := toMode r.site.srv.cfg.authMode
      conns := c.conns + 1 + 1 } l a2 hV2 hR2
  refine ⟨g1, k1, ?_⟩
  rw [p.call_eq enc env cfg c h1 h2 hok]
  have hask : Flow.Asked (toMode r.site.srv.cfg.authMode) := by
    rcases hV.mode with h | h | h <;> rw [h] <;> simp [Flow.Asked]
  unfold Voucher.sendStatus
  simp only [Voucher.connect, hnet]
  rw [g2]
  simp only
  rw [if_neg hmode, if_pos ⟨trivial, hask⟩, if_neg (fun h => hfips h.2 h.1), hnet2]
  simp only
  rw [k2]
  cases l with
  | admitted => exact ⟨_, by rw [(seen_status p a2).1], rfl, rfl⟩
  | asked => exact ⟨_, rfl, rfl, rfl⟩
  | refused => exact ⟨_, rfl, rfl, rfl⟩

/-! ## C112: the voucher -/

/-- The pledge is ready to ask for a voucher, and what it takes for that: its serial number, the
nonce, the time and the registrar's certificate on the connection `u`. -/
structure Asking (env : Voucher.Env) (c : Voucher.Ctx) (u : Voucher.Up)
    (nonce time cert : List Nat) : Prop where
  net : env.net c.conns = .up u
  nonce : ∃ rnd nz, env.rand (c.conns + 1) = some rnd ∧ Hex.hexToStr rnd = some nz ∧
    nonce = nz.dropLast
  time : env.time (c.conns + 1) = some time
  shown : u.cert = some cert
  short : cert.length ≤ 8192

/-- What the pledge returns for the voucher `v`; `none` is undefined behaviour. -/
def judged (env : Voucher.Env) (nonce serial v : List Nat) (c : Voucher.Ctx) :
    Option (EstErr × Nat × Voucher.Ctx) :=
  match Voucher.parseVoucher env.verifyCacert (env.verifyVoucher v) nonce serial with
  | .ub => none
  | .res e ca => some (e, 0, { c with mode := .none, cacert := ca.getD c.cacert })

/-- The end of an exchange about a voucher. -/
def ended (env : Voucher.Env) (nonce serial : List Nat) (len period : Nat) (l : Let)
    (a : BrskiRc × List Nat) (c : Voucher.Ctx) : Option (EstErr × Nat × Voucher.Ctx) :=
  match l, a.1 with
  | .admitted, .success =>
    if a.2 = [] then some (.httpBadReq, len, { c with mode := .none })
    else judged env nonce serial a.2 c
  | .admitted, .retry => some (.caEnrollRetry, len, { c with mode := .none, delay := period })
  | .admitted, _ => some (.httpBadReq, len, { c with mode := .none })
  | _, _ => some (.authFail, len, { c with mode := .none })

theorem serverCert_first (cert : List Nat) (h : cert.length ≤ 8192) :
    Voucher.serverCert [] cert = cert := by
  unfold Voucher.serverCert
  rw [if_neg (by omega)]
  simp

theorem finish_ended (env : Voucher.Env) (r : Registrar) (op : BrskiOp) (hop : op = .voucher)
    (nonce serial : List Nat) (len : Nat) (a : BrskiRc × List Nat) (hs : a.2.length < 2000000)
    (c c' : Voucher.Ctx)
    (hc : c' = { c with delay := if (seen op a).1 = .caEnrollRetry then r.period else c.delay }) :
    Voucher.finish env nonce serial (Voucher.sizeCheck (seen op a).1 (seen op a).2) (seen op a).2 len c' =
      ended env nonce serial len r.period .admitted a c := by
  subst hop hc
  obtain ⟨rc, v⟩ := a
  cases rc
  · by_cases hv : v = []
    · simp [seen, hv, Voucher.sizeCheck, Voucher.finish, ended]
    · have : v.length ≠ 0 := fun h => hv (List.eq_nil_of_length_eq_zero h)
      have h2 : ¬ (v.length + 1 > 2000000) := by simp at hs; omega
      simp only [seen, hv, if_false, Voucher.sizeCheck, if_true, this, h2, Voucher.finish, ended, judged]
      rfl
  all_goals simp [seen, Voucher.sizeCheck, Voucher.finish, ended]

/-- One exchange of `est_client_brski_get_voucher` with a registrar that does not ask. -/
theorem voucher_exchange (env : Voucher.Env) (toks : Challenge.Toks)
    (htok : env.tokensOk = Challenge.tokensOk toks) (r : Registrar) (sched : List HttpConn.Ev)
    (cfg : ClientReq.Cfg) (signed : Bool) (serial : List Nat) (len : Nat) (auth : Option (List Nat))
    (u : Voucher.Up) (c : Voucher.Ctx) (nonce time cert : List Nat) (l : Let) (a : BrskiRc × List Nat)
    (hA : Asking env c u nonce time cert) (hl : l = .asked → Flow.Asked c.mode)
    (hV : SoundB r .voucher (Voucher.voucherReq nonce time cert) a)
    (hR : Reaches r sched cfg .voucher (Voucher.voucherCt signed)
      (Voucher.voucherReq nonce time cert) auth u c.mode l) :
    heard r sched (Voucher.assemble (Voucher.header cfg .reqVoucher (Voucher.voucherCt signed)
        (Voucher.voucherReq nonce time cert).length (toAuth auth)) (Voucher.voucherReq nonce time cert)) =
      some (if l = .admitted then [(.voucher, Voucher.voucherReq nonce time cert)] else []) ∧
    ∃ b, Voucher.sendGetVoucher env cfg signed serial len c =
      ended env nonce serial len r.period l a
        { c with
          conns := c.conns + 1
          trace := c.trace ++ [.request .reqVoucher (toAuth auth) b] } := by
  obtain ⟨g1, b, g2⟩ := exchangeB env toks htok r sched cfg .voucher (Voucher.voucherCt signed)
    (Voucher.voucherReq nonce time cert) auth u { c with conns := c.conns + 1 } l a hV hR
  refine ⟨g1, b, ?_⟩
  obtain ⟨rnd, nz, hr, hx, hn⟩ := hA.nonce
  have hg : Voucher.request env cfg .reqVoucher .voucherReq (Voucher.voucherCt signed)
      (Voucher.voucherReq nonce time cert) u { c with conns := c.conns + 1 } = _ := g2
  unfold Voucher.sendGetVoucher
  simp only [Voucher.connect, hA.net, hr, Option.bind_some, hx, hA.time, hA.shown, ← hn,
    Voucher.voucherRequest]
  rw [serverCert_first cert hA.short, hg]
  cases l with
  | admitted =>
    simp only
    rw [if_neg (by
      obtain ⟨rc, v⟩ := a
      intro h
      have := h.1
      revert this
      unfold Voucher.sizeCheck seen
      cases rc <;> simp <;> repeat' split <;> simp)]
    exact finish_ended env r .voucher rfl nonce serial len a hV.small _ _ rfl
  | asked =>
    simp only
    rw [if_pos (hl rfl), if_neg (by simp [Flow.Asked])]
    simp [Voucher.sizeCheck, Voucher.finish, ended, uriOf]
  | refused =>
    simp only
    rw [if_neg (by simp [Flow.Asked])]
    simp [Voucher.sizeCheck, Voucher.finish, ended, uriOf]

/-- The pledge may ask for vouchers and has a serial number of an acceptable length. -/
structure Pledge (c : Voucher.Ctx) (serial : List Nat) : Prop where
  ready : c.ready = true
  brski : c.brski = true
  number : c.serial = some (some serial)
  short : serial.length ≤ 64

theorem getVoucher_pledge (env : Voucher.Env) (cfg : ClientReq.Cfg) (signed : Bool) (len : Nat)
    (c : Voucher.Ctx) (serial : List Nat) (h : Pledge c serial) :
    Voucher.getVoucher env cfg signed (some len) c =
      match Voucher.sendGetVoucher env cfg signed serial len c with
      | none => none
      | some (e, len, c) =>
        if e = .caEnrollRetry then
          Voucher.sendGetVoucher env cfg signed serial len
            { c with trace := c.trace ++ [.sleep (if c.delay > 60 then 60 else c.delay)] }
        else some (e, len, c) := by
  have := h.short
  unfold Voucher.getVoucher
  simp only [h.ready, h.brski, h.number, Bool.not_true, Bool.false_eq_true, if_false]
  rw [if_neg (by omega)]
  cases Voucher.sendGetVoucher env cfg signed serial len c <;> rfl

/-- The registrar's application answered with a voucher or a refusal, not with "later"; and the
signature check and the certificate check of the pledge do not fail with that code. -/
def Final (env : Voucher.Env) (l : Let) (a : BrskiRc × List Nat) : Prop :=
  ¬ (l = .admitted ∧ a.1 = .retry) ∧
  (∀ v, env.verifyVoucher v ≠ .error .caEnrollRetry) ∧ ∀ v, env.verifyCacert v ≠ .error .caEnrollRetry

theorem parse_not_retry (vc : List Nat → Except EstErr (List Nat)) (ver : Except EstErr (List Nat))
    (sent serial : List Nat) (h1 : ver ≠ .error .caEnrollRetry)
    (h2 : ∀ v, vc v ≠ .error .caEnrollRetry) (e : EstErr) (ca)
    (h : Voucher.parseVoucher vc ver sent serial = .res e ca) : e ≠ .caEnrollRetry := by
  intro he
  subst he
  unfold Voucher.parseVoucher at h
  split at h
  · injection h with h _; subst h; exact h1 rfl
  · split at h
    · unfold Voucher.checkTokens at h
      split at h
      · cases h
      · split at h
        · cases h
        · unfold Voucher.takeCacert at h
          split at h
          · cases h
          · injection h with h _; cases h
          · split at h
            · cases h
            · split at h
              · injection h with h _; cases h
              · rename_i hv
                injection h with h _; subst h; exact h2 _ hv
        · rename_i hs
          injection h with h _; subst h
          unfold Voucher.checkSerial at hs
          split at hs
          · cases hs
          · cases hs
          · repeat' split at hs
            all_goals cases hs
      · rename_i hs
        injection h with h _; subst h
        unfold Voucher.checkNonce at hs
        split at hs
        · cases hs
        · cases hs
        · repeat' split at hs
          all_goals cases hs
    · cases h
    · cases h
    · injection h with h _; cases h

theorem ended_final (env : Voucher.Env) (nonce serial : List Nat) (len period : Nat) (l : Let)
    (a : BrskiRc × List Nat) (c : Voucher.Ctx) (h : Final env l a) (e : EstErr) (n : Nat)
    (c' : Voucher.Ctx) (he : ended env nonce serial len period l a c = some (e, n, c')) :
    e ≠ .caEnrollRetry := by
  obtain ⟨h1, h2, h3⟩ := h
  unfold ended at he
  split at he
  · split at he
    · cases he; decide
    · unfold judged at he
      split at he
      · cases he
      · rename_i hp
        cases he
        exact parse_not_retry _ _ _ _ (h2 _) h3 _ _ hp
  · rename_i hr
    exact absurd ⟨rfl, hr⟩ h1
  · cases he; decide
  · cases he; decide

/-- C112: a pledge that the registrar knows without a challenge asks for a voucher.  The
registrar's application is given exactly the request, with the nonce and the certificate of the
registrar, once, if the pledge was let in; the pledge's function ends as the application's
answer says, where a voucher is judged by the checks of C36. -/
theorem C112_voucher (env : Voucher.Env) (toks : Challenge.Toks)
    (htok : env.tokensOk = Challenge.tokensOk toks) (r : Registrar) (sched : List HttpConn.Ev)
    (cfg : ClientReq.Cfg) (signed : Bool) (serial : List Nat) (len : Nat) (auth : Option (List Nat))
    (u : Voucher.Up) (c : Voucher.Ctx) (nonce time cert : List Nat) (l : Let) (a : BrskiRc × List Nat)
    (hp : Pledge c serial) (hA : Asking env c u nonce time cert) (hl : l = .asked → Flow.Asked c.mode)
    (hfin : Final env l a)
    (hV : SoundB r .voucher (Voucher.voucherReq nonce time cert) a)
    (hR : Reaches r sched cfg .voucher (Voucher.voucherCt signed)
      (Voucher.voucherReq nonce time cert) auth u c.mode l) :
    heard r sched (Voucher.assemble (Voucher.header cfg .reqVoucher (Voucher.voucherCt signed)
        (Voucher.voucherReq nonce time cert).length (toAuth auth)) (Voucher.voucherReq nonce time cert)) =
      some (if l = .admitted then [(.voucher, Voucher.voucherReq nonce time cert)] else []) ∧
    ∃ b, Voucher.getVoucher env cfg signed (some len) c =
      ended env nonce serial len r.period l a
        { c with
          conns := c.conns + 1
          trace := c.trace ++ [.request .reqVoucher (toAuth auth) b] } := by
  obtain ⟨g1, b, g2⟩ := voucher_exchange env toks htok r sched cfg signed serial len auth u c nonce
    time cert l a hA hl hV hR
  refine ⟨g1, b, ?_⟩
  rw [getVoucher_pledge env cfg signed len c serial hp, g2]
  generalize hx : ended env nonce serial len r.period l a _ = x
  cases x with
  | none => rfl
  | some y =>
    obtain ⟨e, n, c'⟩ := y
    simp only
    rw [if_neg (ended_final env nonce serial len r.period l a _ hfin e n c' hx)]

/-- C112: the voucher arrives.  If the application's answer is a signed voucher in the form of RFC
8366 with the nonce of the request, the serial number of the pledge and a certificate that
passes the check, then the pledge's function succeeds, and the application of the pledge can
copy exactly that certificate. -/
theorem C112_pinned (env : Voucher.Env) (toks : Challenge.Toks)
    (htok : env.tokensOk = Challenge.tokensOk toks) (r : Registrar) (sched : List HttpConn.Ev)
    (cfg : ClientReq.Cfg) (signed : Bool) (serial : List Nat) (len : Nat) (auth : Option (List Nat))
    (u : Voucher.Up) (c : Voucher.Ctx) (nonce time cert v : List Nat) (d : Voucher.Doc)
    (pin ca : List Nat)
    (hp : Pledge c serial) (hA : Asking env c u nonce time cert) (hn : nonce.length = 32)
    (hs0 : 0 ∉ serial)
    (hfin : Final env .admitted (.success, v)) (hv : v ≠ [])
    (hV : SoundB r .voucher (Voucher.voucherReq nonce time cert) (.success, v))
    (hR : Reaches r sched cfg .voucher (Voucher.voucherCt signed)
      (Voucher.voucherReq nonce time cert) auth u c.mode .admitted)
    (hver : env.verifyVoucher v = .ok d.text) (hd : d.Ok) (hdl : d.fields.length ≤ 48)
    (hname : d.name ∉ Voucher.names) (hval : ∀ n ∈ Voucher.names, Voucher.NotAValue d.fields n)
    (h1 : Voucher.lookup d.fields [110, 111, 110, 99, 101] = some nonce)
    (h2 : Voucher.lookup d.fields [115, 101, 114, 105, 97, 108, 45, 110, 117, 109, 98, 101, 114] = some serial)
    (h3 : Voucher.lookup d.fields [112, 105, 110, 110, 101, 100, 45, 100, 111, 109, 97, 105, 110, 45, 99, 101, 114, 116] = some pin) (h4 : pin.length < 8192)
    (h5 : env.verifyCacert pin = .ok ca) :
    heard r sched (Voucher.assemble (Voucher.header cfg .reqVoucher (Voucher.voucherCt signed)
        (Voucher.voucherReq nonce time cert).length (toAuth auth)) (Voucher.voucherReq nonce time cert)) =
      some [(.voucher, Voucher.voucherReq nonce time cert)] ∧
    ∃ c' : Voucher.Ctx, Voucher.getVoucher env cfg signed (some len) c = some (.none, 0, c') ∧
      c'.mode = .none ∧ (Voucher.copyCacert true c').2.1 = some ca := by
  obtain ⟨g1, b, g2⟩ := C112_voucher env toks htok r sched cfg signed serial len auth u c nonce time cert
    .admitted (.success, v) hp hA (by simp) hfin hV hR
  refine ⟨g1, ?_⟩
  rw [g2]
  have hpv := (Voucher.C36_accepted_partial env.verifyCacert d hd hdl hname hval nonce serial ca hs0
    hp.short hn).2 ⟨.inr h1, h2, pin, h3, h4, h5⟩
  simp only [ended, hv, if_false, judged, hver, hpv]
  refine ⟨_, rfl, rfl, ?_⟩
  simp [Voucher.copyCacert, hp.ready, hp.brski]

/-- C112: "later".  If the application says so, the pledge's function sleeps for the registrar's
period, but at most 60 seconds, and asks once more with a new nonce; what it returns is the end
of that second exchange. -/
theorem C112_later (env : Voucher.Env) (toks : Challenge.Toks)
    (htok : env.tokensOk = Challenge.tokensOk toks) (r r2 : Registrar)
    (sched sched2 : List HttpConn.Ev) (cfg : ClientReq.Cfg) (signed : Bool) (serial : List Nat)
    (len : Nat) (auth auth2 : Option (List Nat)) (u u2 : Voucher.Up) (c : Voucher.Ctx)
    (nonce nonce2 time time2 cert cert2 v : List Nat) (l : Let) (a : BrskiRc × List Nat)
    (hp : Pledge c serial) (hA : Asking env c u nonce time cert)
    (hA2 : Asking env { c with conns := c.conns + 1 } u2 nonce2 time2 cert2)
    (hl : l ≠ .asked)
    (hV : SoundB r .voucher (Voucher.voucherReq nonce time cert) (.retry, v))
    (hV2 : SoundB r2 .voucher (Voucher.voucherReq nonce2 time2 cert2) a)
    (hR : Reaches r sched cfg .voucher (Voucher.voucherCt signed)
      (Voucher.voucherReq nonce time cert) auth u c.mode .admitted)
    (hR2 : Reaches r2 sched2 cfg .voucher (Voucher.voucherCt signed)
      (Voucher.voucherReq nonce2 time2 cert2) auth2 u2 .none l) :
    heard r sched (Voucher.assemble (Voucher.header cfg .reqVoucher (Voucher.voucherCt signed)
        (Voucher.voucherReq nonce time cert).length (toAuth auth)) (Voucher.voucherReq nonce time cert)) =
      some [(.voucher, Voucher.voucherReq nonce time cert)] ∧
    heard r2 sched2 (Voucher.assemble (Voucher.header cfg .reqVoucher (Voucher.voucherCt signed)
        (Voucher.voucherReq nonce2 time2 cert2).length (toAuth auth2))
        (Voucher.voucherReq nonce2 time2 cert2)) =
      some (if l = .admitted then [(.voucher, Voucher.voucherReq nonce2 time2 cert2)] else []) ∧
    ∃ b b2, Voucher.getVoucher env cfg signed (some len) c =
      ended env nonce2 serial len r2.period l a
        { c with
          conns := c.conns + 2
          mode := .none
          delay := r.period
          trace := c.trace ++ [.request .reqVoucher (toAuth auth) b, .sleep (min r.period 60),
            .request .reqVoucher (toAuth auth2) b2] } := by
  obtain ⟨g1, b, g2⟩ := voucher_exchange env toks htok r sched cfg signed serial len auth u c nonce
    time cert .admitted (.retry, v) hA (by simp) hV hR
  obtain ⟨k1, b2, k2⟩ := voucher_exchange env toks htok r2 sched2 cfg signed serial len auth2 u2
    { c with
      conns := c.conns + 1
      mode := .none
      delay := r.period
      trace := c.trace ++ [.request .reqVoucher (toAuth auth) b] ++ [.sleep (if r.period > 60 then 60 else r.period)] }
    nonce2 time2 cert2 l a ⟨hA2.net, hA2.nonce, hA2.time, hA2.shown, hA2.short⟩ (fun h => absurd h hl)
    hV2 hR2
  refine ⟨g1, k1, b, b2, ?_⟩
  rw [getVoucher_pledge env cfg signed len c serial hp, g2]
  have hlater : ∀ c : Voucher.Ctx, ended env nonce serial len r.period .admitted (.retry, v) c =
      some (.caEnrollRetry, len, { c with mode := .none, delay := r.period }) := fun _ => rfl
  rw [hlater]
  simp only [if_true]
  rw [k2]
  have : (if r.period > 60 then 60 else r.period) = min r.period 60 := by
    split <;> omega
  rw [this]
  simp only [List.append_assoc, List.cons_append, List.nil_append]

/-- C112: a pledge that is asked for credentials opens a second connection and makes the same
request with them; the registrar's certificate is shown again. -/
theorem C112_voucher_password (env : Voucher.Env) (toks : Challenge.Toks)
    (htok : env.tokensOk = Challenge.tokensOk toks) (r r2 : Registrar)
    (sched sched2 : List HttpConn.Ev) (cfg : ClientReq.Cfg) (signed : Bool) (serial : List Nat)
    (len : Nat) (auth auth2 : Option (List Nat)) (u u2 : Voucher.Up) (c : Voucher.Ctx)
    (nonce time cert : List Nat) (l : Let) (a a2 : BrskiRc × List Nat)
    (hp : Pledge c serial) (hA : Asking env c u nonce time cert)
    (hnet2 : env.net (c.conns + 1) = .up u2) (hcert2 : u2.cert = some cert)
    (hmode : ¬ Flow.Asked c.mode)
    (hfips : env.fips = true → toMode r.site.srv.cfg.authMode ≠ .digest)
    (hfin : Final env l a2)
    (hV : SoundB r .voucher (Voucher.voucherReq nonce time cert) a)
    (hV2 : SoundB r2 .voucher (Voucher.voucherReq nonce time cert) a2)
    (hR : Reaches r sched cfg .voucher (Voucher.voucherCt signed)
      (Voucher.voucherReq nonce time cert) auth u c.mode .asked)
    (hR2 : Reaches r2 sched2 cfg .voucher (Voucher.voucherCt signed)
      (Voucher.voucherReq nonce time cert) auth2 u2 (toMode r.site.srv.cfg.authMode) l) :
    heard r sched (Voucher.assemble (Voucher.header cfg .reqVoucher (Voucher.voucherCt signed)
        (Voucher.voucherReq nonce time cert).length (toAuth auth)) (Voucher.voucherReq nonce time cert)) =
      some [] ∧
    heard r2 sched2 (Voucher.assemble (Voucher.header cfg .reqVoucher (Voucher.voucherCt signed)
        (Voucher.voucherReq nonce time cert).length (toAuth auth2)) (Voucher.voucherReq nonce time cert)) =
      some (if l = .admitted then [(.voucher, Voucher.voucherReq nonce time cert)] else []) ∧
    ∃ b b2, Voucher.getVoucher env cfg signed (some len) c =
      ended env nonce serial len r2.period l a2
        { c with
          conns := c.conns + 2
          mode := toMode r.site.srv.cfg.authMode
          trace := c.trace ++ [.request .reqVoucher (toAuth auth) b,
            .request .reqVoucher (toAuth auth2) b2] } := by
  obtain ⟨g1, b, g2⟩ := exchangeB env toks htok r sched cfg .voucher (Voucher.voucherCt signed)
    (Voucher.voucherReq nonce time cert) auth u { c with conns := c.conns + 1 } .asked a hV hR
  obtain ⟨k1, b2, k2⟩ := exchangeB env toks htok r2 sched2 cfg .voucher (Voucher.voucherCt signed)
    (Voucher.voucherReq nonce time cert) auth2 u2
    { c with
      trace := c.trace ++ [.request .reqVoucher (toAuth auth) b]
      mode := toMode r.site.srv.cfg.authMode
      conns := c.conns + 1 + 1 } l a2 hV2 hR2
  refine ⟨g1, k1, b, b2, ?_⟩
  have hask : Flow.Asked (toMode r.site.srv.cfg.authMode) := by
    rcases hV.mode with h | h | h <;> rw [h] <;> simp [Flow.Asked]
  obtain ⟨rnd, nz, hr, hx, hn⟩ := hA.nonce
  have hsc : Voucher.serverCert cert cert = cert := by
    unfold Voucher.serverCert
    rw [if_neg (by have := hA.short; omega)]
    simp
  have hg : Voucher.request env cfg .reqVoucher .voucherReq (Voucher.voucherCt signed)
      (Voucher.voucherReq nonce time cert) u { c with conns := c.conns + 1 } = _ := g2
  have hk : Voucher.request env cfg .reqVoucher .voucherReq (Voucher.voucherCt signed)
      (Voucher.voucherReq nonce time cert) u2
      { c with
        trace := c.trace ++ [.request .reqVoucher (toAuth auth) b]
        mode := toMode r.site.srv.cfg.authMode
        conns := c.conns + 1 + 1 } = _ := k2
  have hsend : Voucher.sendGetVoucher env cfg signed serial len c =
      ended env nonce serial len r2.period l a2
        { c with
          conns := c.conns + 2
          mode := toMode r.site.srv.cfg.authMode
          trace := c.trace ++ [.request .reqVoucher (toAuth auth) b,
            .request .reqVoucher (toAuth auth2) b2] } := by
    unfold Voucher.sendGetVoucher
    simp only [Voucher.connect, hA.net, hr, Option.bind_some, hx, hA.time, hA.shown, ← hn,
      Voucher.voucherRequest]
    rw [serverCert_first cert hA.short, hg]
    simp only [hmode, if_false]
    rw [if_pos ⟨by simp [Voucher.sizeCheck], hask⟩]
    unfold Voucher.authAgain
    simp only
    rw [if_neg (fun h => hfips h.2 h.1)]
    simp only [Voucher.connect, hnet2, hcert2, hsc, Voucher.voucherRequest]
    have hk' := hk
    simp only [uriOf] at hk' ⊢
    rw [hk']
    cases l with
    | admitted =>
      simp only
      refine finish_ended env r2 .voucher rfl nonce serial len a2 hV2.small _ _ ?_
      simp
    | asked =>
      simp only
      simp [Voucher.sizeCheck, Voucher.finish, ended]
    | refused =>
      simp only
      simp [Voucher.sizeCheck, Voucher.finish, ended]
  rw [getVoucher_pledge env cfg signed len c serial hp, hsend]
  generalize hx : ended env nonce serial len r2.period l a2 _ = x
  cases x with
  | none => rfl
  | some y =>
    obtain ⟨e, n, c'⟩ := y
    simp only
    rw [if_neg (ended_final env nonce serial len r2.period l a2 _ hfin e n c' hx)]

/-- C112, what does not hold: the answer to an accepted status indication is not a complete
HTTP response.  The empty line that ends the header is missing, and there is no length. -/
theorem C112_status_header_false (r : Registrar) (op : BrskiOp) (hop : op ≠ .voucher) (keep : Bool)
    (v : List Nat) :
    answerText r op (.success, v) keep = [72, 84, 84, 80, 47, 49, 46, 49, 32, 50, 48, 48, 32, 79, 75, 13, 10, 83, 116, 97, 116, 117, 115, 58, 32, 50, 48, 48, 32, 79, 75, 13, 10] ∧
    ¬ ([13, 10, 13, 10] <:+: answerText r op (.success, v) keep) := by
  have : answerText r op (.success, v) keep = [72, 84, 84, 80, 47, 49, 46, 49, 32, 50, 48, 48, 32, 79, 75, 13, 10, 83, 116, 97, 116, 117, 115, 58, 32, 50, 48, 48, 32, 79, 75, 13, 10] := by
    cases op
    · exact absurd rfl hop
    · rfl
    · rfl
  rw [this]
  exact ⟨rfl, by decide⟩

/-! ### Example values -/

/-- A registrar whose application gives the answer `a`. -/
def exReg (s : Site) (a : BrskiRc × List Nat) : Registrar :=
  ⟨{ s with srv := { s.srv with brskiCb := fun _ => some fun _ => a } }, 90⟩

def exSchedB : List HttpConn.Ev := [.avail 100, .avail 30, .avail 6000]

def exUpB (reg : Registrar) (op : BrskiOp) (ct body : List Nat) (auth : Option (List Nat)) :
    Voucher.Up where
  cert := some [77, 73, 73, 66]
  auth := fun _ => toAuth auth
  reply := replyB reg exSchedB
    (Voucher.assemble (Voucher.header exCfg (uriOf op) ct body.length (toAuth auth)) body)

theorem exSoundB (s : Site) (op : BrskiOp) (body : List Nat) (a : BrskiRc × List Nat)
    (hs : s = exSite ∨ s = exSite2) (ha : a.2.length ≤ 5000)
    (h2 : a.2.head? ≠ some 13 ∧ a.2.head? ≠ some 10) : SoundB (exReg s a) op body a := by
  rcases hs with rfl | rfl
  all_goals
    refine ⟨rfl, .inl rfl, ?_, ?_, ?_, ?_, ⟨_, rfl, rfl⟩, ha, by omega, h2⟩
    · show Challenge.RealmText [101, 115, 116, 114, 101, 97, 108, 109]
      unfold Challenge.RealmText
      decide
    · show [101, 115, 116, 114, 101, 97, 108, 109].length ≤ 255
      decide
    · show 1700000000 < 2 ^ 64
      decide
    · show 90 ≤ 172800
      decide

theorem exRoutesB (s : Site) (op : EstUri.Op)
    (h : s.uri = EstUri.parseUriLib true (fun _ => true) []) : Routes s exCfg op := by
  refine C89_routes_segment s exCfg op true (fun _ => true) [] (fun _ => rfl) h ?_
    (fun _ => rfl)
  intro g hg
  injection hg with hg
  subst hg
  refine ⟨by decide, by intro t; simp, by simp, by decide, ?_⟩
  intro o; cases o <;> decide

theorem exReaches (s : Site) (a : BrskiRc × List Nat) (op : BrskiOp) (ct body : List Nat)
    (auth : Option (List Nat)) (mode : Mode) (l : Let)
    (hs : s.uri = EstUri.parseUriLib true (fun _ => true) [])
    (hauth : (auth = none ∧ mode = .none) ∨ (auth = some [66, 97, 115, 105, 99, 32, 100, 84, 112, 119] ∧ mode = .basic))
    (hb : body.length ≤ 1000) (hfit : (brskiText exCfg (uriOf op) ct body.length auth).length ≤ 1000)
    (hct : Server.brskiCt op ct = true) (hh : HeaderText ct)
    (hl : ∃ hdr st evs, hdrOf (AuthHdr.parseAuthHeader s.odd (toMode s.srv.cfg.authMode) auth) = some hdr ∧
      Server.brskiAuth s.srv.cfg s.tls hdr = some (st, evs) ∧ letOf st = l) :
    Reaches (exReg s a) exSchedB exCfg op ct body auth (exUpB (exReg s a) op ct body auth) mode l := by
  refine ⟨⟨⟨by decide, by decide⟩, ⟨by decide, by decide⟩, by decide, ?_, hh, ?_, by omega, by omega,
    by omega⟩, hct, exRoutesB _ _ hs, ?_, rfl, ⟨by decide, by decide⟩, hl⟩
  · intro g hg; injection hg with hg; subst hg; decide
  · intro v hv
    rcases hauth with ⟨h, _⟩ | ⟨h, _⟩
    · rw [h] at hv; cases hv
    · rw [h] at hv; injection hv with hv; subst hv; exact ⟨by decide, by decide⟩
  · rcases hauth with ⟨rfl, rfl⟩ | ⟨rfl, rfl⟩ <;> rfl

theorem exJson : HeaderText [97, 112, 112, 108, 105, 99, 97, 116, 105, 111, 110, 47, 106, 115, 111, 110] := ⟨by decide, by decide⟩

def exReport : Report := .voucher .fail [101, 120, 112, 105, 114, 101, 100]
def exRequest : List Nat := Voucher.voucherReq [49, 50, 49, 50, 49, 50, 49, 50, 49, 50, 49, 50, 49, 50, 49, 50, 49, 50, 49, 50, 49, 50, 49, 50, 49, 50, 49, 50, 49, 50, 49, 50]
  [50, 48, 50, 54, 45, 48, 49, 45, 48, 49, 84, 48, 48, 58, 48, 48, 58, 48, 48, 90] [77, 73, 73, 66]

def exEnvB (net : Nat → Voucher.Conn) : Voucher.Env :=
  { Voucher.goodEnv with net := net, tokensOk := Challenge.tokensOk exToks }

/-- The registrar's application refuses the report. -/
example : ∃ c' : Voucher.Ctx, exReport.call some
    (exEnvB fun _ => .up (exUpB (exReg exSite (.failure, [])) .voucherStatus [97, 112, 112, 108, 105, 99, 97, 116, 105, 111, 110, 47, 106, 115, 111, 110]
      exReport.text none)) exCfg Voucher.busyCtx = some (.httpBadReq, c') ∧ c'.mode = .none ∧
      c'.conns = 1 :=
  (C112_report some exReport ⟨by decide, _, rfl, by decide, by decide⟩ _ exToks rfl
    (exReg exSite (.failure, [])) exSchedB exCfg none _ Voucher.busyCtx .admitted (.failure, []) rfl rfl rfl
    (by decide) (exSoundB exSite _ _ _ (.inl rfl) (by decide) (by decide))
    (exReaches exSite _ _ _ _ _ _ _ rfl (.inl ⟨rfl, rfl⟩) (by decide) (by decide +kernel) rfl exJson
      ⟨_, _, _, rfl, rfl, rfl⟩)).2

/-- The pledge is asked for user name and password, and its report is accepted. -/
example : ∃ c' : Voucher.Ctx, exReport.call some
    (exEnvB fun n => if n = 0 then .up (exUpB (exReg exSite2 (.success, [])) .voucherStatus
        [97, 112, 112, 108, 105, 99, 97, 116, 105, 111, 110, 47, 106, 115, 111, 110] exReport.text none)
      else .up (exUpB (exReg exSite2 (.success, [])) .voucherStatus
        [97, 112, 112, 108, 105, 99, 97, 116, 105, 111, 110, 47, 106, 115, 111, 110] exReport.text (some [66, 97, 115, 105, 99, 32, 100, 84, 112, 119]))) exCfg Voucher.busyCtx =
      some (.none, c') ∧ c'.mode = .none ∧ c'.conns = 2 :=
  (C112_report_password some exReport ⟨by decide, _, rfl, by decide, by decide⟩ _ exToks rfl
    (exReg exSite2 (.success, [])) (exReg exSite2 (.success, [])) exSchedB exSchedB exCfg none
    (some [66, 97, 115, 105, 99, 32, 100, 84, 112, 119]) _ _ Voucher.busyCtx .admitted (.success, []) (.success, []) rfl rfl
    (by decide) (fun h => by cases h) rfl rfl
    (exSoundB exSite2 _ _ _ (.inr rfl) (by decide) (by decide))
    (exSoundB exSite2 _ _ _ (.inr rfl) (by decide) (by decide))
    (exReaches exSite2 _ _ _ _ _ _ _ rfl (.inl ⟨rfl, rfl⟩) (by decide) (by decide +kernel) rfl exJson
      ⟨_, _, _, rfl, rfl, rfl⟩)
    (exReaches exSite2 _ _ _ _ _ _ _ rfl (.inr ⟨rfl, rfl⟩) (by decide) (by decide +kernel) rfl exJson
      ⟨_, _, _, rfl, rfl, rfl⟩)).2.2

def exNonce : List Nat := [49, 50, 49, 50, 49, 50, 49, 50, 49, 50, 49, 50, 49, 50, 49, 50, 49, 50, 49, 50, 49, 50, 49, 50, 49, 50, 49, 50, 49, 50, 49, 50]

/-- The voucher the application signs. -/
def exDoc : Voucher.Doc := { Voucher.sample with
  fields := [⟨[], [110, 111, 110, 99, 101], [], [], .str exNonce, []⟩,
    ⟨[], [115, 101, 114, 105, 97, 108, 45, 110, 117, 109, 98, 101, 114], [], [], .str [83, 78, 49], []⟩,
    ⟨[], [112, 105, 110, 110, 101, 100, 45, 100, 111, 109, 97, 105, 110, 45, 99, 101, 114, 116], [], [32], .str [77, 73, 73, 61], []⟩] }

theorem exDoc_ok : exDoc.Ok := by
  refine ⟨Voucher.ws_dec _ rfl, Voucher.ws_dec _ rfl, Voucher.strBody_plain _ (by decide),
    Voucher.ws_dec _ rfl, Voucher.ws_dec _ rfl, Voucher.ws_dec _ rfl, Voucher.ws_dec _ rfl,
    by simp [exDoc], ?_⟩
  intro f hf
  simp only [exDoc, List.mem_cons, List.not_mem_nil, or_false] at hf
  rcases hf with rfl | rfl | rfl
  all_goals
    exact ⟨Voucher.ws_dec _ rfl, Voucher.strBody_plain _ (by decide), Voucher.ws_dec _ rfl,
      Voucher.ws_dec _ rfl, Voucher.strBody_plain _ (by decide), Voucher.ws_dec _ rfl⟩

def exEnvV (net : Nat → Voucher.Conn) : Voucher.Env :=
  { exEnvB net with
    verifyVoucher := fun v => if v = [67, 77, 83] then .ok exDoc.text else .error .malloc }

theorem exAsking (net : Nat → Voucher.Conn) (c : Voucher.Ctx) (u : Voucher.Up)
    (h : net c.conns = .up u) (hu : u.cert = some [77, 73, 73, 66]) :
    Asking (exEnvV net) c u exNonce [50, 48, 50, 54, 45, 48, 49, 45, 48, 49, 84, 48, 48, 58, 48, 48, 58, 48, 48, 90] [77, 73, 73, 66] :=
  ⟨h, ⟨_, _, rfl, rfl, by decide⟩, rfl, hu, by decide⟩

theorem exPledge : Pledge Voucher.busyCtx [83, 78, 49] := ⟨rfl, rfl, rfl, by decide⟩

theorem exFinal (net : Nat → Voucher.Conn) (l : Let) (v : List Nat) :
    Final (exEnvV net) l (.success, v) := by
  refine ⟨by simp, ?_, ?_⟩
  · intro v h
    simp only [exEnvV] at h
    split at h <;> cases h
  · intro v h; cases h

theorem exJsonV : HeaderText (Voucher.voucherCt false) := ⟨by decide, by decide⟩

/-- The pledge gets the certificate that the registrar's application pinned. -/
example : ∃ c' : Voucher.Ctx, Voucher.getVoucher
    (exEnvV fun _ => .up (exUpB (exReg exSite (.success, [67, 77, 83])) .voucher (Voucher.voucherCt false)
      exRequest none)) exCfg false (some 7) Voucher.busyCtx = some (.none, 0, c') ∧ c'.mode = .none ∧
      (Voucher.copyCacert true c').2.1 = some [77, 73, 73, 61] :=
  (C112_pinned _ exToks rfl (exReg exSite (.success, [67, 77, 83])) exSchedB exCfg false [83, 78, 49] 7 none _
    Voucher.busyCtx exNonce [50, 48, 50, 54, 45, 48, 49, 45, 48, 49, 84, 48, 48, 58, 48, 48, 58, 48, 48, 90] [77, 73, 73, 66] [67, 77, 83] exDoc [77, 73, 73, 61] [77, 73, 73, 61] exPledge
    (exAsking _ _ _ rfl rfl) rfl (by decide) (exFinal _ _ _) (by decide)
    (exSoundB exSite _ _ _ (.inl rfl) (by decide) (by decide))
    (exReaches exSite _ _ _ _ _ _ _ rfl (.inl ⟨rfl, rfl⟩) (by decide +kernel) (by decide +kernel) rfl exJsonV
      ⟨_, _, _, rfl, rfl, rfl⟩)
    rfl exDoc_ok (by decide) (by decide) (by unfold Voucher.NotAValue; decide) (by decide) (by decide)
    (by decide) (by decide) rfl).2

/-- Asked for user name and password first. -/
example : ∃ b b2 x, Voucher.getVoucher
    (exEnvV fun n => if n = 0 then .up (exUpB (exReg exSite2 (.success, [67, 77, 83])) .voucher
        (Voucher.voucherCt false) exRequest none)
      else .up (exUpB (exReg exSite2 (.success, [67, 77, 83])) .voucher
        (Voucher.voucherCt false) exRequest (some [66, 97, 115, 105, 99, 32, 100, 84, 112, 119]))) exCfg false (some 7) Voucher.busyCtx =
      ended x exNonce [83, 78, 49] 7 90 .admitted (.success, [67, 77, 83])
        { Voucher.busyCtx with
          conns := 2
          mode := .basic
          trace := [.request .reqVoucher .none b, .request .reqVoucher (.value [66, 97, 115, 105, 99, 32, 100, 84, 112, 119]) b2] } := by
  have h := (C112_voucher_password
    (exEnvV fun n => if n = 0 then .up (exUpB (exReg exSite2 (.success, [67, 77, 83])) .voucher
        (Voucher.voucherCt false) exRequest none)
      else .up (exUpB (exReg exSite2 (.success, [67, 77, 83])) .voucher
        (Voucher.voucherCt false) exRequest (some [66, 97, 115, 105, 99, 32, 100, 84, 112, 119]))) exToks rfl
    (exReg exSite2 (.success, [67, 77, 83])) (exReg exSite2 (.success, [67, 77, 83])) exSchedB exSchedB exCfg false
    [83, 78, 49] 7 none (some [66, 97, 115, 105, 99, 32, 100, 84, 112, 119]) _ _ Voucher.busyCtx exNonce [50, 48, 50, 54, 45, 48, 49, 45, 48, 49, 84, 48, 48, 58, 48, 48, 58, 48, 48, 90] [77, 73, 73, 66]
    .admitted (.success, [67, 77, 83]) (.success, [67, 77, 83]) exPledge (exAsking _ _ _ rfl rfl) rfl rfl (by decide)
    (fun h => by cases h) (exFinal _ _ _)
    (exSoundB exSite2 _ _ _ (.inr rfl) (by decide) (by decide))
    (exSoundB exSite2 _ _ _ (.inr rfl) (by decide) (by decide))
    (exReaches exSite2 _ _ _ _ _ _ _ rfl (.inl ⟨rfl, rfl⟩) (by decide +kernel) (by decide +kernel) rfl exJsonV
      ⟨_, _, _, rfl, rfl, rfl⟩)
    (exReaches exSite2 _ _ _ _ _ _ _ rfl (.inr ⟨rfl, rfl⟩) (by decide +kernel) (by decide +kernel) rfl exJsonV
      ⟨_, _, _, rfl, rfl, rfl⟩)).2.2
  obtain ⟨b, b2, h⟩ := h
  exact ⟨b, b2, _, h⟩

/-- "Later", and then the voucher. -/
example : ∃ b b2 x, Voucher.getVoucher
    (exEnvV fun n => if n = 0 then .up (exUpB (exReg exSite (.retry, [])) .voucher
        (Voucher.voucherCt false) exRequest none)
      else .up (exUpB (exReg exSite (.success, [67, 77, 83])) .voucher
        (Voucher.voucherCt false) exRequest none)) exCfg false (some 7) Voucher.busyCtx =
      ended x exNonce [83, 78, 49] 7 90 .admitted (.success, [67, 77, 83])
        { Voucher.busyCtx with
          conns := 2
          delay := 90
          trace := [.request .reqVoucher .none b, .sleep 60, .request .reqVoucher .none b2] } := by
  have h := (C112_later
    (exEnvV fun n => if n = 0 then .up (exUpB (exReg exSite (.retry, [])) .voucher
        (Voucher.voucherCt false) exRequest none)
      else .up (exUpB (exReg exSite (.success, [67, 77, 83])) .voucher
        (Voucher.voucherCt false) exRequest none)) exToks rfl
    (exReg exSite (.retry, [])) (exReg exSite (.success, [67, 77, 83])) exSchedB exSchedB exCfg false
    [83, 78, 49] 7 none none _ _ Voucher.busyCtx exNonce exNonce [50, 48, 50, 54, 45, 48, 49, 45, 48, 49, 84, 48, 48, 58, 48, 48, 58, 48, 48, 90]
    [50, 48, 50, 54, 45, 48, 49, 45, 48, 49, 84, 48, 48, 58, 48, 48, 58, 48, 48, 90] [77, 73, 73, 66] [77, 73, 73, 66] []
    .admitted (.success, [67, 77, 83]) exPledge (exAsking _ _ _ rfl rfl)
    (exAsking _ { Voucher.busyCtx with conns := 1 } _ rfl rfl) (by decide)
    (exSoundB exSite _ _ _ (.inl rfl) (by decide) (by decide))
    (exSoundB exSite _ _ _ (.inl rfl) (by decide) (by decide))
    (exReaches exSite _ _ _ _ _ _ _ rfl (.inl ⟨rfl, rfl⟩) (by decide +kernel) (by decide +kernel) rfl exJsonV
      ⟨_, _, _, rfl, rfl, rfl⟩)
    (exReaches exSite _ _ _ _ _ _ _ rfl (.inl ⟨rfl, rfl⟩) (by decide +kernel) (by decide +kernel) rfl exJsonV
      ⟨_, _, _, rfl, rfl, rfl⟩)).2.2
  obtain ⟨b, b2, h⟩ := h
  exact ⟨b, b2, _, h⟩

end Verif.Wire
