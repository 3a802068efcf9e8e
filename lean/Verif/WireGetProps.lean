import Verif.WireEnrollProps
import Verif.Asn1Props

/-!
# Property C90: CA certificates and CSR attributes, from the server's application to the client's
-/
namespace Verif.Wire
open Verif.HttpHdr (getHeader caseEq Hdr lines WellFormed)
open Verif.HttpConn (getRequestLen)
open Verif.ClientResp (Mode decimal errorText retryText getResponse clientSees)
open Verif.ClientReq (HeaderText toAuth path postHeaders Printable)
open Verif.Server (AuthMode Cred HdrRes DOut BEv Ev)

/-! ## The request -/

/-- The headers of a GET request. -/
def getHeaders (cfg : ClientReq.Cfg) (auth : Option (List Nat)) : List Hdr :=
  [⟨[85, 115, 101, 114, 45, 65, 103, 101, 110, 116], cfg.ua⟩, ⟨[67, 111, 110, 110, 101, 99, 116, 105, 111, 110], [99, 108, 111, 115, 101]⟩,
   ⟨[72, 111, 115, 116], cfg.server ++ 58 :: decimal cfg.port⟩, ⟨[65, 99, 99, 101, 112, 116], [42, 47, 42]⟩] ++
  (match auth with | none => [] | some v => [⟨[65, 117, 116, 104, 111, 114, 105, 122, 97, 116, 105, 111, 110], v⟩])

/-- The text of a GET request, as RFC 7230 has it. -/
def getRequest (cfg : ClientReq.Cfg) (op : EstUri.Op) (auth : Option (List Nat)) : List Nat :=
  [71, 69, 84] ++ 32 :: (path cfg op ++ 32 :: ([72, 84, 84, 80, 47, 49, 46, 49] ++ 13 :: 10 ::
    lines ((getHeaders cfg auth).map (fun h => (h, 1))) [13, 10]))

/-- The request can be sent; only the one for CSR attributes carries credentials. -/
structure Gettable (cfg : ClientReq.Cfg) (op : EstUri.Op) (auth : Option (List Nat)) : Prop where
  ua : HeaderText cfg.ua
  host : HeaderText cfg.server
  hostSet : cfg.server ≠ []
  seg : ∀ s, cfg.seg = some s → ∀ c ∈ s, 33 ≤ c ∧ c ≤ 126
  cred : ∀ v, auth = some v → HeaderText v
  only : op ≠ .csrattrs → auth = none
  short : (getRequest cfg op auth).length ≤ 1026

theorem buildGet_text (cfg : ClientReq.Cfg) (op : EstUri.Op) (auth : Option (List Nat))
    (a : ClientReq.Auth) (ha : op = .csrattrs → a = toAuth auth)
    (h : Gettable cfg op auth) :
    ClientReq.buildGet cfg op a ++ [13, 10] = getRequest cfg op auth ∧
    ClientReq.buildGet cfg op a ≠ [] := by
  have hl := h.short
  have hp : ClientReq.getText cfg op ++ [13, 10] = getRequest cfg op none := by
    simp [ClientReq.getText, getRequest, getHeaders, ClientReq.common, lines, HttpHdr.line]
  cases auth with
  | none =>
    have hpl : (ClientReq.getText cfg op).length ≤ 1024 := by
      rw [← hp] at hl; simp at hl; omega
    have hx : (if op = .csrattrs then ClientReq.addAuth (ClientReq.getText cfg op) a
        else ClientReq.getText cfg op) = ClientReq.getText cfg op := by
      split
      · rename_i he; rw [ha he]; rfl
      · rfl
    unfold ClientReq.buildGet
    simp only
    rw [List.take_of_length_le (by unfold ClientReq.totalLen; omega), hx,
      if_neg (by unfold ClientReq.hdrMax; omega)]
    exact ⟨hp, by simp [ClientReq.getText]⟩
  | some v =>
    have he : op = .csrattrs := by
      by_cases he : op = .csrattrs
      · exact he
      · have := h.only he; cases this
    have hv : ClientReq.getText cfg op ++ ([65, 117, 116, 104, 111, 114, 105, 122, 97, 116, 105, 111, 110, 58, 32] ++ (v ++ [13, 10])) ++ [13, 10] =
        getRequest cfg op (some v) := by
      simp [ClientReq.getText, getRequest, getHeaders, ClientReq.common, lines, HttpHdr.line]
    have hpl : (ClientReq.getText cfg op).length + v.length + 17 ≤ 1024 := by
      rw [← hv] at hl; simp at hl; omega
    unfold ClientReq.buildGet
    simp only
    rw [List.take_of_length_le (by unfold ClientReq.totalLen; omega), if_pos he, show a = .value v from ha he]
    rw [ClientReq.addAuth_value _ _ (by omega), if_neg (by unfold ClientReq.hdrMax; simp; omega)]
    exact ⟨hv, by simp [ClientReq.getText]⟩

theorem getHeaders_ok (cfg : ClientReq.Cfg) (op : EstUri.Op) (auth : Option (List Nat))
    (h : Gettable cfg op auth) : ∀ x ∈ getHeaders cfg auth, WellFormed x ∧ Printable x := by
  intro x hx
  refine ClientReq.printable_postHeaders cfg 0 auth h.ua h.host h.hostSet h.cred x ?_
  revert hx
  unfold getHeaders postHeaders
  simp only [List.mem_append, List.mem_cons]
  intro hx
  rcases hx with (h | h | h | h | h) | h
  · simp [h]
  · simp [h]
  · simp [h]
  · simp [h]
  · simp at h
  · exact .inr h

/-- What the client sends is read by the server as this request, with nothing behind it but an
empty line. -/
theorem server_reads_get (cfg : ClientReq.Cfg) (op : EstUri.Op) (auth : Option (List Nat))
    (a : ClientReq.Auth) (ha : op = .csrattrs → a = toAuth auth) (h : Gettable cfg op auth) :
    ∃ hd, ClientReq.sendGet (ClientReq.buildGet cfg op a) = .sent ((hd ++ [13, 10]).map some) ∧
      getRequestLen (hd ++ [13, 10]) = hd.length ∧
      HttpHdr.parseRequest hd = some ⟨[71, 69, 84], path cfg op, [49, 46, 49], getHeaders cfg auth⟩ ∧
      hd.length ≤ 1026 := by
  obtain ⟨h1, h2⟩ := buildGet_text cfg op auth a ha h
  have hall := getHeaders_ok cfg op auth h
  have hpath : ∀ c ∈ path cfg op, 33 ≤ c ∧ c ≤ 126 := by
    intro c hc
    unfold path at hc
    rcases List.mem_append.1 hc with h' | h'
    · have q : ∀ c ∈ [47, 46, 119, 101, 108, 108, 45, 107, 110, 111, 119, 110, 47, 101, 115, 116], 33 ≤ c ∧ c ≤ 126 := by decide
      exact q c h'
    · rcases List.mem_append.1 h' with h' | h'
      · cases hcs : cfg.seg with
        | none => rw [hcs] at h'; cases h'
        | some s =>
          rw [hcs] at h'
          rcases List.mem_cons.1 h' with rfl | h'
          · decide
          · exact h.seg s hcs c h'
      · have : ∀ c ∈ 47 :: ClientReq.uriName op, 33 ≤ c ∧ c ≤ 126 := by cases op <;> decide
        exact this c h'
  have hl := h.short
  refine ⟨getRequest cfg op auth, ?_, ?_, ?_, hl⟩
  · unfold ClientReq.sendGet
    rw [ClientReq.C61_sent_intact_partial _ _ h2 (by simp) (by
      have := congrArg List.length h1
      simp at this; simp; omega), ← h1]
    simp
  · have e : getRequest cfg op auth ++ [13, 10] =
        ([71, 69, 84] ++ 32 :: (path cfg op ++ 32 :: [72, 84, 84, 80, 47, 49, 46, 49])) ++ 13 :: 10 ::
          lines ((getHeaders cfg auth).map (fun h => (h, 1))) (13 :: 10 :: [13, 10]) := by
      unfold getRequest
      have := ClientResp.lines_append ((getHeaders cfg auth).map (fun h => (h, 1)))
        [13, 10] [13, 10]
      simp only [List.cons_append, List.nil_append] at this
      rw [this]; simp
    have hw : ∀ p ∈ (getHeaders cfg auth).map (fun h => (h, 1)), WellFormed p.1 := by
      intro p hp
      obtain ⟨h, hh, rfl⟩ := List.mem_map.1 hp
      exact (hall h hh).1
    have hpr : ∀ p ∈ (getHeaders cfg auth).map (fun h => (h, 1)), Printable p.1 := by
      intro p hp
      obtain ⟨h, hh, rfl⟩ := List.mem_map.1 hp
      exact (hall h hh).2
    have hne : (getHeaders cfg auth).map (fun h => (h, 1)) ≠ [] := by simp [getHeaders]
    have r := ClientReq.reqLen_lines _ hw hpr hne [13, 10]
      (0 + (([71, 69, 84] ++ 32 :: (path cfg op ++ 32 :: [72, 84, 84, 80, 47, 49, 46, 49])).length + 2))
    rw [e]
    unfold getRequestLen
    have hcons : ∃ t, lines ((getHeaders cfg auth).map (fun h => (h, 1)))
        (13 :: 10 :: [13, 10]) = 85 :: t := ⟨_, rfl⟩
    obtain ⟨t, ht⟩ := hcons
    rw [ht] at r ⊢
    rw [ClientReq.reqLen_line _ _ 85 t (by decide) 0, r]
    · unfold getRequest; simp; omega
    · intro c hc
      simp only [List.mem_append, List.mem_cons] at hc
      rcases hc with hc | hc | hc | hc | hc
      · simp at hc; omega
      · omega
      · have := hpath c hc; omega
      · omega
      · simp at hc; omega
  · have hpm := HttpHdr.C46_message_round_trip [71, 69, 84] (path cfg op) [72, 84, 84, 80, 47, 49, 46, 49]
      ((getHeaders cfg auth).map (fun h => (h, 1)))
      (by decide) (by decide) (by simp) (fun c hc => by have := hpath c hc; omega)
      (by simp [path]) (by decide) (by decide) (by
        intro p hp
        obtain ⟨h, hh, rfl⟩ := List.mem_map.1 hp
        exact (hall h hh).1)
    unfold HttpHdr.parseRequest
    rw [show getRequest cfg op auth = [71, 69, 84] ++ 32 :: (path cfg op ++ 32 ::
      ([72, 84, 84, 80, 47, 49, 46, 49] ++ 13 :: 10 :: lines ((getHeaders cfg auth).map (fun h => (h, 1)))
        [13, 10])) from rfl, hpm]
    simp only
    rw [if_pos (by decide)]
    have hmap : ((getHeaders cfg auth).map (fun h => (h, 1))).map (·.1) = getHeaders cfg auth := by
      rw [List.map_map]; exact List.map_id _
    rw [hmap, List.take_of_length_le (by unfold getHeaders; cases auth <;> simp)]
    rfl

theorem getHeaders_found (cfg : ClientReq.Cfg) (auth : Option (List Nat)) :
    getHeader (getHeaders cfg auth) [67, 111, 110, 116, 101, 110, 116, 45, 76, 101, 110, 103, 116, 104] = none ∧
    getHeader (getHeaders cfg auth) [65, 117, 116, 104, 111, 114, 105, 122, 97, 116, 105, 111, 110] = auth := by
  cases auth <;> simp [getHeaders, getHeader, HttpHdr.caseEq, HttpHdr.toLower]

/-- The server gets to handle the request. -/
theorem reply_get (cfg : ClientReq.Cfg) (op : EstUri.Op) (s : Site) (sched : List HttpConn.Ev)
    (auth : Option (List Nat)) (a : ClientReq.Auth) (ha : op = .csrattrs → a = toAuth auth)
    (h : Gettable cfg op auth) (harr : Arrives sched 1028) :
    ∃ b, ClientReq.sendGet (ClientReq.buildGet cfg op a) = .sent b ∧
      ∀ sv, handle s ⟨[71, 69, 84], path cfg op, [49, 46, 49], getHeaders cfg auth⟩ [] = some sv →
        reply s sched (.sent b) = .bytes sv.text := by
  obtain ⟨hd, h1, h2, h3, h4⟩ := server_reads_get cfg op auth a ha h
  have hne : hd ≠ [] := by
    intro h
    have hn : HttpHdr.parseRequest [] = none := by decide +kernel
    rw [h, hn] at h3
    simp at h3
  have hcl : contentLen ⟨[71, 69, 84], path cfg op, [49, 46, 49], getHeaders cfg auth⟩ = (([] : List Nat).length : Int) := by
    unfold contentLen
    simp only [(getHeaders_found cfg auth).1]
    rfl
  have hserve := serve_request s sched hd [] [13, 10] _ (by simpa using h2) hne h3 (path_valid cfg op)
    rfl hcl (by simp) (by simp [bufSize]; omega) ⟨harr.1, by have := harr.2; simp; omega⟩
  refine ⟨_, h1, fun sv hsv => ?_⟩
  unfold reply
  have hmap : ((hd ++ [13, 10]).map some).map (fun x : Option Nat => x.getD 0) = hd ++ [13, 10] := by
    rw [List.map_map]; exact List.map_id _
  rw [List.nil_append] at hserve
  simp only [hmap, hserve, hsv]

/-! ## C90: CA certificates -/

/-- The certificates the server distributes: those of the application's callback, or else those
it was configured with. -/
def chain (s : Site) : Option (List Nat) :=
  match s.srv.cacertsCb with
  | some c => c
  | none => s.srv.caCerts

theorem handle_cacerts (s : Site) (q : HttpHdr.Req) (p : List Nat) (seg : Option (List Nat))
    (hm : q.method = [71, 69, 84]) (hp : Url.requestPath q.uri = some p) (hu : s.uri p = .ok .cacerts seg)
    (ha : getHeader q.hdrs [65, 117, 116, 104, 111, 114, 105, 122, 97, 116, 105, 111, 110] = none) :
    (∀ d, chain s = some d → d ≠ [] → d.length ≤ s.out →
      ∃ sv, handle s q [] = some sv ∧ sv.text = Proxy.head200 Proxy.ctCacerts d.length ++ d) ∧
    (chain s = none → ∃ sv keep, handle s q [] = some sv ∧
      sv.text = errorText (Server.errStatus .httpNoContent) (explain .httpNoContent) keep) := by
  have hd : handle s q [] = some
      (let r := Server.handleCacerts ⟨true, s.out, true⟩ s.srv.cacertsCb s.srv.caCerts
       let d : DOut := if r.1 ≠ .none then
          Server.orError ⟨true, s.out, true⟩ .cacerts r.1 (r.2.map BEv.ev) r.1
        else ⟨.none, r.2.map BEv.ev, some .cacerts⟩
       ⟨d.evs.flatMap (render s q d), d.evs⟩) := by
    unfold handle
    simp only [hp, ha, hu]
    unfold Server.httpRequest
    simp only [hm, AuthHdr.parseAuthHeader, hdrOf]
    rw [if_neg (by decide), if_neg (by decide)]
    rfl
  have hr : ∀ d, chain s = some d → d ≠ [] → d.length ≤ s.out →
      Server.handleCacerts ⟨true, s.out, true⟩ s.srv.cacertsCb s.srv.caCerts =
        (.none, [.head 200, .body d]) := by
    intro d h1 h2 h3
    have hw : Server.writeBody s.out d = ([Ev.body d], true) := by
      simp [Server.writeBody, List.take_of_length_le h3, h2]
    unfold chain at h1
    unfold Server.handleCacerts
    cases hcb : s.srv.cacertsCb with
    | some c => simp only [hcb] at h1; subst h1; simp [hw]
    | none => simp only [hcb] at h1; simp [h1, hw]
  have hn : chain s = none →
      Server.handleCacerts ⟨true, s.out, true⟩ s.srv.cacertsCb s.srv.caCerts =
        (.httpNoContent, []) := by
    intro h1
    unfold chain at h1
    unfold Server.handleCacerts
    cases hcb : s.srv.cacertsCb with
    | some c => simp only [hcb] at h1; subst h1; rfl
    | none => simp only [hcb] at h1; simp [h1]
  refine ⟨fun d h1 h2 h3 => ?_, fun h => ?_⟩
  · rw [hr d h1 h2 h3] at hd
    refine ⟨_, hd, ?_⟩
    simp [render, bodyOf, head]
  · rw [hn h] at hd
    refine ⟨_, keepAfter s q 204, hd, ?_⟩
    simp [Server.orError, Server.sendError, render, Server.errStatus]

/-- The connection of the client leads to the server. -/
structure Fetch (cfg : ClientReq.Cfg) (op : EstUri.Op) (auth : Option (List Nat)) (c : Flow.Client)
    (u : Flow.Up) (s : Site) : Prop where
  sendable : Gettable cfg op auth
  routes : Routes s cfg op
  creds : op = .csrattrs → Flow.authOf u c.mode = toAuth auth
  joined : ∃ sched, Arrives sched 1028 ∧
    u.reply = reply s sched (ClientReq.sendGet (ClientReq.buildGet cfg op (Flow.authOf u c.mode)))

/-- What the client's function makes of the text the server wrote. -/
theorem Fetch.result {cfg : ClientReq.Cfg} {op : EstUri.Op} {auth : Option (List Nat)}
    {c : Flow.Client} {u : Flow.Up} {s : Site} (h : Fetch cfg op auth c u s) (sv : Served)
    (hs : handle s ⟨[71, 69, 84], path cfg op, [49, 46, 49], getHeaders cfg auth⟩ [] = some sv)
    (lib : Flow.Lib) (rop : ClientResp.Op) (r : ClientResp.Result)
    (hr : getResponse lib.tokensOk ⟨c.mode, c.delay⟩ rop sv.text = r) :
    ∃ sent, Flow.fetch lib cfg op rop c u =
      some (r.err, r.body, { c with mode := r.mode, delay := r.delay }, sent) := by
  obtain ⟨sched, harr, hu⟩ := h.joined
  obtain ⟨b, h1, h2⟩ := reply_get cfg op s sched auth _ h.creds h.sendable harr
  have h2 := h2 sv hs
  unfold Flow.fetch
  simp only [h1] at hu ⊢
  rw [hu]
  simp only [h2, hr]
  exact ⟨_, rfl⟩

/-! ### Example values -/

def exGet (s : Site) (op : EstUri.Op) : Flow.Up where
  uid := some [100, 87, 108, 107]
  auth := fun _ => .value [66, 97, 115, 105, 99, 32, 100, 84, 112, 119]
  reply := reply s exSched (ClientReq.sendGet (ClientReq.buildGet exCfg op .none))

theorem exFetch (s : Site) (h : s.uri = EstUri.parseUriLib true (fun _ => true) []) (op : EstUri.Op)
    (hop : op = .cacerts ∨ op = .csrattrs) (c : Flow.Client) (hc : c.mode = .none) :
    Fetch exCfg op none c (exGet s op) s := by
  refine ⟨⟨⟨by decide, by decide⟩, ⟨by decide, by decide⟩, by decide, ?_, ?_, fun _ => rfl, ?_⟩, ?_, ?_,
    exSched, exArrives _ (by decide), ?_⟩
  · intro s hs; injection hs with hs; subst hs; decide
  · intro v hv; cases hv
  · rcases hop with rfl | rfl <;> decide +kernel
  · refine C89_routes_segment s exCfg op true (fun _ => true) [] (fun _ => rfl) h ?_ (fun _ => rfl)
    intro g hg
    injection hg with hg
    subst hg
    refine ⟨by decide, by intro t; simp, by simp, by decide, ?_⟩
    intro o; cases o <;> decide
  · intro _; rw [hc]; rfl
  · rw [show Flow.authOf (exGet s op) c.mode = .none by rw [hc]; rfl]
    rfl

/-- C90: `est_client_get_cacerts` gets the certificates that the server distributes, byte for
byte, and stores them if they pass the client's verification. -/
theorem C90_cacerts (lib : Flow.Lib) (cfg : ClientReq.Cfg) (c : Flow.Client) (u : Flow.Up) (s : Site)
    (hready : c.ready = true) (hf : Fetch cfg .cacerts none c u s) (d : List Nat)
    (hd : chain s = some d) (hne : d ≠ []) (hout : d.length ≤ s.out) (hl : d.length < 2000000)
    (hcr : d.head? ≠ some 13 ∧ d.head? ≠ some 10) :
    ∃ ret c', Flow.getCacerts lib cfg (.up u) c = some (ret, c') ∧
      (∀ t, lib.verify d = .ok t → ret.err = .none ∧ c' = { c with cacerts := some t }) ∧
      (∀ e, lib.verify d = .error e → ret.err = e.err ∧ c' = { c with cacerts := none }) := by
  obtain ⟨p, hp, huri⟩ := hf.routes
  obtain ⟨sv, g1, g2⟩ := (handle_cacerts s ⟨[71, 69, 84], path cfg .cacerts, [49, 46, 49], getHeaders cfg none⟩ p cfg.seg
    rfl hp huri (getHeaders_found cfg none).2).1 d hd hne hout
  have hg := read_200 lib.tokensOk ⟨c.mode, c.delay⟩ .cacerts Proxy.ctCacerts (by decide)
    List.prefix_rfl (by decide) (by decide) d hne (by omega) hcr
  rw [← g2] at hg
  obtain ⟨sent, h1⟩ := hf.result sv g1 lib .cacerts _ hg
  have hst1 : ∀ t, lib.verify d = .ok t →
      Flow.storeCacerts lib c d = (.none, { c with cacerts := some t }) := by
    intro t ht
    unfold Flow.storeCacerts
    rw [if_neg (by intro h; exact hne (List.eq_nil_of_length_eq_zero h)),
      if_neg (by unfold ClientResp.caMax; omega), ht]
  have hst2 : ∀ e, lib.verify d = .error e →
      Flow.storeCacerts lib c d = (e.err, { c with cacerts := none }) := by
    intro e he
    unfold Flow.storeCacerts
    rw [if_neg (by intro h; exact hne (List.eq_nil_of_length_eq_zero h)),
      if_neg (by unfold ClientResp.caMax; omega), he]
  refine ⟨{ err := (Flow.storeCacerts lib c d).1, sent := sent }, (Flow.storeCacerts lib c d).2, ?_, ?_, ?_⟩
  · unfold Flow.getCacerts
    rw [if_neg (by simp [hready])]
    simp only [h1]
    rfl
  · intro t ht; rw [hst1 t ht]; exact ⟨rfl, rfl⟩
  · intro e he; rw [hst2 e he]; exact ⟨rfl, rfl⟩

example : ∃ ret c', Flow.getCacerts exLib exCfg (.up (exGet exSite .cacerts)) Flow.exInit =
    some (ret, c') ∧ ret.err = .none ∧ c'.cacerts = some [9, 9] := by
  obtain ⟨ret, c', h1, h2, _⟩ := C90_cacerts exLib exCfg Flow.exInit _ exSite rfl
    (exFetch _ rfl _ (.inl rfl) _ rfl) [9, 9] rfl (by decide) (by decide) (by decide) (by decide)
  obtain ⟨h3, h4⟩ := h2 [9, 9] rfl
  exact ⟨ret, c', h1, h3, by rw [h4]⟩

/-- C90: if the server has no certificates to distribute, the client is told so, and keeps what
it had. -/
theorem C90_cacerts_none (lib : Flow.Lib) (cfg : ClientReq.Cfg) (c : Flow.Client) (u : Flow.Up)
    (s : Site) (hready : c.ready = true) (hf : Fetch cfg .cacerts none c u s) (hd : chain s = none) :
    ∃ ret, Flow.getCacerts lib cfg (.up u) c = some (ret, c) ∧ ret.err = .httpNoContent := by
  obtain ⟨p, hp, huri⟩ := hf.routes
  obtain ⟨sv, keep, g1, g2⟩ := (handle_cacerts s ⟨[71, 69, 84], path cfg .cacerts, [49, 46, 49], getHeaders cfg none⟩ p
    cfg.seg rfl hp huri (getHeaders_found cfg none).2).2 hd
  have hg := read_error lib.tokensOk ⟨c.mode, c.delay⟩ .cacerts .httpNoContent
    (explain .httpNoContent) keep (by decide)
  rw [← g2] at hg
  obtain ⟨sent, h1⟩ := hf.result sv g1 lib .cacerts _ hg
  refine ⟨{ err := .httpNoContent, sent := sent }, ?_, rfl⟩
  unfold Flow.getCacerts
  rw [if_neg (by simp [hready])]
  simp only [h1]
  rfl

example : ∃ ret, Flow.getCacerts exLib exCfg
      (.up (exGet { exSite with srv := { exSrv with caCerts := none } } .cacerts)) Flow.exInit =
    some (ret, Flow.exInit) ∧ ret.err = .httpNoContent :=
  C90_cacerts_none exLib exCfg Flow.exInit _ { exSite with srv := { exSrv with caCerts := none } } rfl
    (exFetch _ rfl _ (.inl rfl) _ rfl) rfl

/-! ## C90: CSR attributes -/

theorem handle_csrattrs (s : Site) (q : HttpHdr.Req) (p : List Nat) (seg : Option (List Nat))
    (hm : q.method = [71, 69, 84]) (hp : Url.requestPath q.uri = some p) (hu : s.uri p = .ok .csrattrs seg)
    (hdr : HdrRes × Cred) (ha : hdrOf (AuthHdr.parseAuthHeader s.odd (toMode s.srv.cfg.authMode)
        (getHeader q.hdrs [65, 117, 116, 104, 111, 114, 105, 122, 97, 116, 105, 111, 110])) = some hdr) :
    (∀ t, Server.handleCsrAttrs ⟨true, s.out, true⟩ s.srv.lib s.srv.cfg.enablePop s.srv.csrCb
        s.srv.csrattrs = (.none, [.head 200, .body t]) →
      ∃ sv, handle s q [] = some sv ∧ sv.text = Proxy.head200 Proxy.ctAttrs t.length ++ t) ∧
    (Server.handleCsrAttrs ⟨true, s.out, true⟩ s.srv.lib s.srv.cfg.enablePop s.srv.csrCb
        s.srv.csrattrs = (.none, [.head 204]) →
      ∃ sv text keep, handle s q [] = some sv ∧
        sv.text = errorText (Server.errStatus .httpNoContent) text keep) ∧
    (∀ e, Server.handleCsrAttrs ⟨true, s.out, true⟩ s.srv.lib s.srv.cfg.enablePop s.srv.csrCb
        s.srv.csrattrs = (e, []) → e ≠ .none → e ≠ .caEnrollRetry →
      ∃ sv text keep, handle s q [] = some sv ∧ sv.text = errorText (Server.errStatus e) text keep) := by
  have hd : handle s q [] = some
      (let r := Server.handleCsrAttrs ⟨true, s.out, true⟩ s.srv.lib s.srv.cfg.enablePop s.srv.csrCb
         s.srv.csrattrs
       let d : DOut := if r.1 ≠ .none then
          Server.orError ⟨true, s.out, true⟩ .csrattrs r.1 (r.2.map BEv.ev) r.1
        else ⟨.none, r.2.map BEv.ev, some .csrattrs⟩
       ⟨d.evs.flatMap (render s q d), d.evs⟩) := by
    unfold handle
    simp only [hp, ha, hu]
    unfold Server.httpRequest
    simp only [hm]
    rw [if_neg (by decide), if_neg (by decide)]
    rfl
  refine ⟨fun t h => ?_, fun h => ?_, fun e h h1 h2 => ?_⟩
  · rw [h] at hd
    refine ⟨_, hd, ?_⟩
    simp [render, bodyOf, head]
  · rw [h] at hd
    refine ⟨_, explain .none, keepAfter s q 204, hd, ?_⟩
    simp [render, Server.errStatus]
  · rw [h] at hd
    obtain ⟨h3, h4⟩ := errStatus_plain e h2
    refine ⟨_, explain e, keepAfter s q (Server.errStatus e), hd, ?_⟩
    simp [Server.orError, Server.sendError, render, h1, h2, h3, h4]

/-- C90: `est_client_get_csrattrs` hands the application the attributes that the server's
handler decided to send (C86 says which), if the client's own check of them passes; the client
remembers whether challengePassword is among them. -/
theorem C90_csrattrs (lib : Flow.Lib) (cfg : ClientReq.Cfg) (c : Flow.Client) (u : Flow.Up) (s : Site)
    (auth : Option (List Nat)) (hdr : HdrRes × Cred)
    (hh : hdrOf (AuthHdr.parseAuthHeader s.odd (toMode s.srv.cfg.authMode) auth) = some hdr)
    (hf : Fetch cfg .csrattrs auth { c with attrs := none } u s) (t : List Nat) (hne : t ≠ [])
    (hs : Server.handleCsrAttrs ⟨true, s.out, true⟩ s.srv.lib s.srv.cfg.enablePop s.srv.csrCb
      s.srv.csrattrs = (.none, [.head 200, .body t])) (hl : t.length ≤ 2000000)
    (hcr : t.head? ≠ some 13 ∧ t.head? ≠ some 10) :
    ∃ ret c', Flow.getCsrattrs lib cfg (.up u) c = some (ret, c') ∧
      ((lib.attrs t).1 = .none → ret.err = .none ∧ ret.data = some t ∧
        c' = { c with attrs := some t, popReq := (lib.attrs t).2 }) ∧
      ((lib.attrs t).1 ≠ .none → ret.err = (lib.attrs t).1 ∧ ret.data = none ∧
        c' = { c with attrs := none, popReq := (lib.attrs t).2 }) := by
  obtain ⟨p, hp, huri⟩ := hf.routes
  obtain ⟨sv, g1, g2⟩ := (handle_csrattrs s ⟨[71, 69, 84], path cfg .csrattrs, [49, 46, 49], getHeaders cfg auth⟩ p
    cfg.seg rfl hp huri hdr (by rw [(getHeaders_found cfg auth).2]; exact hh)).1 t hs
  have hg := read_200 lib.tokensOk ⟨c.mode, c.delay⟩ .csrattrs Proxy.ctAttrs (by decide)
    List.prefix_rfl (by decide) (by decide) t hne hl hcr
  rw [← g2] at hg
  obtain ⟨sent, h1⟩ := hf.result sv g1 lib .csrattrs _ hg
  unfold Flow.getCsrattrs
  simp only [h1]
  rw [if_neg (by simp)]
  by_cases ha : (lib.attrs t).1 = .none
  · rw [if_pos ha]
    exact ⟨_, _, rfl, fun _ => ⟨rfl, rfl, rfl⟩, fun h => absurd ha h⟩
  · rw [if_neg ha]
    exact ⟨_, _, rfl, fun h => absurd h ha, fun _ => ⟨rfl, rfl, rfl⟩⟩

example : ∃ ret c', Flow.getCsrattrs exLib exCfg
      (.up (exGet { exSite with srv := { exSrv with csrattrs := some [77, 65, 115, 71, 67, 83, 113, 71, 83, 73, 98, 51, 68, 81, 69, 74, 66, 119, 61, 61] } } .csrattrs))
      Flow.exInit = some (ret, c') ∧ ret.data = some [77, 65, 115, 71, 67, 83, 113, 71, 83, 73, 98, 51, 68, 81, 69, 74, 66, 119, 61, 61] ∧ c'.popReq = true := by
  obtain ⟨ret, c', h1, h2, _⟩ := C90_csrattrs exLib exCfg Flow.exInit _
    { exSite with srv := { exSrv with csrattrs := some [77, 65, 115, 71, 67, 83, 113, 71, 83, 73, 98, 51, 68, 81, 69, 74, 66, 119, 61, 61] } } none _ rfl
    (exFetch _ rfl _ (.inr rfl) _ rfl) [77, 65, 115, 71, 67, 83, 113, 71, 83, 73, 98, 51, 68, 81, 69, 74, 66, 119, 61, 61] (by decide) (by decide) (by decide)
    (by decide)
  obtain ⟨_, h4, h5⟩ := h2 rfl
  exact ⟨ret, c', h1, h4, by rw [h5]; rfl⟩

/-- C90: if the server has no attributes or cannot use those of its application, the client's
function says so and hands out nothing. -/
theorem C90_csrattrs_refused (lib : Flow.Lib) (cfg : ClientReq.Cfg) (c : Flow.Client) (u : Flow.Up)
    (s : Site) (auth : Option (List Nat)) (hdr : HdrRes × Cred)
    (hh : hdrOf (AuthHdr.parseAuthHeader s.odd (toMode s.srv.cfg.authMode) auth) = some hdr)
    (hf : Fetch cfg .csrattrs auth { c with attrs := none } u s) (e : EstErr) (he : e ≠ .none)
    (he2 : e ≠ .caEnrollRetry)
    (hs : Server.handleCsrAttrs ⟨true, s.out, true⟩ s.srv.lib s.srv.cfg.enablePop s.srv.csrCb
      s.srv.csrattrs = (e, []) ∨
      e = .httpNoContent ∧ Server.handleCsrAttrs ⟨true, s.out, true⟩ s.srv.lib s.srv.cfg.enablePop
        s.srv.csrCb s.srv.csrattrs = (.none, [.head 204])) :
    ∃ ret c', Flow.getCsrattrs lib cfg (.up u) c = some (ret, c') ∧ ret.err = clientSees e ∧
      ret.data = none ∧ c'.attrs = none ∧ c'.popReq = c.popReq := by
  obtain ⟨p, hp, huri⟩ := hf.routes
  have hx := handle_csrattrs s ⟨[71, 69, 84], path cfg .csrattrs, [49, 46, 49], getHeaders cfg auth⟩ p
    cfg.seg rfl hp huri hdr (by rw [(getHeaders_found cfg auth).2]; exact hh)
  obtain ⟨sv, text, keep, g1, g2⟩ : ∃ sv text keep,
      handle s ⟨[71, 69, 84], path cfg .csrattrs, [49, 46, 49], getHeaders cfg auth⟩ [] = some sv ∧
        sv.text = errorText (Server.errStatus e) text keep := by
    rcases hs with h | ⟨rfl, h⟩
    · exact hx.2.2 e h he he2
    · exact hx.2.1 h
  have hg := read_error lib.tokensOk ⟨c.mode, c.delay⟩ .csrattrs e text keep he2
  rw [← g2] at hg
  obtain ⟨sent, h1⟩ := hf.result sv g1 lib .csrattrs _ hg
  unfold Flow.getCsrattrs
  simp only [h1]
  rw [if_pos (clientSees_none e)]
  exact ⟨_, _, rfl, rfl, rfl, rfl, rfl⟩

example : ∃ ret c', Flow.getCsrattrs exLib exCfg (.up (exGet exSite .csrattrs)) Flow.exInit =
      some (ret, c') ∧ ret.err = .httpNoContent ∧ ret.data = none := by
  obtain ⟨ret, c', h1, h2, h3, _⟩ := C90_csrattrs_refused exLib exCfg Flow.exInit _ exSite none _ rfl
    (exFetch _ rfl _ (.inr rfl) _ rfl) .httpNoContent (by decide) (by decide) (.inl rfl)
  exact ⟨ret, c', h1, h2, h3⟩

/-- C90 is false of the code for texts that begin with a line break: the client takes it for the end
of the header, misses a byte of the body and reports an error, although the server sent its
certificates. -/
theorem C90_leading_newline_false :
    ((Flow.getCacerts exLib exCfg
      (.up (exGet { exSite with srv := { exSrv with caCerts := some [10, 77, 73] } } .cacerts))
      Flow.exInit).map fun p => (p.1.err, p.2.cacerts)) = some (.httpUnsupported, none) := by
  decide +kernel

end Verif.Wire
