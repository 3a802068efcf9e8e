import Verif.CoapAllProps
import Verif.CborProps

/-!
# CA certificates and CSR attributes over CoAP (C95)
-/
namespace Verif.Coap
open Verif.Base64 (Bytes enc wrap)

/-! ## The texts -/

/-- A base64 text of the bytes, in one line or in lines of 64 characters. -/
def TextOf (der text : List Nat) : Prop := text = enc der ∨ text = wrap (enc der)

theorem wrap_chars (t : List Nat) (h : ∀ c ∈ t, c ≠ 0) : ∀ c ∈ wrap t, c ≠ 0 := by
  generalize hn : t.length = n
  induction n using Nat.strongRecOn generalizing t with
  | ind n ih =>
    by_cases ht : t = []
    · subst ht; intro c hc; rw [Base64.wrap_nil] at hc; cases hc
    · have hpos : t.length ≠ 0 := by simpa using ht
      rw [Base64.wrap_of_ne ht]
      intro c hc
      rcases List.mem_append.1 hc with hc | hc
      · exact h c (List.mem_of_mem_take hc)
      · rcases List.mem_cons.1 hc with rfl | hc
        · decide
        · exact ih (t.drop 64).length (by simp; omega) (t.drop 64)
            (fun c hc => h c (List.mem_of_mem_drop hc)) rfl c hc

theorem takeWhile_id {l : List Nat} (h : ∀ c ∈ l, c ≠ 0) : l.takeWhile (· ≠ 0) = l := by
  have := List.takeWhile_append_of_pos (p := fun c : Nat => decide (c ≠ 0)) (l₁ := l) (l₂ := [])
    (by intro c hc; simpa using h c hc)
  simpa using this

theorem text_decodes (odd) {der text : List Nat} (hb : Bytes der) (hne : der ≠ [])
    (hlen : der.length ≤ 16384) (ht : TextOf der text) :
    Base64.decode odd (text.takeWhile (· ≠ 0)) (min text.length bufMax) =
      .ret der.length der := by
  have hl := Base64.enc_length der
  have hz : ∀ c ∈ enc der, c ≠ 0 := fun c hc => (Base64.enc_chars der hb c hc).2.1
  rcases ht with rfl | rfl
  · rw [takeWhile_id hz]
    refine Base64.decode_enc odd der hb hne _ ?_
    rw [hl]; simp only [bufMax]; omega
  · rw [takeWhile_id (wrap_chars _ hz)]
    refine Base64.decode_wrap odd der hb hne _ ?_
    rw [Base64.wrap_length, hl]; simp only [bufMax]; omega

/-! ## A fresh request -/

/-- The events of a fresh request whose response libcoap cuts with the given `m` bit. -/
def freshEvs (more : Bool) : List Phase := if more then [.start] else [.start, .done]

theorem storeText_exact (odd) (cut : Cut) (format : Nat) (b : Option Block) {der text : List Nat}
    (hb : Bytes der) (hne : der ≠ []) (hlen : der.length ≤ 16384) (ht : TextOf der text)
    (n : Node) :
    storeText odd cut format b text n =
      ⟨.reply 205 (some format) (cut b der).1, { n with resp := der }, freshEvs (cut b der).2⟩ := by
  have hpos : der.length ≠ 0 := by simpa using hne
  simp only [storeText, text_decodes odd hb hne hlen ht, hpos, if_false, List.take_length, send,
    freshEvs]
  cases (cut b der).2 <;> rfl

theorem storeText_long (odd) (cut : Cut) (format : Nat) (b : Option Block) {der : List Nat}
    (hb : Bytes der) (hlen : 16384 < der.length) (n : Node) :
    storeText odd cut format b (enc der) n = ⟨.reply 500 none [], n, [.start, .done]⟩ := by
  have hne : der ≠ [] := by intro h; rw [h] at hlen; simp at hlen
  have hz : ∀ c ∈ enc der, c ≠ 0 := fun c hc => (Base64.enc_chars der hb c hc).2.1
  obtain ⟨w, hw⟩ := Base64.C01_short_destination odd der hb hne (min (enc der).length bufMax)
    (by simp only [bufMax]; omega)
  simp only [storeText, takeWhile_id hz, hw, if_true]
  rfl

/-- The session can be served with a request of type `r` that has no stored response: it has no
record and there is room for one, or its record was used for another type of request, or holds
no response. -/
def Fresh (cap : Nat) (t : Tbl) (k : List Nat) (r : Req) : Prop :=
  match look t.slots k with
  | none => t.cnt < cap
  | some n => n.cur = r → begun n.resp = false

theorem fresh_record {cap : Nat} {t : Tbl} {k : List Nat} {r : Req} (hr : r ≠ .reset)
    (h : Fresh cap t k r) : ∃ n, recordFor cap t k r = some n ∧ begun n.resp = false := by
  simp only [Fresh] at h
  simp only [recordFor]
  cases hl : look t.slots k with
  | none =>
    simp only [hl] at h
    exact ⟨⟨k, [], [], r⟩, by simp only [h, if_true], rfl⟩
  | some n =>
    simp only [hl] at h
    refine ⟨_, rfl, ?_⟩
    by_cases hc : n.cur = r
    · rw [if_neg (by simp [hc])]; exact h hc
    · rw [if_pos ⟨hc, hr⟩]; rfl

theorem accept_ok {media : Nat} {vals : List Nat} (h : vals = [] ∨ vals = [media]) :
    checkOption .accept media vals = .none := (C44_accept_accepted_iff media vals).2 h

/-- C95, CA certificates: a fresh request of any session with TLS, with or without a client
certificate, gets the bytes whose base64 text the EST layer holds, as 2.05 with
Content-Format 281. -/
theorem C95_cacerts_exact (L : Libc) (hL : L.Ok) (odd) (cut : Cut) (cap : Nat) (t : Tbl)
    (h : Inv cap t) (est : Est) (peer : Peer) (hk : peer.key ≠ []) (htls : peer.tls = true)
    (m : Msg) (hacc : m.pdu.accepts = [] ∨ m.pdu.accepts = [281])
    (hfresh : Fresh cap t peer.key .crts) (der text : List Nat) (hb : Bytes der) (hne : der ≠ [])
    (hlen : der.length ≤ 16384) (ht : TextOf der text) (hsrc : est.cacerts = (.none, some text)) :
    (handle L odd cut est t peer .crts m).1 =
      (.reply 205 (some 281) (cut m.block2 der).1, freshEvs (cut m.block2 der).2) := by
  have hp : precheck peer .crts m = none := by simp [precheck, htls]
  obtain ⟨n, hn, hb'⟩ := fresh_record (by decide) hfresh
  have hs := (handle_spec h hL odd cut est peer hk .crts m hp).2.2
  rw [show Path.req .crts = Req.crts from rfl, hn] at hs
  rw [hs.1]
  simp only [nodeStep, crtsNode, hb', accept_ok (media := pkcs7Certs) hacc, hsrc,
    Bool.false_eq_true, if_false, ne_eq, not_true_eq_false,
    storeText_exact odd cut pkcs7Certs m.block2 hb hne hlen ht]
  rfl

/-- C95, CSR attributes: likewise, as 2.05 with Content-Format 285. -/
theorem C95_attrs_exact (L : Libc) (hL : L.Ok) (odd) (cut : Cut) (cap : Nat) (t : Tbl)
    (h : Inv cap t) (est : Est) (peer : Peer) (hk : peer.key ≠ []) (htls : peer.tls = true)
    (m : Msg) (hacc : m.pdu.accepts = [] ∨ m.pdu.accepts = [285])
    (hfresh : Fresh cap t peer.key .att) (der text : List Nat) (hb : Bytes der) (hne : der ≠ [])
    (hlen : der.length ≤ 16384) (ht : TextOf der text) (hsrc : est.attrs = (.none, some text)) :
    (handle L odd cut est t peer .att m).1 =
      (.reply 205 (some 285) (cut m.block2 der).1, freshEvs (cut m.block2 der).2) := by
  have hp : precheck peer .att m = none := by simp [precheck, htls]
  obtain ⟨n, hn, hb'⟩ := fresh_record (by decide) hfresh
  have hs := (handle_spec h hL odd cut est peer hk .att m hp).2.2
  rw [show Path.req .att = Req.att from rfl, hn] at hs
  rw [hs.1]
  simp only [nodeStep, attNode, hb', accept_ok (media := csrAttrsMedia) hacc, hsrc,
    Bool.false_eq_true, if_false, ne_eq, not_true_eq_false,
    storeText_exact odd cut csrAttrsMedia m.block2 hb hne hlen ht]
  rfl

example : (handle simpleLibc (fun _ l => l) exCut exEst (initTbl 2) ⟨[49], true, false⟩ .crts
    ⟨⟨[], [281], none, []⟩, some ⟨0, false, 0⟩⟩).1 =
    (.reply 205 (some 281) [49, 97, 110], [.start, .done]) := by decide +kernel

example : (handle simpleLibc (fun _ l => l) exCut exEst (initTbl 2) ⟨[49], true, false⟩ .att exGet).1 =
    (.reply 205 (some 285) [0x30, 0x0b, 6, 9, 0x2a, 0x86, 0x48, 0x86, 0xf7, 0x0d, 1, 9, 7],
      [.start, .done]) := by decide +kernel

example : Fresh 2 (initTbl 2) [49] .crts ∧ TextOf [49, 97, 110] [77, 87, 70, 117] := by
  refine ⟨?_, Or.inl (by decide)⟩
  simp only [Fresh]
  rw [show look (initTbl 2).slots [49] = none from rfl]
  decide

/-- C95: what does not fit the 16384 bytes of the response buffer is never cut: the answer
is 5.00. -/
theorem C95_too_long (L : Libc) (hL : L.Ok) (odd) (cut : Cut) (cap : Nat) (t : Tbl)
    (h : Inv cap t) (est : Est) (peer : Peer) (hk : peer.key ≠ []) (htls : peer.tls = true)
    (m : Msg) (hacc : m.pdu.accepts = [] ∨ m.pdu.accepts = [281])
    (hfresh : Fresh cap t peer.key .crts) (der : List Nat) (hb : Bytes der)
    (hlen : 16384 < der.length) (hsrc : est.cacerts = (.none, some (enc der))) :
    (handle L odd cut est t peer .crts m).1 = (.reply 500 none [], [.start, .done]) := by
  have hp : precheck peer .crts m = none := by simp [precheck, htls]
  obtain ⟨n, hn, hb'⟩ := fresh_record (by decide) hfresh
  have hs := (handle_spec h hL odd cut est peer hk .crts m hp).2.2
  rw [show Path.req .crts = Req.crts from rfl, hn] at hs
  rw [hs.1]
  simp only [nodeStep, crtsNode, hb', accept_ok (media := pkcs7Certs) hacc, hsrc,
    Bool.false_eq_true, if_false, ne_eq, not_true_eq_false,
    storeText_long odd cut pkcs7Certs m.block2 hb hlen]

example : Bytes (List.replicate 16385 7) ∧ 16384 < (List.replicate 16385 7).length := by
  refine ⟨fun b hb => ?_, ?_⟩
  · rw [List.eq_of_mem_replicate hb]; decide
  · rw [List.length_replicate]; decide

/-! ## Refusals -/

/-- The documented response codes for an error of the EST layer. -/
def getAnswers : List (EstErr × Nat) := [(.httpBadReq, 400), (.httpNoContent, 205),
  (.httpNotFound, 404), (.authFail, 401), (.httpUnsupported, 502), (.caEnrollRetry, 503),
  (.httpLocked, 503), (.ipConnect, 504)]

/-- C95: an error of the EST layer gives an empty response with the code of the table, 5.00 for
any other error; the session's record is left as it was, so that the next request asks
again. -/
theorem C95_errors (odd) (cut : Cut) (est : Est) (m : Msg) (n : Node) (hn : begun n.resp = false)
    (e : EstErr) (he : e ≠ .none) :
    (est.cacerts.1 = e → (m.pdu.accepts = [] ∨ m.pdu.accepts = [281]) →
      nodeStep odd cut est .crts m n =
        ⟨.reply ((getAnswers.lookup e).getD 500) none [], n, [.start, .done]⟩) ∧
    (est.attrs.1 = e → (m.pdu.accepts = [] ∨ m.pdu.accepts = [285]) →
      nodeStep odd cut est .att m n =
        ⟨.reply ((getAnswers.lookup e).getD 500) none [], n, [.start, .done]⟩) := by
  have hc : getCode e = (getAnswers.lookup e).getD 500 := by cases e <;> rfl
  constructor
  · intro h1 h2
    simp only [nodeStep, crtsNode, hn, accept_ok (media := pkcs7Certs) h2, h1, he,
      Bool.false_eq_true, if_false, ne_eq, not_true_eq_false, not_false_eq_true, if_true, fail, hc]
    rfl
  · intro h1 h2
    simp only [nodeStep, attNode, hn, accept_ok (media := csrAttrsMedia) h2, h1, he,
      Bool.false_eq_true, if_false, ne_eq, not_true_eq_false, not_false_eq_true, if_true, fail, hc]
    rfl

example : (nodeStep (fun _ l => l) exCut { exEst with cacerts := (.httpLocked, none) } .crts exGet
    ⟨[49], [], [], .crts⟩).reply = .reply 503 none [] := by decide +kernel

/-- C95: without certificates the answer is 4.04, without attributes an empty 2.05. -/
theorem C95_nothing_held (odd) (cut : Cut) (est : Est) (m : Msg) (n : Node)
    (hn : begun n.resp = false) :
    (est.cacerts = (.none, none) → (m.pdu.accepts = [] ∨ m.pdu.accepts = [281]) →
      nodeStep odd cut est .crts m n = ⟨.reply 404 none [], n, [.start, .done]⟩) ∧
    (est.attrs = (.none, none) → (m.pdu.accepts = [] ∨ m.pdu.accepts = [285]) →
      nodeStep odd cut est .att m n = ⟨.reply 205 none [], n, [.start, .done]⟩) := by
  constructor
  · intro h1 h2
    simp only [nodeStep, crtsNode, hn, accept_ok (media := pkcs7Certs) h2, h1,
      Bool.false_eq_true, if_false, ne_eq, not_true_eq_false, fail]
    rfl
  · intro h1 h2
    simp only [nodeStep, attNode, hn, accept_ok (media := csrAttrsMedia) h2, h1,
      Bool.false_eq_true, if_false, ne_eq, not_true_eq_false, fail]
    rfl

/-- C95: an Accept option for another format is refused on a fresh request. -/
theorem C95_accept_refused (odd) (cut : Cut) (est : Est) (m : Msg) (n : Node)
    (hn : begun n.resp = false) (v : Nat) (hv : v ≤ 65535) (more : List Nat)
    (ha : m.pdu.accepts = v :: more) :
    (v ≠ 281 → (nodeStep odd cut est .crts m n).reply = .reply 406 none [] ∧
      (nodeStep odd cut est .crts m n).node = n) ∧
    (v ≠ 285 → (nodeStep odd cut est .att m n).reply = .reply 406 none [] ∧
      (nodeStep odd cut est .att m n).node = n) := by
  have hx : ∀ media, v ≠ media → checkOption .accept media m.pdu.accepts = .httpUnsupported := by
    intro media hne
    rw [ha]
    simp only [checkOption, ne_eq, hne, not_false_eq_true, if_true]
    rw [if_neg (by simp only [contentTypeMax]; omega)]
  constructor
  · intro hne
    simp only [nodeStep, crtsNode, hn, hx pkcs7Certs hne, Bool.false_eq_true, if_false, ne_eq,
      reduceCtorEq, not_false_eq_true, if_true, fail]
    exact ⟨rfl, trivial⟩
  · intro hne
    simp only [nodeStep, attNode, hn, hx csrAttrsMedia hne, Bool.false_eq_true, if_false, ne_eq,
      reduceCtorEq, not_false_eq_true, if_true, fail]
    exact ⟨rfl, trivial⟩

/-- C95: a client certificate makes no difference to the two resources. -/
theorem C95_no_certificate_needed (L : Libc) (odd) (cut : Cut) (est : Est) (t : Tbl) (peer : Peer)
    (path : Path) (hp : path = .crts ∨ path = .att) (m : Msg) (c : Bool) :
    handle L odd cut est t { peer with cert := c } path m = handle L odd cut est t peer path m := by
  rcases hp with rfl | rfl <;> rfl

/-- C95: without TLS state nothing is handed out. -/
theorem C95_tls_needed (L : Libc) (odd) (cut : Cut) (est : Est) (t : Tbl) (peer : Peer)
    (htls : peer.tls = false) (m : Msg) :
    handle L odd cut est t peer .crts m = ((.reply 401 none [], [.done]), t) ∧
    handle L odd cut est t peer .att m = ((.reply 500 none [], [.done]), t) := by
  simp [handle, precheck, htls]

/-! ## Where the texts come from -/

/-- C95: CoAP clients get the CA certificates that HTTP clients get: over HTTP the server's
function sends exactly the text it leaves for the CoAP handler, or returns the same error
without sending anything. -/
theorem C95_same_cacerts_as_http (net : Server.Net) (hh : net.hdrOut = true)
    (cb : Option (Option (List Nat))) (stored : Option (List Nat)) :
    (∀ text, coapCacerts cb stored = (.none, some text) → text ≠ [] → text.length ≤ net.bodyOut →
      Server.handleCacerts net cb stored = (.none, [.head 200, .body text])) ∧
    (∀ e, (coapCacerts cb stored).1 = e → e ≠ .none →
      Server.handleCacerts net cb stored = (e, [])) := by
  have hw : ∀ text : List Nat, text ≠ [] → text.length ≤ net.bodyOut →
      Server.writeBody net.bodyOut text = ([.body text], true) := by
    intro text hne hl
    simp only [Server.writeBody, List.take_of_length_le hl, hne, if_false]
    cases text with
    | nil => exact absurd rfl hne
    | cons => rfl
  constructor
  · intro text h hne hl
    rcases cb with _ | _ | c
    · cases stored with
      | none => simp [coapCacerts] at h
      | some c =>
        simp only [coapCacerts, Prod.mk.injEq, Option.some.injEq, true_and] at h
        subst h
        simp [Server.handleCacerts, hh, hw c hne hl]
    · simp [coapCacerts] at h
    · simp only [coapCacerts, Prod.mk.injEq, Option.some.injEq, true_and] at h
      subst h
      simp [Server.handleCacerts, hh, hw c hne hl]
  · intro e h he
    rcases cb with _ | _ | c
    · cases stored with
      | none => simp only [coapCacerts] at h; subst h; rfl
      | some c => simp only [coapCacerts] at h; exact absurd h.symm he
    · simp only [coapCacerts] at h; subst h; rfl
    · simp only [coapCacerts] at h; exact absurd h.symm he

/-- C95: the same for the CSR attributes; a callback's `NULL` and an empty text are the same
over HTTP. -/
theorem C95_same_attrs_as_http (net : Server.Net) (lib : Server.AttrLib)
    (hlib : ∀ d e, lib.addPop d = .error e → e ≠ .none) (pop : Bool)
    (cb : Option (Option (List Nat))) (stored : Option (List Nat)) :
    Server.handleCsrAttrs net lib pop (cb.map (·.getD [])) stored =
      if (coapAttrs lib pop cb stored).1 = .none then
        Server.sendCsrattr net ((coapAttrs lib pop cb stored).2.getD [])
      else ((coapAttrs lib pop cb stored).1, []) := by
  rcases cb with _ | d
  · cases stored with
    | none => cases pop <;> simp [coapAttrs, Server.handleCsrAttrs]
    | some s => simp [coapAttrs, Server.handleCsrAttrs]
  · simp only [Option.map_some]
    simp only [coapAttrs, Server.handleCsrAttrs]
    by_cases h1 : d.getD [] ≠ [] ∧ (lib.parseAttrs (d.getD [])).1 ≠ .none
    · simp only [h1, and_self, ne_eq, not_false_eq_true, if_true, if_false]
    · simp only [h1, if_false]
      cases pop with
      | false => simp
      | true =>
        simp only [if_true]
        by_cases h2 : d.getD [] = []
        · simp [h2]
        · simp only [h2, if_false]
          cases (lib.parseAttrs (d.getD [])).2 with
          | true => simp
          | false =>
            simp only [Bool.false_eq_true, if_false]
            cases ha : lib.addPop (d.getD []) with
            | ok x => simp
            | error e =>
              simp [hlib _ _ ha]

/-- With PoP enabled a plain text gets challengePassword added; over HTTP and over CoAP the
same text is handed out. -/
example : coapAttrs ⟨fun _ => (.none, false), fun d => .ok (d ++ [65, 66, 67, 68])⟩ true (some (some [69, 70, 71, 72])) none =
      (.none, some [69, 70, 71, 72, 65, 66, 67, 68]) ∧
    Server.handleCsrAttrs ⟨true, 100, true⟩ ⟨fun _ => (.none, false), fun d => .ok (d ++ [65, 66, 67, 68])⟩
      true (some [69, 70, 71, 72]) none = (.none, [.head 200, .body [69, 70, 71, 72, 65, 66, 67, 68]]) := by decide +kernel

example : coapCacerts (some (some [77, 87, 70, 117])) (some [65, 65, 65, 65]) = (.none, some [77, 87, 70, 117]) ∧
    coapCacerts none (some [65, 65, 65, 65]) = (.none, some [65, 65, 65, 65]) := by decide

/-- C95 is false for a callback that returns an empty text that is not `NULL`: HTTP clients get
204, over CoAP the decoder reads in front of the text. -/
theorem C95_empty_attrs_false (odd) (cut : Cut) (lib : Server.AttrLib) (est : Est)
    (hsrc : est.attrs = coapAttrs lib false (some (some [])) none) (k : List Nat) :
    (nodeStep odd cut est .att exGet ⟨k, [], [], .att⟩).reply = .ub ∧
    Server.handleCsrAttrs ⟨true, 100, true⟩ lib false (some []) none = (.none, [.head 204]) := by
  constructor
  · have hs : est.attrs = (.none, some []) := by rw [hsrc]; simp [coapAttrs]
    have hd := Base64.C57_blank_text_false odd [] (by simp) 0
    simp only [nodeStep, attNode, hs, begun, List.headD_nil, bne_self_eq_false,
      Bool.false_eq_true, if_false, exGet, accept_ok (media := csrAttrsMedia) (Or.inl rfl), ne_eq,
      not_true_eq_false, storeText, List.takeWhile_nil, List.length_nil, Nat.zero_min, hd]
  · simp [Server.handleCsrAttrs, Server.sendCsrattr, Server.sendError, Server.errStatus]

/-! ## Block by block -/

/-- What RFC 7959 asks of a server that cuts a response: block `num` of size `2 ^ (szx + 4)`,
and the `m` bit when more follows. -/
def CutOk (cut : Cut) : Prop :=
  ∀ (num szx : Nat) (m : Bool) (d : List Nat), num * 2 ^ (szx + 4) < d.length →
    cut (some ⟨num, m, szx⟩) d = ((d.drop (num * 2 ^ (szx + 4))).take (2 ^ (szx + 4)),
      decide ((num + 1) * 2 ^ (szx + 4) < d.length))

/-- The request for block `i`. -/
def askBlock (szx i : Nat) : Msg := ⟨⟨[], [], none, []⟩, some ⟨i, false, szx⟩⟩

/-- A client that asks for the blocks `i`, `i + 1`, …, `i + count - 1`; the EST layer may give another answer at
each of them. -/
def askBlocks (ests : Nat → Est) (peer : Peer) (path : Path) (szx : Nat) : Nat → Nat → List Act
  | _, 0 => []
  | i, count + 1 =>
    .msg (ests i) peer path (askBlock szx i) :: askBlocks ests peer path szx (i + 1) count

/-- The responses it should get. -/
def blockReplies (k : List Nat) (format szx : Nat) (d : List Nat) :
    Nat → Nat → List (List Nat × Reply × List Phase)
  | _, 0 => []
  | i, count + 1 =>
    (k, .reply 205 (some format) ((d.drop (i * 2 ^ (szx + 4))).take (2 ^ (szx + 4))),
      (if i = 0 then [.start] else []) ++ (if (i + 1) * 2 ^ (szx + 4) < d.length then [] else [.done]))
    :: blockReplies k format szx d (i + 1) count

/-- The payloads put together. -/
def joined : List (List Nat × Reply × List Phase) → List Nat
  | [] => []
  | (_, .reply _ _ b, _) :: rest => b ++ joined rest
  | _ :: rest => joined rest

theorem joined_blocks (k : List Nat) (format szx : Nat) (d : List Nat) : ∀ (count i : Nat),
    d.length ≤ (i + count) * 2 ^ (szx + 4) →
    joined (blockReplies k format szx d i count) = d.drop (i * 2 ^ (szx + 4))
  | 0, i, h => by
    simp only [blockReplies, joined]
    rw [List.drop_of_length_le]
    simpa using h
  | count + 1, i, h => by
    simp only [blockReplies, joined]
    rw [joined_blocks k format szx d count (i + 1) (by
      rw [show i + 1 + count = i + (count + 1) by omega]; exact h)]
    rw [Nat.add_mul, Nat.one_mul, ← List.drop_drop, List.take_append_drop]

/-- The cached blocks: once the response is stored, every further request is answered from
it. -/
theorem cached_blocks {cap : Nat} {L : Libc} (hL : L.Ok) (odd) (cut : Cut) (hcut : CutOk cut)
    (ests : Nat → Est) (peer : Peer) (hk : peer.key ≠ []) (htls : peer.tls = true) (path : Path)
    (hpath : path = .crts ∨ path = .att) (szx : Nat) (n : Node) (hcur : n.cur = path.req)
    (hresp : begun n.resp = true) : ∀ (count i : Nat) (t : Tbl), Inv cap t →
    look t.slots peer.key = some n → 0 < i →
    (i + count - 1) * 2 ^ (szx + 4) < n.resp.length →
    serve L odd cut t (askBlocks ests peer path szx i count) =
      blockReplies peer.key (if path = .crts then 281 else 285) szx n.resp i count
  | 0, _, _, _, _, _, _ => rfl
  | count + 1, i, t, h, hl, hi, hlen => by
    have hp : precheck peer path (askBlock szx i) = none := by
      rcases hpath with rfl | rfl <;> simp [precheck, htls]
    have hr : recordFor cap t peer.key path.req = some n := by
      simp only [recordFor, hl, hcur, ne_eq, not_true_eq_false, false_and, if_false]
    obtain ⟨s1, s2, s3⟩ := handle_spec h hL odd cut (ests i) peer hk path (askBlock szx i) hp
    rw [hr] at s3
    have hle : i * 2 ^ (szx + 4) ≤ (i + (count + 1) - 1) * 2 ^ (szx + 4) :=
      Nat.mul_le_mul_right _ (by omega)
    have hstep : nodeStep odd cut (ests i) path (askBlock szx i) n =
        ⟨.reply 205 (some (if path = .crts then 281 else 285))
          ((n.resp.drop (i * 2 ^ (szx + 4))).take (2 ^ (szx + 4))), n,
          if (i + 1) * 2 ^ (szx + 4) < n.resp.length then [] else [.done]⟩ := by
      have hc := hcut i szx false n.resp (by omega)
      rcases hpath with rfl | rfl
      · simp only [nodeStep, crtsNode, hresp, if_true, send, askBlock, hc, List.nil_append,
          decide_eq_true_eq]
        rfl
      · simp only [nodeStep, attNode, hresp, if_true, send, askBlock, hc, List.nil_append,
          decide_eq_true_eq]
        rfl
    simp only [hstep] at s3
    simp only [askBlocks, serve, blockReplies, act, Act.key]
    rw [s3.1]
    rw [cached_blocks hL odd cut hcut ests peer hk htls path hpath szx n hcur hresp count (i + 1) _ s1
      s3.2 (by omega) (by rw [show i + 1 + count - 1 = i + (count + 1) - 1 by omega]; exact hlen)]
    rw [if_neg (show ¬ i = 0 by omega)]
    rfl

/-- C95: a client that fetches the CA certificates block by block on a new session gets, put
together, exactly the bytes that the server held at the first block, whatever the EST layer
would answer later; START is announced with the first and END with the last block only.  The
same holds for CSR attributes.  (The bytes begin with a non-zero byte, as all DER does.) -/
theorem C95_blocks_consistent (L : Libc) (hL : L.Ok) (odd) (cut : Cut) (hcut : CutOk cut)
    (cap : Nat) (hcap : 0 < cap) (ests : Nat → Est) (peer : Peer) (hk : peer.key ≠ [])
    (htls : peer.tls = true) (path : Path) (szx : Nat) (der text : List Nat) (hb : Bytes der)
    (hz : der.headD 0 ≠ 0) (hlen : der.length ≤ 16384) (ht : TextOf der text)
    (hsrc : path = .crts ∧ (ests 0).cacerts = (.none, some text) ∨
      path = .att ∧ (ests 0).attrs = (.none, some text))
    (count : Nat) (hc1 : (count - 1) * 2 ^ (szx + 4) < der.length)
    (hc2 : der.length ≤ count * 2 ^ (szx + 4)) :
    serve L odd cut (initTbl cap) (askBlocks ests peer path szx 0 count) =
      blockReplies peer.key (if path = .crts then 281 else 285) szx der 0 count ∧
    joined (serve L odd cut (initTbl cap) (askBlocks ests peer path szx 0 count)) = der := by
  have hne : der ≠ [] := by intro e; rw [e] at hz; exact hz rfl
  have hpos : 0 < der.length := by
    have : der.length ≠ 0 := by simpa using hne
    omega
  have main : serve L odd cut (initTbl cap) (askBlocks ests peer path szx 0 count) =
      blockReplies peer.key (if path = .crts then 281 else 285) szx der 0 count := by
    cases count with
    | zero => simp at hc2; exact absurd hc2 hne
    | succ count =>
      have hpath : path = .crts ∨ path = .att := hsrc.elim (fun h => Or.inl h.1) (fun h => Or.inr h.1)
      have hp : precheck peer path (askBlock szx 0) = none := by
        rcases hpath with rfl | rfl <;> simp [precheck, htls]
      have hl : look (initTbl cap).slots peer.key = none := by
        have := (init_repr cap).stored peer.key hk
        simpa [Map.empty] using this
      have hr : recordFor cap (initTbl cap) peer.key path.req = some ⟨peer.key, [], [], path.req⟩ := by
        simp only [recordFor, hl]
        rw [if_pos (by exact hcap)]
      obtain ⟨s1, s2, s3⟩ := handle_spec (init_inv cap) hL odd cut (ests 0) peer hk path
        (askBlock szx 0) hp
      rw [hr] at s3
      have hc := hcut 0 szx false der (by simpa using hpos)
      have hstep : nodeStep odd cut (ests 0) path (askBlock szx 0) ⟨peer.key, [], [], path.req⟩ =
          ⟨.reply 205 (some (if path = .crts then 281 else 285))
            ((der.drop (0 * 2 ^ (szx + 4))).take (2 ^ (szx + 4))), ⟨peer.key, [], der, path.req⟩,
            [.start] ++ if (0 + 1) * 2 ^ (szx + 4) < der.length then [] else [.done]⟩ := by
        rcases hsrc with ⟨rfl, hs⟩ | ⟨rfl, hs⟩
        · simp only [nodeStep, crtsNode, begun, List.headD_nil, bne_self_eq_false,
            Bool.false_eq_true, if_false, askBlock, accept_ok (media := pkcs7Certs) (Or.inl rfl), hs,
            ne_eq, not_true_eq_false, storeText_exact odd cut pkcs7Certs _ hb hne hlen ht, hc,
            freshEvs, decide_eq_true_eq]
          split <;> rfl
        · simp only [nodeStep, attNode, begun, List.headD_nil, bne_self_eq_false,
            Bool.false_eq_true, if_false, askBlock, accept_ok (media := csrAttrsMedia) (Or.inl rfl), hs,
            ne_eq, not_true_eq_false, storeText_exact odd cut csrAttrsMedia _ hb hne hlen ht, hc,
            freshEvs, decide_eq_true_eq]
          split <;> rfl
      simp only [hstep] at s3
      simp only [askBlocks, serve, blockReplies, act, Act.key]
      rw [s3.1]
      have hb' : begun der = true := by simpa [begun] using hz
      by_cases h0 : count = 0
      · subst h0; simp [askBlocks, serve, blockReplies]
      · rw [cached_blocks hL odd cut hcut ests peer hk htls path hpath szx
          ⟨peer.key, [], der, path.req⟩ rfl hb' count 1 _ s1 s3.2 (by omega)
          (by rw [show 1 + count - 1 = count + 1 - 1 by omega]; exact hc1)]
        rfl
  refine ⟨main, ?_⟩
  rw [main, joined_blocks]
  · simp
  · simpa using hc2

example : CutOk exCut := by
  intro num szx m d h
  rfl

/-- Two blocks of 16 bytes; the server's certificates change between them, the client gets the
first ones as a whole. -/
example : joined (serve simpleLibc (fun _ l => l) exCut (initTbl 2)
    (askBlocks (fun i => { exEst with cacerts := (.none, some (if i = 0 then [77, 68, 69, 121, 77, 122, 81, 49, 78, 106, 99, 52, 79, 84, 65, 120, 77, 106, 77, 48, 78, 84, 89, 51, 79, 68, 107, 61] else [77, 87, 70, 117])) })
      (exPeer 49) .crts 0 0 2)) = [48, 49, 50, 51, 52, 53, 54, 55, 56, 57, 48, 49, 50, 51, 52, 53, 54, 55, 56, 57] := by decide +kernel

/-! ## Later requests -/

/-- C95: on a session whose record holds CA certificates, every further request gets those,
whatever the EST layer would answer and whatever format the client accepts, and is announced
with END only. -/
theorem C95_served_from_record (odd) (cut : Cut) (est : Est) (m : Msg) (n : Node)
    (hn : begun n.resp = true) :
    nodeStep odd cut est .crts m n = ⟨.reply 205 (some 281) (cut m.block2 n.resp).1, n,
      if (cut m.block2 n.resp).2 then [] else [.done]⟩ ∧
    nodeStep odd cut est .att m n = ⟨.reply 205 (some 285) (cut m.block2 n.resp).1, n,
      if (cut m.block2 n.resp).2 then [] else [.done]⟩ := by
  simp only [nodeStep, crtsNode, attNode, hn, if_true, send, List.nil_append]
  exact ⟨rfl, rfl⟩

/-- C95 is false for a session that asks again: the CA certificates have changed, a client on a
new session gets the new ones, the client that asks a second time gets the old ones, for ever
and even if it accepts another format only. -/
theorem C95_stale_false :
    serve simpleLibc (fun _ l => l) exCut (initTbl 4)
      [.msg exEst (exPeer 49) .crts exGet,
       .msg { exEst with cacerts := (.none, some [84, 109, 86, 51]) } (exPeer 49) .crts exGet,
       .msg { exEst with cacerts := (.none, some [84, 109, 86, 51]) } (exPeer 50) .crts exGet,
       .msg { exEst with cacerts := (.none, some [84, 109, 86, 51]) } (exPeer 49) .crts
          ⟨⟨[], [40], none, []⟩, none⟩] =
    [([49], .reply 205 (some 281) [49, 97, 110], [.start, .done]),
     ([49], .reply 205 (some 281) [49, 97, 110], [.done]),
     ([50], .reply 205 (some 281) [78, 101, 119], [.start, .done]),
     ([49], .reply 205 (some 281) [49, 97, 110], [.done])] := by decide +kernel

/-- C95: after a request of another type, or when the session is closed and connected again,
the request is a fresh one. -/
theorem C95_fresh_again (cap : Nat) (t : Tbl) (k : List Nat) (r : Req) :
    (∀ n, look t.slots k = some n → n.cur ≠ r → Fresh cap t k r) ∧
    (look t.slots k = none → t.cnt < cap → Fresh cap t k r) := by
  constructor
  · intro n hn hc
    simp only [Fresh, hn]
    exact fun h => absurd h hc
  · intro hn hc
    simp only [Fresh, hn]
    exact hc

example : serve simpleLibc (fun _ l => l) exCut (initTbl 4)
      [.msg exEst (exPeer 49) .crts exGet, .msg exEst (exPeer 49) .att exGet,
       .msg { exEst with cacerts := (.none, some [84, 109, 86, 51]) } (exPeer 49) .crts exGet,
       .close [49], .msg exEst (exPeer 49) .crts exGet] =
    [([49], .reply 205 (some 281) [49, 97, 110], [.start, .done]),
     ([49], .reply 205 (some 285) [0x30, 0x0b, 6, 9, 0x2a, 0x86, 0x48, 0x86, 0xf7, 0x0d, 1, 9, 7],
      [.start, .done]),
     ([49], .reply 205 (some 281) [78, 101, 119], [.start, .done]), ([49], .reply 0 none [], []),
     ([49], .reply 205 (some 281) [49, 97, 110], [.start, .done])] := by decide +kernel

end Verif.Coap
