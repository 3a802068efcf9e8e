import Verif.CoapGetProps

/-!
# Key generation over CoAP (C96) and the endpoint events (C97)
-/
namespace Verif.Coap
open Verif.Base64 (Bytes enc wrap)

/-! ## The request -/

/-- The base64 text of a request as the handlers write it. -/
theorem encode_request {csr : List Nat} (h5 : 5 ≤ csr.length) :
    ∃ len mem, Base64.encode true csr (List.replicate (2 * csr.length) 0) = some (len, mem) ∧
      len ≠ 0 ∧ mem.take len = wrap (enc csr) := by
  have hne : csr ≠ [] := by intro h; rw [h] at h5; simp at h5
  have hl := Base64.bioWrite_length true csr
  have hfit : Base64.textLen true csr.length < (List.replicate (2 * csr.length) 0).length := by
    simp [Base64.textLen]; omega
  refine ⟨_, _, Base64.C02_fits_partial true csr _ hne hfit, ?_, ?_⟩
  · simp [Base64.textLen]; omega
  · rw [List.take_append_of_le_length (by omega), List.take_of_length_le (by omega)]
    rfl

/-- The two POST handlers for a complete request. -/
theorem post_ready (cut : Cut) (format : Nat) (r : Req) (proc) (m : Msg) (n x : Node)
    (hrecv : recv format r m.pdu n = .ready x) :
    postNode cut format r proc m n =
      postEnd cut format m.block2 (postStart r m.pdu n) (proc x) := by
  simp only [postNode, hrecv]

/-! ## C96 -/

/-- C96: a complete request is handed to the key generation as base64 text; if it returns a
certificate and a key, the response is 2.04 with Content-Format 62, and what libcoap is given to
send is, for an independent CBOR reader, exactly the array of 284, this key, 281 and this
certificate, nothing else.  If it does not fit into 16384 bytes the answer is 5.00. -/
theorem C96_key_and_certificate (odd) (cut : Cut) (est : Est) (m : Msg) (n x : Node)
    (hrecv : recv 62 .skg m.pdu n = .ready x) (h5 : 5 ≤ x.req.length) (key cert : List Nat)
    (hkb : Bytes key) (hcb : Bytes cert) (hkn : key ≠ []) (hcn : cert ≠ [])
    (hgen : est.keygen (wrap (enc x.req)) = (.none, enc cert, enc key)) :
    if 5 + (Cbor.mkHead key.length).2 + key.length + 4 + (Cbor.mkHead cert.length).2 + cert.length
        ≤ 16384 then
      ∃ p, (nodeStep odd cut est .skg m n).reply = .reply 204 (some 62) (cut m.block2 p).1 ∧
        (nodeStep odd cut est .skg m n).node = { x with resp := p } ∧ p.length ≤ 16384 ∧
        Cbor.readItem 8 p =
          some (.array [.uint 284, .bytes key, .uint 281, .bytes cert], [])
    else (nodeStep odd cut est .skg m n).reply = .reply 500 none [] ∧
      (nodeStep odd cut est .skg m n).node = x := by
  obtain ⟨len, mem, e1, e2, e3⟩ := encode_request h5
  have hproc : keygenProcess odd est.keygen x =
      if (Cbor.allBytes key cert).length ≤ 16384 then
        (.content (Cbor.allBytes key cert), { x with resp := Cbor.allBytes key cert })
      else (.code 500, x) := by
    simp only [keygenProcess, e1, e2, if_false, e3, hgen, ne_eq, not_true_eq_false,
      Cbor.C03_sent_iff_fits odd key cert hkb hcb hkn hcn]
    by_cases hf : (Cbor.allBytes key cert).length ≤ 16384
    · simp only [hf, if_true]
    · simp only [hf, if_false]
  have hlen : (Cbor.allBytes key cert).length =
      5 + (Cbor.mkHead key.length).2 + key.length + 4 + (Cbor.mkHead cert.length).2 + cert.length := by
    rw [Cbor.allBytes_length]
    simp only [Cbor.len2, Cbor.len1, Cbor.len0]
  rw [← hlen]
  simp only [nodeStep]
  rw [show multiMedia = 62 from rfl, post_ready cut 62 .skg _ m n x hrecv, hproc]
  by_cases hf : (Cbor.allBytes key cert).length ≤ 16384
  · rw [if_pos hf, if_pos hf]
    refine ⟨Cbor.allBytes key cert, rfl, rfl, hf, Cbor.read_all key cert ?_ ?_⟩ <;> omega
  · rw [if_neg hf, if_neg hf]
    exact ⟨rfl, rfl⟩

/-- C96: a 2.04 response with content is the stored response of this session's request, or the
key generation has just accepted the base64 text of exactly the bytes received for this
record. -/
theorem C96_only_this_request (odd) (cut : Cut) (est : Est) (m : Msg) (n : Node) (b : List Nat)
    (h : (nodeStep odd cut est .skg m n).reply = .reply 204 (some 62) b) :
    (∃ x, recv 62 .skg m.pdu n = .respond x ∧ b = (cut m.block2 x.resp).1) ∨
    (∃ x len mem p, recv 62 .skg m.pdu n = .ready x ∧
      Base64.encode true x.req (List.replicate (2 * x.req.length) 0) = some (len, mem) ∧
      (est.keygen (mem.take len)).1 = .none ∧ b = (cut m.block2 p).1 ∧
      Cbor.skgPayload odd (est.keygen (mem.take len)).2.2 (est.keygen (mem.take len)).2.1 =
        .payload p) := by
  simp only [nodeStep, postNode, show multiMedia = 62 from rfl] at h
  cases hr : recv 62 .skg m.pdu n with
  | ub => rw [hr] at h; cases h
  | err c x => rw [hr] at h; cases h
  | more x => rw [hr] at h; cases h
  | respond x =>
    rw [hr] at h
    simp only [send, Reply.reply.injEq] at h
    exact Or.inl ⟨x, rfl, h.2.2.symm⟩
  | ready x =>
    rw [hr] at h
    right
    simp only [postEnd, keygenProcess] at h
    cases he : Base64.encode true x.req (List.replicate (2 * x.req.length) 0) with
    | none => rw [he] at h; cases h
    | some v =>
      obtain ⟨len, mem⟩ := v
      rw [he] at h
      simp only at h
      by_cases h0 : len = 0
      · simp only [h0, if_true] at h; cases h
      · simp only [h0, if_false] at h
        by_cases h1 : (est.keygen (mem.take len)).1 = .none
        · simp only [h1, ne_eq, not_true_eq_false, if_false] at h
          cases hs : Cbor.skgPayload odd (est.keygen (mem.take len)).2.2
              (est.keygen (mem.take len)).2.1 with
          | ub => rw [hs] at h; cases h
          | err500 => rw [hs] at h; cases h
          | payload p =>
            rw [hs] at h
            simp only [send, Reply.reply.injEq] at h
            exact ⟨x, len, mem, p, rfl, he, h1, h.2.2.symm, hs⟩
        · simp only [ne_eq, h1, not_false_eq_true, if_true, fail, Reply.reply.injEq] at h
          exact absurd h.2.1 (by simp)

/-- C96: without TLS state or without a client certificate the answer is 4.01, with another
Content-Format than application/pkcs10 it is 4.00 or 4.02, and nothing is stored. -/
theorem C96_refused (L : Libc) (odd) (cut : Cut) (est : Est) (t : Tbl) (peer : Peer) (m : Msg) :
    (m.pdu.formats = [286] → peer.tls = false ∨ peer.cert = false →
      handle L odd cut est t peer .skg m = ((.reply 401 none [], [.done]), t)) ∧
    (m.pdu.formats ≠ [286] → handle L odd cut est t peer .skg m =
      ((.reply (formatAnswer 286 m.pdu.formats) none [], []), t)) := by
  constructor
  · intro h1 h2
    have hf := (C44_format_accepted_iff pkcs10 m.pdu.formats).2 h1
    have hb : (!peer.tls || !peer.cert) = true := by
      rcases h2 with h | h <;> simp [h]
    simp only [handle, precheck, hf, ne_eq, not_true_eq_false, if_false, hb, if_true]
  · intro h1
    have hf : checkOption .contentFormat pkcs10 m.pdu.formats ≠ .none :=
      fun h => h1 ((C44_format_accepted_iff pkcs10 m.pdu.formats).1 h)
    simp only [handle, precheck, ne_eq, hf, not_false_eq_true, if_true]
    rw [show pkcs10 = 286 from rfl, C44_format_code 286 m.pdu.formats h1]

/-- The documented response codes for an error of the EST layer. -/
def postAnswers : List (EstErr × Nat) := [(.badPkcs10, 400), (.csrAttrMissing, 400),
  (.httpBadReq, 400), (.noSslCtx, 400), (.httpNoContent, 204), (.httpNotFound, 404),
  (.authFailTlsuid, 401), (.authFail, 401), (.httpUnsupported, 502), (.httpLocked, 503),
  (.caEnrollRetry, 503), (.ipConnect, 504)]

/-- C96: an error of the key generation gives an empty response with the code of the table;
no key and no certificate is stored or sent. -/
theorem C96_errors (odd) (cut : Cut) (est : Est) (m : Msg) (n x : Node)
    (hrecv : recv 62 .skg m.pdu n = .ready x) (h5 : 5 ≤ x.req.length)
    (herr : (est.keygen (wrap (enc x.req))).1 ≠ .none) :
    (nodeStep odd cut est .skg m n).reply =
      .reply ((postAnswers.lookup (est.keygen (wrap (enc x.req))).1).getD 500) none [] ∧
    (nodeStep odd cut est .skg m n).node = x := by
  obtain ⟨len, mem, e1, e2, e3⟩ := encode_request h5
  have hproc : keygenProcess odd est.keygen x =
      (.code (enrollCode (est.keygen (wrap (enc x.req))).1), x) := by
    simp only [keygenProcess, e1, e2, if_false, e3, ne_eq, herr, not_false_eq_true, if_true]
  have hc : ∀ e : EstErr, enrollCode e = (postAnswers.lookup e).getD 500 := by
    intro e; cases e <;> rfl
  simp only [nodeStep]
  rw [show multiMedia = 62 from rfl, post_ready cut 62 .skg _ m n x hrecv, hproc, ← hc]
  exact ⟨rfl, rfl⟩

/-- C96, a request in one message: any session with TLS and a certificate and with room in the
table, whatever it did before with other resources, gets its key and certificate. -/
theorem C96_one_message (L : Libc) (hL : L.Ok) (odd) (cut : Cut) (cap : Nat) (t : Tbl)
    (h : Inv cap t) (est : Est) (peer : Peer) (hk : peer.key ≠ []) (htls : peer.tls = true)
    (hcert : peer.cert = true) (hfresh : Fresh cap t peer.key .skg) (b2 : Option Block)
    (acc csr : List Nat) (hacc : acc = [] ∨ acc = [62]) (h5 : 5 ≤ csr.length)
    (hmax : csr.length ≤ 16384) (key cert : List Nat) (hkb : Bytes key) (hcb : Bytes cert)
    (hkn : key ≠ []) (hcn : cert ≠ []) (hfit : key.length + cert.length ≤ 16360)
    (hgen : est.keygen (wrap (enc csr)) = (.none, enc cert, enc key)) :
    ∃ p, (handle L odd cut est t peer .skg ⟨⟨[286], acc, none, csr⟩, b2⟩).1.1 =
        .reply 204 (some 62) (cut b2 p).1 ∧
      Cbor.readItem 8 p = some (.array [.uint 284, .bytes key, .uint 281, .bytes cert], []) := by
  have hp : precheck peer .skg ⟨⟨[286], acc, none, csr⟩, b2⟩ = none := by
    have hf := (C44_format_accepted_iff pkcs10 [286]).2 rfl
    simp only [precheck, hf, htls, hcert]
    rfl
  obtain ⟨n, hn, hb'⟩ := fresh_record (by decide) hfresh
  have hs := (handle_spec h hL odd cut est peer hk .skg ⟨⟨[286], acc, none, csr⟩, b2⟩ hp).2.2
  rw [show Path.req .skg = Req.skg from rfl, hn] at hs
  have hne : csr ≠ [] := by intro e; rw [e] at h5; simp at h5
  have hrecv : recv 62 .skg ⟨[286], acc, none, csr⟩ n =
      .ready { restart .skg ⟨[286], acc, none, csr⟩ n with req := csr } := by
    have hr : begun (restart .skg ⟨[286], acc, none, csr⟩ n).resp = false := by
      simp only [restart]; split
      · rfl
      · exact hb'
    rw [recv, recvBody, hr]
    simp only [Bool.false_eq_true, if_false, accept_ok (media := 62) hacc, ne_eq,
      not_true_eq_false, single, hne, not_false_eq_true, if_true]
    rw [if_neg (by simp only [bufMax]; omega)]
    simp only [complete, hne, if_false]
  have hx := C96_key_and_certificate odd cut est ⟨⟨[286], acc, none, csr⟩, b2⟩ n _ hrecv h5 key cert
    hkb hcb hkn hcn hgen
  have hm : ∀ l, l ≤ 16384 → (Cbor.mkHead l).2 ≤ 2 := by
    intro l hl; simp only [Cbor.mkHead]; repeat' split
    all_goals first | omega | simp
  rw [if_pos (by have := hm key.length (by omega); have := hm cert.length (by omega); omega)] at hx
  obtain ⟨p, p1, _, _, p4⟩ := hx
  exact ⟨p, by rw [hs.1]; exact p1, p4⟩

example : (handle simpleLibc (fun _ l => l) exCut exEst (initTbl 2) (exPeer 49) .skg exPost).1.1 =
    .reply 204 (some 62) [0x84, 0x19, 1, 0x1c, 0x43, 77, 97, 110, 0x19, 1, 0x19, 0x46,
        1, 2, 3, 4, 5, 6] := by decide +kernel

example : exEst.keygen (wrap (enc [48, 3, 2, 1, 5])) = (.none, enc [1, 2, 3, 4, 5, 6], enc [77, 97, 110]) := by
  decide +kernel

example : (nodeStep (fun _ l => l) exCut { exEst with keygen := fun _ => (.noKey, [], []) } .skg exPost
    ⟨[49], [], [], .skg⟩).reply = .reply 500 none [] := by decide +kernel

/-- C96 is false for short requests: a request of one, two or four bytes makes the handler
write behind its heap buffer. -/
theorem C96_short_request_false (odd) (cut : Cut) (est : Est) (m : Msg) (n x : Node)
    (hrecv : recv 62 .skg m.pdu n = .ready x)
    (h1 : x.req.length = 1 ∨ x.req.length = 2 ∨ x.req.length = 4) :
    (nodeStep odd cut est .skg m n).reply = .ub := by
  have he := Base64.C02_coap_short_request_false x.req (List.replicate (2 * x.req.length) 0)
    (by simp) h1
  simp only [nodeStep]
  rw [show multiMedia = 62 from rfl, post_ready cut 62 .skg _ m n x hrecv]
  simp only [keygenProcess, he, postEnd]

example : (nodeStep (fun _ l => l) exCut exEst .skg ⟨⟨[286], [], none, [48, 0]⟩, none⟩
    ⟨[49], [], [], .skg⟩).reply = .ub := by decide +kernel

/-! ## C97: the endpoint events -/

theorem postEnd_shape (cut : Cut) (f : Nat) (b : Option Block) (pre : List Phase) (o : Out × Node) :
    (postEnd cut f b pre o).evs = pre ∨ (postEnd cut f b pre o).evs = pre ++ [.done] := by
  simp only [postEnd]
  split
  · exact Or.inl rfl
  · exact Or.inr rfl
  · simp only [send]
    split
    · left; simp
    · right; rfl

theorem postStart_shape (r : Req) (p : Pdu) (n : Node) :
    postStart r p n = [] ∨ postStart r p n = [.start] := by
  simp only [postStart]
  split
  · exact Or.inl rfl
  · exact Or.inr rfl

theorem post_shape (cut : Cut) (f : Nat) (r : Req) (proc) (m : Msg) (n : Node) :
    (postNode cut f r proc m n).evs = postStart r m.pdu n ∨
    (postNode cut f r proc m n).evs = postStart r m.pdu n ++ [.done] := by
  simp only [postNode]
  split
  · exact Or.inl rfl
  · exact Or.inr rfl
  · exact Or.inl rfl
  · simp only [send]
    split
    · left; simp
    · right; rfl
  · exact postEnd_shape ..

theorem storeText_shape (odd) (cut : Cut) (f : Nat) (b : Option Block) (text : List Nat) (n : Node) :
    (storeText odd cut f b text n).evs = [.start] ∨
    (storeText odd cut f b text n).evs = [.start, .done] := by
  simp only [storeText]
  split
  · exact Or.inl rfl
  · split
    · exact Or.inr rfl
    · simp only [send]
      split
      · left; rfl
      · right; rfl

/-- C97: one message of a session announces START at most once and END at most once, START
first. -/
theorem C97_order (odd) (cut : Cut) (est : Est) (path : Path) (m : Msg) (n : Node) :
    (nodeStep odd cut est path m n).evs ∈ [[], [Phase.start], [.done], [.start, .done]] := by
  have post : ∀ f r proc, (postNode cut f r proc m n).evs ∈
      [[], [Phase.start], [.done], [.start, .done]] := by
    intro f r proc
    rcases post_shape cut f r proc m n with h | h <;> rw [h] <;>
      rcases postStart_shape r m.pdu n with h | h <;> rw [h] <;> simp
  cases path with
  | crts =>
    simp only [nodeStep, crtsNode, send, fail]
    repeat' split
    all_goals first
      | (simp; done)
      | (rcases storeText_shape odd cut pkcs7Certs m.block2 ‹_› n with h | h <;> rw [h] <;> simp)
  | att =>
    simp only [nodeStep, attNode, send, fail]
    repeat' split
    all_goals first
      | (simp; done)
      | (rcases storeText_shape odd cut csrAttrsMedia m.block2 ‹_› n with h | h <;> rw [h] <;> simp)
  | sen => exact post _ _ _
  | sren => exact post _ _ _
  | skg => exact post _ _ _

theorem send_done (cut : Cut) (c f : Nat) (hc : c ≠ 231) (b : Option Block) (pre : List Phase)
    (hpre : Phase.done ∉ pre) (n : Node) :
    Phase.done ∈ (send cut c f b pre n).evs ↔
      ∃ code format body, (send cut c f b pre n).reply = .reply code format body ∧ code ≠ 231 ∧
        (format = none ∨ (cut b (send cut c f b pre n).node.resp).2 = false) := by
  simp only [send]
  cases hx : (cut b n.resp).2 with
  | false => simp [hc]
  | true => simp [hpre]

theorem fail_done (cut : Cut) (b : Option Block) (c : Nat) (hc : c ≠ 231) (pre : List Phase)
    (n : Node) :
    Phase.done ∈ (fail c pre n).evs ↔
      ∃ code format body, (fail c pre n).reply = .reply code format body ∧ code ≠ 231 ∧
        (format = none ∨ (cut b (fail c pre n).node.resp).2 = false) := by
  simp only [fail]
  constructor
  · intro _; exact ⟨c, none, [], rfl, hc, Or.inl rfl⟩
  · intro _; simp

theorem acceptCode_ne (e : EstErr) : acceptCode e ≠ 231 := by
  simp only [acceptCode]; split <;> decide

theorem getCode_ne (e : EstErr) : getCode e ≠ 231 := by
  simp only [getCode]; split <;> decide

theorem enrollCode_ne (e : EstErr) : enrollCode e ≠ 231 := by
  simp only [enrollCode]; split <;> decide

theorem storeText_done (odd) (cut : Cut) (f : Nat) (b : Option Block) (text : List Nat) (n : Node) :
    Phase.done ∈ (storeText odd cut f b text n).evs ↔
      ∃ code format body, (storeText odd cut f b text n).reply = .reply code format body ∧
        code ≠ 231 ∧ (format = none ∨ (cut b (storeText odd cut f b text n).node.resp).2 = false) := by
  simp only [storeText]
  split
  · simp
  · split
    · exact fail_done cut b 500 (by decide) _ _
    · exact send_done cut 205 f (by decide) b _ (by simp) _

theorem recv_code (media : Nat) (r : Req) (p : Pdu) (n : Node) (c : Nat) (x : Node)
    (h : recv media r p n = .err c x) : c ≠ 231 := by
  rw [recv] at h
  generalize restart r p n = y at h
  have hcomp : ∀ z : Node, complete z = .err c x → c ≠ 231 := by
    intro z hz; simp only [complete] at hz; split at hz
    · simp only [Recv.err.injEq] at hz; omega
    · cases hz
  have hjust : ∀ b z, justRespond b z = .err c x → c ≠ 231 := by
    intro b z hz; simp only [justRespond] at hz; split at hz
    · cases hz
    · exact hcomp z hz
  have happ : ∀ b d z, append b d z = .err c x → c ≠ 231 := by
    intro b d z hz; simp only [append] at hz; split at hz
    · cases hz
    · exact hjust _ _ hz
  rw [recvBody] at h
  split at h
  · cases h
  · simp only at h
    split at h
    · simp only [Recv.err.injEq] at h; rw [← h.1]; exact acceptCode_ne _
    · split at h
      · simp only [block1] at h
        repeat' split at h
        all_goals first
          | exact hjust _ _ h
          | exact happ _ _ _ h
          | (simp only [Recv.err.injEq] at h; omega)
      · simp only [single] at h
        repeat' split at h
        all_goals first
          | exact hcomp _ h
          | (simp only [Recv.err.injEq] at h; omega)
          | cases h

theorem post_done (cut : Cut) (f : Nat) (r : Req) (proc : Node → Out × Node)
    (hproc : ∀ x c, (proc x).1 = .code c → c ≠ 231) (m : Msg) (n : Node) :
    Phase.done ∈ (postNode cut f r proc m n).evs ↔
      ∃ code format body, (postNode cut f r proc m n).reply = .reply code format body ∧
        code ≠ 231 ∧
        (format = none ∨ (cut m.block2 (postNode cut f r proc m n).node.resp).2 = false) := by
  have hpre : Phase.done ∉ postStart r m.pdu n := by
    rcases postStart_shape r m.pdu n with h | h <;> rw [h] <;> simp
  simp only [postNode]
  cases hr : recv f r m.pdu n with
  | ub => simp [hpre]
  | err c x => exact fail_done cut m.block2 c (recv_code _ _ _ _ _ _ hr) _ _
  | more x => simp [hpre]
  | respond x => exact send_done cut 204 f (by decide) _ _ hpre _
  | ready x =>
    simp only [postEnd]
    cases ho : (proc x).1 with
    | ub => simp [hpre]
    | code c => exact fail_done cut m.block2 c (hproc x c ho) _ _
    | content b => exact send_done cut 204 f (by decide) _ _ hpre _

theorem process_code (odd) (enroll) (x : Node) (c : Nat) (h : (process odd enroll x).1 = .code c) :
    c ≠ 231 := by
  simp only [process, storeCert] at h
  repeat' split at h
  all_goals first
    | (cases h; done)
    | (simp only [Out.code.injEq] at h; omega)
    | (simp only [Out.code.injEq] at h; rw [← h]; exact enrollCode_ne _)

theorem keygenProcess_code (odd) (keygen) (x : Node) (c : Nat)
    (h : (keygenProcess odd keygen x).1 = .code c) : c ≠ 231 := by
  simp only [keygenProcess] at h
  repeat' split at h
  all_goals first
    | (cases h; done)
    | (simp only [Out.code.injEq] at h; omega)
    | (simp only [Out.code.injEq] at h; rw [← h]; exact enrollCode_ne _)

/-- C97: END is announced exactly with the responses that end the exchange: every response
without content but 2.31, and the last piece of a content. -/
theorem C97_end_iff (odd) (cut : Cut) (est : Est) (path : Path) (m : Msg) (n : Node) :
    Phase.done ∈ (nodeStep odd cut est path m n).evs ↔
      ∃ code format body, (nodeStep odd cut est path m n).reply = .reply code format body ∧
        code ≠ 231 ∧
        (format = none ∨ (cut m.block2 (nodeStep odd cut est path m n).node.resp).2 = false) := by
  cases path with
  | crts =>
    simp only [nodeStep, crtsNode]
    split
    · exact send_done cut 205 _ (by decide) _ _ (by simp) _
    · split
      · exact fail_done cut m.block2 _ (acceptCode_ne _) _ _
      · split
        · exact fail_done cut m.block2 _ (getCode_ne _) _ _
        · split
          · exact fail_done cut m.block2 404 (by decide) _ _
          · exact storeText_done ..
  | att =>
    simp only [nodeStep, attNode]
    split
    · exact send_done cut 205 _ (by decide) _ _ (by simp) _
    · split
      · exact fail_done cut m.block2 _ (acceptCode_ne _) _ _
      · split
        · exact fail_done cut m.block2 _ (getCode_ne _) _ _
        · split
          · exact fail_done cut m.block2 205 (by decide) _ _
          · exact storeText_done ..
  | sen => exact post_done _ _ _ _ (process_code odd _) _ _
  | sren => exact post_done _ _ _ _ (process_code odd _) _ _
  | skg => exact post_done _ _ _ _ (keygenProcess_code odd _) _ _

/-- C97: when START is announced: CSR attributes, if no response is stored; CA certificates,
if moreover the Accept option is fine; a POST, if (after a restart) neither a request nor a
response is stored. -/
theorem C97_start_iff (odd) (cut : Cut) (est : Est) (m : Msg) (n : Node) :
    (Phase.start ∈ (nodeStep odd cut est .att m n).evs ↔ begun n.resp = false) ∧
    (Phase.start ∈ (nodeStep odd cut est .crts m n).evs ↔
      begun n.resp = false ∧ (m.pdu.accepts = [] ∨ m.pdu.accepts = [281])) ∧
    ∀ path, path = .sen ∨ path = .sren ∨ path = .skg →
      (Phase.start ∈ (nodeStep odd cut est path m n).evs ↔
        begun n.resp = false ∧ begun n.req = false ∨ begun n.req = true ∧ startsNew m.pdu = true) := by
  have hst : ∀ f text, Phase.start ∈ (storeText odd cut f m.block2 text n).evs := by
    intro f text
    rcases storeText_shape odd cut f m.block2 text n with h | h <;> rw [h] <;> simp
  refine ⟨?_, ?_, ?_⟩
  · simp only [nodeStep, attNode]
    cases hn : begun n.resp with
    | true =>
      simp only [if_true, send, List.nil_append]
      split <;> simp
    | false =>
      simp only [Bool.false_eq_true, if_false, iff_true]
      repeat' split
      all_goals first | exact hst _ _ | simp [fail]
  · simp only [nodeStep, crtsNode]
    cases hn : begun n.resp with
    | true =>
      simp only [if_true, send, List.nil_append]
      split <;> simp
    | false =>
      simp only [Bool.false_eq_true, if_false, true_and]
      by_cases ha : m.pdu.accepts = [] ∨ m.pdu.accepts = [281]
      · simp only [accept_ok (media := pkcs7Certs) ha, ne_eq, not_true_eq_false, if_false, ha,
          iff_true]
        repeat' split
        all_goals first | exact hst _ _ | simp [fail]
      · have : checkOption .accept pkcs7Certs m.pdu.accepts ≠ .none :=
          fun h => ha ((C44_accept_accepted_iff _ _).1 h)
        simp only [ne_eq, this, not_false_eq_true, if_true, ha, iff_false]
        simp [fail]
  · have post : ∀ f r proc, (Phase.start ∈ (postNode cut f r proc m n).evs ↔
        begun n.resp = false ∧ begun n.req = false ∨ begun n.req = true ∧ startsNew m.pdu = true) := by
      intro f r proc
      have h1 : Phase.start ∈ (postNode cut f r proc m n).evs ↔ Phase.start ∈ postStart r m.pdu n := by
        rcases post_shape cut f r proc m n with h | h <;> rw [h] <;> simp
      rw [h1]
      simp only [postStart, restart]
      have hb : begun [] = false := rfl
      by_cases hq : begun n.req = true
      · by_cases hs : startsNew m.pdu = true
        · simp [hq, hs, reinit, hb]
        · simp [hq, hs]
      · have hq' := Bool.eq_false_iff.2 hq
        cases hp : begun n.resp <;> simp [hq', hp]
    rintro path (rfl | rfl | rfl)
    · exact post _ _ _
    · exact post _ _ _
    · exact post _ _ _

/-- C97: an upload in blocks, each any number of times but in order, announces START with the
first block and nothing with the following ones until the request is complete. -/
theorem C97_upload (cut : Cut) (format : Nat) (r : Req) (proc) (p : List Nat) (szx i : Nat)
    (n : Node) (hi0 : 0 < i) (hmore : (i + 1) * 2 ^ (szx + 4) < p.length) (hmax : p.length ≤ 16384)
    (hz : p.headD 0 ≠ 0) (hresp : begun n.resp = false)
    (hreq : n.req = p.take (i * 2 ^ (szx + 4)) ∨ n.req = p.take ((i + 1) * 2 ^ (szx + 4))) :
    postNode cut format r proc ⟨msg p szx i, none⟩ n =
      ⟨.reply 231 none [], { n with req := p.take ((i + 1) * 2 ^ (szx + 4)) }, []⟩ := by
  have h2 : 0 < 2 ^ (szx + 4) := Nat.two_pow_pos _
  have hlt : i * 2 ^ (szx + 4) < p.length := by rw [Nat.add_mul] at hmore; omega
  have hr := recv_next format r p szx i n hi0 hlt (by simp only [bufMax]; omega) hresp hreq
  rw [if_pos hmore] at hr
  have hst : startsNew (msg p szx i) = false := by
    have : ¬ i = 0 := by omega
    simp [startsNew, msg, this]
  have hb : begun n.req = true := by
    have hpos : 0 < i * 2 ^ (szx + 4) := Nat.mul_pos hi0 h2
    have hhead : ∀ k, 0 < k → (p.take k).headD 0 = p.headD 0 := by
      intro k hk
      cases p with
      | nil => simp
      | cons a p =>
        cases k with
        | zero => omega
        | succ k => rfl
    rcases hreq with h | h <;> rw [h] <;> simp only [begun]
    · rw [hhead _ hpos]; simpa using hz
    · rw [hhead _ (Nat.mul_pos (by omega) h2)]; simpa using hz
  have hpre : postStart r (msg p szx i) n = [] := by
    simp only [postStart, restart, hb, hst, Bool.and_false, Bool.false_eq_true, if_false,
      Bool.or_true, if_true]
  simp only [postNode, hr, hpre]

/-- Three blocks of 16 bytes: START with the first, END with the answer to the last. -/
example : (serve simpleLibc (fun _ l => l) exCut (initTbl 2)
    ([0, 1, 2].map (fun i => .msg exEst (exPeer 49) .sen ⟨msg (List.replicate 40 48) 0 i, none⟩))).map
      (fun x => x.2.2) = [[.start], [], [.done]] := by decide +kernel

/-- C97 is false as a pairing: END comes without START when a stored response is served again,
when the Accept option of a request for CA certificates is refused and when a client
certificate is missing; START comes twice without END when an upload is begun anew. -/
theorem C97_unpaired_false :
    (serve simpleLibc (fun _ l => l) exCut (initTbl 4)
      [.msg exEst (exPeer 49) .crts exGet, .msg exEst (exPeer 49) .crts exGet,
       .msg exEst (exPeer 50) .crts ⟨⟨[], [40], none, []⟩, none⟩,
       .msg exEst ⟨[51], true, false⟩ .sen exPost,
       .msg exEst (exPeer 52) .sen ⟨msg (List.replicate 40 48) 0 0, none⟩,
       .msg exEst (exPeer 52) .sen ⟨msg (List.replicate 40 48) 0 0, none⟩]).map (fun x => (x.1, x.2.2)) =
    [([49], [.start, .done]), ([49], [.done]), ([50], [.done]), ([51], [.done]),
     ([52], [.start]), ([52], [.start])] := by decide +kernel

end Verif.Coap
