import Verif.CoapModel
import Verif.CborModel
import Verif.DispatchModel

/-!
# Model of the whole CoAP server: the five resources

Source: `/repo/src/est/est_server_coap.c` lines 516-1148 (`est_coap_sen_handler`, the
endpoint events), 1215-1967 (`est_coap_skg_handler`), 1978-2254 (`est_coap_crts_handler`),
2261-2541 (`est_coap_att_handler`), 2546-2625 (the resources), 2795-2843
(`est_coap_event_handler`); `/repo/src/est/est_server.c` lines 233-314
(`est_server_handle_cacerts`) and 2241-2367 (`est_handle_csr_attrs`) for CoAP.
-/
namespace Verif.Coap

/-! ## The EST layer below the handlers -/

/-- `est_server_handle_cacerts` with `transport_mode == EST_COAP`, `est_server.c` lines 233-314: nothing is
sent, the error and `ctx->ca_certs` afterwards are the result.  `cb` is the registered callback
with the buffer it returns (`some none`: it returns `NULL`); the buffer replaces the pointer in
the context. -/
def coapCacerts (cb : Option (Option (List Nat))) (stored : Option (List Nat)) :
    EstErr × Option (List Nat) :=
  match cb with
  | some (some c) => (.none, some c)
  | some none => (.httpNoContent, stored)
  | none =>
    match stored with
    | some c => (.none, some c)
    | none => (.httpNoContent, none)

/-- `est_handle_csr_attrs` with `transport_mode == EST_COAP`, `est_server.c` lines 2241-2367: the error and
`*returned_attrs` (`none` for `NULL`).  `cb` is the registered callback with the buffer it
returns; the length that comes with `NULL` is 0. -/
def coapAttrs (lib : Server.AttrLib) (enablePop : Bool) (cb : Option (Option (List Nat)))
    (stored : Option (List Nat)) : EstErr × Option (List Nat) :=
  match cb, stored with
  | none, none => if enablePop then (.none, some Server.popOnly) else (.httpNoContent, none)
  | some d, _ =>
    let text := d.getD []
    let p := lib.parseAttrs text
    if text ≠ [] ∧ p.1 ≠ .none then (p.1, none)
    else if enablePop then
      if text = [] then (.none, some Server.popOnly)
      else if p.2 then (.none, d)
      else
        match lib.addPop text with
        | .error e => (e, none)
        | .ok d' => (.none, some d')
    else (.none, d)
  | none, some d => (.none, some d)

/-- What the EST layer answers at the time of a message: CA certificates (error and
`ctx->ca_certs`), CSR attributes, and the functions for the base64 text of a request:
enrolment, re-enrolment (certificate) and key generation (certificate and key).  The
calls are at `est_server_coap.c` lines 907-916, 1604-1640, 2047-2254 and 2330-2541. -/
structure Est where
  cacerts : EstErr × Option (List Nat)
  attrs : EstErr × Option (List Nat)
  enroll : List Nat → EstErr × List Nat
  reenroll : List Nat → EstErr × List Nat
  keygen : List Nat → EstErr × List Nat × List Nat

/-! ## Messages and answers -/

/-- The resources, `est_server_coap.c` lines 2546-2625. -/
inductive Path
  | crts | att | sen | sren | skg
deriving DecidableEq, Repr

/-- The request type a resource uses in the table.  `est_server_coap.c` lines 516-2541,
`est_locl.h` lines 332-339. -/
def Path.req : Path → Req
  | .crts => .crts
  | .att => .att
  | .sen => .sen
  | .sren => .sren
  | .skg => .skg

/-- A request to a resource: the options and payload of `Pdu` and the Block2 option.
What `est_server_coap.c` lines 516-2541 read of a request. -/
structure Msg where
  pdu : Pdu
  block2 : Option Block
deriving DecidableEq, Repr

/-- A session: its key in the table, whether it has TLS state and a peer certificate.
What `est_server_coap.c` lines 197-343 and 590-608 read of a session. -/
structure Peer where
  key : List Nat
  tls : Bool
  cert : Bool
deriving DecidableEq, Repr

/-- A response: code, Content-Format and payload.  What `est_server_coap.c` lines
516-2541 send. -/
inductive Reply
  | ub
  | reply (code : Nat) (format : Option Nat) (body : List Nat)
deriving DecidableEq, Repr

/-- The endpoint events `EST_ENDPOINT_REQ_START` and `EST_ENDPOINT_REQ_END`.  Sent by
`est_server_coap.c` lines 516-2541. -/
inductive Phase
  | start | done
deriving DecidableEq, Repr

/-- What a handler does with its record: the response, the record afterwards and the endpoint
events.  The effects of `est_server_coap.c` lines 516-2541. -/
structure Res where
  reply : Reply
  node : Node
  evs : List Phase
deriving DecidableEq, Repr

/-- `coap_add_data_blocked_response` of libcoap: the piece of the stored response that the
Block2 option of the request asks for, and the `m` bit.  Called in `est_server_coap.c`
lines 1084-1148, 1886-1967, 2189-2254 and 2467-2541. -/
abbrev Cut := Option Block → List Nat → List Nat × Bool

/-- The end of every handler: the stored response is handed to libcoap; the END event is sent
with the last piece.  `est_server_coap.c` lines 1084-1148, 1886-1967, 2189-2254 and
2467-2541. -/
def send (cut : Cut) (code format : Nat) (b : Option Block) (pre : List Phase) (n : Node) : Res :=
  let c := cut b n.resp
  ⟨.reply code (some format) c.1, n, pre ++ (if c.2 then [] else [.done])⟩

/-- `error_exit`: a code without payload and the END event.  `est_server_coap.c` lines
1084-1148, 1886-1967, 2189-2254 and 2467-2541. -/
def fail (code : Nat) (pre : List Phase) (n : Node) : Res :=
  ⟨.reply code none [], n, pre ++ [.done]⟩

/-- Media types, `est_server_coap.c` lines 34-41. -/
def csrAttrsMedia : Nat := 285
/-- `est_server_coap.c` lines 34-41. -/
def multiMedia : Nat := 62

/-! ## `est_coap_crts_handler` and `est_coap_att_handler` -/

/-- Error mapping, `est_server_coap.c` lines 2113-2143 and 2386-2416. -/
def getCode : EstErr → Nat
  | .httpBadReq => 400
  | .httpNoContent => 205
  | .httpNotFound => 404
  | .authFail => 401
  | .httpUnsupported => 502
  | .caEnrollRetry | .httpLocked => 503
  | .ipConnect => 504
  | _ => 500

/-- `est_server_coap.c` lines 2149-2189 and 2427-2467: the text is decoded, clamped to the size of the response
buffer, and stored.  The text is a C string; a callback's buffer is taken to end with a NUL
(the decoder reads up to it whatever the length says). -/
def storeText (odd : Bool → List Nat → List Nat) (cut : Cut) (format : Nat) (b : Option Block)
    (text : List Nat) (n : Node) : Res :=
  match Base64.decode odd (text.takeWhile (· ≠ 0)) (min text.length bufMax) with
  | .ub => ⟨.ub, n, [.start]⟩
  | .ret k w =>
    if k = 0 then fail 500 [.start] n
    else send cut 205 format b [.start] { n with resp := w.take k }

/-- `est_coap_crts_handler` from the record on, `est_server_coap.c` lines 2047-2254. -/
def crtsNode (odd : Bool → List Nat → List Nat) (cut : Cut) (src : EstErr × Option (List Nat))
    (m : Msg) (n : Node) : Res :=
  if begun n.resp then send cut 205 pkcs7Certs m.block2 [] n
  else
    let e := checkOption .accept pkcs7Certs m.pdu.accepts
    if e ≠ .none then fail (acceptCode e) [] n
    else if src.1 ≠ .none then fail (getCode src.1) [.start] n
    else
      match src.2 with
      | none => fail 404 [.start] n
      | some text => storeText odd cut pkcs7Certs m.block2 text n

/-- `est_coap_att_handler` from the record on, `est_server_coap.c` lines 2330-2541. -/
def attNode (odd : Bool → List Nat → List Nat) (cut : Cut) (src : EstErr × Option (List Nat))
    (m : Msg) (n : Node) : Res :=
  if begun n.resp then send cut 205 csrAttrsMedia m.block2 [] n
  else
    let e := checkOption .accept csrAttrsMedia m.pdu.accepts
    if e ≠ .none then fail (acceptCode e) [.start] n
    else if src.1 ≠ .none then fail (getCode src.1) [.start] n
    else
      match src.2 with
      | none => fail 205 [.start] n
      | some text => storeText odd cut csrAttrsMedia m.block2 text n

/-! ## `est_coap_sen_handler` and `est_coap_skg_handler` -/

/-- `est_server_coap.c` lines 1604-1886 of `est_coap_skg_handler` for a complete request: the request is base64
encoded, given to the key generation, and the result stored as CBOR. -/
def keygenProcess (odd : Bool → List Nat → List Nat)
    (keygen : List Nat → EstErr × List Nat × List Nat) (n : Node) : Out × Node :=
  match Base64.encode true n.req (List.replicate (2 * n.req.length) 0) with
  | none => (.ub, n)
  | some (len, mem) =>
    if len = 0 then (.code 500, n)
    else
      let r := keygen (mem.take len)
      if r.1 ≠ .none then (.code (enrollCode r.1), n)
      else
        match Cbor.skgPayload odd r.2.2 r.2.1 with
        | .ub => (.ub, n)
        | .err500 => (.code 500, n)
        | .payload bs => (.content bs, { n with resp := bs })

/-- `est_server_coap.c` lines 676-689 and 1351-1364: the START event is sent while both buffers are empty. -/
def postStart (r : Req) (p : Pdu) (n : Node) : List Phase :=
  let n' := restart r p n
  if begun n'.resp || begun n'.req then [] else [.start]

/-- The end of a handler for a complete request.  `est_server_coap.c` lines 1084-1148
and 1886-1967. -/
def postEnd (cut : Cut) (format : Nat) (b : Option Block) (pre : List Phase) (o : Out × Node) :
    Res :=
  match o.1 with
  | .ub => ⟨.ub, o.2, pre⟩
  | .code c => fail c pre o.2
  | .content _ => send cut 204 format b pre o.2

/-- Both handlers from the record on: `format` is the media type of the response, `proc` what
is done with a complete request.  `est_server_coap.c` lines 634-1148 and 1330-1967. -/
def postNode (cut : Cut) (format : Nat) (r : Req) (proc : Node → Out × Node) (m : Msg)
    (n : Node) : Res :=
  let pre := postStart r m.pdu n
  match recv format r m.pdu n with
  | .ub => ⟨.ub, n, pre⟩
  | .err c x => fail c pre x
  | .more x => ⟨.reply 231 none [], x, pre⟩
  | .respond x => send cut 204 format m.block2 pre x
  | .ready x => postEnd cut format m.block2 pre (proc x)

/-! ## The server -/

/-- What a resource does with the record of the session.  `est_server_coap.c` lines
634-1148, 1330-1967, 2047-2254 and 2330-2541. -/
def nodeStep (odd : Bool → List Nat → List Nat) (cut : Cut) (est : Est) (path : Path) (m : Msg)
    (n : Node) : Res :=
  match path with
  | .crts => crtsNode odd cut est.cacerts m n
  | .att => attNode odd cut est.attrs m n
  | .sen => postNode cut pkcs7Certs .sen (process odd est.enroll) m n
  | .sren => postNode cut pkcs7Certs .sren (process odd est.reenroll) m n
  | .skg => postNode cut multiMedia .skg (keygenProcess odd est.keygen) m n

/-- The checks before the table is used: a response that ends the request.  A POST has its
Content-Format checked before the context is known, so that no event is sent (`est_server_coap.c` lines 553-573,
1258-1278); the certificate is required for POST only (lines 590-608, 1288-1306); without TLS
state `crts` answers 4.01 and `att` 5.00 (lines 2016-2021, 2299-2304). -/
def precheck (peer : Peer) (path : Path) (m : Msg) : Option (Reply × List Phase) :=
  match path with
  | .crts => if peer.tls then none else some (.reply 401 none [], [.done])
  | .att => if peer.tls then none else some (.reply 500 none [], [.done])
  | .sen | .sren | .skg =>
    let e := checkOption .contentFormat pkcs10 m.pdu.formats
    if e ≠ .none then some (.reply (formatCode e) none [], [])
    else if !peer.tls || !peer.cert then some (.reply 401 none [], [.done])
    else none

/-- A handler as a whole: the checks, the record of the session (5.00 if there is none) and
what the resource does.  Timers, the enrolment events and failing allocations are left
out.  `est_server_coap.c` lines 516-2541. -/
def handle (L : Libc) (odd : Bool → List Nat → List Nat) (cut : Cut) (est : Est) (t : Tbl)
    (peer : Peer) (path : Path) (m : Msg) : (Reply × List Phase) × Tbl :=
  match precheck peer path m with
  | some r => (r, t)
  | none =>
    match getReq L t peer.key path.req with
    | (none, t') => ((.reply 500 none [], [.done]), t')
    | (some i, t') =>
      match t'.slots[i]? with
      | none => ((.ub, []), t')
      | some n =>
        let r := nodeStep odd cut est path m n
        ((r.reply, r.evs), putNode t' i r.node)

/-- What happens to the server: a message of a session, with what the EST layer answers at
that time, or libcoap's report that a session is connected or closed.
`est_server_coap.c` lines 516-2541 and 2812-2833. -/
inductive Act
  | msg (est : Est) (peer : Peer) (path : Path) (m : Msg)
  | connect (k : List Nat)
  | close (k : List Nat)

/-- The session of an action.  `est_server_coap.c` lines 229-238. -/
def Act.key : Act → List Nat
  | .msg _ peer _ _ => peer.key
  | .connect k => k
  | .close k => k

/-- One action; only messages have a response.  `est_server_coap.c` lines 516-2541 and
2812-2833. -/
def act (L : Libc) (odd : Bool → List Nat → List Nat) (cut : Cut) (t : Tbl) :
    Act → (Reply × List Phase) × Tbl
  | .msg est peer path m => handle L odd cut est t peer path m
  | .connect k => ((.reply 0 none [], []), connected L t k)
  | .close k => ((.reply 0 none [], []), closed L t k)

/-- A history: the session and the response of every action.  The handlers of
`est_server_coap.c` lines 516-2541 and 2812-2833, one after the other. -/
def serve (L : Libc) (odd : Bool → List Nat → List Nat) (cut : Cut) :
    Tbl → List Act → List (List Nat × Reply × List Phase)
  | _, [] => []
  | t, a :: as =>
    (a.key, (act L odd cut t a).1) :: serve L odd cut (act L odd cut t a).2 as

end Verif.Coap
