import Verif.EstErr
import Verif.Base64Model
import Verif.ClientRespModel

/-!
# Model of the CoAP server: request table, options, Block1 reassembly, enrolment

Source: `/repo/src/est/est_server_coap.c` lines 92-507 (`est_coap_check_option`, the request
table), 516-1148 (`est_coap_sen_handler`), 2795-2843 (`est_coap_event_handler`);
`/repo/src/est/est_locl.h` lines 318-357.
-/
namespace Verif.Coap

/-! ## Options -/

/-- The two option numbers `est_coap_check_option` is called with.  `est_server_coap.c`
lines 559-573 and 697-713. -/
inductive OptType
  | contentFormat | accept
deriving DecidableEq, Repr

/-- `COAP_CONTENT_TYPE_MAX`, `est_server_coap.c` line 41. -/
def contentTypeMax : Nat := 65535

/-- `est_coap_check_option`, `est_server_coap.c` lines 92-160.  `vals` are the decoded values of the options of
the given type, in the order of the message. -/
def checkOption (ty : OptType) (media : Nat) (vals : List Nat) : EstErr :=
  match vals with
  | [] => if ty = .accept then .none else .badContentType
  | v :: more =>
    if v ≠ media then
      if v > contentTypeMax then .badContentType
      else match ty with
        | .contentFormat => .httpBadReq
        | .accept => .httpUnsupported
    else if more ≠ [] then .badContentType
    else .none

/-- Response code for a refused Content-Format option, `est_server_coap.c` lines 559-573. -/
def formatCode : EstErr → Nat
  | .badContentType => 402
  | .httpBadReq => 400
  | _ => 500

/-- Response code for a refused Accept option, `est_server_coap.c` lines 697-713. -/
def acceptCode : EstErr → Nat
  | .badContentType => 402
  | .httpUnsupported => 406
  | _ => 500

/-! ## The request table -/

/-- `EST_COAP_REQ`, `est_locl.h` lines 332-339. -/
inductive Req
  | reset | crts | att | sen | sren | skg
deriving DecidableEq, Repr

/-- `coap_req_node_t`, `est_locl.h` lines 345-356, without the timers and `resp_blk_num`
(written but never read).  `req` and `resp` are the first `req_buf_len` and `resp_buf_len`
bytes of the two buffers.  The empty key marks a free slot. -/
structure Node where
  key : List Nat
  req : List Nat
  resp : List Nat
  cur : Req
deriving DecidableEq, Repr

/-- A zeroed slot: `calloc` of `est_server_coap.c` line 499 and `memzero_s` of line 397. -/
def blank : Node := ⟨[], [], [], .reset⟩

/-- `coap_req_array`, `cur_max_coap_req_array` (the length) and `coap_req_cnt`.
`est_server_coap.c` lines 489-507; the fields are in `est_locl.h` lines 389-578. -/
structure Tbl where
  slots : List Node
  cnt : Nat
deriving DecidableEq, Repr

/-- `est_coap_init_req_array` on a new context, `est_server_coap.c` lines 489-507; a failing allocation is left
out. -/
def initTbl (cap : Nat) : Tbl := ⟨List.replicate cap blank, 0⟩

/-- The order `coap_bsearch_compare` gives, `est_server_coap.c` lines 167-188: `strcmp` order of the keys. -/
def Sorted (t : List Node) : Prop := t.Pairwise (fun a b => a.key ≤ b.key)

/-- The two C library functions the table is kept with.  `bsearch` returns an index.
Called at `est_server_coap.c` lines 197-406. -/
structure Libc where
  bsearch : List Nat → List Node → Option Nat
  qsort : List Node → List Node

/-- The key `get_coap_req` builds, `est_server_coap.c` lines 229-238: port number, then address text. -/
def mkKey (port : Nat) (ip : List Nat) : List Nat := ClientResp.decimal port ++ ip

/-- `reinit_coap_req`, `est_server_coap.c` lines 417-463. -/
def reinit (n : Node) (r : Req) : Node := { n with req := [], resp := [], cur := r }

/-- The part of `get_coap_req` for a key that has no record, `est_server_coap.c` lines 252-304. -/
def insertReq (L : Libc) (t : Tbl) (k : List Nat) (r : Req) : Option Nat × Tbl :=
  match L.bsearch [] t.slots with
  | none => (none, t)
  | some i =>
    match t.slots[i]? with
    | none => (none, t)
    | some e =>
      let slots := L.qsort (t.slots.set i { e with key := k, cur := r })
      match L.bsearch k slots with
      | none => (none, ⟨slots, t.cnt⟩)
      | some j => (some j, ⟨slots, t.cnt + 1⟩)

/-- `get_coap_req`, `est_server_coap.c` lines 197-343, from the point where the key is known.  The result is the
index of the record the returned pointer denotes (`none` for `NULL`) and the new table. -/
def getReq (L : Libc) (t : Tbl) (k : List Nat) (r : Req) : Option Nat × Tbl :=
  match L.bsearch k t.slots with
  | none => insertReq L t k r
  | some i =>
    match t.slots[i]? with
    | none => (none, t)
    | some n =>
      if n.cur ≠ r ∧ r ≠ .reset then
        (some i, { t with slots := t.slots.set i (reinit n r) })
      else (some i, t)

/-- `remove_coap_req`, `est_server_coap.c` lines 349-406, for a node with key `k`; `false` for the return
value 0. -/
def removeReq (L : Libc) (t : Tbl) (k : List Nat) : Bool × Tbl :=
  if t.cnt = 0 then (false, t)
  else match L.bsearch k t.slots with
    | none => (false, t)
    | some i => (true, ⟨L.qsort (t.slots.set i blank), t.cnt - 1⟩)

/-- What a handler does through the pointer it got: change the record at an index.
`est_server_coap.c` lines 516-1148. -/
def putNode (t : Tbl) (i : Nat) (n : Node) : Tbl := { t with slots := t.slots.set i n }

/-- `est_coap_event_handler` for a connected session, `est_server_coap.c` lines 2812-2822. -/
def connected (L : Libc) (t : Tbl) (k : List Nat) : Tbl := (getReq L t k .reset).2

/-- `est_coap_event_handler` for a closed session, `est_server_coap.c` lines 2824-2833.  `remove_coap_req`
refuses a `NULL` node. -/
def closed (L : Libc) (t : Tbl) (k : List Nat) : Tbl :=
  match getReq L t k .reset with
  | (none, t') => t'
  | (some i, t') =>
    match t'.slots[i]? with
    | none => t'
    | some n => (removeReq L t' n.key).2

/-! ## Block1 reassembly -/

/-- `coap_block_t`.  Used in `est_server_coap.c` lines 719-781. -/
structure Block where
  num : Nat
  m : Bool
  szx : Nat
deriving DecidableEq, Repr

/-- The parts of a request that `est_coap_sen_handler` looks at.  Read at
`est_server_coap.c` lines 516-815. -/
structure Pdu where
  formats : List Nat
  accepts : List Nat
  block1 : Option Block
  payload : List Nat
deriving DecidableEq, Repr

/-- `COAP_REQ_NODE_BUF_LEN_MAX`.  `est_locl.h` line 324. -/
def bufMax : Nat := 16384

/-- How the receiving part of the handler ends: a write outside the buffer, an error code,
2.31 (more blocks wanted), a complete request, or a request that was already answered and
gets the stored response.  The outcomes of `est_server_coap.c` lines 634-815. -/
inductive Recv
  | ub
  | err (code : Nat) (n : Node)
  | more (n : Node)
  | ready (n : Node)
  | respond (n : Node)
deriving DecidableEq, Repr

/-- `buf[0] != '\0'`, with zero bytes after the used part.  `est_server_coap.c` lines
645-660 and 719-781. -/
def begun (b : List Nat) : Bool := b.headD 0 != 0

/-- `est_server_coap.c` lines 781-808: leave if not done, refuse an empty request. -/
def complete (n : Node) : Recv := if n.req = [] then .err 400 n else .ready n

/-- `just_respond`, `est_server_coap.c` lines 755-781. -/
def justRespond (b : Block) (n : Node) : Recv := if b.m then .more n else complete n

/-- Copy of a block to the buffer, `est_server_coap.c` lines 743-752.  The bound given to `memcpy_s` is the size
of the data, so nothing stops a write past the 16384 bytes. -/
def append (b : Block) (data : List Nat) (n : Node) : Recv :=
  if n.req.length + data.length > bufMax then .ub
  else justRespond b { n with req := n.req ++ data }

/-- Block1 processing, `est_server_coap.c` lines 719-781. -/
def block1 (n : Node) (b : Block) (data : List Nat) : Recv :=
  if data = [] then justRespond b n
  else
    let offset := b.num * 2 ^ (b.szx + 4)
    if offset = 0 then append b data { n with req := [] }
    else if offset > n.req.length then .err 408 n
    else if offset < n.req.length then justRespond b n
    else append b data n

/-- Receiving without Block1, `est_server_coap.c` lines 782-815. -/
def single (n : Node) (data : List Nat) : Recv :=
  if data ≠ [] then
    if data.length > bufMax then .ub else complete { n with req := data }
  else if n.req ≠ [] then .err 400 n
  else complete { n with req := [] }

/-- Does this message start a new request?  `est_server_coap.c` lines 645-650. -/
def startsNew (p : Pdu) : Bool :=
  p.payload ≠ [] && (match p.block1 with | none => true | some b => b.num == 0)

/-- `est_server_coap.c` lines 645-660: a new request on a record in use. -/
def restart (r : Req) (p : Pdu) (n : Node) : Node :=
  if begun n.req && startsNew p then reinit n r else n

/-- `est_server_coap.c` lines 668-815 after the restart. -/
def recvBody (acceptMedia : Nat) (p : Pdu) (n : Node) : Recv :=
  if begun n.resp then .respond n
  else
    let e := checkOption .accept acceptMedia p.accepts
    if e ≠ .none then .err (acceptCode e) n
    else match p.block1 with
      | some b => block1 n b p.payload
      | none => single n p.payload

/-- The receiving part of `est_coap_sen_handler`, `est_server_coap.c` lines 634-815. -/
def recv (acceptMedia : Nat) (r : Req) (p : Pdu) (n : Node) : Recv :=
  recvBody acceptMedia p (restart r p n)

/-! ## Enrolment -/

/-- Error mapping of the enrolment result, `est_server_coap.c` lines 960-992. -/
def enrollCode : EstErr → Nat
  | .badPkcs10 | .csrAttrMissing | .httpBadReq | .noSslCtx => 400
  | .httpNoContent => 204
  | .httpNotFound => 404
  | .authFailTlsuid | .authFail => 401
  | .httpUnsupported => 502
  | .caEnrollRetry | .httpLocked => 503
  | .ipConnect => 504
  | _ => 500

/-- What the client gets: `code` without a certificate, or 2.04 with the stored response
(which libcoap may cut into Block2 pieces).  The outcomes of `est_server_coap.c` lines
516-1148. -/
inductive Out
  | ub
  | code (c : Nat)
  | content (body : List Nat)
deriving DecidableEq, Repr

/-- `est_server_coap.c` lines 1000-1082: the certificate the EST layer returned is decoded and stored. -/
def storeCert (odd : Bool → List Nat → List Nat) (n : Node) (cert : List Nat) : Out × Node :=
  match Base64.decode odd (cert.takeWhile (· ≠ 0)) (min cert.length bufMax) with
  | .ub => (.ub, n)
  | .ret k w =>
    if k = 0 then (.code 500, n)
    else (.content (w.take k), { n with resp := w.take k })

/-- `est_server_coap.c` lines 817-1082 for a complete request.  `enroll` stands for `est_handle_simple_enroll` or
`est_proxy_handle_simple_enroll` and is given the base64 text of the request. -/
def process (odd : Bool → List Nat → List Nat) (enroll : List Nat → EstErr × List Nat)
    (n : Node) : Out × Node :=
  match Base64.encode true n.req (List.replicate (2 * n.req.length) 0) with
  | none => (.ub, n)
  | some (len, mem) =>
    if len = 0 then (.code 500, n)
    else
      let r := enroll (mem.take len)
      if r.1 ≠ .none then (.code (enrollCode r.1), n)
      else storeCert odd n r.2

/-- The handler from the received record on.  `est_server_coap.c` lines 815-1148. -/
def finish (odd : Bool → List Nat → List Nat) (enroll : List Nat → EstErr × List Nat) :
    Recv → Out × Option Node
  | .ub => (.ub, none)
  | .err c n => (.code c, some n)
  | .more n => (.code 231, some n)
  | .respond n => (.content n.resp, some n)
  | .ready n => ((process odd enroll n).1, some (process odd enroll n).2)

/-- Media types, `est_server_coap.c` lines 34-41. -/
def pkcs10 : Nat := 286
/-- `est_server_coap.c` lines 34-41. -/
def pkcs7Certs : Nat := 281

/-- `est_coap_sen_handler`, `est_server_coap.c` lines 516-1148.  `tls` and `cert`: the session has TLS state and
the peer gave a certificate.  `k` is the session's key, `r` is `sen` or `sren`.  Timers and
event callbacks are left out.  `est_ctx` is not `NULL` and its mode is server or proxy. -/
def sen (L : Libc) (odd : Bool → List Nat → List Nat)
    (enroll : List Nat → EstErr × List Nat) (t : Tbl) (tls cert : Bool) (k : List Nat)
    (r : Req) (p : Pdu) : Out × Tbl :=
  let e := checkOption .contentFormat pkcs10 p.formats
  if e ≠ .none then (.code (formatCode e), t)
  else if !tls || !cert then (.code 401, t)
  else match getReq L t k r with
    | (none, t') => (.code 500, t')
    | (some i, t') =>
      match t'.slots[i]? with
      | none => (.ub, t')
      | some n =>
        match finish odd enroll (recv pkcs7Certs r p n) with
        | (o, none) => (o, t')
        | (o, some n') => (o, putNode t' i n')

end Verif.Coap
