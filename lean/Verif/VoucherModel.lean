import Verif.JsmnModel
import Verif.HexModel
import Verif.ClientFlowModel

/-!
# Model of the client's BRSKI operations

Source: `/repo/src/est/est_client.c` lines 5016-6568 (`est_client_set_brski_mode` to
`est_client_brski_send_enroll_status`), with `ENABLE_BRSKI` and without
`BASE64_ENCODE_VOUCHERS`; constants of `/repo/src/est/est.h` lines 342-356 and
`/repo/src/est/est_locl.h` lines 244-264.

One context, not NULL.  Memory is never exhausted.  What OpenSSL, the clock and the network
contribute are parameters.  The JSON text is read by `Verif.Jsmn`, answers by
`Verif.ClientResp`.
-/
namespace Verif.Voucher
open Verif.ClientResp (Mode getResponse decimal)
open Verif.ClientReq (Auth snprintf put freshBuf addAuth totalLen dataMax)
open Verif.Jsmn (Tok)

/-! ## Reading the voucher -/

/-- The text of a finished token: `voucher + start`, `end - start` bytes.
`est_client.c` lines 5333-5362. -/
def slice (js : List Nat) (t : Tok) : List Nat := (js.drop t.start).take (t.fin.getD 0 - t.start)

/-- `jsoneq`, `est_client.c` lines 5325-5331: a string token with exactly this text. -/
def jsoneq (js : List Nat) (t : Tok) (name : List Nat) : Bool :=
  decide (t.ty = .string) && (slice js t == name)

/-- What `retrieve_token_from_voucher` finds.  `over`: the token behind the last element of the
array is read.  The outcomes of `est_client.c` lines 5333-5362. -/
inductive Found
  | absent
  | over
  | value (v : List Nat)
deriving DecidableEq, Repr

/-- The loop of `retrieve_token_from_voucher`, `est_client.c` lines 5343-5356, on the tokens from number `i` on.
The array is zeroed, so that the type of an unused token is `JSMN_UNDEFINED`; `cap` is the
size of the array.  The value is cut to `max - 1` bytes by `snprintf`; it has no NUL in it since
the tokeniser stops at one. -/
def find (js : List Nat) (name : List Nat) (cap max : Nat) : Nat → List Tok → Found
  | _, [] => .absent
  | i, t :: rest =>
    if jsoneq js t name then
      match rest with
      | [] => if i + 1 < cap then .value [] else .over
      | u :: _ => .value ((slice js u).take (max - 1))
    else find js name cap max (i + 1) rest

/-- `retrieve_token_from_voucher`, `est_client.c` lines 5333-5362: the search begins at token 1. -/
def retrieve (js : List Nat) (toks : List Tok) (name : List Nat) (cap max : Nat) : Found :=
  find js name cap max 1 (toks.drop 1)

/-- Results: undefined behaviour, or a code and what `brski_retrieved_cacert` becomes (`none`: it
is left alone, `some none`: it is freed and set to NULL).  The outcomes of
`est_client.c` lines 5368-5560. -/
inductive PRes
  | ub
  | res (e : EstErr) (cacert : Option (Option (List Nat)))
deriving DecidableEq, Repr

/-- `tokcount`, `est_client.c` line 5376. -/
def tokCount : Nat := 100

/-- The nonce, `est_client.c` lines 5418-5455.  `returned_nonce` has 34 bytes.  A nonce shorter than 32 bytes ends
in a NUL, and the sent one has 32 characters, so that `memcmp` of 32 bytes finds a
difference. -/
def checkNonce (js : List Nat) (toks : List Tok) (sent : List Nat) : Option EstErr :=
  match retrieve js toks [110, 111, 110, 99, 101] tokCount 34 with
  | .over => none
  | .absent => some .none
  | .value v =>
    if v.length > 32 then some .clientBrskiNonceTooLarge
    else if v = sent then some .none
    else some .clientBrskiNonceMismatch

/-- The serial number, `est_client.c` lines 5458-5498.  `memcmp` reads one byte more than the returned serial
number has, from the copy of the client's own, which has its length and a NUL. -/
def checkSerial (js : List Nat) (toks : List Tok) (serial : List Nat) : Option EstErr :=
  match retrieve js toks [115, 101, 114, 105, 97, 108, 45, 110, 117, 109, 98, 101, 114] tokCount 66 with
  | .over => none
  | .absent => some .clientBrskiSerialNumMissing
  | .value v =>
    if v.length > 64 then some .clientBrskiSerialNumTooLarge
    else if v.length > serial.length then none
    else if (serial ++ [0]).take (v.length + 1) = v ++ [0] then some .none
    else some .clientBrskiSerialNumMismatch

/-- The certificate, `est_client.c` lines 5500-5554.  `returned_cacert` has 8192 bytes (line 5802) but `snprintf`
is told 8193.  `vc` is `verify_cacert_resp`, which may rewrite the text. -/
def takeCacert (vc : List Nat → Except EstErr (List Nat)) (js : List Nat) (toks : List Tok) : PRes :=
  match retrieve js toks [112, 105, 110, 110, 101, 100, 45, 100, 111, 109, 97, 105, 110, 45, 99, 101, 114, 116] tokCount 8193 with
  | .over => .ub
  | .absent => .res .noCert none
  | .value v =>
    if v.length + 1 > 8192 then .ub
    else
      match vc v with
      | .ok v' => .res .none (some (some v'))
      | .error e => .res e (some none)

/-- The part of `brski_parse_voucher` behind the tokeniser, `est_client.c` lines 5415-5560. -/
def checkTokens (vc : List Nat → Except EstErr (List Nat)) (js : List Nat) (toks : List Tok)
    (sent serial : List Nat) : PRes :=
  match checkNonce js toks sent with
  | none => .ub
  | some .none =>
    match checkSerial js toks serial with
    | none => .ub
    | some .none => takeCacert vc js toks
    | some e => .res e none
  | some e => .res e none

/-- `brski_parse_voucher`, `est_client.c` lines 5368-5560.  `verified` is the result of `verify_voucher` (lines
5258-5319): the content of the signed message. -/
def parseVoucher (vc : List Nat → Except EstErr (List Nat)) (verified : Except EstErr (List Nat))
    (sent serial : List Nat) : PRes :=
  match verified with
  | .error e => .res e none
  | .ok js =>
    match Jsmn.parse tokCount js with
    | .ok _ toks => checkTokens vc js toks sent serial
    | .undef => .ub
    | .hang => .ub
    | _ => .res .malloc none

/-! ## Requests -/

/-- The header of `est_client.c` lines 5067-5083 and 6134-6150. -/
def hdrText (cfg : ClientReq.Cfg) (op : EstUri.Op) (ct : List Nat) (n : Nat) : List Nat :=
  [80, 79, 83, 84, 32] ++ (ClientReq.path cfg op ++ ([32, 72, 84, 84, 80, 47, 49, 46, 49, 13, 10] ++ (ClientReq.common cfg ++
    ([67, 111, 110, 116, 101, 110, 116, 45, 84, 121, 112, 101, 58, 32] ++ (ct ++ ([13, 10, 67, 111, 110, 116, 101, 110, 116, 45, 76, 101, 110, 103, 116, 104, 58, 32] ++ (decimal n ++ [13, 10])))))))

/-- The builders of `est_client.c` lines 5062-5092 and 6131-6159. -/
def header (cfg : ClientReq.Cfg) (op : EstUri.Op) (ct : List Nat) (n : Nat) (a : Auth) : List Nat :=
  addAuth ((hdrText cfg op ct n).take (totalLen - 1)) a

/-- What becomes of a request.  The outcomes of `est_client.c` lines 5108-5170 and
6172-6234. -/
inductive Wire
  | ub
  | syscall
  | sent (bytes : List (Option Nat))
deriving DecidableEq, Repr

/-- `est_client.c` lines 5140-5170 and 6203-6234: the empty line, the body, a line end.  A header that could not
be built (`h = []`) is not noticed. -/
def assemble (h data : List Nat) : Wire :=
  match snprintf (freshBuf h) h.length ((totalLen : Int) - h.length) [13, 10] with
  | none => .ub
  | some b1 =>
    if dataMax < data.length then .syscall
    else
      match put b1 (h.length + 2) data with
      | none => .ub
      | some b2 =>
        match snprintf b2 (h.length + 2 + data.length)
            ((totalLen : Int) - (h.length + 2 + data.length)) [13, 10] with
        | none => .ub
        | some b3 =>
          match ClientReq.sslWrite b3 (h.length + 2 + data.length + 2) with
          | .sent b => .sent b
          | _ => .ub

/-- `est_brski_build_voucher_req`, `est_client.c` lines 5735-5760. -/
def voucherReq (nonce time cert : List Nat) : List Nat :=
  ([123, 13, 10, 34, 105, 101, 116, 102, 45, 118, 111, 117, 99, 104, 101, 114, 45, 114, 101, 113, 117, 101, 115, 116, 58, 118, 111, 117, 99, 104, 101, 114, 34, 58, 32, 123, 13, 10, 34, 110, 111, 110, 99, 101, 34, 58, 32, 34] ++ (nonce ++
    ([34, 44, 13, 10, 34, 99, 114, 101, 97, 116, 101, 100, 45, 111, 110, 34, 58, 32, 34] ++ (time ++
      ([34, 44, 13, 10, 34, 97, 115, 115, 101, 114, 116, 105, 111, 110, 34, 58, 32, 34, 112, 114, 111, 120, 105, 109, 105, 116, 121, 34, 44, 13, 10, 34, 112, 114, 111, 120, 105, 109, 105, 116, 121, 45, 114, 101, 103, 105, 115, 116, 114, 97, 114, 45, 99, 101, 114, 116, 34, 58, 32, 34] ++ (cert ++
        [34, 13, 10, 125, 125])))))).take 16383

/-- `est_brski_get_server_cert`, `est_client.c` lines 5675-5722, on the zeroed buffer of 8193 bytes: a text of
more than 8192 bytes is not copied, a shorter one leaves the rest of the old one. -/
def serverCert (old text : List Nat) : List Nat :=
  if text.length > 8192 then old else text ++ old.drop text.length

/-! ## The context -/

/-- `EST_BRSKI_STATUS_VALUE`, other numbers are possible.  `est.h` lines 352-355. -/
inductive Status
  | success | fail | other
deriving DecidableEq, Repr

/-- What happens outside: a request is put on the wire in this mode, or the library
sleeps.  The effects of `est_client.c` lines 5108-6568. -/
inductive Ev
  | request (op : EstUri.Op) (auth : Auth) (bytes : List (Option Nat))
  | sleep (n : Nat)
deriving DecidableEq

/-- The context: authentication mode, delay, BRSKI mode, the flags of `SSL_CTX_set_verify` and
whether a callback is set, the client certificate's serial number (outer `none`: no
certificate, inner: no serial number in it), the retrieved certificate; then the number of
connections tried and what happened outside.  `est_locl.h` lines 389-578, as used by
`est_client.c` lines 5016-6568. -/
structure Ctx where
  mode : Mode
  delay : Nat
  ready : Bool
  brski : Bool
  verify : BitVec 32
  verifyCb : Bool
  serial : Option (Option (List Nat))
  cacert : Option (List Nat)
  conns : Nat
  trace : List Ev
deriving DecidableEq

/-- A connection that came up: the registrar's certificate as base64 text of a PKCS7 structure,
the authorization values, the answer.  `est_client.c` lines 5675-5722 and 5108-5246. -/
structure Up where
  cert : Option (List Nat)
  auth : Mode → Auth
  reply : Flow.Reply

/-- The outcome of est_client_connect, `est_client.c` lines 2768-2908, as called in
lines 5785-6568. -/
inductive Conn
  | down (e : Flow.ConnErr)
  | up (u : Up)

/-- The surroundings: the outcome of the n-th connection, acceptance of challenges, `verify_voucher`,
`verify_cacert_resp`, `FIPS_mode`, the n-th 16 random bytes and the n-th time text.
The calls of `est_client.c` lines 5785-6568. -/
structure Env where
  net : Nat → Conn
  tokensOk : List Nat → Bool
  verifyVoucher : List Nat → Except EstErr (List Nat)
  verifyCacert : List Nat → Except EstErr (List Nat)
  fips : Bool
  rand : Nat → Option (List Nat)
  time : Nat → Option (List Nat)

/-- `est_client_connect`.  `est_client.c` lines 2768-2908. -/
def connect (env : Env) (c : Ctx) : Conn × Ctx := (env.net c.conns, { c with conns := c.conns + 1 })

/-- In which modes `est_client_add_auth_hdr` adds something.  `est_client.c` lines
1056-1235. -/
def authOf (u : Up) : Mode → Auth
  | .basic => u.auth .basic
  | .digest => u.auth .digest
  | .token => u.auth .token
  | _ => .none

/-- `est_client_brski_send_voucher_request` (`est_client.c` lines 5108-5246) and `send_status` (lines 6172-6268) up
to the answer: code, body, context.  `none` is undefined behaviour. -/
def request (env : Env) (cfg : ClientReq.Cfg) (op : EstUri.Op) (rop : ClientResp.Op)
    (ct body : List Nat) (u : Up) (c : Ctx) : Option (EstErr × List Nat × Ctx) :=
  match assemble (header cfg op ct body.length (authOf u c.mode)) body with
  | .ub => none
  | .syscall => some (.syscall, [], c)
  | .sent b =>
    let c := { c with trace := c.trace ++ [.request op (authOf u c.mode) b] }
    match u.reply with
    | .writeFailed => some (.sslWrite, [], c)
    | .readFailed => some (.sslRead, [], c)
    | .tooLong => some (.readBufferTooSmall, [], c)
    | .bytes raw =>
      let r := getResponse env.tokensOk ⟨c.mode, c.delay⟩ rop raw
      some (r.err, r.body.getD [], { c with mode := r.mode, delay := r.delay })

/-- `est_client.c` lines 5187-5222: an answer without a body, or too long, is an error. -/
def sizeCheck (e : EstErr) (body : List Nat) : EstErr :=
  if e = .none then
    if body.length = 0 then .zeroLengthBuf
    else if body.length + 1 > 2000000 then .bufExceedsMaxLen
    else .none
  else e

/-- The content types, `est_locl.h` lines 253-256. -/
def voucherCt (signed : Bool) : List Nat :=
  if signed then [97, 112, 112, 108, 105, 99, 97, 116, 105, 111, 110, 47, 112, 107, 99, 115, 55, 45, 109, 105, 109, 101, 59, 32, 115, 109, 105, 109, 101, 45, 116, 121, 112, 101, 61, 118, 111, 117, 99, 104, 101, 114, 45, 114, 101, 113, 117, 101, 115, 116] else [97, 112, 112, 108, 105, 99, 97, 116, 105, 111, 110, 47, 106, 115, 111, 110]

/-- The voucher request on a connection.  `est_client.c` lines 5108-5246. -/
def voucherRequest (env : Env) (cfg : ClientReq.Cfg) (signed : Bool) (body : List Nat) (u : Up)
    (c : Ctx) : Option (EstErr × List Nat × Ctx) :=
  match request env cfg .reqVoucher .voucherReq (voucherCt signed) body u c with
  | none => none
  | some (e, b, c) => some (sizeCheck e b, b, c)

/-- The end of `est_client_brski_send_get_voucher`, `est_client.c` lines 5912-5928.  `len` is `*cacert_len`,
which line 5389 sets to 0. -/
def finish (env : Env) (nonce serial : List Nat) (e : EstErr) (body : List Nat) (len : Nat) (c : Ctx) :
    Option (EstErr × Nat × Ctx) :=
  if e = .none then
    match parseVoucher env.verifyCacert (env.verifyVoucher body) nonce serial with
    | .ub => none
    | .res e ca => some (e, 0, { c with mode := .none, cacert := ca.getD c.cacert })
  else some (e, len, { c with mode := .none })

/-- `est_client.c` lines 5860-5905: one more try if the server asks for authentication. -/
def authAgain (env : Env) (cfg : ClientReq.Cfg) (signed : Bool) (nonce time serial cert : List Nat)
    (len : Nat) (c : Ctx) : Option (EstErr × Nat × Ctx) :=
  if c.mode = .digest ∧ env.fips then some (.badMode, len, c)
  else
    match connect env c with
    | (.down e, c) => some (e.err, len, c)
    | (.up u, c) =>
      match u.cert with
      | none => some (.loadCacerts, len, c)
      | some t =>
        match voucherRequest env cfg signed (voucherReq nonce time (serverCert cert t)) u c with
        | none => none
        | some (e, b, c) => finish env nonce serial e b len c

/-- `est_client_brski_send_get_voucher`, `est_client.c` lines 5785-5940. -/
def sendGetVoucher (env : Env) (cfg : ClientReq.Cfg) (signed : Bool) (serial : List Nat) (len : Nat)
    (c : Ctx) : Option (EstErr × Nat × Ctx) :=
  match connect env c with
  | (.down e, c) => some (e.err, len, c)
  | (.up u, c) =>
    match (env.rand c.conns).bind Hex.hexToStr, env.time c.conns, u.cert with
    | none, _, _ => some (.syscall, len, c)
    | _, none, _ => some (.syscall, len, c)
    | _, _, none => some (.loadCacerts, len, c)
    | some nz, some time, some t =>
      let nonce := nz.dropLast
      let cert := serverCert [] t
      match voucherRequest env cfg signed (voucherReq nonce time cert) u c with
      | none => none
      | some (e, b, c) =>
        if e = .authFail ∧ Flow.Asked c.mode then
          authAgain env cfg signed nonce time serial cert len c
        else finish env nonce serial e b len c

/-- `est_client_brski_get_voucher`, `est_client.c` lines 5958-6062.  `len` is what `*cacert_len` was. -/
def getVoucher (env : Env) (cfg : ClientReq.Cfg) (signed : Bool) (len : Option Nat) (c : Ctx) :
    Option (EstErr × Nat × Ctx) :=
  if !c.ready then some (.clientNotInitialized, len.getD 0, c)
  else if !c.brski then some (.invalidParameters, len.getD 0, c)
  else
    match len, c.serial with
    | none, _ => some (.invalidParameters, 0, c)
    | some len, none => some (.noCert, len, c)
    | some len, some none => some (.clientBrskiSerialNumMissing, len, c)
    | some len, some (some serial) =>
      if serial.length > 64 then some (.clientBrskiSerialNumTooLarge, len, c)
      else
        match sendGetVoucher env cfg signed serial len c with
        | none => none
        | some (e, len, c) =>
          if e = .caEnrollRetry then
            let c := { c with trace := c.trace ++ [.sleep (if c.delay > 60 then 60 else c.delay)] }
            sendGetVoucher env cfg signed serial len c
          else some (e, len, c)

/-- `est_client_set_brski_mode`, `est_client.c` lines 5016-5049; `~1|~2` in `int` arithmetic, no callback. -/
def setBrskiMode (c : Ctx) : EstErr × Ctx :=
  if !c.ready then (.clientNotInitialized, c)
  else if c.brski then (.invalidParameters, c)
  else (.none, { c with brski := true, verify := ~~~1#32 ||| ~~~2#32, verifyCb := false })

/-- `est_client_brski_copy_cacert`, `est_client.c` lines 6080-6118; `ptr` tells whether the application gave a
buffer.  The stored text is overwritten with zeros. -/
def copyCacert (ptr : Bool) (c : Ctx) : EstErr × Option (List Nat) × Ctx :=
  if !c.ready then (.clientNotInitialized, none, c)
  else if !c.brski then (.invalidParameters, none, c)
  else if !ptr then (.invalidParameters, none, c)
  else
    match c.cacert with
    | none => (.noCert, none, c)
    | some t => (.none, some t, { c with cacert := some (List.replicate t.length 0) })

/-! ## Status indications -/

/-- `est_client.c` lines 6336-6342 and 6512-6521. -/
def statusWord : Status → List Nat
  | .success => [116, 114, 117, 101]
  | _ => [102, 97, 108, 115, 101]

/-- `est_client.c` lines 6336-6342, bounded by the buffer of 383 bytes. -/
def voucherStatusText (s : Status) (reason : List Nat) : List Nat :=
  ([123, 13, 10, 34, 118, 101, 114, 115, 105, 111, 110, 34, 58, 34, 49, 34, 44, 13, 10, 34, 83, 116, 97, 116, 117, 115, 34, 58] ++ (statusWord s ++
    ([44, 13, 10, 34, 82, 101, 97, 115, 111, 110, 34, 58, 34] ++ (reason ++ [34, 13, 10, 125])))).take 382

/-- `est_client.c` lines 6512-6521, the same buffer; `ski` is the base64 text. -/
def enrollStatusText (s : Status) (reason ski : List Nat) : List Nat :=
  ([123, 13, 10, 34, 118, 101, 114, 115, 105, 111, 110, 34, 58, 34, 49, 34, 44, 13, 10, 34, 83, 116, 97, 116, 117, 115, 34, 58] ++ (statusWord s ++
    ([44, 13, 10, 34, 82, 101, 97, 115, 111, 110, 34, 58, 34] ++ (reason ++ ([34, 44, 13, 10, 34, 83, 117, 98, 106, 101, 99, 116, 75, 101, 121, 73, 100, 101, 110, 116, 105, 102, 105, 101, 114, 34, 58, 34] ++ (ski ++
      [34, 13, 10, 125])))))).take 382

/-- `est_client.c` lines 6352-6400 and 6527-6568: connect, send, once more if the server asks for
authentication. -/
def sendStatus (env : Env) (cfg : ClientReq.Cfg) (op : EstUri.Op) (rop : ClientResp.Op)
    (text : List Nat) (c : Ctx) : Option (EstErr × Ctx) :=
  match connect env c with
  | (.down e, c) => some (e.err, c)
  | (.up u, c) =>
    match request env cfg op rop [97, 112, 112, 108, 105, 99, 97, 116, 105, 111, 110, 47, 106, 115, 111, 110] text u c with
    | none => none
    | some (e, _, c) =>
      if e = .authFail ∧ Flow.Asked c.mode then
        if c.mode = .digest ∧ env.fips then some (.badMode, c)
        else
          match connect env c with
          | (.down e, c) => some (e.err, c)
          | (.up u, c) =>
            match request env cfg op rop [97, 112, 112, 108, 105, 99, 97, 116, 105, 111, 110, 47, 106, 115, 111, 110] text u c with
            | none => none
            | some (e, _, c) => some (e, { c with mode := .none })
      else some (e, { c with mode := .none })

/-- `est_client_brski_send_voucher_status`, `est_client.c` lines 6287-6400; `reason` is a C string or NULL, of
which at most 256 bytes are looked at. -/
def sendVoucherStatus (env : Env) (cfg : ClientReq.Cfg) (s : Status) (reason : Option (List Nat))
    (c : Ctx) : Option (EstErr × Ctx) :=
  if !c.ready then some (.clientNotInitialized, c)
  else if !c.brski then some (.invalidParameters, c)
  else if s = .other then some (.invalidParameters, c)
  else
    match reason with
    | none => some (.invalidParameters, c)
    | some r =>
      if r.head? = some 10 then some (.invalidParameters, c)
      else if r.length > 255 then some (.invalidParameters, c)
      else sendStatus env cfg .voucherStatus .voucherStatus (voucherStatusText s r) c

/-- `est_client_brski_send_enroll_status`, `est_client.c` lines 6420-6568; `b64` is `est_base64_encode` without
line breaks (`none`: length 0).  A NULL reason is undefined behaviour of `snprintf` if it gets
there. -/
def sendEnrollStatus (env : Env) (cfg : ClientReq.Cfg) (b64 : List Nat → Option (List Nat))
    (s : Status) (reason ski : Option (List Nat)) (c : Ctx) : Option (EstErr × Ctx) :=
  if !c.ready then some (.clientNotInitialized, c)
  else if !c.brski then some (.invalidParameters, c)
  else if s = .other then some (.invalidParameters, c)
  else if (reason.getD []).length > 255 then some (.invalidParameters, c)
  else if s = .fail ∧ reason = none then some (.invalidParameters, c)
  else
    match ski with
    | none => some (.invalidParameters, c)
    | some k =>
      if k.head? = some 10 then some (.invalidParameters, c)
      else if k.length > 24 then some (.invalidParameters, c)
      else
        match b64 k with
        | none => some (.invalidParameters, c)
        | some t =>
          match reason with
          | none => none
          | some r =>
            sendStatus env cfg .enrollStatus .enrollStatus (enrollStatusText s r t) c

end Verif.Voucher
