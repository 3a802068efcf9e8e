import Verif.EstUriModel
import Verif.AuthHdrModel

/-!
# Model of the request the client puts on the wire

Source: `/repo/src/est/est_client.c` lines 1246-1522 (the header builders), 1542-1660
(`est_client_send_enroll_request_internal` up to `SSL_write`), the ends of
`est_client_add_auth_hdr` (1118, 1170, 1223); `/repo/safe_c_stub/src/safe_mem_stub.c` lines
65-70 (`memcpy_s`); constants of `/repo/src/est/est_locl.h`.
-/
namespace Verif.ClientReq
open Verif.EstUri (Op)
open Verif.ClientResp (decimal)

/-- `EST_HTTP_REQ_TOTAL_LEN`: 1024 + 4096 + 5.  `est_locl.h` line 200. -/
def totalLen : Nat := 5125
/-- `EST_HTTP_REQ_DATA_MAX`.  `est_locl.h` line 198. -/
def dataMax : Nat := 4096
/-- `EST_HTTP_HDR_MAX`.  `est_locl.h` line 152. -/
def hdrMax : Nat := 1024

/-- The parts of the context that go into a request.  `ua` is `EST_HTTP_HDR_EST_CLIENT`, a
constant of the build.  Read by `est_client.c` lines 1246-1522; the constant is
`est_locl.h` line 196. -/
structure Cfg where
  ua : List Nat
  server : List Nat
  port : Nat
  seg : Option (List Nat)

/-- The name of the operation in the URI (`est_locl.h`).  `est_locl.h` lines 227-251. -/
def uriName : Op → List Nat
  | .cacerts => [99, 97, 99, 101, 114, 116, 115]
  | .simpleEnroll => [115, 105, 109, 112, 108, 101, 101, 110, 114, 111, 108, 108]
  | .simpleReenroll => [115, 105, 109, 112, 108, 101, 114, 101, 101, 110, 114, 111, 108, 108]
  | .csrattrs => [99, 115, 114, 97, 116, 116, 114, 115]
  | .serverKeygen => [115, 101, 114, 118, 101, 114, 107, 101, 121, 103, 101, 110]
  | .reqVoucher => [114, 101, 113, 117, 101, 115, 116, 118, 111, 117, 99, 104, 101, 114]
  | .voucherStatus => [118, 111, 117, 99, 104, 101, 114, 95, 115, 116, 97, 116, 117, 115]
  | .enrollStatus => [101, 110, 114, 111, 108, 108, 115, 116, 97, 116, 117, 115]

/-- The path of the request line.  `est_client.c` lines 1250-1258. -/
def path (cfg : Cfg) (op : Op) : List Nat :=
  [47, 46, 119, 101, 108, 108, 45, 107, 110, 111, 119, 110, 47, 101, 115, 116] ++ ((match cfg.seg with | some s => 47 :: s | none => []) ++
    47 :: uriName op)

/-- The header lines common to all requests.  `est_client.c` lines 1251-1254, 1288-1291,
1420-1423, 1461-1464 and 1502-1505. -/
def common (cfg : Cfg) : List Nat :=
  [85, 115, 101, 114, 45, 65, 103, 101, 110, 116, 58, 32] ++ (cfg.ua ++ ([13, 10, 67, 111, 110, 110, 101, 99, 116, 105, 111, 110, 58, 32, 99, 108, 111, 115, 101, 13, 10, 72, 111, 115, 116, 58, 32] ++ (cfg.server ++
    58 :: (decimal cfg.port ++ [13, 10, 65, 99, 99, 101, 112, 116, 58, 32, 42, 47, 42, 13, 10]))))

/-- The format of `est_client.c` lines 1250-1260 and 1287-1297 (GET requests). -/
def getText (cfg : Cfg) (op : Op) : List Nat :=
  [71, 69, 84, 32] ++ (path cfg op ++ ([32, 72, 84, 84, 80, 47, 49, 46, 49, 13, 10] ++ common cfg))

/-- The format of `est_client.c` lines 1419-1431, 1460-1472, 1501-1513 (POST requests). -/
def postText (cfg : Cfg) (op : Op) (n : Nat) : List Nat :=
  [80, 79, 83, 84, 32] ++ (path cfg op ++ ([32, 72, 84, 84, 80, 47, 49, 46, 49, 13, 10] ++ (common cfg ++
    ([67, 111, 110, 116, 101, 110, 116, 45, 84, 121, 112, 101, 58, 32, 97, 112, 112, 108, 105, 99, 97, 116, 105, 111, 110, 47, 112, 107, 99, 115, 49, 48, 13, 10, 67, 111, 110, 116, 101, 110, 116, 45, 76, 101, 110, 103, 116, 104, 58, 32] ++ (decimal n ++ [13, 10])))))

/-- What `est_client_add_auth_hdr` does: nothing, append a line with this value, or clear the
header (`est_client.c` lines 1127, 1158). -/
inductive Auth
  | none
  | value (v : List Nat)
  | failed
deriving DecidableEq

/-- `est_client_add_auth_hdr` on the text in the buffer; both `snprintf` calls are bounded by
the buffer.  `est_client.c` lines 1056-1235. -/
def addAuth (h : List Nat) : Auth → List Nat
  | .none => h
  | .value v => h ++ ([65, 117, 116, 104, 111, 114, 105, 122, 97, 116, 105, 111, 110, 58, 32] ++ (v ++ [13, 10])).take (totalLen - h.length - 1)
  | .failed => []

/-- The builders for POST requests, `est_client.c` lines 1415-1522: the header text in the buffer.  Only the
one for re-enrolment has a limit below the size of the buffer. -/
def buildPost (cfg : Cfg) (op : Op) (n : Nat) (a : Auth) : List Nat :=
  let h := addAuth ((postText cfg op n).take (totalLen - 1)) a
  if op = .simpleReenroll ∧ hdrMax < h.length then [] else h

/-- The builders for GET requests, `est_client.c` lines 1246-1320; no authorization for `cacerts`. -/
def buildGet (cfg : Cfg) (op : Op) (a : Auth) : List Nat :=
  let t := (getText cfg op).take (totalLen - 1)
  let h := if op = .csrattrs then addAuth t a else t
  if hdrMax < h.length then [] else h

/-- What happens: undefined behaviour (an access behind the buffer), an error, or these bytes
go to `SSL_write`; `none` is a byte of the buffer that was never written.  The
outcomes of `est_client.c` lines 1573-1631. -/
inductive Wire
  | ub
  | cannotBuild
  | sent (bytes : List (Option Nat))
deriving DecidableEq, Repr

/-- Store bytes at an offset; `none` if they do not fit.  Auxiliary to the stores of
`est_client.c` lines 1610-1625. -/
def put (buf : List (Option Nat)) (off : Nat) (bytes : List Nat) : Option (List (Option Nat)) :=
  if off + bytes.length ≤ buf.length then
    some (buf.take off ++ (bytes.map some ++ buf.drop (off + bytes.length)))
  else none

/-- `snprintf(buf + off, size, text)`; a negative size becomes a very large one.  Called
at `est_client.c` lines 1358, 1364, 1610 and 1623. -/
def snprintf (buf : List (Option Nat)) (off : Nat) (size : Int) (text : List Nat) :
    Option (List (Option Nat)) :=
  if size = 0 then some buf
  else if size < 0 then put buf off (text ++ [0])
  else put buf off (text.take (size.toNat - 1) ++ [0])

/-- `memcpy_s(buf + off, 4096, data, n)`: nothing is copied if `n` is larger.  Called at
`est_client.c` line 1616. -/
def copyData (buf : List (Option Nat)) (off : Nat) (data : List Nat) : Option (List (Option Nat)) :=
  if dataMax < data.length then some buf else put buf off data

/-- The buffer after the header was built: the text, its NUL, and untouched bytes.
`est_client.c` lines 1573-1600. -/
def freshBuf (h : List Nat) : List (Option Nat) :=
  h.map some ++ some 0 :: List.replicate (totalLen - 1 - h.length) none

/-- `SSL_write(ssl, buf, n)`.  Called at `est_client.c` lines 1372, 1631 and 3007. -/
def sslWrite (buf : List (Option Nat)) (n : Nat) : Wire :=
  if n ≤ buf.length then .sent (buf.take n) else .ub

/-- `est_client_send_enroll_request_internal`, `est_client.c` lines 1573-1631, for a header text that was
built. -/
def sendPost (h data : List Nat) : Wire :=
  if h = [] then .cannotBuild
  else
    match snprintf (freshBuf h) h.length ((totalLen : Int) - h.length) [13, 10] with
    | none => .ub
    | some b1 =>
      match copyData b1 (h.length + 2) data with
      | none => .ub
      | some b2 =>
        match snprintf b2 (h.length + 2 + data.length)
            ((totalLen : Int) - (h.length + 2 + data.length)) [13, 10] with
        | none => .ub
        | some b3 => sslWrite b3 (h.length + 2 + data.length + 2)

/-- `est_client_send_csrattrs_request` and `est_client_send_cacerts`: two empty lines behind
the header (`est_client.c` lines 1354-1372, 2994-3007). -/
def sendGet (h : List Nat) : Wire := sendPost h []

/-- A whole enrolment request.  `est_client.c` lines 1573-1631. -/
def enrollRequest (cfg : Cfg) (op : Op) (a : Auth) (csr : List Nat) : Wire :=
  sendPost (buildPost cfg op csr.length a) csr

end Verif.ClientReq
