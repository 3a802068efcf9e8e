import Verif.Base64Model

/-!
# Model of the CBOR payload of a CoAP key generation response

Source: `/repo/src/est/est_server_coap.c` lines 1154-1207 and 1676-1886,
`/repo/src/est/est_locl.h` lines 359-378.
-/
namespace Verif.Cbor
open Verif.Base64 (decode DecRes)

/-- Capacity of the response buffer, `COAP_REQ_NODE_BUF_LEN_MAX`, `est_locl.h`.
`est_locl.h` line 324. -/
def respMax : Nat := 16384

/-- A buffer and a write position.  The variables pCur and cbor of `est_server_coap.c`
lines 1183-1207 and 1805-1872. -/
structure Wr where
  buf : List Nat
  pos : Nat
deriving DecidableEq, Repr

/-- Writes behind the end of the buffer are undefined (`none`).  The stores of
`est_server_coap.c` lines 1183-1207. -/
def Wr.put (w : Wr) (bs : List Nat) : Option Wr :=
  if w.pos + bs.length ≤ w.buf.length then
    some ⟨w.buf.take w.pos ++ bs ++ w.buf.drop (w.pos + bs.length), w.pos + bs.length⟩
  else none

/-- `makeCborBytestring`, `est_server_coap.c` lines 1154-1178: initial byte and number of length bytes. -/
def mkHead (len : Nat) : Nat × Nat :=
  if len ≤ 23 then (0x40 + len, 0)
  else if len ≤ 0xff then (0x58, 1)
  else if len ≤ 0xffff then (0x59, 2)
  else if len ≤ 0xffffffff then (0x5a, 4)
  else (0x5b, 8)

/-- The length bytes, `est_server_coap.c` lines 1192-1195: most significant byte first. -/
def lenBytes (len : Nat) : Nat → List Nat
  | 0 => []
  | n + 1 => ((len >>> (8 * n)) &&& 0xff) :: lenBytes len n

/-- `writeCborBytestring`, `est_server_coap.c` lines 1183-1207. -/
def writeBytestring (w : Wr) (data : List Nat) : Option Wr :=
  ((w.put [(mkHead data.length).1]).bind
    fun w => w.put (lenBytes data.length (mkHead data.length).2)).bind
    fun w => w.put data

/-- The part of `est_coap_skg_handler` that fills the buffer, `est_server_coap.c` lines 1809-1872. -/
def fill (w : Wr) (key cert : List Nat) : Option Wr :=
  (((((w.put [0x80 + 4]).bind
    fun w => w.put [0x19]).bind
    fun w => w.put [0x011C >>> 8, 0x011C &&& 0xff]).bind
    fun w => writeBytestring w key).bind
    fun w => (w.put [0x19]).bind fun w => w.put [0x0119 >>> 8, 0x0119 &&& 0xff]).bind
    fun w => writeBytestring w cert

/-- Length up to and including the initial byte of the key, `est_server_coap.c` lines 1706-1707. -/
def len0 : Nat := 1 + 1 + 2 + 1

/-- Length with the key and up to the initial byte of the certificate, `est_server_coap.c` lines 1768-1771. -/
def len1 (key : List Nat) : Nat :=
  len0 + (mkHead key.length).2 + key.length + (1 + 2 + 1)

/-- Total length, `est_server_coap.c` line 1799. -/
def len2 (key cert : List Nat) : Nat :=
  len1 key + (mkHead cert.length).2 + cert.length

/-- Result: undefined behaviour, a 5.00 response, or the contents of the response buffer
(`resp_buf` up to `resp_buf_len`).  The outcomes of `est_server_coap.c` lines
1676-1886. -/
inductive Out
  | ub
  | err500
  | payload (bs : List Nat)
deriving DecidableEq, Repr

/-- A C string in a buffer: `est_server_coap.c` lines 1694 and 1731 add the NUL. -/
def cstr (t : List Nat) : List Nat := t.takeWhile (· != 0)

/-- `est_server_coap.c` lines 1798-1886: both parts are decoded. -/
def assemble (key cert : List Nat) : Out :=
  let total := len2 key cert
  if total > respMax then .err500
  else
    match fill ⟨List.replicate total 0, 0⟩ key cert with
    | none => .ub
    | some w => .payload (w.buf.take total)

/-- `est_server_coap.c` lines 1776-1796: room for the certificate, and decoding.  A size that is not positive
makes `malloc` or the decoder fail. -/
def decodeCert (odd : Bool → List Nat → List Nat) (key certText : List Nat) : Out :=
  let room := min certText.length (respMax - len1 key)
  match decode odd (cstr certText) room with
  | .ub => .ub
  | .ret 0 _ => .err500
  | .ret (n + 1) bytes => assemble key (bytes.take (n + 1))

/-- `est_server_coap.c` lines 1676-1886 (`est_coap_skg_handler`): the key and the certificate as the key
generation returned them (base64 texts).  Failing allocations are left out. -/
def skgPayload (odd : Bool → List Nat → List Nat) (keyText certText : List Nat) : Out :=
  let room := min keyText.length (respMax - len0)
  match decode odd (cstr keyText) room with
  | .ub => .ub
  | .ret 0 _ => .err500
  | .ret (n + 1) bytes => decodeCert odd (bytes.take (n + 1)) certText

end Verif.Cbor
