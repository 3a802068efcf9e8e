import Verif.SafeModel
import Verif.Base64Model
import Verif.AuthHdrModel

/-!
# What is left in memory of passwords, tokens and keys

The functions that handle secrets, with the contents their buffers have at the moment they are given
back: blocks passed to `free`, arrays of a function that returns, and blocks nobody points to any more.

Source: `/repo/src/est/est.c`, `est_client.c`, `est_server.c`, `est_server_http.c`,
`est_server_coap.c`, `est_proxy.c`.  As in `SafeModel`, an object is the list of its bytes and `none` as
a result is undefined behaviour.  Only the buffers that can hold a secret are followed; what OpenSSL
keeps inside its own structures is not.
-/
namespace Verif.Wipe
open Safe (Buf memset memcpy memzeroS memcpyS strcpyS strnlenS)

/-- What a function leaves behind: the blocks it passed to `free`, its arrays when it returns, and the
blocks it holds the only pointer to when it returns.  The ends of the functions in `est_client.c`
lines 983-2150. -/
structure Trail where
  freed : List Buf := []
  frame : List Buf := []
  lost : List Buf := []
deriving DecidableEq, Repr

/-- One function after the other, as `est_client_add_auth_hdr` calls `est_client_retrieve_credentials` in
`est_client.c` line 1101. -/
def Trail.andThen (a b : Trail) : Trail := ⟨a.freed ++ b.freed, a.frame ++ b.frame, a.lost ++ b.lost⟩

/-! ## Credentials from the application -/

/-- `EST_HTTP_AUTH_HDR` as the callback of the application fills it in; `none` is `NULL`.  `est.h` lines
439-450. -/
structure Creds where
  user : Option Buf := none
  pwd : Option Buf := none
  uri : Option Buf := none
  cnonce : Option Buf := none
  qop : Option Buf := none
  nc : Option Buf := none
  nonce : Option Buf := none
  response : Option Buf := none
  token : Option Buf := none
deriving DecidableEq, Repr

/-- One member of the structure: `OPENSSL_cleanse` up to `strnlen_s (…, max)`, then `free`.  `est.c` lines
1801-1805 and the like. -/
def cleanseField (max : Nat) : Option Buf → Option (List Buf)
  | none => some []
  | some b => do
    let n ← strnlenS (some b) max
    let b ← memset b 0 n
    some [b]

/-- `cleanse_auth_credentials`, `est.c` lines 1794-1860, with `MAX_UIDPWD`, `EST_URI_MAX_LEN`, `MAX_NONCE`,
`MAX_QOP`, `MAX_NC`, `MAX_RESPONSE` and `MAX_AUTH_TOKEN_LEN`. -/
def cleanseCreds (c : Creds) : Option (List Buf) := do
  let a ← cleanseField 255 c.user
  let b ← cleanseField 255 c.pwd
  let d ← cleanseField 272 c.uri
  let e ← cleanseField 64 c.cnonce
  let f ← cleanseField 10 c.qop
  let g ← cleanseField 9 c.nc
  let h ← cleanseField 64 c.nonce
  let i ← cleanseField 64 c.response
  let j ← cleanseField 512 c.token
  some (a ++ b ++ d ++ e ++ f ++ g ++ h ++ i ++ j)

/-- A user name or a password goes into the array of the caller, `est_client.c` lines 1021-1030 and
1032-1041. -/
def takeInto (dst : Buf) : Option Buf → Option Buf
  | none => memset dst 0 1
  | some s => do
    let n ← strnlenS (some s) 256
    if 255 < n then memset dst 0 1
    else do
      let r ← strcpyS (some dst) 255 (some s)
      r.2

/-- `est_client_retrieve_credentials`, `est_client.c` lines 986-1044: what the callback left in the
structure (nothing without a callback), the two arrays of the caller; the arrays and the freed blocks
afterwards.  The two members of the context that it clears are empty, see `addAuthHdr`. -/
def retrieve (c : Creds) (user pwd : Buf) : Option (Buf × Buf × List Buf) := do
  let user ← takeInto user c.user
  let pwd ← takeInto pwd c.pwd
  let fr ← cleanseCreds c
  some (user, pwd, fr)

/-- The C string in an object.  Read by the `snprintf` of `est_client.c` lines 1106-1113. -/
def text (b : Buf) : Option (List Nat) := if b.contains 0 then some (b.takeWhile (· ≠ 0)) else none

/-- `snprintf` into an object of at least `n` bytes, `est_client.c` lines 1106-1113. -/
def printTo (d : Buf) (n : Nat) (t : List Nat) : Option Buf :=
  memcpy d (t.take (n - 1) ++ [0]) ((t.take (n - 1)).length + 1)

/-- `ctx->auth_mode`, `est_client.c` lines 1086-1234. -/
inductive Mode | basic | digest | token | other
deriving DecidableEq, Repr

/-- What `est_client_add_auth_hdr` works with, `est_client.c` lines 1056-1235: the two members of the
context, what the callback gives, whether there are random bytes, the block with the response that
`est_client_generate_auth_digest` makes of the two arrays (`none` if it fails), and what happens to be in
the two arrays before they are written to. -/
structure Auth where
  mode : Mode
  userid : Buf
  password : Buf
  creds : Creds := {}
  rand : Bool := true
  digest : Buf → Buf → Option Buf := fun _ _ => none
  rawUser : Buf := List.replicate 256 0
  rawPwd : Buf := List.replicate 256 0

/-- Neither of the two was configured: `ctx->userid[0] == '\0' && ctx->password[0] == '\0'`.  `est_client.c`
lines 1094 and 1144. -/
def Auth.asks (a : Auth) : Bool := a.userid.head? == some 0 && a.password.head? == some 0

/-- The value of the header for Basic and the arrays behind it, `est_client.c` lines 1105-1125: `frame` are
the arrays written to before. -/
def basicTail (user pwd : Buf) : Option (List Nat × List Buf) := do
  let u ← text user
  let p ← text pwd
  let both ← printTo (List.replicate 512 0) 512 (u ++ 58 :: p)
  let n ← strnlenS (some both) 512
  let r ← Base64.encode false (both.take n) (List.replicate 1020 0)
  let v ← text r.2
  some (v, [both, r.2])

/-- The text that is sent as a token, `est_client.c` lines 1203-1221. -/
def tokenText : Option Buf → Option (List Nat)
  | none => some []
  | some t => do
    let n ← strnlenS (some t) 513
    if 512 < n then some [] else some (t.take n)

/-- The user name and the password for Digest, in the arrays of the function: `est_client.c` lines 1144-1157. -/
def digestCreds (a : Auth) : Option (Buf × Buf × List Buf) :=
  if a.asks then retrieve a.creds (List.replicate 256 0) (List.replicate 256 0)
  else do
    let u ← strcpyS (some a.rawUser) 255 (some a.userid)
    let p ← strcpyS (some a.rawPwd) 255 (some a.password)
    let u ← u.2
    let p ← p.2
    some (u, p, [])

/-- `est_client_add_auth_hdr`, `est_client.c` lines 1056-1235: the secret part of the value it writes into
the header (`none` if it writes none or clears the header) and what it leaves.  The nonce of the client
in the context is cleared too; it is not secret. -/
def addAuthHdr (a : Auth) : Option (Option (List Nat) × Trail) :=
  match a.mode with
  | .basic =>
    if a.asks then do
      let r ← retrieve a.creds (List.replicate 256 0) (List.replicate 256 0)
      let b ← basicTail r.1 r.2.1
      some (some b.1, { freed := r.2.2, frame := [r.1, r.2.1] ++ b.2 })
    else do
      let b ← basicTail a.userid a.password
      some (some b.1, { frame := b.2 })
  | .digest =>
    if !a.rand then some (none, {})
    else do
      let r ← digestCreds a
      match a.digest r.1 r.2.1 with
      | none => do
        let u ← memset r.1 0 256
        let p ← memset r.2.1 0 256
        some (none, { freed := r.2.2, frame := [u, p] })
      | some d => do
        let v ← text d
        let d ← memset d 0 33
        let u ← memset r.1 0 256
        let p ← memset r.2.1 0 256
        some (some v, { freed := r.2.2 ++ [d], frame := [u, p] })
  | .token => do
    let t ← tokenText a.creds.token
    let r ← Base64.encode false t (List.replicate 1024 0)
    let v ← text r.2
    let fr ← cleanseCreds a.creds
    some (some v, { freed := fr, frame := [r.2] })
  | .other => some (none, {})

/-! ## The request of the client -/

/-- The end of `est_client_send_enroll_request_internal` for the buffer with the request, `est_client.c` lines
1601-1604 and 1696-1700: `http` is the buffer of `EST_HTTP_REQ_TOTAL_LEN` bytes; if there is no text in it
after the header was built, it goes back as it is. -/
def dropEnrollRequest (http : Buf) : Option (List Buf) := do
  let n ← strnlenS (some http) 5125
  if n = 0 then some [http]
  else do
    let b ← memset http 0 n
    some [b]

/-- `est_client_send_csrattr_request`, the same buffer: `est_client.c` lines 1347-1402. -/
def dropCsrattrsRequest (http : Buf) : List Buf := [http]

/-- `est_client_brski_send_voucher_request` and `est_client_brski_send_status`, the same buffer: `est_client.c`
lines 5136-5242 and 6201-6266. -/
def dropBrskiRequest (http : Buf) : List Buf := [http]

/-! ## The key a server made for the client -/

/-- What `est_io_get_multipart_response` gives, `est_client.c` line 1644: no error, the blocks with the key
and the certificate and their lengths. -/
structure Resp where
  ok : Bool
  key : Option Buf := none
  keyLen : Nat := 0
  cert : Option Buf := none
  certLen : Nat := 0
deriving DecidableEq, Repr

/-- The rest of `est_client_send_enroll_request_internal` for a request for a key, `est_client.c` lines
1655-1693: the buffer of the caller (`new_key`) and the length it is told, and the freed block with the key.
The buffers with the certificate are not followed. -/
def takeResponse (r : Resp) (newKey : Buf) : Option (Bool × Buf × Nat × List Buf) :=
  if r.ok ∧ r.certLen ≠ 0 ∧ r.certLen ≤ 4096 ∧ r.keyLen ≠ 0 ∧ r.keyLen ≤ 8192 then do
    let c ← memcpyS (some newKey) 8192 r.key r.keyLen
    let nk ← c.2
    some (true, nk, r.keyLen, r.key.toList)
  else some (false, newKey, 0, r.key.toList)

/-- `est_client_get_pkey_from_buf`, `est_client.c` lines 1864-1884: `key` is the C string in the context, `d2i`
whether OpenSSL can read it, `raw` what is in the new block of `key_len` bytes.  OpenSSL moves the only
pointer behind the key it has read. -/
def getPkey (odd : Bool → List Nat → List Nat) (d2i : List Nat → Bool) (key raw : Buf) (keyLen : Nat) :
    Option (Bool × Trail) := do
  let t ← text key
  match Base64.decode odd t keyLen with
  | .ub => none
  | .ret n w => do
    let d ← memcpy raw w w.length
    if n = 0 then some (false, { freed := [d] })
    else if d2i (d.take n) then some (true, { lost := [d] })
    else some (false, { freed := [d] })

/-- What the rest of the world does in `est_client_enroll_req`, `est_client.c` lines 1983-2150: the answer of
the server, whether the copies in the context can be allocated, whether the certificate can be read, what
OpenSSL says about the key, and whether key and certificate belong together. -/
structure EnrollWorld where
  resp : Resp
  allocCert : Bool := true
  allocKey : Bool := true
  certOk : Bool := true
  odd : Bool → List Nat → List Nat := fun _ _ => []
  d2i : List Nat → Bool := fun _ => true
  fits : Bool := true
  rawNew : Buf
  rawCtx : Buf
  rawDec : Buf

/-- `est_client_verify_key_and_cert`, `est_client.c` lines 1891-1973. -/
def verifyKey (w : EnrollWorld) (key : Buf) (keyLen : Nat) : Option (Bool × Trail) :=
  if !w.certOk then some (false, {})
  else do
    let r ← getPkey w.odd w.d2i key w.rawDec keyLen
    some (r.1 && w.fits, r.2)

/-- `est_client_enroll_req` for a request for a key, `est_client.c` lines 2034-2149: the key in the context
before and after, with its length, and what is left.  `w.rawNew` and `w.rawCtx` are what was in the new
blocks. -/
def enrollReq (w : EnrollWorld) (ctxKey : Option Buf) (ctxLen : Nat) :
    Option (Bool × Option Buf × Nat × Trail) := do
  let (ok, nk, n, fr) ← takeResponse w.resp w.rawNew
  if !ok then some (false, ctxKey, ctxLen, { freed := fr ++ [nk] })
  else if !w.allocCert then some (false, ctxKey, ctxLen, { freed := fr ++ [nk] })
  else if !w.allocKey then some (false, none, ctxLen, { freed := fr ++ ctxKey.toList ++ [nk] })
  else do
    let k ← memcpy w.rawCtx (nk.take n ++ [0]) (n + 1)
    let v ← verifyKey w k n
    some (v.1, some k, n,
      Trail.andThen { freed := fr ++ ctxKey.toList } (Trail.andThen v.2 { freed := [nk] }))

/-- `est_client_copy_server_generated_key`, `est_client.c` lines 3871-3905: the application gets the bytes, the
block of the context is cleared and freed. -/
def copyKey (ctxKey : Option Buf) (ctxLen : Nat) : Option (Option (List Nat) × Trail) :=
  match ctxKey with
  | none => some (none, {})
  | some k => do
    let out ← memcpy (List.replicate ctxLen 0) k ctxLen
    let k ← memset k 0 ctxLen
    some (some out, { freed := [k] })

/-- `est_destroy`, `est.c` lines 743-836: the user name and the password are part of the context, which is freed
as it is; the key the server made is not freed. -/
def destroy (userid password : Buf) (ctxKey : Option Buf) : Trail :=
  { freed := [userid, password], lost := ctxKey.toList }

/-! ## The server and the credentials of a request -/

/-- A block made by `strndup`, `est_server_http.c` lines 837-853: the text and its NUL. -/
def dup (t : List Nat) : Buf := t ++ [0]

/-- A member that `est_destroy_ah` clears, `est_server.c` lines 444-453 and 460-466. -/
def destroyField (max : Nat) : Option Buf → Option (List Buf)
  | none => some []
  | some b => do
    let n ← strnlenS (some b) max
    if n = 0 then some [b]
    else do
      let b ← memset b 0 n
      some [b]

/-- `est_destroy_ah`, `est_server.c` lines 438-468: the blocks with the password and the token, and all the other
blocks (user, uri, cnonce, qop, nc, nonce, response) as they are. -/
def destroyAh (ah : AuthHdr.Ah) : Option (List Buf × List Buf) := do
  let p ← destroyField 255 (ah.pwd.map dup)
  let t ← destroyField 512 (ah.token.map dup)
  some (p ++ t, (ah.user.toList ++ ah.uri.toList ++ ah.cnonce.toList ++ ah.qop.toList ++ ah.nc.toList ++
    ah.nonce.toList ++ ah.response.toList).map dup)

/-- The array `both` when `mg_parse_auth_hdr_basic` returns, `est_server_http.c` lines 790-861: `raw` is what was
in it, `h` the header. -/
def basicFrame (odd : Bool → List Nat → List Nat) (h raw : Buf) : Option Buf :=
  match Base64.decode odd ((h.drop 6).dropWhile HttpHdr.isSpace) 512 with
  | .ub => some raw
  | .ret n w => do
    let both ← memcpy raw w w.length
    if n = 0 ∨ 512 ≤ n then some both
    else memset both 0 512

/-- The array `value_decoded` when `mg_parse_auth_hdr_token` returns, `est_server_http.c` lines 953-991. -/
def tokenFrame (odd : Bool → List Nat → List Nat) (h : Buf) : Option Buf :=
  match Base64.decode odd ((h.drop 6).dropWhile HttpHdr.isSpace) 1024 with
  | .ub => some (List.replicate 1024 0)
  | .ret n w => do
    let v ← memcpy (List.replicate 1024 0) w w.length
    if n = 0 ∨ 1024 ≤ n then some v
    else memcpy v (v.take n ++ [0]) (n + 1)

/-! ## The server and the key it makes -/

/-- How far `est_handle_server_keygen` comes, `est_server.c` lines 1855-2189: it stops before there is a key; `i2d`
gives the bytes of the key but there is no room for the text; it stops between the text and the
callback; or the callback is called. -/
inductive Reach | noKey | noRoom | stopped | called
deriving DecidableEq, Repr

/-- What the callback and the connection do, `est_server.c` lines 2079-2188: the callback may put another block
with another length in place of the text (it has to release the first one itself); whether it gave a
certificate and whether everything could be written. -/
structure KeygenWorld where
  reach : Reach
  der : Buf
  rawText : Buf
  other : Option (Buf × Nat) := none
  enrolled : Bool := true
  written : Bool := true

/-- `est_handle_server_keygen`, `est_server.c` lines 1970-2229: the block and length handed to the caller, and
what is left. -/
def handleKeygen (w : KeygenWorld) : Option (Option (Buf × Nat) × Trail) :=
  match w.reach with
  | .noKey => some (none, {})
  | .noRoom => do
    let d ← memset w.der 0 w.der.length
    some (none, { freed := [d] })
  | .stopped => do
    let e ← Base64.encode true w.der w.rawText
    let b ← memset e.2 0 e.1
    let d ← memset w.der 0 w.der.length
    some (none, { freed := [b, d] })
  | .called => do
    let e ← Base64.encode true w.der w.rawText
    let b := w.other.getD (e.2, e.1)
    let d ← memset w.der 0 w.der.length
    if w.enrolled && w.written then some (some b, { freed := [d] })
    else do
      let k ← memset b.1 0 b.2
      some (none, { freed := [k, d] })

/-- The request for a key over HTTP, `est_server.c` lines 2849-2882. -/
def keygenHttp (w : KeygenWorld) : Option Trail := do
  let r ← handleKeygen w
  match r.1 with
  | none => some r.2
  | some b => do
    let k ← memset b.1 0 b.2
    some (r.2.andThen { freed := [k] })

/-- Where the handler for CoAP stops behind a successful key generation, `est_server_coap.c` lines 1673-1887:
`stop` is the number of the step that fails: 0 the block for the certificate, 1 the block for the text of the
key, 2 the block for the key, 3 the certificate or the final length, 4 writing the answer; from 5 on nothing
of these.  `dec` is the decoder on the text of the key with the size of the destination already given. -/
structure CoapWorld where
  stop : Nat
  rawText : Buf
  rawDer : Buf
  dec : List Nat → Base64.DecRes
  cbor : List Nat → Buf
  node : Buf

/-- The handler for a request for a key over CoAP, `est_server_coap.c` lines 1673-1953: what is left, and the
buffer for the answer in the node of the client.  The memory of the certificate is not followed; the block
for the answer is never refused. -/
def coapTail (w : CoapWorld) (key : Buf) (len : Nat) : Option (Trail × Buf) :=
  if w.stop ≤ 1 then some ({ lost := [key] }, w.node)
  else do
    let kt ← memcpy w.rawText (key.take len ++ [0]) (len + 1)
    let k ← memset key 0 len
    let kt0 ← memset kt 0 len
    if w.stop = 2 then some ({ freed := [k, kt0] }, w.node)
    else do
      let t ← text kt
      match w.dec t with
      | .ub => none
      | .ret n wr => do
        let d ← memcpy w.rawDer wr wr.length
        let d0 ← memset d 0 n
        if n = 0 ∨ w.stop = 3 then some ({ freed := [k, kt0, d0] }, w.node)
        else do
          let c := w.cbor (d.take n)
          let c0 ← memset c 0 c.length
          if w.stop = 4 then some ({ freed := [k, kt0, d0, c0] }, w.node)
          else do
            let nd ← memcpy w.node c c.length
            some ({ freed := [k, kt0, d0, c0] }, nd)

/-- The request for a key over CoAP, `est_server_coap.c` lines 1587-1953. -/
def keygenCoap (w : KeygenWorld) (c : CoapWorld) : Option (Trail × Buf) := do
  let r ← handleKeygen w
  match r.1 with
  | none => some (r.2, c.node)
  | some b => do
    let t ← coapTail c b.1 b.2
    some (r.2.andThen t.1, t.2)

/-! ## The proxy -/

/-- `est_proxy_handle_server_keygen` and its caller, `est_proxy.c` lines 1118-1156 and 1897-1934: `key` is the block of
`EST_MAX_CLIENT_PKEY_LEN` bytes, `len` what the server above gave, `cert` whether it gave a certificate too,
`written` whether the answer could be written to the client. -/
def proxyKeygen (key : Buf) (len : Nat) (cert written : Bool) : Option Trail :=
  if cert && decide (0 < len) then
    if written then do
      let k ← memset key 0 len
      some { freed := [k] }
    else some { lost := [key] }
  else do
    let k ← memset key 0 8192
    some { freed := [k] }

end Verif.Wipe
