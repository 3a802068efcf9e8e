import Verif.EstErr
import Verif.EstUriModel

/-!
# Model of the configuration calls

Source: `/repo/src/est/est_server.c` lines 911-950, 3194-3328, 3346-3374, 3595-3612, 3679-3800,
3878-3909, 3927-3951, 4042-4132, 4166-4215, 4325-4346; `est_server_coap.c` lines 489-507,
3025-3235; `est_enhcd_cert_auth.c` lines 32-133, 456-472; `est_client.c` lines 75-100,
3107-3146, 4286-4325, 4410-4419, 4453-4544, 4569-4650, 4687-4773, 4801-4829, 4960-4974;
`est_proxy.c` lines 2409-2431; `est.c` lines 2103-2193; the string functions of
`/repo/safe_c_stub/src/safe_str_stub.c` lines 309-420.

Contexts are not NULL.  Texts are lists of bytes without the terminating NUL; NULL is `none`.
-/
namespace Verif.Setter
open Verif.EstUri (parseOperation uriSegments textFrom)

/-! ## Character arrays -/

/-- `strcpy_s (dest, n, src)` of the stub (`safe_str_stub.c` lines 309-314) is `strncpy`: exactly `n` bytes are
written, the text and then zeros; a longer text is cut and not terminated. -/
def strcpyS (old : List Nat) (n : Nat) (src : List Nat) : List Nat :=
  src.take n ++ List.replicate (n - src.length) 0 ++ old.drop n

/-- `strncpy_s (dest, dmax, src, slen)` with `slen < dmax` (`safe_str_stub.c` lines 321-412): at most `slen`
bytes and a NUL. -/
def strncpyS (old : List Nat) (slen : Nat) (src : List Nat) : List Nat :=
  src.take slen ++ 0 :: old.drop ((src.take slen).length + 1)

/-- The C string in an array.  The strings stored by `est_server.c` lines 911-950 and
`est_client.c` lines 3107-3146. -/
def cstr (a : List Nat) : List Nat := a.takeWhile (· ≠ 0)

/-- An array of 256 characters after `memzero_s`.  `est_client.c` lines 3107-3146. -/
def zeros : List Nat := List.replicate 256 0

/-! ## The server -/

/-- A slot of the manufacturer list, `ENCHD_CERT_MFG_INFO`; `store` is the truststore
pointer with the contents of the store.  `est.h` lines 561-567, used in
`est_enhcd_cert_auth.c` lines 32-133. -/
structure Slot where
  name : List Nat
  nid : Int
  store : Option Nat
deriving DecidableEq, Repr

/-- The configuration in the server's context.  `sessMax` is `dtls_session_max`, `arr` the
length of `coap_req_array` (`none`: NULL pointer), `arrMax` is
`cur_max_coap_req_array`.  `est_locl.h` lines 389-578. -/
structure Srv where
  retry : Int
  brskiRetry : Int
  readTimeout : Int
  timer : Int
  mtu : Int
  sessMax : Int
  arr : Option Int
  arrMax : Int
  port : Int
  coap : Bool
  authMode : Int
  required : Int
  pop : Bool
  popPresent : Bool
  csrattrs : Option (List Nat)
  enforce : Bool
  eca : Bool
  ecaNid : Int
  ecaPwd : List Nat
  ecaCheck : Int
  mfgs : Option (List Slot)
deriving DecidableEq, Repr

/-- `est_server_init`, `est_server.c` lines 3194-3328, when it succeeds. -/
def Srv.init : Srv :=
  { retry := 3600, brskiRetry := 30, readTimeout := 10, timer := 0, mtu := 0, sessMax := 32,
    arr := some 32, arrMax := 32, port := 0, coap := false, authMode := 1, required := 1,
    pop := true, popPresent := false, csrattrs := none, enforce := false, eca := false,
    ecaNid := 0, ecaPwd := zeros, ecaCheck := 0, mfgs := none }

/-- Build options and library functions: `HAVE_LIBCOAP`, `FIPS_mode`, the PEM reader with the
certificate store (`none`: no certificate found), `est_asn1_parse_attributes` /
`est_is_challengePassword_present` (`none`: refused) and `est_add_challengePassword`.
Used in `est_server.c` lines 3346-4132, `est_server_coap.c` lines 3025-3290 and
`est_enhcd_cert_auth.c` lines 81-133. -/
structure Lib where
  libcoap : Bool
  fips : Bool
  loadStore : List Nat → Option Nat
  attrs : List Nat → Option Bool
  addPop : List Nat → Option (List Nat)

/-- The calls.  The flags named `alloc…` are the outcomes of allocations.
`est_server.c` lines 3346-4346, `est_server_coap.c` lines 3025-3290. -/
inductive SrvOp
  | setAuthMode (m : Int)
  | setRequired (v : Int)
  | setRetry (v : Int)
  | setBrskiRetry (v : Int)
  | setReadTimeout (v : Int)
  | setDtlsTimeout (v : Int)
  | setDtlsMtu (v : Int)
  | setSessionMax (v : Int) (alloc : Bool)
  | coapStart (port : Int) (ok : Bool)
  | enablePop
  | disablePop
  | initCsrattrs (text : Option (List Nat)) (alloc : Bool)
  | enforceCsrattr
  | enableEca (nid : Int) (pwd : Option (List Nat)) (check : Int)
  | disableEca
  | addMfg (name : Option (List Nat)) (nid : Int) (certs : Option (List Nat))
      (allocList allocStore allocCtx : Bool)

/-- `est_server_set_auth_mode`, `est_server.c` lines 3346-3374.  `AUTH_BASIC`, `AUTH_DIGEST`, `AUTH_TOKEN`
are 1, 2, 3. -/
def setAuthMode (lib : Lib) (s : Srv) (m : Int) : EstErr × Srv :=
  if m = 2 then
    if lib.fips then (.badMode, s) else (.none, { s with authMode := m })
  else if m = 1 ∨ m = 3 then (.none, { s with authMode := m })
  else (.badMode, s)

/-- `est_server_set_retry_period`, `est_server.c` lines 3927-3951. -/
def setRetry (s : Srv) (v : Int) : EstErr × Srv :=
  if v > 172800 then (.invalidParameters, s)
  else if v < 60 then (.invalidParameters, s)
  else (.none, { s with retry := v })

/-- `est_server_set_brski_retry_period`, `est_server.c` lines 4325-4346. -/
def setBrskiRetry (s : Srv) (v : Int) : EstErr × Srv :=
  if v > 70 then (.invalidParameters, s)
  else if v < 1 then (.invalidParameters, s)
  else (.none, { s with brskiRetry := v })

/-- `est_server_set_read_timeout`, `est_server.c` lines 4189-4204. -/
def setReadTimeout (s : Srv) (v : Int) : EstErr × Srv :=
  if v < 1 ∨ v > 3600 then (.invalidParameters, s)
  else (.none, { s with readTimeout := v })

/-- `est_server_set_dtls_handshake_timeout`, `est_server_coap.c` lines 3025-3053. -/
def setDtlsTimeout (lib : Lib) (s : Srv) (v : Int) : EstErr × Srv :=
  if !lib.libcoap then (.clientCoapModeNotSupported, s)
  else if v ≠ 0 ∧ (v < 2 ∨ v > 60) then (.invalidParameters, s)
  else (.none, { s with timer := v })

/-- `est_server_set_dtls_handshake_mtu`, `est_server_coap.c` lines 3076-3104. -/
def setDtlsMtu (lib : Lib) (s : Srv) (v : Int) : EstErr × Srv :=
  if !lib.libcoap then (.clientCoapModeNotSupported, s)
  else if v ≠ 0 ∧ (v < 256 ∨ v > 1152) then (.invalidParameters, s)
  else (.none, { s with mtu := v })

/-- `est_coap_init_req_array`, `est_server_coap.c` lines 489-507. -/
def initReqArray (s : Srv) (n : Int) (alloc : Bool) : EstErr × Srv :=
  if !alloc then (.malloc, { s with arr := none })
  else (.none, { s with arr := some n, arrMax := n })

/-- `est_server_set_dtls_session_max`, `est_server_coap.c` lines 3132-3178. -/
def setSessionMax (lib : Lib) (s : Srv) (v : Int) (alloc : Bool) : EstErr × Srv :=
  if !lib.libcoap then (.clientCoapModeNotSupported, s)
  else if s.port ≠ 0 then (.serverAlreadyOperational, s)
  else if v < 2 ∨ v > 128 then (.invalidParameters, s)
  else initReqArray { s with sessMax := v } v alloc

/-- `est_server_coap_init_start`, `est_server_coap.c` lines 3205-3290.  `ok`: libcoap gave a context.  Five digits
always fit into the port string. -/
def coapStart (lib : Lib) (s : Srv) (port : Int) (ok : Bool) : EstErr × Srv :=
  if !lib.libcoap then (.clientCoapModeNotSupported, s)
  else if port < 0 ∨ port > 65535 then (.invalidPortNum, s)
  else if !ok then (.coapProcessingError, { s with port := port })
  else (.none, { s with port := port, coap := true, required := 0 })

/-- `est_server_init_csrattrs`, `est_server.c` lines 4042-4132, for a server's context. -/
def initCsrattrs (lib : Lib) (s0 : Srv) (text : Option (List Nat)) (alloc : Bool) :
    EstErr × Srv :=
  -- lines 4061-4066: the old ones are released first
  let s := { s0 with csrattrs := none }
  match text with
  | none => (.none, s)
  | some t =>
    if t.length < 4 then (.invalidParameters, s)
    else
      match lib.attrs t with
      | none => (.invalidParameters, { s with popPresent := false })
      | some present =>
        if s.pop then
          if present then
            if !alloc then (.malloc, { s with popPresent := true })
            else (.none, { s with popPresent := true, csrattrs := some t })
          else
            match lib.addPop t with
            | none => (.invalidParameters, { s with popPresent := false })
            | some t' =>
              if !alloc then (.malloc, { s with popPresent := false })
              else (.none, { s with popPresent := false, csrattrs := some t' })
        else if !alloc then (.malloc, { s with popPresent := false })
        else (.none, { s with popPresent := false, csrattrs := some t })

/-- `EST_SERVER_DEFAULT_ENHCD_CERT_PWD`, `est_server.c` line 37. -/
def defaultPwd : List Nat := [99, 105, 115, 99, 111]

/-- `est_server_enable_enhanced_cert_auth`, `est_server.c` lines 3679-3718, with the two helpers of lines
911-950. -/
def enableEca (s : Srv) (nid : Int) (pwd : Option (List Nat)) (check : Int) : EstErr × Srv :=
  if s.eca then (.alreadyEnabled, s)
  else
    let s1 := { s with ecaNid := nid }
    let p := pwd.getD defaultPwd
    if p.length > 255 then (.invalidParameters, s1)
    else
      let s2 := { s1 with ecaPwd := strcpyS s1.ecaPwd 256 p }
      if check = 1 ∨ check = 0 then (.none, { s2 with ecaCheck := check, eca := true })
      else (.invalidParameters, s2)

/-- `est_server_disable_enhanced_cert_auth`, `est_server.c` lines 3785-3800; `mfg_info_list_destroy`. -/
def disableEca (s : Srv) : EstErr × Srv :=
  if !s.eca then (.alreadyDisabled, s)
  else (.none, { s with mfgs := none, eca := false })

/-- The list made by `est_enhcd_cert_auth_mfg_info_list_create`, `est_enhcd_cert_auth.c` lines 32-43. -/
def emptyList : List Slot := List.replicate 4 { name := zeros, nid := 0, store := none }

/-- `est_enhcd_cert_get_next_mfg_info_ind`, `est_enhcd_cert_auth.c` lines 48-65: the first free slot; `none` is the
index -1. -/
def nextFree : List Slot → Option Nat
  | [] => none
  | s :: rest => if s.store = none then some 0 else (nextFree rest).map (· + 1)

/-- `est_load_enhcd_cert_auth_manufacturer`, `est_enhcd_cert_auth.c` lines 81-133, for an existing list.  With a full
list the result is that of the search, `EST_ERR_NONE` (lines 92-96). -/
def loadMfg (lib : Lib) (l : List Slot) (name : List Nat) (nid : Int) (certs : List Nat)
    (allocStore allocCtx : Bool) : EstErr × List Slot :=
  match nextFree l with
  | none => (.none, l)
  | some i =>
    let old := (l[i]?).getD { name := zeros, nid := 0, store := none }
    let named : Slot := { name := strncpyS old.name 255 name, nid := nid, store := none }
    if !allocStore then (.malloc, l.set i named)
    else
      match lib.loadStore certs with
      | none => (.noCertsFound, l.set i named)
      | some c =>
        if !allocCtx then (.malloc, l.set i named)
        else (.none, l.set i { named with store := some c })

/-- `est_server_enhanced_cert_auth_add_mfg_info`, `est_server.c` lines 3740-3763. -/
def addMfg (lib : Lib) (s : Srv) (name : Option (List Nat)) (nid : Int)
    (certs : Option (List Nat)) (allocList allocStore allocCtx : Bool) : EstErr × Srv :=
  match name, certs with
  | some n, some c =>
    if c.length = 0 then (.invalidParameters, s)
    else if !s.eca then (.invalidParameters, s)
    else
      match s.mfgs with
      | none =>
        if !allocList then (.malloc, s)
        else
          let r := loadMfg lib emptyList n nid c allocStore allocCtx
          (r.1, { s with mfgs := some r.2 })
      | some l =>
        let r := loadMfg lib l n nid c allocStore allocCtx
        (r.1, { s with mfgs := some r.2 })
  | _, _ => (.invalidParameters, s)

/-- One call.  `est_server.c` lines 3346-4346, `est_server_coap.c` lines 3025-3290. -/
def step (lib : Lib) (s : Srv) : SrvOp → EstErr × Srv
  | .setAuthMode m => setAuthMode lib s m
  | .setRequired v => (.none, { s with required := v })   -- lines 3595-3612
  | .setRetry v => setRetry s v
  | .setBrskiRetry v => setBrskiRetry s v
  | .setReadTimeout v => setReadTimeout s v
  | .setDtlsTimeout v => setDtlsTimeout lib s v
  | .setDtlsMtu v => setDtlsMtu lib s v
  | .setSessionMax v a => setSessionMax lib s v a
  | .coapStart p ok => coapStart lib s p ok
  | .enablePop => (.none, { s with pop := true })         -- lines 3878-3887
  | .disablePop => (.none, { s with pop := false })       -- lines 3900-3909
  | .initCsrattrs t a => initCsrattrs lib s t a
  | .enforceCsrattr => (.none, { s with enforce := true }) -- lines 4166-4174
  | .enableEca n p c => enableEca s n p c
  | .disableEca => disableEca s
  | .addMfg n i c a b d => addMfg lib s n i c a b d

/-- A sequence of calls from a state.  Calls of `est_server.c` lines 3346-4346 and
`est_server_coap.c` lines 3025-3290. -/
def runFrom (lib : Lib) : Srv → List SrvOp → Srv
  | s, [] => s
  | s, op :: ops => runFrom lib (step lib s op).2 ops

/-- A sequence of calls on a fresh context.  Calls of `est_server.c` lines 3346-4346 and
`est_server_coap.c` lines 3025-3290 after lines 3194-3328. -/
def run (lib : Lib) (ops : List SrvOp) : Srv := runFrom lib Srv.init ops

/-! ## The client -/

/-- The client's configuration.  `tlsCert`, `tlsKey` are what `SSL_CTX_use_certificate` and
`SSL_CTX_use_PrivateKey` put into the SSL context.  `est_locl.h` lines 389-578. -/
structure Cl where
  server : List Nat
  port : Int
  seg : Option (List Nat)
  userid : List Nat
  password : List Nat
  authMode : Nat
  cert : Option Nat
  key : Option Nat
  tlsCert : Option Nat
  tlsKey : Option Nat
  readTimeout : Int
  digest : Nat
  useProxy : Bool
  pServer : List Nat
  pPort : Nat
  pProto : Int
  pAuth : Nat
  pUser : List Nat
  pPassword : List Nat
deriving DecidableEq, Repr

/-- `est_client_init`, `est_client.c` lines 4453-4544: the context is zeroed, then the defaults are set;
672 is `NID_sha256`. -/
def Cl.init : Cl :=
  { server := zeros, port := 0, seg := none, userid := zeros, password := zeros, authMode := 0,
    cert := none, key := none, tlsCert := none, tlsKey := none, readTimeout := 10, digest := 672,
    useProxy := false, pServer := zeros, pPort := 0, pProto := 0, pAuth := 0, pUser := zeros,
    pPassword := zeros }

/-- Build options: `HAVE_URIPARSER`, `ENABLE_BRSKI`, `HAVE_LIBCURL`; whether uriparser accepts a
text; whether OpenSSL takes a certificate and a key and finds that they match.  Used
in `est_client.c` lines 75-100 and 4286-4773 and `est.c` lines 2103-2164. -/
structure CLib where
  uriparser : Bool
  brski : Bool
  libcurl : Bool
  uriOk : List Nat → Bool
  certOk : Nat → Bool
  keyOk : Nat → Bool
  fits : Nat → Nat → Bool

/-- `est_parse_path_seg`, `est.c` lines 2103-2164; `none` is undefined behaviour (a NULL
segment pointer).  The text handed to `est_parse_operation` is the rest of the URI.  For an
empty segment uriparser lets `text.first` and `text.afterLast` point to a constant "X"
(library behaviour), which is no operation and not the end of the text. -/
def parsePathSeg (lib : CLib) (seg : List Nat) : Option Bool :=
  let uri := [47, 46, 119, 101, 108, 108, 45, 107, 110, 111, 119, 110, 47, 101, 115, 116, 47] ++ seg
  if !lib.uriOk uri then some false
  else
    match uriSegments uri with
    | _ :: _ :: s :: more =>
      if s = [] then some false
      else if parseOperation lib.brski (textFrom 2 (uri.drop 1)) ≠ none then some false
      else if more ≠ [] ∨ (textFrom 2 (uri.drop 1)).drop s.length ≠ [] then some false
      else some true
    | [] => some false
    | _ => none

/-- `est_client_set_server`, `est_client.c` lines 4569-4650; `none` is undefined behaviour.  A path segment
of at most 128 characters is stored whole (`est_store_path_segment`, `est.c` lines
2170-2193; memory is not exhausted). -/
def setServer (lib : CLib) (c : Cl) (server : Option (List Nat)) (port : Int)
    (seg : Option (List Nat)) : Option (EstErr × Cl) :=
  match server with
  | none => some (.invalidServerName, c)
  | some n =>
    if port ≤ 0 ∨ port > 65535 then some (.invalidPortNum, c)
    else if 255 < min n.length 256 then some (.invalidServerName, c)
    else
      let c := { c with server := strcpyS c.server 255 n, port := port }
      match seg with
      | none => some (.none, c)
      | some p =>
        if lib.uriparser then
          if p = [] then some (.httpInvalidPathSegment, c)
          else if min p.length 129 > 128 then some (.httpInvalidPathSegment, c)
          else
            match parsePathSeg lib p with
            | none => none
            | some false => some (.httpInvalidPathSegment, c)
            | some true => some (.none, { c with seg := some p })
        else some (.httpPathSegmentNotSupported, c)

/-- `est_client_set_uid_pw`, `est_client.c` lines 3107-3146. -/
def setUidPw (c : Cl) (uid pwd : Option (List Nat)) : EstErr × Cl :=
  match uid, pwd with
  | some _, none => (.invalidParameters, c)
  | none, some _ => (.invalidParameters, c)
  | none, none => (.none, c)
  | some u, some p =>
    if 255 < min u.length 256 then (.invalidParameters, c)
    else
      let c := { c with userid := strcpyS c.userid 255 u }
      if 255 < min p.length 256 then (.invalidParameters, c)
      else (.none, { c with password := strcpyS c.password 255 p })

/-- `est_client_set_cert_and_key`, `est_client.c` lines 75-100: what it leaves in the SSL context and whether
it succeeds. -/
def setCertAndKey (lib : CLib) (c : Cl) (cert key : Nat) : Bool × Cl :=
  if !lib.certOk cert then (false, c)
  else
    let c := { c with tlsCert := some cert }
    if !lib.keyOk key then (false, c)
    else
      let c := { c with tlsKey := some key }
      (lib.fits cert key, c)

/-- `est_client_set_auth`, `est_client.c` lines 4286-4325. -/
def setAuth (lib : CLib) (c : Cl) (uid pwd : Option (List Nat)) (cert key : Option Nat) :
    EstErr × Cl :=
  let r := setUidPw c uid pwd
  if r.1 ≠ .none then r
  else
    let c := { r.2 with authMode := 0, key := key, cert := cert }
    match cert, key with
    | some x, some k =>
      let t := setCertAndKey lib c x k
      if t.1 then (.none, t.2) else (.clientInvalidKey, t.2)
    | _, _ => (.none, c)

/-- The end of `est_client_set_proxy`, `est_client.c` lines 4730-4763: user name and password of the proxy. -/
def setProxyUser (c : Cl) (auth : Nat) (user pwd : Option (List Nat)) : EstErr × Cl :=
  match user, pwd with
  | some u, some p =>
    if auth = 0 then (.none, { c with useProxy := true })
    else if 255 < min u.length 257 then (.invalidParameters, c)
    else if u = [] then (.invalidParameters, c)
    else if 255 < min p.length 257 then
      (.invalidParameters, { c with pUser := strcpyS c.pUser 256 u })
    else if p = [] then (.invalidParameters, { c with pUser := strcpyS c.pUser 256 u })
    else
      (.none, { c with
        pUser := strcpyS c.pUser 256 u
        pPassword := strcpyS c.pPassword 256 p
        useProxy := true })
  | _, _ => (.none, { c with useProxy := true })

/-- The middle of `est_client_set_proxy`, `est_client.c` lines 4713-4729: port, protocol and authentication.
The port is an `unsigned short`.  `EST_CLIENT_PROXY_AUTH_BASIC | …_NTLM` is 9; the other bits of
`auth` must be zero. -/
def setProxyKind (c : Cl) (proto : Int) (port auth : Nat) (user pwd : Option (List Nat)) :
    EstErr × Cl :=
  if port = 0 then (.invalidPortNum, c)
  else if proto < 0 ∨ proto > 7 then (.invalidClientProxyProtocol, { c with pPort := port })
  else if auth ≠ 0 ∧ auth ≠ 1 ∧ auth ≠ 8 ∧ auth ≠ 9 then
    (.invalidClientProxyAuth, { c with pPort := port, pProto := proto })
  else setProxyUser { c with pPort := port, pProto := proto, pAuth := auth } auth user pwd

/-- `est_client_set_proxy`, `est_client.c` lines 4687-4773. -/
def setProxy (lib : CLib) (c : Cl) (proto : Int) (server : Option (List Nat)) (port : Nat)
    (auth : Nat) (user pwd : Option (List Nat)) : EstErr × Cl :=
  if !lib.libcurl then (.clientProxyModeNotSupported, c)
  else
    match server with
    | none => (.invalidServerName, c)
    | some n =>
      if n = [] then (.invalidServerName, c)
      else if 255 < min n.length 257 then (.invalidServerName, c)
      else
        setProxyKind { c with pServer := strcpyS c.pServer 256 n } proto port auth user pwd

/-- `est_client_set_read_timeout`, `est_client.c` lines 4960-4974. -/
def clReadTimeout (c : Cl) (v : Int) : EstErr × Cl :=
  if v < 1 ∨ v > 3600 then (.invalidParameters, c) else (.none, { c with readTimeout := v })

/-- `est_client_set_sign_digest`, `est_client.c` lines 4801-4829: the NIDs of sha1, sha224, sha256, sha384 and
sha512. -/
def setDigest (c : Cl) (nid : Nat) : EstErr × Cl :=
  if nid = 64 ∨ nid = 675 ∨ nid = 672 ∨ nid = 673 ∨ nid = 674 then (.none, { c with digest := nid })
  else (.invalidDigest, c)

/-- `est_proxy_set_server`, `est_proxy.c` lines 2409-2431. -/
def proxySetServer (c : Cl) (server : Option (List Nat)) (port : Int) : EstErr × Cl :=
  match server with
  | none => (.invalidServerName, c)
  | some n =>
    if 254 < min n.length 255 then (.invalidServerName, c)
    else if port ≤ 0 ∨ port > 65535 then (.invalidPortNum, c)
    else (.none, { c with server := strcpyS c.server 255 n, port := port })

/-- The client's calls.  `est_client.c` lines 4286-4974, `est_proxy.c` lines 2409-2431. -/
inductive ClOp
  | setServer (server : Option (List Nat)) (port : Int) (seg : Option (List Nat))
  | setAuth (uid pwd : Option (List Nat)) (cert key : Option Nat)
  | setProxy (proto : Int) (server : Option (List Nat)) (port auth : Nat)
      (user pwd : Option (List Nat))
  | setReadTimeout (v : Int)
  | setDigest (nid : Nat)
  | basicHint
  | proxySetServer (server : Option (List Nat)) (port : Int)

/-- One call; `none` is undefined behaviour.  The hint is `est_client.c` lines 4410-4419. -/
def clStep (lib : CLib) (c : Cl) : ClOp → Option (EstErr × Cl)
  | .setServer n p s => setServer lib c n p s
  | .setAuth u p x k => some (setAuth lib c u p x k)
  | .setProxy pr n p a u w => some (setProxy lib c pr n p a u w)
  | .setReadTimeout v => some (clReadTimeout c v)
  | .setDigest n => some (setDigest c n)
  | .basicHint => some (.none, { c with authMode := 1 })
  | .proxySetServer n p => some (proxySetServer c n p)

/-- A sequence of calls on a fresh context.  Calls of `est_client.c` lines 4286-4974 and
`est_proxy.c` lines 2409-2431. -/
def clRunFrom (lib : CLib) : Cl → List ClOp → Option Cl
  | c, [] => some c
  | c, op :: ops =>
    match clStep lib c op with
    | none => none
    | some r => clRunFrom lib r.2 ops

/-- Calls of `est_client.c` lines 4286-4974 and `est_proxy.c` lines 2409-2431 after
lines 4453-4544. -/
def clRun (lib : CLib) (ops : List ClOp) : Option Cl := clRunFrom lib Cl.init ops

end Verif.Setter
