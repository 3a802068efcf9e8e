import Verif.ClientMemModel

/-!
# Ownership of memory in the server

Which memory blocks the server allocates, uses and releases while it handles
one HTTP request: `est_mg_handler`, `est_http_request` and everything below.

Heap, allocation and undefined behaviour are those of `ClientMemModel`.  The
results of decoding, parsing and verification, the configuration, the
application's callbacks and the network are arguments.  An object made by
OpenSSL is one block.  A buffer that an application callback hands over is a
new block; a buffer that stays the application's (`cacerts`) is not mentioned.

Not modelled: CoAP requests, the blocks of a connection (`est_server_http.c`
lines 1755-1800), OpenSSL's internal allocations.
-/
namespace Verif.ServerMem
open Verif.ClientMem (Mem Heap alloc allocIf newRef free use tlsUid)

/-- Results of `est_base64_decode`.  `refused`: the length is no multiple of
four, or nothing is left without blanks, or the decoded length is not the
expected one.  The outcomes of `est.c` lines 877-976. -/
inductive B64
  | tooLong | refused | good
deriving DecidableEq, Repr

/-- `est_base64_decode`, `est.c` lines 877-976: the two `BIO`s are released
only at the end. -/
def decode (b : B64) : Mem Bool := do
  if b = .tooLong then pure false
  else match ← alloc with
    | none => pure false
    | some b64 =>
      match ← alloc with
      | none => pure false
      | some mem =>
        if b = .refused then pure false
        else
          free (some b64)
          free (some mem)
          pure true

/-- Releases several blocks.  Auxiliary: the calls of free in `est_server.c` lines
438-468 and 1197-1240. -/
def freeAll : List Nat → Mem Unit
  | [] => pure ()
  | p :: ps => do
    free (some p)
    freeAll ps

/-- Releases several blocks, any of which may be `NULL`.  Auxiliary: the calls of free
in `est_server.c` lines 1630-2367. -/
def freeEach : List (Option Nat) → Mem Unit
  | [] => pure ()
  | p :: ps => do
    free p
    freeEach ps

/-! ## Authentication -/

/-- The strings in an `EST_HTTP_AUTH_HDR`, `est.h` lines 439-450. -/
inductive Field
  | user | pwd | uri | cnonce | qop | nc | nonce | response | token
deriving DecidableEq, Repr

/-- An `EST_HTTP_AUTH_HDR`: its block and the strings it points to.  `est.h` lines
439-450. -/
structure Ah where
  self : Nat
  held : List (Field × Nat)
deriving DecidableEq, Repr

/-- Assigns a pointer to a member; the old one is overwritten.  The assignments of
`est_server_http.c` lines 792-992. -/
def Ah.put (a : Ah) (f : Field) : Option Nat → Ah
  | some p => { a with held := (f, p) :: a.held.filter (fun x => x.1 ≠ f) }
  | none => { a with held := a.held.filter (fun x => x.1 ≠ f) }

/-- Whether a member is not `NULL`.  The tests of `est_server_http.c` lines 1040-1066. -/
def Ah.has (a : Ah) (f : Field) : Bool := a.held.any (fun x => x.1 = f)

/-- `ah->x = STRNDUP(…)`.  `est_server_http.c` lines 792-992. -/
def setField (a : Ah) (f : Field) : Mem Ah := do
  let p ← alloc
  pure (a.put f p)

/-- Several assignments.  `est_server_http.c` lines 792-992. -/
def setFields : Ah → List Field → Mem Ah
  | a, [] => pure a
  | a, f :: fs => do
    let a ← setField a f
    setFields a fs

/-- `est_create_ah`, `est_server.c` lines 425-432: the result of `malloc` is
not checked (`memzero_s` does nothing for `NULL`). -/
def createAh : Mem (Option Ah) := do
  let p ← alloc
  pure (p.map fun p => ⟨p, []⟩)

/-- `est_destroy_ah`, `est_server.c` lines 438-468. -/
def destroyAh : Option Ah → Mem Unit
  | none => pure ()
  | some a => do
    freeAll (a.held.map (fun x => x.2))
    free (some a.self)

/-- What a decoded Basic credential contains.  The cases of `est_server_http.c` lines
813-858. -/
inductive Basic
  | noColon | nothing | password | both
deriving DecidableEq, Repr

/-- The Authorization header of a request.  `otherMode`: a known scheme that
the server is not configured for.  `digest`: the parameters in their order.  The cases
of `est_server_http.c` lines 1004-1067. -/
inductive Hdr
  | missing
  | otherMode
  | unknown
  | basic (dec : B64) (text : Basic)
  | digest (fields : List Field)
  | token (dec : B64)
deriving DecidableEq, Repr

/-- `EST_HTTP_AUTH_HDR_RESULT`.  `est_locl.h` lines 272-279. -/
inductive Pr
  | good | missing | bad | checkFail | parseFail | err
deriving DecidableEq, Repr

/-- `mg_parse_auth_hdr_basic`, `est_server_http.c` lines 792-858, and the checks
after it. -/
def parseBasic (a : Ah) (dec : B64) (text : Basic) : Mem (Pr × Ah) := do
  let good ← decode dec
  if !good then pure (.bad, a)
  else match text with
    | .noColon => pure (.bad, a)
    | .nothing => pure (.bad, a)
    | .password =>
      let a ← setField a .pwd
      pure (.bad, a)
    | .both =>
      let a ← setField a .user
      let a ← setField a .pwd
      pure (if a.has .user then .good else .bad, a)

/-- `mg_parse_auth_hdr_digest`, `est_server_http.c` lines 864-942, and the
checks after it: a parameter that occurs again overwrites the pointer. -/
def parseDigest (a : Ah) (fields : List Field) : Mem (Pr × Ah) := do
  let a ← setFields a fields
  pure (if a.has .uri && a.has .nonce && a.has .nc && a.has .cnonce && a.has .user then .good
    else .bad, a)

/-- `mg_parse_auth_hdr_token`, `est_server_http.c` lines 949-992, and the checks
after it. -/
def parseToken (a : Ah) (dec : B64) : Mem (Pr × Ah) := do
  let good ← decode dec
  if !good then pure (.bad, a)
  else
    let a ← setField a .token
    pure (.good, a)

/-- The scheme of the header, `est_server_http.c` lines 1020-1060. -/
def parseScheme (a : Ah) : Hdr → Mem (Pr × Ah)
  | .missing => pure (.missing, a)
  | .otherMode => pure (.bad, a)
  | .unknown => pure (.bad, a)
  | .basic dec text => parseBasic a dec text
  | .digest fields => parseDigest a fields
  | .token dec => parseToken a dec

/-- Whether the header makes the server read or write `ah->mode`.  `est_server_http.c`
lines 1004-1067. -/
def Hdr.usesAh : Hdr → Bool
  | .missing => false
  | .otherMode => false
  | _ => true

/-- `mg_parse_auth_header`, `est_server_http.c` lines 1004-1067.  Every scheme
but a missing or an unexpected one reads or writes `ah->mode`. -/
def parseHeader (h : Hdr) (ah : Option Ah) : Mem (Pr × Option Ah) := do
  if h.usesAh then
    use (ah.map (fun a => a.self))
    match ah with
    | none => pure (.bad, none)
    | some a =>
      let r ← parseScheme a h
      pure (r.1, some r.2)
  else pure (if h = .missing then .missing else .bad, ah)

/-- `est_server_parse_csr`, `est_server.c` lines 1000-1039, with base64. -/
def parseCsr (parses : Bool) : Mem (Option Nat) := do
  match ← alloc with
  | none => pure none
  | some mem =>
    match ← alloc with
    | none =>
      free (some mem)
      pure none
    | some b64 =>
      let req ← allocIf parses
      free (some b64)
      free (some mem)
      pure req

/-- The CSR check of enhanced certificate authentication: whether the CSR
parses and the result of `perform_enhanced_cert_auth_csr_check`.  The cases of
`est_server.c` lines 497-527. -/
structure EcaCsr where
  parses : Bool
  result : Pr
deriving DecidableEq, Repr

/-- Enhanced certificate authentication: whether there is a chain, how many
manufacturers are tried, whether that ends without an error, the CSR check
(none: off), whether the subject has the field.  The cases of `est_server.c` lines
477-536 and `est_enhcd_cert_auth.c` lines 140-193. -/
structure Eca where
  chain : Bool
  tries : Nat
  mfgOk : Bool
  csr : Option EcaCsr
  fieldOk : Bool
deriving DecidableEq, Repr

/-- `est_enhcd_cert_auth_get_mfg`, `est_enhcd_cert_auth.c` lines 140-193: the
name of the peer for each manufacturer. -/
def names : Nat → Mem Unit
  | 0 => pure ()
  | n + 1 => do
    let p ← alloc
    free p
    names n

/-- `build_enhanced_cert_auth_header`, `est_enhcd_cert_auth.c` lines 426-452. -/
def buildEca (fieldOk : Bool) (ah : Option Ah) : Mem (Pr × Option Ah) := do
  match ah with
  | none => pure (.err, none)
  | some a =>
    use (some a.self)
    if !fieldOk then pure (.err, some a)
    else
      let a ← setField a .user
      if !a.has .user then pure (.err, some a)
      else
        let a ← setField a .pwd
        pure (if a.has .pwd then .good else .err, some a)

/-- The CSR check and the header, `est_server.c` lines 497-527. -/
def ecaCheck (e : Eca) (ah : Option Ah) : Mem (Pr × Option Ah × Option Nat) := do
  match e.csr with
  | none =>
    let (r, ah) ← buildEca e.fieldOk ah
    pure (r, ah, none)
  | some c =>
    match ← parseCsr c.parses with
    | none => pure (.parseFail, ah, none)
    | some req =>
      if c.result ≠ .good then pure (c.result, ah, some req)
      else
        let (r, ah) ← buildEca e.fieldOk ah
        pure (r, ah, some req)

/-- `handle_enhanced_cert_auth`, `est_server.c` lines 477-536: the parsed CSR is
kept for the caller, whatever the result. -/
def handleEca (e : Eca) (ah : Option Ah) : Mem (Pr × Option Ah × Option Nat) := do
  if !e.chain then pure (.err, ah, none)
  else
    names e.tries
    if !e.mfgOk then pure (.bad, ah, none)
    else ecaCheck e ah

/-- The certificate of the client: none, one that is not verified, one that is.  The
cases of `est_server.c` lines 543-577. -/
inductive Peer
  | none | bad | good
deriving DecidableEq, Repr

/-- `SSL_get_peer_certificate`: a new reference.  Called in `est_server.c` lines 543-577
and 2744. -/
def peerRef : Peer → Mem (Option Nat)
  | .none => pure none
  | _ => do
    let p ← newRef
    pure (some p)

/-- What `est_enroll_auth` does after looking at the certificate.  `cbOk` is
the answer of the application's authentication callback.  The cases of `est_server.c`
lines 588-757. -/
inductive Try
  | skip
  | header (h : Hdr) (cbOk : Bool)
  | eca (e : Eca) (cbOk : Bool)
deriving DecidableEq, Repr

/-- `EST_AUTH_STATE`.  `est.h` lines 357-364. -/
inductive State
  | unauthorized | http | srp | cert | pending | parseFail
deriving DecidableEq, Repr

/-- The `switch` over the result of the header, `est_server.c` lines 644-692. -/
def stateOf (rv : State) (re cbOk : Bool) : Pr → State
  | .good => if cbOk then .http else .unauthorized
  | .missing => .pending
  | .checkFail => .unauthorized
  | .parseFail => .parseFail
  | .err => .unauthorized
  | .bad => if re && rv = .cert then rv else .unauthorized

/-- The header or the enhanced certificate authentication.  `est_server.c` lines 620-643
and 477-536. -/
def tryHttp (t : Try) (ah : Option Ah) : Mem (Pr × Option Ah × Option Nat) := do
  match t with
  | .skip => pure (.err, ah, none)
  | .header h _ =>
    let (r, ah) ← parseHeader h ah
    pure (r, ah, none)
  | .eca e _ => handleEca e ah

/-- The answer of the callback.  `est_server.c` lines 644-692. -/
def Try.cbOk : Try → Bool
  | .skip => false
  | .header _ b => b
  | .eca _ b => b

/-- `est_enroll_auth`, `est_server.c` lines 588-757, and, with the CSR check
off, `est_brski_auth`, lines 766-907, for HTTP.  (Which of the ways of `Try` is
taken depends on the configuration and the peer; here any may be.) -/
def enrollAuth (peer : Peer) (srp re : Bool) (t : Try) : Mem (State × Option Nat) := do
  let p ← peerRef peer
  if peer = .bad then
    free p
    pure (.unauthorized, none)
  else
    let rv := if peer = .good then State.cert else if srp then .srp else .unauthorized
    if t = .skip then
      free p
      pure (rv, none)
    else
      let ah ← createAh
      let (r, ah, csr) ← tryHttp t ah
      destroyAh ah
      free p
      pure (stateOf rv re t.cbOk r, csr)

/-- The states that let a request through.  `est_server.c` lines 1690-1716. -/
def State.passes : State → Bool
  | .http => true
  | .srp => true
  | .cert => true
  | _ => false

/-! ## Checks of the CSR -/

/-- `est_server_check_csr`, `est_server.c` lines 1157-1189. -/
def checkCsr (pubkey sigOk : Bool) : Mem Bool := do
  match ← allocIf pubkey with
  | none => pure false
  | some k =>
    free (some k)
    pure sigOk

/-- `est_check_cmcRA`, `est_server.c` lines 962-993. -/
def cmcRA (ext ra : Bool) : Mem Bool := do
  match ← allocIf ext with
  | none => pure false
  | some e =>
    free (some e)
    pure ra

/-- The challengePassword of the CSR: absent (and whether that is allowed), or
there, with whether the finished message is short enough and equal.  The cases of
`est_server.c` lines 1062-1152. -/
inductive Pop
  | absent (allowed : Bool)
  | value (short same : Bool)
deriving DecidableEq, Repr

/-- `est_tls_uid_auth`, `est_server.c` lines 1062-1152. -/
def popCheck : Pop → Mem Bool
  | .absent allowed => pure allowed
  | .value short same => do
    match ← tlsUid short with
    | none => pure false
    | some u =>
      use (some u)
      free (some u)
      pure same

/-- `est_server_csr_asn1_parse`, `est_server.c` lines 1248-1337: one entry for
each object identifier.  When an entry cannot be allocated the list is
released, but its head stays where it was. -/
def oids : Nat → List Nat → Mem (Bool × List Nat)
  | 0, l => pure (true, l)
  | n + 1, l => do
    match ← alloc with
    | none => pure (false, l)
    | some o =>
      match ← alloc with
      | none =>
        freeAll l
        free (some o)
        pure (false, l)
      | some e =>
        free (some o)
        oids n (l ++ [e])

/-- The text of the configured attributes: from the callback (or not), or a
copy of the configured text.  The cases of `est_server.c` lines 1428-1452. -/
inductive Src
  | callback (given : Bool)
  | static
deriving DecidableEq, Repr

/-- Enforcement of CSR attributes: decoding of the CSR, its number of object
identifiers and whether it is well formed; the configured text, whether it is
long enough, its decoding, whether the result has an allowed length, its number
of object identifiers, whether all are found.  The cases of `est_server.c` lines
1248-1624. -/
structure Enforce where
  body : B64
  entries : Nat
  walkOk : Bool
  src : Src
  long : Bool
  text : B64
  lenOk : Bool
  objects : Nat
  found : Bool
deriving DecidableEq, Repr

/-- `est_server_build_csr_oid_list`, `est_server.c` lines 1344-1379. -/
def buildOids (x : Enforce) : Mem (Bool × List Nat) := do
  match ← alloc with
  | none => pure (false, [])
  | some der =>
    let good ← decode x.body
    if !good then
      free (some der)
      pure (false, [])
    else
      let (good, l) ← oids x.entries []
      if !(good && x.walkOk) then
        freeAll l
        free (some der)
        pure (false, [])
      else
        free (some der)
        pure (true, l)

/-- `est_server.c` lines 1428-1452. -/
def attrText : Src → Mem (Option Nat)
  | .callback given => if given then do
      let p ← newRef
      pure (some p)
    else pure none
  | .static => alloc

/-- `est_server_all_csrattrs_present`, `est_server.c` lines 1386-1624. -/
def enforce (x : Enforce) : Mem Bool := do
  let (good, l) ← buildOids x
  if !good then pure false
  else
    match ← attrText x.src with
    | none =>
      freeAll l
      pure false
    | some text =>
      use (some text)
      if !x.long then
        freeAll l
        free (some text)
        pure false
      else
        match ← alloc with
        | none =>
          freeAll l
          free (some text)
          pure false
        | some der =>
          let good ← decode x.text
          free (some text)
          if !(good && x.lenOk) then
            freeAll l
            free (some der)
            pure false
          else
            names x.objects
            freeAll l
            free (some der)
            pure x.found

/-- What the checks of a CSR find.  The cases of `est_server.c` lines 1717-1753 and
2010-2075. -/
structure CsrIn where
  parses : Bool
  pubkey : Bool
  sigOk : Bool
  ext : Bool
  ra : Bool
  pop : Pop
  attrs : Option Enforce
deriving DecidableEq, Repr

/-- The proof of possession, unless the peer is a registration authority.
`est_server.c` lines 1726-1740. -/
def popUnlessRa (hasPeer : Bool) (c : CsrIn) : Mem Bool := do
  if hasPeer then
    let ra ← cmcRA c.ext c.ra
    if ra then pure true else popCheck c.pop
  else popCheck c.pop

/-- Enforcement, if switched on.  `est_server.c` lines 1741-1753. -/
def enforceIf : Option Enforce → Mem Bool
  | none => pure true
  | some x => enforce x

/-- Proof of possession and attributes, `est_server.c` lines 1726-1753 and
2044-2070. -/
def checks (hasPeer : Bool) (c : CsrIn) : Mem Bool := do
  let good ← popUnlessRa hasPeer c
  if !good then pure false else enforceIf c.attrs

/-- The CSR kept by the authentication, or a new one.  `est_server.c` lines 1717-1725. -/
def theCsr (kept : Option Nat) (parses : Bool) : Mem (Option Nat) :=
  match kept with
  | some r => pure (some r)
  | none => parseCsr parses

/-! ## Enrolment -/

/-- What the CA callback does: a certificate, or one of the other results with
or without having stored a buffer (`empty`: success with length 0).  The outcomes of
the callback called in `est_server.c` lines 1758-1790. -/
inductive Ca
  | issued
  | retry (buf : Bool)
  | fail (buf : Bool)
  | empty (buf : Bool)
deriving DecidableEq, Repr

/-- The buffer that the callback stored.  `est_server.c` lines 1758-1790. -/
def caBuf : Ca → Mem (Option Nat)
  | .issued => do
    let p ← newRef
    pure (some p)
  | .retry b => if b then do
      let p ← newRef
      pure (some p)
    else pure none
  | .fail b => if b then do
      let p ← newRef
      pure (some p)
    else pure none
  | .empty b => if b then do
      let p ← newRef
      pure (some p)
    else pure none

/-- An enrolment request.  `ready`: the callback exists and the content type is
right; `sent`: the header of the response could be written.  The cases of
`est_server.c` lines 1630-1849. -/
structure EnrollIn where
  ready : Bool
  re : Bool
  srp : Bool
  auth : Try
  csr : CsrIn
  ca : Ca
  sent : Bool
deriving DecidableEq, Repr

/-- The CA callback and the response, `est_server.c` lines 1758-1848. -/
def askCa (x : EnrollIn) (r : Nat) : Mem (Option Nat) := do
  use (some r)
  let cert ← caBuf x.ca
  if x.ca = .issued then
    if x.sent then
      use cert
      free (some r)
      pure cert
    else
      free (some r)
      pure cert
  else
    free (some r)
    pure none

/-- The checks and the CA callback for a CSR, `est_server.c` lines 1717-1848. -/
def enrollCsr (hasPeer : Bool) (x : EnrollIn) (r : Nat) : Mem (Option Nat) := do
  use (some r)
  let good ← checkCsr x.csr.pubkey x.csr.sigOk
  if !good then
    free (some r)
    pure none
  else
    let good ← checks hasPeer x.csr
    if !good then
      free (some r)
      pure none
    else askCa x r

/-- `est_handle_simple_enroll`, `est_server.c` lines 1630-1849; the result is
`*returned_cert`.  When the client is refused, the CSR that the authentication
kept is not released. -/
def simpleEnroll (peer : Peer) (x : EnrollIn) : Mem (Option Nat) := do
  if !x.ready then pure none
  else
    let (s, kept) ← enrollAuth peer x.srp x.re x.auth
    if !s.passes then pure none
    else
      match ← theCsr kept x.csr.parses with
      | none => pure none
      | some r => enrollCsr (peer ≠ .none) x r

/-- A key generation request: like an enrolment, with the key callback
(`given`: it stored a key; `keyRc`: it reported success) and the changes to the
CSR.  The cases of `est_server.c` lines 1855-2235. -/
structure KeygenIn where
  ready : Bool
  srp : Bool
  auth : Try
  csr : CsrIn
  given : Bool
  keyRc : Bool
  derOk : Bool
  signOk : Bool
  ca : Ca
  sent : Bool
deriving DecidableEq, Repr

/-- The key callback.  `est_server.c` lines 1953-1968. -/
def keyRef (given : Bool) : Mem (Option Nat) := if given then do
    let p ← newRef
    pure (some p)
  else pure none

/-- `malloc(der_len * 2)`: for an error of `i2d_PrivateKey` the length is
negative and the allocation fails.  `est_server.c` lines 1970-1985. -/
def keyText (der : Option Nat) : Mem (Option Nat) :=
  match der with
  | none => pure none
  | some _ => alloc

/-- The CA callback and the response, `est_server.c` lines 2077-2215. -/
def keygenCa (x : KeygenIn) (r mem b64 text der : Nat) : Mem (Option (Nat × Nat)) := do
  let cert ← caBuf x.ca
  match cert with
  | none =>
    freeEach [some r, some mem, some b64, some text, some der]
    pure none
  | some cert =>
    if x.ca = .issued && x.sent then
      use (some cert)
      use (some text)
      freeEach [some r, some mem, some b64, some der]
      pure (some (cert, text))
    else
      freeEach [some cert, some r, some mem, some b64, some text, some der]
      pure none

/-- The new CSR and its checks, `est_server.c` lines 2010-2075. -/
def keygenBody (hasPeer : Bool) (x : KeygenIn) (r text der : Nat) : Mem (Option (Nat × Nat)) := do
  match ← alloc with
  | none =>
    freeEach [some r, some text, some der]
    pure none
  | some b64 =>
    match ← alloc with
    | none =>
      freeEach [some b64, some r, some text, some der]
      pure none
    | some mem =>
      let good ← checks hasPeer x.csr
      if !good then
        freeEach [some r, some mem, some b64, some text, some der]
        pure none
      else keygenCa x r mem b64 text der

/-- From the key to the checked CSR, `est_server.c` lines 1970-2011. -/
def keygenKey (hasPeer : Bool) (x : KeygenIn) (r key : Nat) : Mem (Option (Nat × Nat)) := do
  use (some key)
  let der ← allocIf x.derOk
  let text ← keyText der
  match der, text with
  | some der, some text =>
    if !x.signOk then
      freeEach [some r, some key, some text, some der]
      pure none
    else
      let good ← checkCsr x.csr.pubkey x.csr.sigOk
      if !good then
        freeEach [some r, some key, some text, some der]
        pure none
      else
        free (some key)
        keygenBody hasPeer x r text der
  | der, text =>
    freeEach [some r, some key, text, der]
    pure none

/-- The key for a CSR, `est_server.c` lines 1953-1968. -/
def keygenCsr (hasPeer : Bool) (x : KeygenIn) (r : Nat) : Mem (Option (Nat × Nat)) := do
  let key ← keyRef x.given
  match key with
  | none =>
    free (some r)
    pure none
  | some key =>
    if !x.keyRc then
      freeEach [some r, some key]
      pure none
    else keygenKey hasPeer x r key

/-- `est_handle_server_keygen`, `est_server.c` lines 1855-2235; the result is
`*returned_cert` and `*returned_key`. -/
def serverKeygen (peer : Peer) (x : KeygenIn) : Mem (Option (Nat × Nat)) := do
  if !x.ready then pure none
  else
    let (s, kept) ← enrollAuth peer x.srp true x.auth
    if !s.passes then
      free kept
      pure none
    else
      match ← theCsr kept x.csr.parses with
      | none => pure none
      | some r => keygenCsr (peer ≠ .none) x r

/-! ## The other operations -/

/-- `est_send_csrattr_data`, `est_server_http.c` lines 1855-1900: the buffer is
released in every case. -/
def sendAttrs (data : Option Nat) : Mem Unit := free data

/-- `est_asn1_parse_attributes`, `est.c` lines 1400-1437. -/
def parseAttrs (dec : B64) (sane : Bool) : Mem Bool := do
  match ← alloc with
  | none => pure false
  | some der =>
    let good ← decode dec
    if !good then
      free (some der)
      pure false
    else
      free (some der)
      pure sane

/-- `est_add_challengePassword`, `est.c` lines 1448-1555. -/
def addChallenge (dec : B64) (isSeq encOk : Bool) : Mem (Option Nat) := do
  match ← alloc with
  | none => pure none
  | some der =>
    let good ← decode dec
    if !(good && isSeq) then
      free (some der)
      pure none
    else
      match ← alloc with
      | none =>
        free (some der)
        pure none
      | some new =>
        match ← alloc with
        | none =>
          free (some der)
          free (some new)
          pure none
        | some text =>
          free (some der)
          free (some new)
          if encOk then pure (some text)
          else
            free (some text)
            pure none

/-- A csrattrs request.  `fromCb…`: the result of the callback: `NULL`, a buffer
with length 0, one that is shorter than four characters, a text.  The cases of
`est_server.c` lines 2241-2367. -/
inductive Attrs
  | nothing
  | popOnly
  | static
  | cbNull (pop : Bool)
  | cbEmpty (pop : Bool)
  | cbShort
  | cbText (dec : B64) (sane pop present isSeq encOk : Bool)
deriving DecidableEq, Repr

/-- A fresh text (configured attributes or the proof of possession only).
`est_server.c` lines 2241-2367. -/
def sendFresh : Mem Unit := do
  match ← alloc with
  | none => pure ()
  | some p => sendAttrs (some p)

/-- A text from the callback, `est_server.c` lines 2285-2343. -/
def sendText (p : Nat) (dec : B64) (sane pop present isSeq encOk : Bool) : Mem Unit := do
  let good ← parseAttrs dec sane
  if !good then free (some p)
  else if !pop then sendAttrs (some p)
  else
    let good ← parseAttrs dec sane
    if !good then free (some p)
    else if present then sendAttrs (some p)
    else
      match ← addChallenge dec isSeq encOk with
      | none => free (some p)
      | some q =>
        free (some p)
        sendAttrs (some q)

/-- `est_handle_csr_attrs`, `est_server.c` lines 2241-2367, for HTTP. -/
def csrattrs : Attrs → Mem Unit
  | .nothing => pure ()
  | .popOnly => sendFresh
  | .static => sendFresh
  | .cbNull pop => if pop then sendFresh else sendAttrs none
  | .cbEmpty pop => do
    let p ← newRef
    if pop then sendFresh else sendAttrs (some p)
  | .cbShort => do
    let p ← newRef
    free (some p)
  | .cbText dec sane pop present isSeq encOk => do
    let p ← newRef
    sendText p dec sane pop present isSeq encOk

/-- What the voucher callback does: a voucher, a retry (with or without a
buffer, and whether the response could be written), an error.  The outcomes of the
callback called in `est_server.c` lines 2431-2501. -/
inductive Voucher
  | issued
  | retry (buf sent : Bool)
  | fail (buf : Bool)
deriving DecidableEq, Repr

/-- The answer to a voucher request, `est_server.c` lines 2431-2501. -/
def answerVoucher : Voucher → Mem Unit
  | .issued => do
    let v ← newRef
    use (some v)
    free (some v)
  | .retry buf sent => do
    let v ← keyRef buf
    if sent then free v else pure ()
  | .fail buf => do
    let v ← keyRef buf
    free v

/-- Authentication without CSR.  `est_server.c` lines 766-907. -/
def Try.noCsr : Try → Try
  | .eca e b => .eca { e with csr := none } b
  | t => t

/-- The three BRSKI handlers, `est_server.c` lines 2374-2681: `v` is none for
the status messages. -/
def brski (peer : Peer) (ready srp : Bool) (t : Try) (v : Option Voucher) : Mem Unit := do
  if !ready then pure ()
  else
    let (s, kept) ← enrollAuth peer srp false t.noCsr
    free kept
    if !s.passes then pure ()
    else
      let p ← peerRef peer
      free p
      match v with
      | none => pure ()
      | some v => answerVoucher v

/-! ## The request -/

/-- Parsing of the URI: without uriparser (`plain`), or with it: refused before
the segment is copied, an operation (followed by nothing or not), a path
segment (followed by an operation or not).  The cases of `est.c` lines 1897-2100. -/
inductive Uri
  | plain (good : Bool)
  | refused
  | operation (last : Bool)
  | segment (operation : Bool)
deriving DecidableEq, Repr

/-- `est_parse_uri`, `est.c` lines 1897-2100.  The path segments made by
uriparser are one block. -/
def parseUri : Uri → Mem (Bool × Option Nat)
  | .plain good => pure (good, none)
  | .refused => do
    let u ← newRef
    free (some u)
    pure (false, none)
  | .operation last => do
    let u ← newRef
    let s ← alloc
    use s
    free s
    free (some u)
    pure (last, none)
  | .segment operation => do
    let u ← newRef
    let s ← alloc
    use s
    match ← alloc with
    | none =>
      free s
      free (some u)
      pure (false, none)
    | some p =>
      free s
      if operation then
        free (some u)
        pure (true, some p)
      else
        free (some p)
        free (some u)
        pure (false, none)

/-- `est_invoke_enroll_req_event_cb` and `est_invoke_enroll_rsp_event_cb`,
`est_server.c` lines 4816-4965: `none` without callback, else whether the CSR
parses. -/
def event : Option Bool → Mem Unit
  | none => pure ()
  | some parses => do
    let r ← parseCsr parses
    free r

/-- What a request asks for.  The cases of `est_server.c` lines 2700-3081. -/
inductive Work
  | refused
  | cacerts
  | csrattrs (a : Attrs)
  | enroll (x : EnrollIn) (before after : Option Bool)
  | keygen (x : KeygenIn) (before after : Option Bool)
  | brski (ready srp : Bool) (t : Try) (v : Option Voucher)
deriving DecidableEq, Repr

/-- The certificate and the key of a key generation are released by the
dispatcher, `est_server.c` lines 2878-2882. -/
def releasePair : Option (Nat × Nat) → Mem Unit
  | none => pure ()
  | some (c, k) => do
    free (some c)
    use (some k)
    free (some k)

/-- The middle part of `est_http_request`, `est_server.c` lines 2771-3060. -/
def perform (peer : Peer) : Work → Mem Unit
  | .refused => pure ()
  | .cacerts => pure ()
  | .csrattrs a => csrattrs a
  | .enroll x before after => do
    event before
    let cert ← simpleEnroll peer x
    event after
    free cert
  | .keygen x before after => do
    event before
    let r ← serverKeygen peer x
    event after
    releasePair r
  | .brski ready srp t v => brski peer ready srp t v

/-- A request: whether it has a Content-Length and whether there is a TLS
connection.  `est_server_http.c` lines 1211-1256. -/
structure Rq where
  body : Bool
  tls : Bool
  peer : Peer
  uri : Uri
  work : Work
deriving DecidableEq, Repr

/-- `est_http_request`, `est_server.c` lines 2700-3081. -/
def httpRequest (q : Rq) : Mem Unit := do
  if !q.tls then pure ()
  else
    let p ← peerRef q.peer
    let (good, seg) ← parseUri q.uri
    if !good then free p
    else
      perform q.peer q.work
      free p
      free seg

/-- `est_mg_handler`, `est_server_http.c` lines 1211-1256: the result of
`malloc` for the body is not checked. -/
def handler (q : Rq) : Mem Unit := do
  if q.body then
    let b ← alloc
    use b
    httpRequest q
    free b
  else httpRequest q

/-- Requests one after another.  Calls of `est_server_http.c` lines 1211-1256. -/
def serve : List Rq → Mem Unit
  | [] => pure ()
  | q :: qs => do
    handler q
    serve qs

end Verif.ServerMem
