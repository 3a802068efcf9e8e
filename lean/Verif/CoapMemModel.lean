import Verif.ServerMemModel

/-!
# Ownership of memory in the CoAP handlers

Which memory blocks the handlers of a CoAP server allocate, use and release:
`est_coap_sen_handler`, `est_coap_skg_handler`, `est_coap_crts_handler` and
`est_coap_att_handler` with what they call in `est_server.c`.

Heap, allocation and undefined behaviour are those of `ClientMemModel`; enrolment
and key generation are those of `ServerMemModel` (without sending).  The record of
the session is part of an array that lives as long as the context and is not
mentioned; its buffers are the subject of `CoapModel`.  The copies made with
`memcpy_s` are taken to succeed.

Not modelled: proxies, the endpoint events, libcoap, OpenSSL's internal allocations.
-/
namespace Verif.CoapMem
open Verif.ClientMem (Mem Heap alloc newRef free use copy)
open Verif.ServerMem (B64 decode event Peer peerRef EnrollIn KeygenIn simpleEnroll serverKeygen Attrs
  parseAttrs addChallenge)

/-- How far a request gets.  `early`: no context, no TLS state, or (for a POST) a
wrong Content-Format or no client certificate; `refused`: an error behind that;
`more`: another block is wanted; `stored`: the answer was made before; `ready`: the
request is complete.  The ways out of `est_server_coap.c` lines 516-2541. -/
inductive Stage (α : Type)
  | early
  | refused
  | more
  | stored
  | ready (x : α)
deriving DecidableEq, Repr

/-- `est_base64_encode`, `est.c` lines 986-1058; `good`: `BIO_write` succeeds. -/
def encode (good : Bool) : Mem Bool := do
  match ← alloc with
  | none => pure false
  | some b64 =>
    match ← alloc with
    | none =>
      free (some b64)
      pure false
    | some out =>
      free (some b64)
      free (some out)
      pure good

/-- Every handler holds the client's certificate from its first lines to its end.
`est_server_coap.c` lines 590-608 and 1136-1147, 1288-1306 and 1959-1966, 2016-2026 and
2240-2253, 2299-2309 and 2531-2540. -/
def withPeer (peer : Peer) {α : Type} (body : Mem α) : Mem α := do
  let p ← peerRef peer
  let r ← body
  free p
  pure r

/-! ## Enrolment -/

/-- A complete enrolment request: `enc`: the request can be written as base64;
`before`, `after`: the two events; `dec`: decoding of the certificate.  The cases of
`est_server_coap.c` lines 824-1082. -/
structure SenIn where
  enc : Bool
  before : Option Bool
  x : EnrollIn
  after : Option Bool
  dec : B64
deriving DecidableEq, Repr

/-- The certificate is decoded and stored, `est_server_coap.c` lines 997-1082.  The
block for the log entry is not checked. -/
def senCert (dec : B64) (cert : Nat) : Mem Unit := do
  match ← alloc with
  | none => pure ()
  | some b64 =>
    copy (some b64) (some cert)
    free (some cert)
    match ← alloc with
    | none => free (some b64)
    | some der =>
      let good ← decode dec
      free (some b64)
      if !good then free (some der)
      else
        let text ← alloc
        use text
        free text
        free (some der)

/-- What follows the enrolment.  `est_server_coap.c` lines 949-1082. -/
def senAnswer (dec : B64) : Option Nat → Mem Unit
  | none => pure ()
  | some cert => senCert dec cert

/-- The encoded request is given to the enrolment, `est_server_coap.c` lines 851-1082. -/
def senEnroll (peer : Peer) (q : SenIn) (csr text : Nat) : Mem Unit := do
  let good ← encode q.enc
  if !good then
    free (some text)
    free (some csr)
  else
    event q.before
    use (some text)
    let cert ← simpleEnroll peer { q.x with sent := true }
    use (some csr)
    event q.after
    free (some text)
    free (some csr)
    senAnswer q.dec cert

/-- A complete request, `est_server_coap.c` lines 824-1082 and 1136-1147. -/
def senReady (peer : Peer) (q : SenIn) : Mem Unit := do
  match ← alloc with
  | none => pure ()
  | some csr =>
    match ← alloc with
    | none => free (some csr)
    | some text => senEnroll peer q csr text

/-- `est_coap_sen_handler`, `est_server_coap.c` lines 516-1148. -/
def sen (peer : Peer) : Stage SenIn → Mem Unit
  | .early => pure ()
  | .ready q => withPeer peer (senReady peer q)
  | _ => withPeer peer (pure ())

/-! ## Key generation -/

/-- A complete key generation request: as for an enrolment, with the decoding of the
key and of the certificate, and whether both fit into the response.  The cases of
`est_server_coap.c` lines 1515-1886. -/
structure SkgIn where
  enc : Bool
  before : Option Bool
  x : KeygenIn
  after : Option Bool
  keyDec : B64
  certDec : B64
  fits : Bool
deriving DecidableEq, Repr

/-- The CBOR array, `est_server_coap.c` lines 1796-1886 and 1940-1954: the block is not checked. -/
def skgCbor (cder kder : Nat) : Mem Unit := do
  let cbor ← alloc
  use cbor
  use (some kder)
  use (some cder)
  free (some cder)
  free (some kder)
  free cbor

/-- The decoding of the certificate, `est_server_coap.c` lines 1754-1886. -/
def skgCert (q : SkgIn) (cb kder : Nat) : Mem Unit := do
  match ← alloc with
  | none =>
    free (some cb)
    free (some kder)
  | some cder =>
    let good ← decode q.certDec
    free (some cb)
    if !good || !q.fits then
      free (some cder)
      free (some kder)
    else skgCbor cder kder

/-- The decoding of the key, `est_server_coap.c` lines 1733-1754. -/
def skgKey (q : SkgIn) (cb kb : Nat) : Mem Unit := do
  match ← alloc with
  | none =>
    free (some cb)
    use (some kb)
    free (some kb)
  | some kder =>
    let good ← decode q.keyDec
    use (some kb)
    free (some kb)
    if !good then
      free (some cb)
      free (some kder)
    else skgCert q cb kder

/-- The copies of certificate and key, `est_server_coap.c` lines 1677-1731. -/
def skgPair (q : SkgIn) (cert key : Nat) : Mem Unit := do
  match ← alloc with
  | none => pure ()
  | some cb =>
    copy (some cb) (some cert)
    free (some cert)
    match ← alloc with
    | none => free (some cb)
    | some kb =>
      copy (some kb) (some key)
      use (some key)
      free (some key)
      skgKey q cb kb

/-- What follows the key generation.  `est_server_coap.c` lines 1628-1886. -/
def skgAnswer (q : SkgIn) : Option (Nat × Nat) → Mem Unit
  | none => pure ()
  | some (cert, key) => skgPair q cert key

/-- The encoded request is given to the key generation, `est_server_coap.c` lines
1551-1886. -/
def skgGenerate (peer : Peer) (q : SkgIn) (csr text : Nat) : Mem Unit := do
  let good ← encode q.enc
  if !good then
    free (some csr)
    free (some text)
  else
    event q.before
    use (some text)
    let r ← serverKeygen peer { q.x with sent := true }
    use (some csr)
    event q.after
    free (some text)
    free (some csr)
    skgAnswer q r

/-- A complete request, `est_server_coap.c` lines 1515-1886 and 1933-1966. -/
def skgReady (peer : Peer) (q : SkgIn) : Mem Unit := do
  match ← alloc with
  | none => pure ()
  | some csr =>
    match ← alloc with
    | none => free (some csr)
    | some text => skgGenerate peer q csr text

/-- `est_coap_skg_handler`, `est_server_coap.c` lines 1215-1967. -/
def skg (peer : Peer) : Stage SkgIn → Mem Unit
  | .early => pure ()
  | .ready q => withPeer peer (skgReady peer q)
  | _ => withPeer peer (pure ())

/-! ## CA certificates -/

/-- The callback for the CA certificates: none, one that has nothing, one that hands
out a buffer it keeps, one that makes a new buffer.  Called at `est_server.c` lines
247-275. -/
inductive CaCb
  | unset
  | nothing
  | keeps (p : Nat)
  | fresh
deriving DecidableEq, Repr

/-- `est_server_handle_cacerts` for CoAP, `est_server.c` lines 234-314: whether there are
certificates, and `ctx->ca_certs` afterwards. -/
def handleCacerts (certs : Option Nat) : CaCb → Mem (Bool × Option Nat)
  | .unset => pure (certs.isSome, certs)
  | .nothing => pure (false, certs)
  | .keeps p => pure (true, some p)
  | .fresh => do
    let p ← newRef
    pure (true, some p)

/-- A request for the CA certificates behind the checks, `est_server_coap.c` lines
2088-2190 and 2211-2215. -/
def crtsReady (certs : Option Nat) (cb : CaCb) (dec : B64) : Mem (Option Nat) := do
  let (good, certs) ← handleCacerts certs cb
  if !good then pure certs
  else
    match ← alloc with
    | none => pure certs
    | some der =>
      use certs
      let _ ← decode dec
      free (some der)
      pure certs

/-- `est_coap_crts_handler`, `est_server_coap.c` lines 1978-2254; the result is
`ctx->ca_certs`. -/
def crts (certs : Option Nat) (peer : Peer) : Stage (CaCb × B64) → Mem (Option Nat)
  | .early => pure certs
  | .ready q => withPeer peer (crtsReady certs q.1 q.2)
  | _ => withPeer peer (pure certs)

/-! ## CSR attributes -/

/-- A text from the callback, `est_server.c` lines 2285-2343, for CoAP. -/
def attrsText (p : Nat) (dec : B64) (sane pop present isSeq encOk : Bool) : Mem (Option Nat) := do
  let good ← parseAttrs dec sane
  if !good then
    free (some p)
    pure none
  else if !pop then pure (some p)
  else
    let good ← parseAttrs dec sane
    if !good then
      free (some p)
      pure none
    else if present then pure (some p)
    else
      match ← addChallenge dec isSeq encOk with
      | none =>
        free (some p)
        pure none
      | some q =>
        free (some p)
        pure (some q)

/-- `est_handle_csr_attrs`, `est_server.c` lines 2241-2367, for CoAP: the result is
`*returned_attrs`. -/
def handleAttrs : Attrs → Mem (Option Nat)
  | .nothing => pure none
  | .popOnly => alloc
  | .static => alloc
  | .cbNull pop => if pop then alloc else pure none
  | .cbEmpty pop => do
    let p ← newRef
    if pop then alloc else pure (some p)
  | .cbShort => do
    let p ← newRef
    free (some p)
    pure none
  | .cbText dec sane pop present isSeq encOk => do
    let p ← newRef
    attrsText p dec sane pop present isSeq encOk

/-- A request for the attributes behind the checks, `est_server_coap.c` lines 2366-2480
and 2499-2507; `dec`: the decoding of the text. -/
def attReady (a : Attrs) (dec : B64) : Mem Unit := do
  match ← handleAttrs a with
  | none => pure ()
  | some text =>
    match ← alloc with
    | none => free (some text)
    | some der =>
      use (some text)
      let _ ← decode dec
      free (some der)
      free (some text)

/-- `est_coap_att_handler`, `est_server_coap.c` lines 2261-2541. -/
def att (peer : Peer) : Stage (Attrs × B64) → Mem Unit
  | .early => pure ()
  | .ready q => withPeer peer (attReady q.1 q.2)
  | _ => withPeer peer (pure ())

/-! ## The server -/

/-- A request to one of the resources, with the client's certificate.
`est_server_coap.c` lines 2546-2625. -/
inductive Rq
  | sen (peer : Peer) (s : Stage SenIn)
  | skg (peer : Peer) (s : Stage SkgIn)
  | crts (peer : Peer) (s : Stage (CaCb × B64))
  | att (peer : Peer) (s : Stage (Attrs × B64))
deriving DecidableEq, Repr

/-- A request; the state is `ctx->ca_certs`.  `est_server_coap.c` lines 516-2541. -/
def handle (certs : Option Nat) : Rq → Mem (Option Nat)
  | .sen peer s => do
    sen peer s
    pure certs
  | .skg peer s => do
    skg peer s
    pure certs
  | .crts peer s => crts certs peer s
  | .att peer s => do
    att peer s
    pure certs

/-- Requests one after another.  `est_server_coap.c` lines 516-2541. -/
def serve (certs : Option Nat) : List Rq → Mem (Option Nat)
  | [] => pure certs
  | q :: qs => do
    let certs ← handle certs q
    serve certs qs

/-- The CA certificates from the start of a server to its end: `est_load_ca_certs`
(`est.c` lines 595-646; `given`: there are any) and `est_destroy` (`est.c` lines
745-756).  The other blocks of the context are not mentioned. -/
def life (given : Bool) (qs : List Rq) : Mem Unit := do
  let certs ← ClientMem.allocIf given
  let certs ← serve certs qs
  free certs

end Verif.CoapMem
