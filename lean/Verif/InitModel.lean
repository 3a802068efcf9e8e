import Verif.ClientMemModel
import Verif.TlsModel
import Verif.SetterModel

/-!
# Creating a context

`est_server_init` and `est_proxy_init` with the functions they call: which arguments they accept,
what the new context holds, and which memory blocks they allocate and release.

Sources: `/repo/src/est/est_server.c` lines 3194-3328, `/repo/src/est/est_proxy.c` lines 2098-2252,
`/repo/src/est/est.c` lines 428-680 and 743-835, `/repo/src/est/est_ossl_util.c` lines 100-305,
`/repo/src/est/est_client.c` lines 4453-4545.

Heap, allocation and undefined behaviour are those of `ClientMemModel`.  A text argument is given
by its characters before the first NUL, a pointer that may be `NULL` as an option.  OpenSSL's PEM
reader and PKCS7 writer are parameters; an object made by OpenSSL is one block.
-/
namespace Verif.Init
open Verif.ClientMem (Mem alloc allocIf free use)
open Verif.Tls (subjFld)
open Verif.Setter (strcpyS zeros)

/-- An entry of the stack that `PEM_X509_INFO_read_bio` returns: the certificate and the CRL in
it, if any.  Read in `est_ossl_util.c` lines 243-272 and `est.c` lines 437-460. -/
structure Item where
  cert : Option (List Nat)
  crl : Option (List Nat)
deriving DecidableEq, Repr

/-- OpenSSL: the PEM reader (`none`: a null pointer), the text of a certificate's subject, the
base64 text of the PKCS7 structure with these certificates (`none`: `i2d_PKCS7_bio` fails), whether
`ASN1_INTEGER_set` succeeds.  `coap`: `HAVE_LIBCOAP`.  Called in `est.c` lines 428-585,
`est_ossl_util.c` lines 100-272. -/
structure Lib where
  pem : List Nat → Option (List Item)
  subject : List Nat → List Nat
  p7 : List (List Nat) → Option (List Nat)
  asn1 : Bool
  coap : Bool

/-- The arguments of `est_server_init` and `est_proxy_init`; `uid` and `pwd` are those of the
latter only.  `cert` and `key`: is the pointer not `NULL`?  `est_server.c` lines 3194-3198,
`est_proxy.c` lines 2098-2103. -/
structure Args where
  chain : Option (List Nat)
  chainLen : Int
  resp : Option (List Nat)
  respLen : Int
  pem : Bool
  realm : Option (List Nat)
  cert : Bool
  key : Bool
  uid : Option (List Nat)
  pwd : Option (List Nat)

/-- The context: its block, the blocks it owns with their contents, and the values set.  `store`
holds certificates and CRLs; `table` is `client_ctx_array`, `reqs` is `coap_req_array`.
`est_locl.h` lines 389-578. -/
structure Ctx where
  self : Nat
  proxy : Bool
  ca : Option (Nat × List Nat)
  store : Option (Nat × List (List Nat) × List (List Nat))
  raw : Option (Nat × List Nat)
  table : Option Nat
  reqs : Option Nat
  realm : List Nat
  userid : List Nat
  password : List Nat
  authMode : Int
  required : Int
  pop : Bool
  retry : Int
  readTimeout : Int
  brskiRetry : Int
  localCa : Bool
  sessMax : Int
deriving DecidableEq, Repr

/-- A write outside of a buffer.  Auxiliary, for `est_ossl_util.c` lines 140-145. -/
def ub : Mem Unit := fun _ _ => none

/-- `strnlen_s(text, EST_CA_MAX)`.  `est_server.c` lines 3221-3233, `est_proxy.c` lines
2136-2148. -/
def lenOf (t : List Nat) : Int := (min t.length 2000000 : Nat)

/-! ## Trust anchors -/

/-- The subject of a certificate is printed for the log: `calloc` of 255 bytes and
`est_get_subj_fld_from_cert`, `est_ossl_util.c` lines 254-258 and 100-148.  Without memory for the
buffer, or for the `BIO`, nothing is copied. -/
def logSubject (lib : Lib) (cert : List Nat) : Mem Unit := do
  let subj ← alloc
  match ← alloc with
  | none => free subj
  | some out =>
    match subj with
    | none => free (some out)
    | some s =>
      match subjFld (List.replicate 255 0) 255 (lib.subject cert) with
      | .overrun => ub
      | .bytes _ =>
        free (some out)
        free (some s)

/-- The log for an entry, `est_ossl_util.c` lines 248-259: only for a certificate. -/
def logItem (lib : Lib) (i : Item) : Mem Unit :=
  match i.cert with
  | none => pure ()
  | some c => logSubject lib c

/-- The loop of `ossl_init_cert_store_from_raw`, `est_ossl_util.c` lines 246-272: the certificates
and CRLs added to the store.  The results of `X509_STORE_add_cert` and `X509_STORE_add_crl` are not
looked at; here they succeed. -/
def addItems (lib : Lib) : List Item → Mem (List (List Nat) × List (List Nat))
  | [] => pure ([], [])
  | i :: is => do
    logItem lib i
    let (cs, ls) ← addItems lib is
    pure (i.cert.toList ++ cs, i.crl.toList ++ ls)

/-- `ossl_init_cert_store_from_raw`, `est_ossl_util.c` lines 224-274: the certificates and CRLs put
into the store.  The stack is one block with its entries. -/
def fromRaw (lib : Lib) (raw : List Nat) : Mem (List (List Nat) × List (List Nat)) := do
  match ← alloc with
  | none => pure ([], [])
  | some b =>
    match lib.pem raw with
    | none =>
      free (some b)
      pure ([], [])
    | some items =>
      match ← alloc with
      | none =>
        free (some b)
        pure ([], [])
      | some sk =>
        free (some b)
        let r ← addItems lib items
        free (some sk)
        pure r

/-- `est_load_trusted_certs` with `ossl_init_cert_store`, `est.c` lines 655-680 and
`est_ossl_util.c` lines 292-306, for a buffer that is not `NULL`.  When it fails, the new store is
in the context. -/
def loadTrusted (lib : Lib) (c : Ctx) (raw : List Nat) : Mem (EstErr × Ctx) := do
  match ← alloc with
  | none => pure (.loadTrustCerts, c)
  | some st =>
    let (cs, ls) ← fromRaw lib raw
    let c := { c with store := some (st, cs, ls) }
    if cs.length = 0 then pure (.noCertsFound, c) else pure (.none, c)

/-! ## The answer to `cacerts` -/

/-- `est_add_certs_from_BIO`, `est.c` lines 438-472: the certificates, in their order; `none` when
nothing can be read.  No certificate at all is no error. -/
def addCerts (lib : Lib) (raw : List Nat) : Mem (Option (List (List Nat))) := do
  match lib.pem raw with
  | none => pure none
  | some items =>
    match ← alloc with
    | none => pure none
    | some sk =>
      free (some sk)
      pure (some (items.filterMap Item.cert))

/-- `est_get_certs_pkcs7` with base64, `est.c` lines 485-585: the blocks of the `BIO` chain that is
returned and the text in it.  At the end only the `PKCS7` is released; `p7s` and the stack belong to
it only once they are put into it.  When the base64 `BIO` cannot be made, the empty memory `BIO` is
returned. -/
def getP7 (lib : Lib) (raw : List Nat) : Mem (Option (List Nat × List Nat)) := do
  match ← alloc with
  | none => pure none
  | some p7 =>
    match ← alloc with
    | none =>
      free (some p7)
      pure none
    | some p7s =>
      if !lib.asn1 then
        free (some p7)
        pure none
      else match ← alloc with
        | none =>
          free (some p7)
          pure none
        | some stk =>
          match ← addCerts lib raw with
          | none =>
            free (some p7)
            pure none
          | some certs =>
            match ← alloc with
            | none =>
              free (some p7)
              pure none
            | some out =>
              match ← alloc with
              | none =>
                free (some p7)
                pure (some ([out], []))
              | some b64 =>
                match lib.p7 certs with
                | none =>
                  free (some b64)
                  free (some out)
                  free (some p7)
                  free (some p7s)
                  free (some stk)
                  pure none
                | some t =>
                  free (some p7)
                  free (some p7s)
                  free (some stk)
                  pure (some ([b64, out], t))

/-- `BIO_free_all`.  Called in `est.c` lines 622-641. -/
def freeAll : List Nat → Mem Unit
  | [] => pure ()
  | p :: ps => do
    free (some p)
    freeAll ps

/-- `est_load_ca_certs`, `est.c` lines 595-645, for a server or proxy. -/
def loadCa (lib : Lib) (c : Ctx) (raw : List Nat) : Mem (EstErr × Ctx) := do
  match ← alloc with
  | none => pure (.loadCacerts, c)
  | some b =>
    match ← getP7 lib raw with
    | none =>
      free (some b)
      pure (.loadCacerts, c)
    | some (bios, t) =>
      if t.length = 0 then
        freeAll bios
        free (some b)
        pure (.loadCacerts, c)
      else match ← alloc with
        | none =>
          freeAll bios
          free (some b)
          pure (.loadCacerts, c)
        | some p =>
          freeAll bios
          free (some b)
          pure (.none, { c with ca := some (p, t) })

/-! ## Server -/

/-- The context after `memzero_s`.  `est_server.c` line 3262, `est_proxy.c` line 2163. -/
def zeroed (self : Nat) (proxy : Bool) : Ctx :=
  { self := self, proxy := proxy, ca := none, store := none, raw := none, table := none,
    reqs := none, realm := zeros, userid := zeros, password := zeros, authMode := 0, required := 0,
    pop := false, retry := 0, readTimeout := 0, brskiRetry := 0, localCa := false, sessMax := 0 }

/-- The CoAP part, `est_server.c` lines 3304-3324 and `est_proxy.c` lines 2225-2245, with
`est_coap_init_req_array` (`est_server_coap.c` lines 489-507): without memory only the context's own
block is released. -/
def initCoap (lib : Lib) (c : Ctx) : Mem (Option Ctx) :=
  if !lib.coap then pure (some c)
  else do
    match ← alloc with
    | none =>
      free (some c.self)
      pure none
    | some p => pure (some { c with reqs := some p, sessMax := 32 })

/-- `est_server_init` after the answer to `cacerts` is loaded, `est_server.c` lines 3280-3328. -/
def serverRest (lib : Lib) (c : Ctx) (chain realm : List Nat) : Mem (Option Ctx) := do
  let (e, c) ← loadTrusted lib c chain
  if e ≠ .none then
    free (some c.self)
    pure none
  else
    initCoap lib { c with realm := strcpyS c.realm 255 realm, authMode := 1, pop := true, localCa := true }

/-- The length given for the answer to `cacerts` is wrong.  `est_server.c` lines 3226-3234,
`est_proxy.c` lines 2142-2148. -/
def wrongLen (resp : Option (List Nat)) (len : Int) : Bool :=
  match resp with
  | none => false
  | some r => decide (lenOf r ≠ len)

/-- `est_server_init` after the context is zeroed, `est_server.c` lines 3268-3328. -/
def serverLoad (lib : Lib) (c : Ctx) (resp : Option (List Nat)) (chain realm : List Nat) :
    Mem (Option Ctx) :=
  match resp with
  | none => serverRest lib c (chain.take 2000000) realm
  | some r => do
    let (e, c) ← loadCa lib c (r.take 2000000)
    if e ≠ .none then
      free (some c.self)
      pure none
    else serverRest lib c (chain.take 2000000) realm

/-- `est_server_init` after the tests of its arguments, `est_server.c` lines 3252-3328. -/
def serverBody (lib : Lib) (resp : Option (List Nat)) (chain realm : List Nat) :
    Mem (Option Ctx) := do
  match ← alloc with
  | none => pure none
  | some self =>
    let c := { zeroed self false with
                 retry := 3600, required := 1, readTimeout := 10, brskiRetry := 30 }
    serverLoad lib c resp chain realm

/-- `est_server_init`, `est_server.c` lines 3194-3328. -/
def serverInit (lib : Lib) (a : Args) : Mem (Option Ctx) :=
  match a.chain with
  | none => pure none
  | some chain =>
    if !a.pem then pure none
    else if lenOf chain ≠ a.chainLen then pure none
    else if wrongLen a.resp a.respLen then pure none
    else if !a.cert then pure none
    else if !a.key then pure none
    else match a.realm with
      | none => pure none
      | some realm => serverBody lib a.resp chain realm

/-! ## Proxy -/

/-- `est_destroy`, `est.c` lines 743-835, for a context of a server or proxy that was not started
and not configured further. -/
def destroy (c : Ctx) : Mem Unit := do
  free (c.store.map (fun x => x.1))
  free (c.ca.map (fun x => x.1))
  free (c.raw.map (fun x => x.1))
  free c.reqs
  if c.proxy then free c.table else pure ()
  free (some c.self)

/-- `est_client_set_uid_pw`, `est_client.c` lines 3107-3146. -/
def setUidPw (c : Ctx) (uid pwd : Option (List Nat)) : EstErr × Ctx :=
  match uid, pwd with
  | some _, none => (.invalidParameters, c)
  | none, some _ => (.invalidParameters, c)
  | none, none => (.none, c)
  | some u, some p =>
    if 255 < min u.length 256 then (.invalidParameters, c)
    else
      let c := { c with userid := strcpyS c.userid 255 u }
      if 255 < min p.length 256 then (.invalidParameters, c)
      else (.none, { c with password := strcpyS c.password 255 p })

/-- `est_proxy_init` after the answer to `cacerts` is loaded, `est_proxy.c` lines 2190-2250.  The
result of the `malloc` for the table is not looked at (`memzero_s` does nothing for `NULL`). -/
def proxyRest (lib : Lib) (c : Ctx) (chain realm : List Nat) : Mem (Option Ctx) := do
  let (e, c) ← loadTrusted lib c chain
  if e ≠ .none then
    destroy c
    pure none
  else
    match ← alloc with
    | none =>
      destroy c
      pure none
    | some p =>
      let t ← alloc
      initCoap lib { c with
        raw := some (p, chain), realm := strcpyS c.realm 255 realm, authMode := 1, table := t }

/-- `est_proxy_init` after user name and password are stored, `est_proxy.c` lines 2177-2252. -/
def proxyLoad (lib : Lib) (c : Ctx) (resp : Option (List Nat)) (chain realm : List Nat) :
    Mem (Option Ctx) :=
  match resp with
  | none => proxyRest lib c (chain.take 2000000) realm
  | some r => do
    let (e, c) ← loadCa lib c (r.take 2000000)
    if e ≠ .none then
      free (some c.self)
      pure none
    else proxyRest lib c (chain.take 2000000) realm

/-- `est_proxy_init` after the tests of its arguments, `est_proxy.c` lines 2159-2252. -/
def proxyBody (lib : Lib) (a : Args) (chain realm : List Nat) : Mem (Option Ctx) := do
  match ← alloc with
  | none => pure none
  | some self =>
    let c := { zeroed self true with
                 retry := 3600, required := 1, readTimeout := 10, pop := true }
    let (e, c) := setUidPw c a.uid a.pwd
    if e ≠ .none then
      free (some c.self)
      pure none
    else proxyLoad lib c a.resp chain realm

/-- `est_proxy_init`, `est_proxy.c` lines 2098-2252. -/
def proxyInit (lib : Lib) (a : Args) : Mem (Option Ctx) :=
  match a.chain with
  | none => pure none
  | some chain =>
    if !a.cert then pure none
    else if !a.key then pure none
    else match a.realm with
      | none => pure none
      | some realm =>
        if !a.pem then pure none
        else if lenOf chain ≠ a.chainLen then pure none
        else if wrongLen a.resp a.respLen then pure none
        else proxyBody lib a chain realm

/-! ## Client -/

/-- The certificates in a text, `est_ossl_util.c` lines 224-274 without the log. -/
def found (lib : Lib) (raw : List Nat) : List (List Nat) :=
  match lib.pem raw with
  | none => []
  | some items => items.filterMap Item.cert

/-- `est_client_init` with its checks, `est_client.c` lines 4453-4545; the rest is
`ClientMem.init`.  The client may be created without trust anchors.  Simplified: the log of the
subjects is left out here. -/
def clientInit (lib : Lib) (ciphers : Bool) (chain : Option (List Nat)) (len : Int) (pem : Bool) :
    Mem (Option ClientMem.Ctx) :=
  if !pem then pure none
  else match chain with
    | none => ClientMem.init ⟨true, ciphers⟩
    | some t =>
      if lenOf t ≠ len then pure none
      else
        ClientMem.init ⟨decide ((found lib (t.take 2000000)).length ≠ 0), ciphers⟩

end Verif.Init
