import Verif.TlsModel

/-!
# Model of the client's TLS settings

Sources: `/repo/src/est/est_client.c` lines 789-891 (`est_client_init_ssl_ctx`), 4177-4256 (`est_client_enable_srp`), 4453-4544
(`est_client_init`), 5016-5049 (`est_client_set_brski_mode`); `/repo/src/est/est_locl.h` lines 86-127; for the server
`/repo/src/est/est_server_http.c` lines 1446-1468.  OpenSSL's answers are parameters.  Memory is the subject of C102 and is left out.
-/
namespace Verif.CliTls

/-- `EST_CIPHER_LIST`, `est_locl.h` lines 94-120. -/
def cipherList : List Nat :=
  ([69, 67, 68, 72, 69, 45, 69, 67, 68, 83, 65, 45, 65, 69, 83, 49, 50, 56, 45, 71, 67, 77, 45, 83, 72, 65, 50, 53, 54, 58]) ++
  ([69, 67, 68, 72, 69, 45, 82, 83, 65, 45, 65, 69, 83, 49, 50, 56, 45, 71, 67, 77, 45, 83, 72, 65, 50, 53, 54, 58]) ++
  ([65, 69, 83, 49, 50, 56, 45, 71, 67, 77, 45, 83, 72, 65, 50, 53, 54, 58]) ++
  ([69, 67, 68, 72, 69, 45, 69, 67, 68, 83, 65, 45, 67, 72, 65, 67, 72, 65, 50, 48, 45, 80, 79, 76, 89, 49, 51, 48, 53, 58]) ++
  ([69, 67, 68, 72, 69, 45, 82, 83, 65, 45, 67, 72, 65, 67, 72, 65, 50, 48, 45, 80, 79, 76, 89, 49, 51, 48, 53, 58]) ++
  ([69, 67, 68, 72, 69, 45, 69, 67, 68, 83, 65, 45, 65, 69, 83, 49, 50, 56, 45, 83, 72, 65, 50, 53, 54, 58]) ++
  ([69, 67, 68, 72, 69, 45, 69, 67, 68, 83, 65, 45, 65, 69, 83, 49, 50, 56, 45, 83, 72, 65, 58]) ++
  ([69, 67, 68, 72, 69, 45, 82, 83, 65, 45, 65, 69, 83, 49, 50, 56, 45, 83, 72, 65, 58]) ++
  ([69, 67, 68, 72, 69, 45, 82, 83, 65, 45, 65, 69, 83, 49, 50, 56, 45, 83, 72, 65, 50, 53, 54, 58]) ++
  ([65, 69, 83, 49, 50, 56, 45, 83, 72, 65, 50, 53, 54, 58]) ++
  ([65, 69, 83, 49, 50, 56, 45, 83, 72, 65, 58]) ++
  ([69, 67, 68, 72, 69, 45, 69, 67, 68, 83, 65, 45, 65, 69, 83, 50, 53, 54, 45, 71, 67, 77, 45, 83, 72, 65, 51, 56, 52, 58]) ++
  ([69, 67, 68, 72, 69, 45, 82, 83, 65, 45, 65, 69, 83, 50, 53, 54, 45, 71, 67, 77, 45, 83, 72, 65, 51, 56, 52, 58]) ++
  ([65, 69, 83, 50, 53, 54, 45, 71, 67, 77, 45, 83, 72, 65, 51, 56, 52, 58]) ++
  ([69, 67, 68, 72, 69, 45, 69, 67, 68, 83, 65, 45, 65, 69, 83, 50, 53, 54, 45, 83, 72, 65, 51, 56, 52, 58]) ++
  ([69, 67, 68, 72, 69, 45, 82, 83, 65, 45, 65, 69, 83, 50, 53, 54, 45, 83, 72, 65, 51, 56, 52, 58]) ++
  ([65, 69, 83, 50, 53, 54, 45, 83, 72, 65, 50, 53, 54, 58]) ++
  ([68, 72, 69, 45, 82, 83, 65, 45, 65, 69, 83, 49, 50, 56, 45, 71, 67, 77, 45, 83, 72, 65, 50, 53, 54, 58]) ++
  ([68, 72, 69, 45, 82, 83, 65, 45, 65, 69, 83, 49, 50, 56, 45, 83, 72, 65, 58]) ++
  ([68, 72, 69, 45, 82, 83, 65, 45, 65, 69, 83, 49, 50, 56, 45, 83, 72, 65, 50, 53, 54, 58]) ++
  ([68, 72, 69, 45, 82, 83, 65, 45, 65, 69, 83, 50, 53, 54, 45, 71, 67, 77, 45, 83, 72, 65, 51, 56, 52, 58]) ++
  ([68, 72, 69, 45, 68, 83, 83, 45, 65, 69, 83, 50, 53, 54, 45, 71, 67, 77, 45, 83, 72, 65, 51, 56, 52, 58]) ++
  ([68, 72, 69, 45, 82, 83, 65, 45, 65, 69, 83, 50, 53, 54, 45, 83, 72, 65, 50, 53, 54, 58]) ++
  ([68, 72, 69, 45, 68, 83, 83, 45, 65, 69, 83, 49, 50, 56, 45, 71, 67, 77, 45, 83, 72, 65, 50, 53, 54, 58]) ++
  ([68, 72, 69, 45, 68, 83, 83, 45, 65, 69, 83, 49, 50, 56, 45, 83, 72, 65, 58]) ++
  ([68, 72, 69, 45, 68, 83, 83, 45, 65, 69, 83, 49, 50, 56, 45, 83, 72, 65, 50, 53, 54, 58]) ++
  ([68, 72, 69, 45, 68, 83, 83, 45, 65, 69, 83, 50, 53, 54, 45, 83, 72, 65, 50, 53, 54])

/-- `EST_CIPHER_LIST_SRP_SERVER`, `est_locl.h` lines 121-121. -/
def srpServer : List Nat := cipherList ++ [58, 83, 82, 80]

/-- `EST_CIPHER_LIST_SRP_ONLY`, `est_locl.h` lines 122-122. -/
def srpOnly : List Nat := [83, 82, 80, 58, 33, 97, 82, 83, 65, 58, 33, 97, 68, 83, 83]

/-- `EST_CIPHER_LIST_SRP_AUTH`, `est_locl.h` lines 123-123. -/
def srpAuth : List Nat := [83, 82, 80]

/-- The settings of an `SSL_CTX`: the highest version allowed (`TLS1_2_VERSION` is 0x303), the versions turned off, the
ciphers, the mode of verification and its callback, the number of objects in the store (none: no store), depth and
purpose (`X509_PURPOSE_SSL_SERVER` is 2), user, password and strength for SRP.  Set in `est_client.c` lines 802-869 and
4217-4251. -/
structure Ssl where
  max : Nat
  no2 : Bool
  no3 : Bool
  no10 : Bool
  ciphers : List Nat
  verify : Nat
  verifyCb : Bool
  store : Option Nat
  depth : Nat
  purpose : Nat
  user : Option (List Nat) := none
  pwd : Option (List Nat) := none
  strength : Option Int := none
deriving DecidableEq, Repr

/-- The fields of the context: the store with the number of its objects, the `SSL_CTX`, `enable_srp`, `brski_mode`,
`est_client_initialized` and the application's callback.  Used in `est_client.c` lines 789-891, 4177-4256, 4453-4544. -/
structure Ctx where
  store : Option Nat := none
  ssl : Option Ssl := none
  srp : Bool := false
  brski : Bool := false
  ready : Bool := false
  manual : Option (Nat → Nat → Int) := none

/-- What OpenSSL does: whether an `SSL_CTX` and verification parameters can be had, a text of ciphers, a user, a
password are accepted, whether a refused text of ciphers leaves the old ciphers in force (otherwise there are none).
`old`: the version of OpenSSL is before 1.1.0.  Called in `est_client.c` lines 802-869 and 4217-4251. -/
structure Ossl where
  ctxNew : Bool
  cipherOk : List Nat → Bool
  kept : Bool
  vpmNew : Bool
  userOk : List Nat → Bool
  pwdOk : List Nat → Bool
  old : Bool

/-- `est_client_init_ssl_ctx`, `est_client.c` lines 789-891; versions of
OpenSSL before 1.1.0 have no higher version of TLS than 1.2. -/
def initSslCtx (o : Ossl) (c : Ctx) : EstErr × Ctx :=
  if !o.ctxNew then (.sslCtxNew, c)
  else if !o.cipherOk cipherList then (.sslCipherList, c)
  else if !o.vpmNew then (.malloc, { c with store := none })
  else
    (.none, { c with store := none, ssl := some {
      max := 0x303, no2 := true, no3 := true, no10 := true, ciphers := cipherList, verify := 3,
      verifyCb := true, store := c.store, depth := if o.old then 7 else 6, purpose := 2 } })

/-- `est_client_init`, `est_client.c` lines 4453-4544, for a chain that passes the checks; `objects` is the number of
certificates and revocation lists read from it, none if it cannot be read (`est.c` lines 658-679). -/
def init (o : Ossl) (objects : Option Nat) (manual : Option (Nat → Nat → Int)) : Option Ctx :=
  match objects with
  | none => none
  | some n =>
    match initSslCtx o { store := some n } with
    | (.none, c) => some { c with manual := manual, ready := true }
    | _ => none

/-- How a call ends: with a code and the context, or undefined.  `est_client.c` lines 4177-4256. -/
inductive Res where
  | ret (e : EstErr) (c : Ctx)
  | ub

/-- The text of ciphers for SRP, `est_client.c` lines 4217-4231; none: a store that is not there is asked for its
objects. -/
def srpList (old : Bool) (store : Option Nat) : Option (List Nat) :=
  match store with
  | some n => some (if n ≠ 0 then srpAuth else srpOnly)
  | none => if old then some srpOnly else none

/-- `est_client_enable_srp`, `est_client.c` lines 4177-4256; `SRP_MINIMAL_N` is 1024.  OpenSSL forgets the old user or
password before it looks at the new one. -/
def enableSrp (o : Ossl) (c : Ctx) (strength : Int) (uid pwd : Option (List Nat)) : Res :=
  match c.ssl with
  | none => .ret .noSslCtx c
  | some s =>
    if strength < 1024 then .ret .srpStrengthLow c
    else
      match uid, pwd with
      | none, _ => .ret .invalidParameters c
      | _, none => .ret .invalidParameters c
      | some u, some p =>
        let c := { c with srp := true }
        match srpList o.old s.store with
        | none => .ub
        | some t =>
          if !o.cipherOk t then .ret .sslCipherList { c with ssl := some { s with ciphers := if o.kept then s.ciphers else [] } }
          else
            let s := { s with ciphers := t }
            if !o.userOk u then .ret .unknown { c with ssl := some { s with user := none } }
            else if !o.pwdOk p then .ret .unknown { c with ssl := some { s with user := some u, pwd := none } }
            else .ret .none { c with ssl := some { s with user := some u, pwd := some p, strength := some strength } }

/-- `est_client_set_brski_mode`, `est_client.c` lines 5016-5049.  The mode given, `~1 | ~2`, has all its bits set; no
callback is given. -/
def setBrski (c : Ctx) : EstErr × Ctx :=
  if !c.ready then (.clientNotInitialized, c)
  else if c.brski then (.invalidParameters, c)
  else (.none, { c with brski := true, ssl := c.ssl.map fun s => { s with verify := 0xffffffff, verifyCb := false } })

/-- The ciphers of the server, `est_server_http.c` lines 1446-1468. -/
def serverList (srp : Bool) : List Nat := if srp then srpServer else cipherList

/-- A call by the application.  `est_client.c` lines 4177-4256 and 5016-5049. -/
inductive Op where
  | srp (o : Ossl) (strength : Int) (uid pwd : Option (List Nat))
  | brski

/-- One call; none: undefined.  `est_client.c` lines 4177-4256 and 5016-5049. -/
def apply (c : Ctx) : Op → Option Ctx
  | .srp o n u p =>
    match enableSrp o c n u p with
    | .ret _ c => some c
    | .ub => none
  | .brski => some (setBrski c).2

/-- Calls in order.  `est_client.c` lines 4177-4256 and 5016-5049. -/
def run (c : Ctx) : List Op → Option Ctx
  | [] => some c
  | a :: l => (apply c a).bind fun c => run c l

/-- The context as `est_client_connect` uses it, `est_client.c` lines 2768-2908; none without an `SSL_CTX`. -/
def forConnect (c : Ctx) (host : List Nat) (port : Nat) (useProxy : Bool) (proxy : Tls.Proxy) : Option Tls.Ctx :=
  c.ssl.map fun s => ⟨host, port, useProxy, proxy, c.srp, s.verify, s.verifyCb, c.manual⟩

end Verif.CliTls
