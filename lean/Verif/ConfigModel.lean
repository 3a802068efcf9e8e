import Verif.ServerModel
import Verif.SetterModel
import Verif.Asn1Model

/-!
# Model of how the request handlers read the configuration

Source: `/repo/src/est/est_server.c` lines 477-536, 585-758, 1060-1152, 1387-1460, 1630-1849 and
1855-2235, which read the fields of the context that the calls of `SetterModel` write.
-/
namespace Verif.Config
open Verif.Server (Cfg Cred CaReq CaRes Mfg AuthMode)
open Verif.Setter (Srv Slot)

/-- The rest of the context and of the libraries: the registered callbacks, whether a CSR
attributes callback is registered and what it returns, what OpenSSL says about the peer's
certificate and the store of a manufacturer, the text of an OID and the base64 decoder.  Read in
`est_server.c` lines 477-536, 621-623, 1409-1450 and 1758-1790, and
`est_enhcd_cert_auth.c` lines 140-195. -/
structure App where
  authCb : Option (Cred → Bool)
  enrollCb : Option (CaReq → CaRes)
  reenrollCb : Option (CaReq → CaRes)
  csrCb : Option (Option (List Nat))
  initOk : Nat → Bool
  verify : Nat → Int
  text : List Nat → List Nat
  odd : Bool → List Nat → List Nat

/-- `ctx->auth_mode`; `AUTH_BASIC`, `AUTH_DIGEST`, `AUTH_TOKEN` are 1, 2, 3.  Read in
`est_server_http.c` lines 1002-1112. -/
def modeOf (m : Int) : AuthMode :=
  if m = 1 then .basic else if m = 2 then .digest else if m = 3 then .token else .none

/-- A slot of the manufacturer list as the look-up sees it, `est_enhcd_cert_auth.c` lines 155-187:
empty slots are passed over. -/
def mfgOf (a : App) (s : Slot) : Mfg :=
  { nid := s.nid.toNat, active := s.store.isSome,
    initOk := (s.store.map a.initOk).getD false, verify := (s.store.map a.verify).getD 0 }

/-- Where the demanded attributes come from, `est_server.c` lines 1409-1450: a callback is
preferred to the stored text. -/
def sourceOf (s : Srv) (a : App) : Asn1.Source :=
  match a.csrCb with
  | some r => .callback r
  | none =>
    match s.csrattrs with
    | some t => .stored t
    | none => .nothing

/-- The configuration that a request handler finds in the context.  `ctx->transport_mode` is
compared with `EST_HTTP` and `EST_COAP` (lines 621, 687), `require_http_auth` with
`HTTP_AUTH_REQUIRED` (line 623); `server_enable_pop` is read at line 1093 and `enforce_csrattrs`
at lines 1748 and 2065 of `est_server.c` lines 585-2235.  An attribute check that reads behind its
data counts as failed. -/
def cfgOf (s : Srv) (a : App) : Cfg :=
  { transport := if s.coap then .coap else .http
    authMode := modeOf s.authMode
    authCb := a.authCb
    requireHttpAuth := decide (s.required = 1)
    ecaEnabled := s.eca
    ecaCsrCheck := decide (s.ecaCheck = 1)
    mfgs := s.mfgs.map (·.map (mfgOf a))
    localNid := s.ecaNid.toNat
    ecaPwd := Setter.cstr s.ecaPwd
    enablePop := s.pop
    enforceAttrs := s.enforce
    attrsPresent := fun b => decide (Asn1.allPresent a.text a.odd (sourceOf s a) b = .ret .none)
    enrollCb := a.enrollCb
    reenrollCb := a.reenrollCb
    retryPeriod := s.retry.toNat }

end Verif.Config
