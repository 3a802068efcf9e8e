import Verif.CoapAllModel

/-!
# Model of the EST server as the CoAP handlers call it

Source: `/repo/src/est/est_server_coap.c` lines 907-916 and 1604-1640 (the calls);
`/repo/src/est/est_server.c` lines 1630-1849 (`est_handle_simple_enroll`) and 1855-2235
(`est_handle_server_keygen`) with `transport_mode == EST_COAP`.
-/
namespace Verif.Coap

/-- The arguments of the calls: no HTTP context, content type or path segment, the base64 text
of the request (`est_server_coap.c` lines 911-914). -/
def coapRq (text : List Nat) : Server.Req :=
  ⟨[], text, none, (.missing, ⟨.none, [], [], []⟩), []⟩

/-- Nothing is written over HTTP.  `est_server.c` lines 1630-2235 with transport_mode ==
EST_COAP. -/
def noNet : Server.Net := ⟨true, 0, true⟩

/-- The last CA request of a run.  The call of the application's callback in
`est_server.c` lines 1630-2235. -/
def lastCa (evs : List Server.Ev) : Option Server.CaReq :=
  match evs.getLast? with
  | some (.ca _ q) => some q
  | _ => none

/-- `est_handle_simple_enroll` for the CoAP handler: the result and `*returned_cert` (`est_server.c` lines
1788-1802); `none` is undefined behaviour. -/
def coapEnroll (cfg : Server.Cfg) (tls : Server.Tls) (parse : List Nat → Option Server.Csr)
    (re : Bool) (text : List Nat) : Option (EstErr × List Nat) :=
  match Server.simpleEnroll cfg tls noNet parse re (coapRq text) with
  | none => none
  | some o =>
    match (if re then cfg.reenrollCb else cfg.enrollCb), lastCa o.evs with
    | some ca, some q => some (o.rc, if o.rc = .none then (ca q).cert else [])
    | _, _ => some (o.rc, [])

/-- `est_handle_server_keygen` for the CoAP handler: the result, `*returned_cert` and
`*returned_key` (`est_server.c` lines 2190-2194); `none` is undefined behaviour. -/
def coapKeygen (cfg : Server.Cfg) (kg : Server.KeygenCfg) (mp : Server.Multi) (tls : Server.Tls)
    (parse : List Nat → Option Server.Csr) (text : List Nat) :
    Option (EstErr × List Nat × List Nat) :=
  match Server.serverKeygen cfg kg mp tls noNet (fun _ => 0) parse (coapRq text) with
  | none => none
  | some o =>
    match kg.caCb, kg.keygenCb, lastCa o.evs with
    | some ca, some (some key), some q =>
      some (if o.rc = .none then (o.rc, (ca q key).1.cert, (ca q key).2) else (o.rc, [], []))
    | _, _, _ => some (o.rc, [], [])

end Verif.Coap
