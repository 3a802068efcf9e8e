import Verif.EstErr
import Verif.ClientRespModel

/-!
# Model of starting, using and stopping the CoAP server

Sources: `/repo/src/est/est_server_coap.c` lines 2546-2623 (`est_server_coap_init_resources`), 2718-2774
(`est_server_coap_set_pki_identity`), 2851-2937 (`est_server_coap_get_context`), 2945-2970 (`est_server_coap_run_once`), 3205-3291
(`est_server_coap_init_start`); `/repo/src/est/est_server_http.c` lines 1603-1633 (`est_server_coap_handle_request`);
`/repo/src/est/est_server.c` lines 3126-3152 (`est_server_stop`); `/repo/src/est/est.c` lines 793-800 (the end of a context).
What libcoap and the resolver answer is given by a `World`; libcoap closes the sockets of its endpoints when a context is
released.
-/
namespace Verif.CoapStart
open Verif.ClientResp (decimal)

/-- An address of the resolver: its length, its family (2 `AF_INET`, 10 `AF_INET6`) and port.  Read in `est_server_coap.c` lines 2893-2915. -/
structure Addr where
  len : Nat
  family : Nat
  port : Nat
deriving DecidableEq, Repr

/-- `coap_dtls_pki_t`, `est_server_coap.c` lines 2722-2766. -/
structure Pki where
  verifyPeer : Bool
  requirePeer : Bool
  selfSigned : Bool
  expired : Bool
  chain : Bool
  depth : Nat
  revocation : Bool
  noCrl : Bool
  expiredCrl : Bool
  timer : Bool
  mtu : Int
deriving DecidableEq, Repr

/-- The functions for requests, `est_server_coap.c` lines 2558-2614. -/
inductive Handler
  | sen | skg | crts | att
deriving DecidableEq, Repr

/-- The methods used, `est_server_coap.c` lines 2558-2614. -/
inductive Method
  | get | post | put | delete
deriving DecidableEq, Repr

/-- A resource of libcoap with its handler, `est_server_coap.c` lines 2555-2622. -/
structure Resource where
  uri : List Nat
  method : Method
  handler : Handler
deriving DecidableEq, Repr

/-- An endpoint of libcoap: its address, its socket, its limit of sessions.  `est_server_coap.c` lines 2921-2929. -/
structure Endpoint where
  addr : Addr
  fd : Nat
  max : Int
deriving DecidableEq, Repr

/-- A context of libcoap: its setup, its endpoints (the latest first), whether the EST context is linked and the event handler
registered, its resources.  `est_server_coap.c` lines 2864-2929 and 3273-3280. -/
structure Coap where
  pki : Option Pki := none
  endpoints : List Endpoint := []
  app : Bool := false
  events : Bool := false
  resources : List Resource := []
deriving DecidableEq, Repr

/-- What libcoap and the resolver answer: a new context, the setup, DTLS, the addresses for a port, a socket bound to an address.
Called in `est_server_coap.c` lines 2864, 2768, 2920, 2886, 2921. -/
structure World where
  ctxNew : Bool
  pki : Bool
  dtls : Bool
  resolve : List Nat → Option (List Addr)
  sock : Addr → Option Nat

/-- The books: contexts made and released, lists of addresses made and released, sockets opened and closed.
`est_server_coap.c` lines 2864-2936. -/
structure Book where
  made : Nat := 0
  released : Nat := 0
  lists : Nat := 0
  listsFreed : Nat := 0
  opened : List Nat := []
  closed : List Nat := []
deriving DecidableEq, Repr

/-- The mode of a context, as tested in `est_server_coap.c` lines 3223-3225. -/
inductive Mode
  | server | proxy | client
deriving DecidableEq, Repr

/-- The fields of the EST context used in `est_server_coap.c` lines 2746-2757, 2929 and 3223-3280. -/
structure Est where
  mode : Mode
  timer : Int := 0
  mtu : Int := 0
  max : Int := 32
  portNum : Int := 0
  portStr : List Nat := []
  coap : Option Coap := none
  overCoap : Bool := false
  httpAuth : Bool := true
deriving DecidableEq, Repr

/-- `est_server_coap_set_pki_identity`, `est_server_coap.c` lines 2718-2774: what is given to libcoap. -/
def pkiOf (e : Est) : Pki :=
  { verifyPeer := true, requirePeer := true, selfSigned := false, expired := false, chain := true, depth := 7, revocation := true,
    noCrl := true, expiredCrl := true, timer := e.timer ≠ 0, mtu := if e.mtu ≠ 0 then e.mtu else 0 }

/-- `coap_free_context` as called in `est_server_coap.c` lines 2874, 2888, 2904, 2924: the sockets of the endpoints are closed. -/
def free (c : Coap) (b : Book) : Book :=
  { b with released := b.released + 1, closed := b.closed ++ c.endpoints.map (·.fd) }

/-- The loop over the addresses, `est_server_coap.c` lines 2893-2936.  A union of addresses has 28 bytes; `memcpy_s` refuses to
copy nothing. -/
def bind (w : World) (e : Est) : List Addr → Coap → Book → Option Coap × Book
  | [], c, b => (some c, { b with listsFreed := b.listsFreed + 1 })
  | a :: l, c, b =>
    if a.len ≤ 28 then
      if a.len = 0 then
        let b := free c b
        (none, { b with listsFreed := b.listsFreed + 1 })
      else if a.family = 2 ∨ a.family = 10 then
        if w.dtls then
          match w.sock a with
          | none =>
            let b := free c b
            (none, { b with listsFreed := b.listsFreed + 1 })
          | some fd =>
            bind w e l { c with endpoints := ⟨a, fd, e.max⟩ :: c.endpoints } { b with opened := b.opened ++ [fd] }
        else bind w e l c b
      else (some c, { b with listsFreed := b.listsFreed + 1 })
    else bind w e l c b

/-- `est_server_coap_get_context`, `est_server_coap.c` lines 2851-2937. -/
def getContext (w : World) (e : Est) (port : List Nat) (b : Book) : Option Coap × Book :=
  if !w.ctxNew then (none, b)
  else
    let b := { b with made := b.made + 1 }
    if !w.pki then (none, free {} b)
    else
      let c : Coap := { pki := some (pkiOf e) }
      match w.resolve port with
      | none => (none, free c b)
      | some l => bind w e l c { b with lists := b.lists + 1 }

/-- `est_server_coap_init_resources`, `est_server_coap.c` lines 2546-2623. -/
def resources : List Resource :=
  [⟨[101, 115, 116, 47, 115, 101, 110], .post, .sen⟩, ⟨[101, 115, 116, 47, 115, 114, 101, 110], .post, .sen⟩, ⟨[101, 115, 116, 47, 115, 107, 103], .post, .skg⟩, ⟨[101, 115, 116, 47, 99, 114, 116, 115], .get, .crts⟩, ⟨[101, 115, 116, 47, 97, 116, 116], .get, .att⟩]

/-- `est_server_coap_init_start`, `est_server_coap.c` lines 3205-3291.  Five digits fit into the ten bytes of the text. -/
def start (w : World) (e : Est) (port : Int) (b : Book) : EstErr × Est × Book :=
  if e.mode ≠ .server ∧ e.mode ≠ .proxy then (.badMode, e, b)
  else if port < 0 ∨ port > 65535 then (.invalidPortNum, e, b)
  else
    let e := { e with portStr := decimal port.toNat, portNum := port }
    match getContext w e e.portStr b with
    | (none, b) => (.coapProcessingError, { e with coap := none }, b)
    | (some c, b) =>
      (.none, { e with coap := some { c with app := true, events := true, resources := resources }, overCoap := true, httpAuth := false }, b)

/-- How a call ends: with a code, or undefined.  `est_server_http.c` lines 1603-1633. -/
inductive Res
  | ret (r : EstErr) (e : Est)
  | ub
deriving DecidableEq, Repr

/-- `est_server_coap_run_once`, `est_server_coap.c` lines 2945-2970, for what libcoap returns. -/
def runOnce (result : Int) : EstErr := if result < 0 then .coapProcessingError else .none

/-- `est_server_coap_handle_request`, `est_server_http.c` lines 1603-1633: the descriptor given takes the place of the socket of
the latest endpoint. -/
def handle (e : Est) (fd : Nat) (result : Int) : Res :=
  match e.coap with
  | none => .ret .noCtx e
  | some c =>
    match c.endpoints with
    | [] => .ub
    | p :: l => .ret (if runOnce result ≠ .none then .unknown else .none) { e with coap := some { c with endpoints := { p with fd := fd } :: l } }

/-- `est_server_stop` for CoAP, `est_server.c` lines 3126-3152. -/
def stop (e : Est) (b : Book) : Est × Book :=
  if e.overCoap then
    match e.coap with
    | none => (e, b)
    | some c => ({ e with coap := none }, free c b)
  else (e, b)

/-- The end of a context, `est.c` lines 793-800. -/
def destroy (e : Est) (b : Book) : Book :=
  match e.coap with
  | none => b
  | some c => free c b

/-- The handler libcoap finds for a request among the resources registered in `est_server_coap.c` lines 2546-2623. -/
def dispatch (c : Coap) (uri : List Nat) (m : Method) : Option Handler :=
  (c.resources.find? fun r => r.uri = uri ∧ r.method = m).map (·.handler)

/-- A call by the application.  `est_server_coap.c` lines 3205-3291, `est_server.c` lines 3126-3152, `est_server_http.c` lines 1603-1633. -/
inductive Op
  | start (w : World) (port : Int)
  | stop
  | handle (fd : Nat) (result : Int)

/-- One call; none: undefined.  `est_server_coap.c` lines 3205-3291, `est_server.c` lines 3126-3152, `est_server_http.c` lines 1603-1633. -/
def step (s : Est × Book) : Op → Option (Est × Book)
  | .start w p => some (start w s.1 p s.2).2
  | .stop => some (stop s.1 s.2)
  | .handle fd r =>
    match handle s.1 fd r with
    | .ub => none
    | .ret _ e => some (e, s.2)

/-- Calls in order.  `est_server_coap.c` lines 3205-3291, `est_server.c` lines 3126-3152, `est_server_http.c` lines 1603-1633. -/
def run (s : Est × Book) : List Op → Option (Est × Book)
  | [] => some s
  | a :: l => (step s a).bind fun s => run s l

end Verif.CoapStart
