import Verif.TlsModel
import Verif.ClientFlowModel

/-!
# Model of a client context that talks to servers over time

Source: `/repo/src/est/est_client.c` lines 2768-2908 (`est_client_connect`), 2916-2948
(`est_client_disconnect`), 4569-4640 (`est_client_set_server`), and the operations of
`ClientFlowModel`.

The connections of `TlsModel` are put under the operations of `ClientFlowModel`; the TLS session
that the context keeps (`ctx->sess`) goes from one connection to the next.  Not in BRSKI mode.
-/
namespace Verif.Sess
open Verif.Host (Inet San)

/-- The names in the certificate of the peer, if it has one.  `est_client.c` lines 2737-2755. -/
abbrev Peer := Option (List San × List (Option (List Nat)))

/-- What happens on one connection: the outside of `est_client_connect`; whether the server agrees
to resume the session it is offered; and, once the connection is there, what it is used for.
`est_client.c` lines 2768-2908. -/
structure Hs where
  w : Tls.World
  resume : Bool
  up : Flow.Up

/-- The record of one handshake: the configured server, whether it was a full one (a certificate was
sent and looked at), the calls of the verification callback, the peer's certificate, and whether
the connection was handed to the operation.  An account of `est_client.c` lines 2768-2908. -/
structure Made where
  host : List Nat
  full : Bool
  notes : List Tls.Note
  cert : Peer
  up : Bool

/-- The handshake that takes place.  A session that is resumed brings no certificate: the callback
is not called, and `SSL_get_peer_certificate` delivers the one kept in the session.
`est_client.c` lines 2878-2880. -/
def worldOf (sess : Option Peer) (h : Hs) : Tls.World :=
  match sess with
  | some c => if h.resume then { h.w with notes := [], cert := c } else h.w
  | none => h.w

/-- Is it a full handshake?  `est_client.c` lines 2878-2880. -/
def isFull (sess : Option Peer) (h : Hs) : Bool := !(sess.isSome && h.resume)

/-- The errors of `est_client_connect`, `est_client.c` lines 2819-2905, in the names of
`ClientFlowModel`. -/
def connErr : EstErr → Flow.ConnErr
  | .ipGetaddr => .getaddr
  | .ipConnect => .connect
  | .sslNew => .sslNew
  | .sslConnect => .sslConnect
  | _ => .fqdn

/-- One connection: `est_client_connect`, the use of it, and `est_client_disconnect`,
`est_client.c` lines 2768-2908 and 2916-2948; `none` is undefined behaviour.  The session is kept
when the connection is closed, also if the name in the certificate does not fit (line 2901).  It
is not kept if the handshake fails: the callers release the connection without
`est_client_disconnect` (lines 3171, 3578, 3662, 3947-3953, 4071-4078). -/
def attempt (I : Inet) (c : Tls.Ctx) (sess : Option Peer) (h : Hs) :
    Option (Flow.Conn × Option Peer × Made) :=
  let w := worldOf sess h
  let m := fun up : Bool => (⟨c.host, isFull sess h, w.notes, w.cert, up⟩ : Made)
  match Tls.connect I c w with
  | .undef => none
  | .up => some (.up h.up, some w.cert, m true)
  | .err .fqdnMismatch => some (.down .fqdn, some w.cert, m false)
  | .err e => some (.down (connErr e), sess, m false)

/-- The connections of one call, one after the other.  Made in `est_client.c` lines 3152-3227,
3484-3715, 3928-3968 and 4045-4145. -/
def attempts (I : Inet) (c : Tls.Ctx) : Option Peer → List Hs →
    Option (List Flow.Conn × Option Peer × List Made)
  | s, [] => some ([], s, [])
  | s, h :: l =>
    match attempt I c s h with
    | none => none
    | some (n, s', m) =>
      match attempts I c s' l with
      | none => none
      | some (ns, s'', ms) => some (n :: ns, s'', m :: ms)

/-- The `i`-th connection of a call; there is none if no more were made.  The connections of
`est_client.c` lines 3152-3227, 3484-3715, 3928-3968 and 4045-4145. -/
def nth (l : List Flow.Conn) (i : Nat) : Flow.Conn := l.getD i (.down .connect)

/-- The call, with these connections.  The calls of `est_client.c` lines 3152-4145. -/
def fill (l : List Flow.Conn) : Flow.Cmd → Flow.Cmd
  | .enroll b k _ => .enroll b k (nth l 0, nth l 1)
  | .keygenEnroll b k _ => .keygenEnroll b k (nth l 0, nth l 1)
  | .reenroll o k _ => .reenroll o k (nth l 0, nth l 1)
  | .enrollCsr r k _ => .enrollCsr r k (nth l 0, nth l 1)
  | .keygenCsr r k _ => .keygenCsr r k (nth l 0, nth l 1)
  | .provision b k _ _ _ => .provision b k (nth l 0) (nth l 1) (nth l 2, nth l 3)
  | .getCacerts _ => .getCacerts (nth l 0)
  | .getCsrattrs _ => .getCsrattrs (nth l 0)
  | c => c

/-- A client context: the part used for connections, the part used for requests, the state of the
operations, and the TLS session.  struct est_ctx, `est_locl.h` lines 389-578. -/
structure St where
  tls : Tls.Ctx
  req : ClientReq.Cfg
  client : Flow.Client
  sess : Option Peer

/-- What the application does: name a server, or call an operation.  `hs` are the connections made
by the call; they replace those written in `cmd`.  The functions of `est_client.c` lines
3260-4150, 4286-4320, 4410-4419, 4569-4640 and 4913-4944. -/
inductive Op
  | setServer (host : List Nat) (port : Nat)
  | call (lib : Flow.Lib) (cmd : Flow.Cmd) (hs : List Hs)

/-- The outcome of one step: the handshakes made, and what the call returned, with the requests it
sent.  An account of `est_client.c` lines 2768-4150. -/
structure Out where
  made : List Made
  ret : Flow.Ret

/-- `est_client_set_server` without a path segment, `est_client.c` lines 4569-4640.  Neither the
session nor the mode of authentication is touched. -/
def setServer (s : St) (host : List Nat) (port : Nat) : EstErr × St :=
  if !s.client.ready then (.clientNotInitialized, s)
  else if port = 0 ∨ port > 65535 then (.invalidPortNum, s)
  else if host.length > 255 then (.invalidServerName, s)
  else (.none, { s with tls := { s.tls with host := host, port := port },
                        req := { s.req with server := host, port := port } })

/-- One step; `none` is undefined behaviour.  `est_client.c` lines 2768-4150 and 4569-4640. -/
def step (I : Inet) (s : St) : Op → Option (Out × St)
  | .setServer h p => some (⟨[], { err := (setServer s h p).1 }⟩, (setServer s h p).2)
  | .call lib cmd hs =>
    match attempts I s.tls s.sess hs with
    | none => none
    | some (conns, sess, made) =>
      match Flow.step lib s.req s.client (fill conns cmd) with
      | none => none
      | some (ret, client) => some (⟨made, ret⟩, { s with client := client, sess := sess })

/-- A sequence of steps.  `est_client.c` lines 2768-4150 and 4569-4640. -/
def run (I : Inet) : St → List Op → Option (List Out × St)
  | s, [] => some ([], s)
  | s, op :: ops =>
    match step I s op with
    | none => none
    | some (o, s') =>
      match run I s' ops with
      | none => none
      | some (os, s'') => some (o :: os, s'')

/-- A new context, from `est_client_init` (`est_client.c` lines 4453-4545): every fault of the
server's certificate is reported to `cert_verify_cb`, and there is no session. -/
def St.init (manual : Option (Nat → Nat → Int)) (ua ta : List Nat) : St where
  tls := ⟨[], 0, false, ⟨-1, [], [], 0⟩, false, 3, true, manual⟩
  req := ⟨ua, [], 0, none⟩
  client := .init ta
  sess := none

end Verif.Sess
