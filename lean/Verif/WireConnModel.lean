import Verif.WireModel

/-!
# Model of a whole HTTPS connection

Source: `/repo/src/est/est_server_http.c` lines 342-366 (`should_keep_alive`), 1058-1064 (the user
name kept on the connection), 1494-1501 (`reset_per_request_attributes`), 1510-1599
(`process_new_connection`).

`WireModel` serves the first request of a connection; here is the loop around it.
-/
namespace Verif.Wire
open Verif.HttpHdr (getHeader)
open Verif.Server (BEv)

/-- `conn->status_code` after a request was handled.  It is set with every response but a 200
(`mg_send_http_error` line 378, `est_server.c` line 175), and by
`mg_send_authorization_request` even if that sends nothing (line 1071); a handled request without
any response is such a case. -/
def status : List BEv → Nat
  | [] => 401
  | .ev (.head st) :: es => if es.all (fun e => match e with | .ev (.head _) => false | _ => true)
      then st else status es
  | _ :: es => status es

/-- The name that `mg_parse_auth_header` puts on the connection when the BRSKI handlers look at
the header; the conditions are those of `est_enroll_auth` (`est_server.c` lines 585-758; `est_brski_auth`, lines 767-907). -/
def brskiUser (s : Server.Server) (tls : Server.Tls) (b : Server.BrskiOp) (c : List Nat)
    (rq : Server.Req) : List Nat :=
  if (s.brskiCb b).isNone || !Server.brskiCt b c then rq.connUser
  else
    match Server.enrollAuth s.cfg tls rq.hdr (fun _ => none) .reenroll [] with
    | some a => a.user.getD rq.connUser
    | none => rq.connUser

/-- `conn->user_id` after a request; the arguments are those of `Server.httpRequest`.
`est_server_http.c` lines 1058-1064. -/
def userAfter (s : Server.Server) (tls : Server.Tls) (net : Server.Net) (bodyOut : Nat → Nat)
    (method : List Nat) (uri : EstUri.Res) (ct : Option (List Nat)) (rq : Server.Req) : List Nat :=
  match uri, ct with
  | .ok op seg, some c =>
    let rq' := { rq with ct := c, seg := seg }
    if !Server.methodPostPrefix method then rq.connUser
    else
      match op with
      | .simpleEnroll =>
        ((Server.simpleEnroll s.cfg tls net s.parse false rq').map (·.connUser)).getD rq.connUser
      | .simpleReenroll =>
        ((Server.simpleEnroll s.cfg tls net s.parse true rq').map (·.connUser)).getD rq.connUser
      | .serverKeygen =>
        ((Server.serverKeygen s.cfg s.kg s.mp tls net bodyOut s.parse rq').map
          (·.connUser)).getD rq.connUser
      | .reqVoucher => brskiUser s tls .voucher c rq
      | .voucherStatus => brskiUser s tls .voucherStatus c rq
      | .enrollStatus => brskiUser s tls .enrollStatus c rq
      | _ => rq.connUser
  | _, _ => rq.connUser

/-- `handle_request` on a connection that has the user name `u`: what is sent, and the name
afterwards.  `est_server_http.c` lines 1211-1285. -/
def handleOn (s : Site) (u : List Nat) (q : HttpHdr.Req) (body : List Nat) :
    Option (Served × List Nat) :=
  match Url.requestPath q.uri with
  | none => none
  | some p =>
    match hdrOf (AuthHdr.parseAuthHeader s.odd (toMode s.srv.cfg.authMode)
        (getHeader q.hdrs [65, 117, 116, 104, 111, 114, 105, 122, 97, 116, 105, 111, 110])) with
    | none => none
    | some hdr =>
      let rq : Server.Req := ⟨[], body, none, hdr, u⟩
      let ct := getHeader q.hdrs [67, 111, 110, 116, 101, 110, 116, 45, 84, 121, 112, 101]
      (Server.httpRequest s.srv true s.tls ⟨true, s.out, true⟩ (fun _ => s.out) q.method (s.uri p)
        ct rq).map fun d =>
        (⟨d.evs.flatMap (render s q d), d.evs⟩,
          userAfter s.srv s.tls ⟨true, s.out, true⟩ (fun _ => s.out) q.method (s.uri p) ct rq)

/-- A connection between two requests.  struct mg_connection, `est_server_http.h` lines
256-274. -/
structure CState where
  buf : List Nat
  sock : List Nat
  evs : List HttpConn.Ev
  user : List Nat

/-- What one pass of the loop does: the response (`none` if nothing is written), and the
connection afterwards (`none` if the loop ends).  The outcomes of `est_server_http.c`
lines 1522-1599. -/
structure Pass where
  sv : Option Served
  next : Option CState

/-- A pass with a refusal, which always ends the loop: `should_keep_alive` is false for these
statuses.  The number of bytes to discard is computed all the same (`est_server_http.c` lines 1582-1585). -/
def refusal (sv : Served) (r : Nat) (cl : Int) (dl : Nat) : Option Pass :=
  (HttpConn.discardLen r cl dl).map fun _ => ⟨some sv, none⟩

/-- One pass of the loop of `process_new_connection`, `est_server_http.c` lines 1522-1599.  `none` is undefined
behaviour.  Where the content length was not determined in this pass, the one left from the
last request (0 to 8192) is used for the number of bytes to discard, which has no effect. -/
def pass (s : Site) (c : CState) : Option Pass :=
  let rr := HttpConn.readRequest bufSize c.buf c.sock c.evs
  match rr.res with
  | .blocked => some ⟨none, none⟩
  | .ret r =>
    if r = 0 ∧ rr.buf.length = bufSize then some ⟨some (refuse 413 [82, 101, 113, 117, 101, 115, 116, 32, 84, 111, 111, 32, 76, 97, 114, 103, 101] []), none⟩
    else if r ≤ 0 then some ⟨none, none⟩
    else
      match HttpHdr.parseRequest (rr.buf.take r.toNat) with
      | none => refusal (refuse 400 [66, 97, 100, 32, 82, 101, 113, 117, 101, 115, 116]
          ([67, 97, 110, 110, 111, 116, 32, 112, 97, 114, 115, 101, 32, 72, 84, 84, 80, 32, 114, 101, 113, 117, 101, 115, 116, 58, 32, 91] ++ rr.buf ++ [93])) r.toNat 0 rr.buf.length
      | some q =>
        if !validUri q.uri then
          refusal (refuse 400 [66, 97, 100, 32, 82, 101, 113, 117, 101, 115, 116] ([67, 97, 110, 110, 111, 116, 32, 112, 97, 114, 115, 101, 32, 72, 84, 84, 80, 32, 114, 101, 113, 117, 101, 115, 116, 58, 32, 91] ++ rr.buf ++ [93]))
            r.toNat 0 rr.buf.length
        else if !([49, 46, 48].isPrefixOf q.version || [49, 46, 49].isPrefixOf q.version) then
          refusal (refuse 505 [72, 84, 84, 80, 32, 118, 101, 114, 115, 105, 111, 110, 32, 110, 111, 116, 32, 115, 117, 112, 112, 111, 114, 116, 101, 100] []) r.toNat 0 rr.buf.length
        else if contentLen q > HttpConn.maxContentLen then
          refusal (refuse 413 [67, 111, 110, 116, 101, 110, 116, 45, 76, 101, 110, 103, 116, 104, 32, 116, 111, 111, 32, 108, 97, 114, 103, 101] []) r.toNat (contentLen q) rr.buf.length
        else if contentLen q < 0 then
          refusal (refuse 400 [66, 97, 100, 32, 82, 101, 113, 117, 101, 115, 116] [67, 111, 110, 116, 101, 110, 116, 45, 76, 101, 110, 103, 116, 104, 32, 105, 115, 32, 110, 101, 103, 97, 116, 105, 118, 101]) r.toNat (contentLen q)
            rr.buf.length
        else
          let m := HttpConn.mgRead ⟨rr.buf, r.toNat, contentLen q, 0⟩ (contentLen q).toNat rr.sock
            rr.evs
          if m.fin = .blocked then some ⟨none, none⟩
          else if m.bytes.length < (contentLen q).toNat then none
          else
            match handleOn s c.user q m.bytes with
            | none => none
            | some (sv, u) =>
              (HttpConn.discardLen r.toNat (contentLen q) rr.buf.length).map fun d =>
                ⟨some sv, if keepAfter s q (status sv.evs)
                  then some ⟨rr.buf.drop d, m.sock, m.evs, u⟩ else none⟩

/-- The loop for at most `n` passes: everything that is written.  `est_server_http.c`
lines 1522-1599. -/
def loop (s : Site) : Nat → CState → Option (List Served)
  | 0, _ => some []
  | n + 1, c =>
    match pass s c with
    | none => none
    | some p =>
      match p.next with
      | none => some p.sv.toList
      | some c' => (loop s n c').map (p.sv.toList ++ ·)

/-- A new connection on which `sock` arrives as `sched` says; the buffer and the user name are
empty at the beginning (`est_server_http.c` lines 1518-1520; the connection is allocated with `calloc`). -/
def connection (s : Site) (n : Nat) (sched : List HttpConn.Ev) (sock : List Nat) :
    Option (List Served) :=
  loop s n ⟨[], sock, sched, []⟩

end Verif.Wire
