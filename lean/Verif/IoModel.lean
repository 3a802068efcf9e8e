import Verif.HttpConnModel

/-!
# Model of the waiting, reading and writing on a connection

Source: `/repo/src/est/est_server_http.c`: `push` 469-500, `wait_until_socket_is_readable`
513-556, `pull` 560-606, `mg_read` 608-654, `mg_write` 656-663, `mg_printf` 665-701,
`read_request` 1184-1203; `/repo/src/est/est_client_http.c`: `est_ssl_read` 1468-1497,
`est_io_read_raw` 1504-1540.

What the operating system and the TLS library answer is an arbitrary list of events.  The
bytes the peer sends are a list of their own: an event says how many of them one call hands
out.  A run whose events are used up is `blocked`, the real call would still be waiting.
Clocks are ideal: a poll that finds nothing takes exactly the time it was given.
-/
namespace Verif.Io

/-! ### The server waits -/

/-- What one call of `poll` reports, with `SSL_pending` for a quiet one; `est_server_http.c`
lines 529-533.  Simplified: the server always has a TLS connection (`conn->ssl` set, as
`process_new_connection` requires). -/
inductive Poll
  | quiet (pending : Nat)   -- nothing within 250 ms; so many bytes wait inside the TLS library
  | ready
  | intr                    -- negative, `EINTR`
  | fail                    -- negative, any other `errno`
deriving DecidableEq, Repr

/-- One pass of the loop, `est_server_http.c` lines 521-553: the answer of `poll` and the value
of `stop_flag` read at the end of the pass (line 552). -/
structure Pass where
  poll : Poll
  stop : Bool := false
deriving DecidableEq, Repr

/-- `result` after lines 530-533 of `est_server_http.c`. -/
def Poll.result : Poll → Int
  | .quiet n => n
  | .ready => 1
  | .intr => -1
  | .fail => -1

/-- How `wait_until_socket_is_readable` ends, `est_server_http.c` lines 539-555; `giveUp late`
is the return value 0, `late` says whether `must_close` was set on the way. -/
inductive Wait
  | readable
  | giveUp (late : Bool)
  | blocked
deriving DecidableEq, Repr

/-- The loop of `wait_until_socket_is_readable`, `est_server_http.c` lines 521-555.  `total` is
`total_wait_time` before the pass, `limit` is `read_timeout` in milliseconds.  Simplified:
`total_wait_time` is unbounded here, in the code it is an `unsigned int`, which only differs
after 17 million interrupted polls. -/
def waitLoop (limit total : Nat) : List Pass → Wait × List Pass
  | [] => (.blocked, [])
  | p :: ps =>
    if limit < total + 250 ∧ p.poll.result = 0 then (.giveUp true, ps)
    else if (p.poll.result = 0 ∨ (p.poll.result < 0 ∧ p.poll = .intr)) ∧ p.stop = false then
      waitLoop limit (total + 250) ps
    else if p.stop = true ∨ p.poll.result < 0 then (.giveUp false, ps)
    else (.readable, ps)

/-- `wait_until_socket_is_readable`, `est_server_http.c` lines 513-556; `t` is
`conn->read_timeout` in seconds. -/
def waitReadable (t : Nat) (ps : List Pass) : Wait × List Pass := waitLoop (t * 1000) 0 ps

/-! ### The server reads -/

/-- What `SSL_read` does on the server, `est_server_http.c` lines 573-600.  `data k` hands out at
most `k + 1` bytes of what the peer sent; with nothing left the connection is at its end and
the call fails.  `stuck`: the call does not return, the rest of a TLS record is missing. -/
inductive Rd
  | data (k : Nat)
  | wantRead
  | lookup
  | fail
  | stuck
deriving DecidableEq, Repr

/-- One call of `SSL_read` and the value of `stop_flag` after it, `est_server_http.c` lines
573-605. -/
structure Read where
  rd : Rd
  stop : Bool := false
deriving DecidableEq, Repr

/-- Result of `pull`, `est_server_http.c` lines 560-606: the bytes stored in the caller's buffer
(none: the return value 0), a negative return value, or a call that does not return. -/
inductive Pulled
  | got (bs : List Nat)
  | failed
  | blocked
deriving DecidableEq, Repr

/-- The return value of `pull` after `SSL_read`, `est_server_http.c` lines 573-605. -/
def afterRead (len : Nat) (sock : List Nat) (r : Read) : Pulled :=
  match r.rd with
  | .stuck => .blocked
  | .data k =>
    if r.stop = true ∨ sock = [] then .failed else .got (sock.take (min (k + 1) len))
  | .wantRead => if r.stop = true then .failed else .got []
  | .lookup => .failed
  | .fail => .failed

/-- The part of `pull` before the reading, `est_server_http.c` line 570: a connection that must
be closed is not waited for. -/
def before (t : Nat) (must : Bool) (ps : List Pass) : Wait × List Pass :=
  if must then (.readable, ps) else waitReadable t ps

/-- How a loop over `pull` ends; `est_server_http.c` lines 638-651 and 1190-1202. -/
inductive End
  | done
  | failed
  | blocked
deriving DecidableEq, Repr

/-- Result of a loop over `pull`: what was stored, how it ended, `must_close`, and what is left
of the polls.  `est_server_http.c` lines 608-654 and 1184-1203. -/
structure Run where
  bytes : List Nat
  fin : End
  must : Bool
  passes : List Pass
deriving DecidableEq, Repr

/-- The socket part of `mg_read`, `est_server_http.c` lines 637-651, with `pull` (lines 560-606)
in it: read until `len` bytes were stored.  The list is what the calls of `SSL_read` do. -/
def bodyLoop (t len : Nat) (must : Bool) (sock : List Nat) (ps : List Pass) : List Read → Run
  | [] =>
    if len = 0 then ⟨[], .done, must, ps⟩
    else
      match before t must ps with
      | (.giveUp late, ps') => ⟨[], .failed, must || late, ps'⟩
      | (_, ps') => ⟨[], .blocked, must, ps'⟩
  | r :: rs =>
    if len = 0 then ⟨[], .done, must, ps⟩
    else
      match before t must ps with
      | (.giveUp late, ps') => ⟨[], .failed, must || late, ps'⟩
      | (.blocked, ps') => ⟨[], .blocked, must, ps'⟩
      | (.readable, ps') =>
        match afterRead len sock r with
        | .failed => ⟨[], .failed, must, ps'⟩
        | .blocked => ⟨[], .blocked, must, ps'⟩
        | .got bs =>
          let x := bodyLoop t (len - bs.length) must (sock.drop bs.length) ps' rs
          { x with bytes := bs ++ x.bytes }

/-- `read_request`, `est_server_http.c` lines 1184-1203, with `pull` (lines 560-606) in it.
`buf` holds the bytes read so far; `bytes` of the result is the whole buffer. -/
def headLoop (t siz : Nat) (must : Bool) (buf sock : List Nat) (ps : List Pass) :
    List Read → Run
  | [] =>
    if buf.length < siz ∧ HttpConn.getRequestLen buf = 0 then
      match before t must ps with
      | (.giveUp late, ps') => ⟨buf, .failed, must || late, ps'⟩
      | (_, ps') => ⟨buf, .blocked, must, ps'⟩
    else ⟨buf, .done, must, ps⟩
  | r :: rs =>
    if buf.length < siz ∧ HttpConn.getRequestLen buf = 0 then
      match before t must ps with
      | (.giveUp late, ps') => ⟨buf, .failed, must || late, ps'⟩
      | (.blocked, ps') => ⟨buf, .blocked, must, ps'⟩
      | (.readable, ps') =>
        match afterRead (siz - buf.length) sock r with
        | .failed => ⟨buf, .failed, must, ps'⟩
        | .blocked => ⟨buf, .blocked, must, ps'⟩
        | .got bs => headLoop t siz must (buf ++ bs) (sock.drop bs.length) ps' rs
    else ⟨buf, .done, must, ps⟩

/-! ### The server writes -/

/-- What `SSL_write` returns, `est_server_http.c` line 482: at most `k + 1` bytes taken, zero, a
negative value, or no return. -/
inductive Wr
  | took (k : Nat)
  | zero
  | fail
  | stuck
deriving DecidableEq, Repr

/-- Result of `push`: the bytes given to the TLS library and whether the call returned.
`est_server_http.c` lines 469-500. -/
structure Pushed where
  out : List Nat
  returned : Bool
deriving DecidableEq, Repr

/-- `push`, `est_server_http.c` lines 475-499, on the bytes not yet sent.  Simplified: fewer than
`INT_MAX` bytes, so line 479 takes all the rest. -/
def push : List Nat → List Wr → Pushed
  | [], _ => ⟨[], true⟩
  | _ :: _, [] => ⟨[], false⟩
  | _ :: _, .fail :: _ => ⟨[], true⟩
  | _ :: _, .stuck :: _ => ⟨[], false⟩
  | b :: bs, .zero :: ws => push (b :: bs) ws
  | b :: bs, .took k :: ws =>
    let x := push ((b :: bs).drop (k + 1)) ws
    { x with out := (b :: bs).take (k + 1) ++ x.out }

/-- Result of `mg_printf`, `est_server_http.c` lines 665-701: the bytes sent and the return
value, none if the call does not return. -/
structure Printed where
  out : List Nat
  ret : Option Int
deriving DecidableEq, Repr

/-- `mg_write`, `est_server_http.c` lines 656-663. -/
def mgWrite (buf : List Nat) (ws : List Wr) : Printed :=
  let x := push buf ws
  ⟨x.out, if x.returned then some x.out.length else none⟩

/-- What `vsnprintf (mem, size, …)` leaves in the first `text.length` bytes of the local buffer,
`est_server_http.c` lines 667-675: a text that does not fit loses its tail to the terminating
NUL. -/
def localBuf (size : Nat) (text : List Nat) : List Nat :=
  if text.length < size then text else text.take (size - 1) ++ [0]

/-- `mg_printf`, `est_server_http.c` lines 665-701, for the formatted text; `mem` says whether
`malloc` succeeds (line 683).  Not modelled: an error of `vsnprintf` (lines 679-682). -/
def mgPrintf (mem : Bool) (text : List Nat) (ws : List Wr) : Printed :=
  if text.length = 0 then ⟨[], some 0⟩
  else if 8192 < text.length then
    if mem then mgWrite text ws else ⟨[], some (-1)⟩
  else mgWrite (localBuf 8192 text) ws

/-! ### The client reads -/

/-- What `SSL_read` does on the client, `est_client_http.c` line 1495.  `data k` hands out at
most `k + 1` bytes of what the server sent, and 0 when nothing is left: the server has closed
the connection.  `cut` is a connection that ends early and for which the library returns 0. -/
inductive CRd
  | data (k : Nat)
  | cut
  | fail
  | stuck
deriving DecidableEq, Repr

/-- One call of `est_ssl_read`, `est_client_http.c` lines 1486-1496: the poll runs into the
time-out, fails (also when a signal comes in), or finds something after `ms` milliseconds. -/
inductive Turn
  | silent
  | pollFail
  | ready (ms : Nat) (rd : CRd)
deriving DecidableEq, Repr

/-- Return value of `est_ssl_read`, `est_client_http.c` lines 1468-1497, with the bytes stored in
the buffer. -/
inductive SslRead
  | got (bs : List Nat)
  | failed
  | blocked
deriving DecidableEq, Repr

/-- `est_ssl_read`, `est_client_http.c` lines 1487-1496. -/
def sslRead (room : Nat) (sock : List Nat) : Turn → SslRead
  | .silent => .failed
  | .pollFail => .failed
  | .ready _ (.data k) => .got (sock.take (min (k + 1) room))
  | .ready _ .cut => .got []
  | .ready _ .fail => .failed
  | .ready _ .stuck => .blocked

/-- The return values of `est_io_read_raw`, `est_client_http.c` lines 1515, 1529, 1536 and 1539;
`blocked` if it does not return. -/
inductive Raw
  | none
  | sslRead
  | tooSmall
  | blocked
deriving DecidableEq, Repr

/-- What `est_io_read_raw` leaves behind: the return value, the first `*read_cnt` bytes of the
buffer, and the calls not made.  `est_client_http.c` lines 1504-1540. -/
structure RawRes where
  ret : Raw
  buf : List Nat
  rest : List Turn
deriving DecidableEq, Repr

/-- The end of `est_io_read_raw`, `est_client_http.c` lines 1534-1539; `peek` is what `SSL_peek`
returns, none if it does not return. -/
def finish (max : Nat) (peek : Option Int) (buf : List Nat) : Raw :=
  if buf.length = max then
    match peek with
    | some n => if n ≠ 0 then .tooSmall else .none
    | Option.none => .blocked
  else .none

/-- `est_io_read_raw`, `est_client_http.c` lines 1510-1539; `buf` holds what was read so far.
The first call (lines 1511-1517) and the following ones (lines 1523-1532) do the same. -/
def readRaw (max : Nat) (peek : Option Int) (buf sock : List Nat) : List Turn → RawRes
  | [] => ⟨.blocked, buf, []⟩
  | e :: es =>
    match sslRead (max - buf.length) sock e with
    | .failed => ⟨.sslRead, buf, es⟩
    | .blocked => ⟨.blocked, buf, es⟩
    | .got [] => ⟨finish max peek buf, buf, es⟩
    | .got (b :: bs) =>
      if (buf ++ b :: bs).length < max then
        readRaw max peek (buf ++ b :: bs) (sock.drop (bs.length + 1)) es
      else ⟨finish max peek (buf ++ b :: bs), buf ++ b :: bs, es⟩

/-- Milliseconds one call of `est_ssl_read` waits in `poll`, `est_client_http.c` lines 1479 and
1487; `t` is the time-out in seconds.  A failing poll is taken to return at once. -/
def Turn.ms (t : Nat) : Turn → Nat
  | .silent => t * 1000
  | .pollFail => 0
  | .ready ms _ => ms

end Verif.Io
