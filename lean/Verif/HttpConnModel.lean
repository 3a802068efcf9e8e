/-!
# Model of the server's HTTP connection loop

Source: `/repo/src/est/est_server_http.c`:
`pull` 560-606, `mg_read` 608-654, `get_request_len` 735-759, `read_request`
1184-1203, `est_mg_handler` 1211-1256, `process_new_connection` 1510-1600.

The socket is a byte stream; how many bytes each call of `pull` delivers, and
whether it fails, is decided by an arbitrary list of events.
-/
namespace Verif.HttpConn

/-- Characters that make `get_request_len` give up: not printable, not CR or LF,
and below 128 (`est_server_http.c` lines 746-747; `isprint` in the C locale is 32..126). -/
def badChar (c : Nat) : Bool :=
  !(32 ≤ c && c ≤ 126) && c != 13 && c != 10 && c < 128

/-- `get_request_len (buf, buflen)`, `est_server_http.c` lines 739-759.  `pos` is `s - buf`; the list
is the rest of the buffer from `s` on. -/
def reqLenFrom (pos : Nat) : List Nat → Int
  | [] => 0
  | [_] => 0
  | c :: d :: rest =>
    if badChar c then -1
    else if c = 10 ∧ d = 10 then (pos : Int) + 2
    else if c = 10 ∧ d = 13 ∧ rest.head? = some 10 then (pos : Int) + 3
    else reqLenFrom (pos + 1) (d :: rest)

/-- get_request_len, `est_server_http.c` lines 739-759. -/
def getRequestLen (buf : List Nat) : Int := reqLenFrom 0 buf

/-- Outcome of one call of `pull` (`est_server_http.c` lines 560-606): an error (negative return), or
up to `k` bytes are available (`avail 0` is the retry case, lines 579-587). -/
inductive Ev
  | err
  | avail (k : Nat)
deriving DecidableEq, Repr

/-- Result of `read_request`: `blocked` means that the event list is used up, the
call would wait for further input.  (`est_server_http.c` lines 1184-1203; the waiting
is line 570.). -/
inductive ReadRes
  | blocked
  | ret (r : Int)
deriving DecidableEq, Repr

/-- Result of read_request with what is left of the stream and of the events,
`est_server_http.c` lines 1184-1203. -/
structure RR where
  res : ReadRes
  buf : List Nat
  sock : List Nat
  evs : List Ev
deriving DecidableEq, Repr

/-- `read_request`, `est_server_http.c` lines 1184-1203.  `buf` holds the `*nread` bytes buffered so
far; `bufsiz` is the buffer size. -/
def readRequest (bufsiz : Nat) (buf sock : List Nat) : List Ev → RR
  | [] =>
    if buf.length < bufsiz ∧ getRequestLen buf = 0 then ⟨.blocked, buf, sock, []⟩
    else ⟨.ret (getRequestLen buf), buf, sock, []⟩
  | ev :: evs =>
    if buf.length < bufsiz ∧ getRequestLen buf = 0 then
      match ev with
      | .err => ⟨.ret (-1), buf, sock, evs⟩
      | .avail k =>
        let n := min k (bufsiz - buf.length)
        readRequest bufsiz (buf ++ sock.take n) (sock.drop n) evs
    else ⟨.ret (getRequestLen buf), buf, sock, ev :: evs⟩

/-- The part of `struct mg_connection` used by `mg_read`.  (`est_server_http.h` `struct
mg_connection`; used in `est_server_http.c` lines 616-645.). -/
structure Conn where
  buf : List Nat          -- the `data_len` buffered bytes
  requestLen : Nat
  contentLen : Int
  consumed : Nat
deriving DecidableEq, Repr

/-- How the socket part of `mg_read` ended.  (`est_server_http.c` lines 638-651.). -/
inductive PullEnd
  | done
  | err
  | blocked
deriving DecidableEq, Repr

/-- The socket part of `mg_read`, `est_server_http.c` lines 637-651: read until `len` bytes were
delivered.  Result: bytes stored, how it ended, rest of the socket stream and of
the events.  `blocked`: the events are used up, the real call would wait. -/
def pullLoop (len : Nat) (sock : List Nat) : List Ev → List Nat × PullEnd × List Nat × List Ev
  | [] => if len = 0 then ([], .done, sock, []) else ([], .blocked, sock, [])
  | ev :: evs =>
    if len = 0 then ([], .done, sock, ev :: evs)
    else
      match ev with
      | .err => ([], .err, sock, evs)
      | .avail k =>
        let chunk := sock.take (min k len)
        let r := pullLoop (len - chunk.length) (sock.drop (min k len)) evs
        (chunk ++ r.1, r.2.1, r.2.2)

/-- Result of mg_read, `est_server_http.c` lines 608-654. -/
structure MR where
  bytes : List Nat        -- what was stored in the caller's buffer
  fin : PullEnd           -- `err`: `pull` failed, the return value is negative
  conn : Conn
  sock : List Nat
  evs : List Ev
deriving DecidableEq, Repr

/-- `mg_read (conn, buf, len)`, `est_server_http.c` lines 608-654.  The pointer arithmetic for the
buffered part (lines 624-625) gives a negative count once `consumed_content` has
passed the buffered bytes; `drop` then yields the empty list. -/
def mgRead (c : Conn) (len : Nat) (sock : List Nat) (evs : List Ev) : MR :=
  if (c.consumed : Int) < c.contentLen then
    let toRead := (c.contentLen - c.consumed).toNat
    let len := if toRead < len then toRead else len
    let avail := c.buf.drop (c.requestLen + c.consumed)
    let b := avail.take len
    let r := pullLoop (len - b.length) sock evs
    { bytes := b ++ r.1
      fin := r.2.1
      conn := { c with consumed := c.consumed + b.length + r.1.length }
      sock := r.2.2.1
      evs := r.2.2.2 }
  else { bytes := [], fin := .done, conn := c, sock := sock, evs := evs }

/-- What the EST layer is called with (`est_mg_handler`, `est_server_http.c` lines 1211-1256): the
request header, the number of body bytes announced (`cl`), and the bytes that
were really stored in the body buffer.  The return value of `mg_read` is ignored
(line 1231), so `stored` may be shorter than `cl`. -/
structure Handled where
  header : List Nat
  cl : Nat
  stored : List Nat
deriving DecidableEq, Repr

/-- The length discarded after a request, `est_server_http.c` lines 1584-1587.  `none` is the signed
overflow of `request_len + content_len` (`int64_t`). -/
def discardLen (requestLen : Nat) (contentLen : Int) (dataLen : Nat) : Option Nat :=
  if contentLen ≥ 0 then
    if requestLen + contentLen > 9223372036854775807 then none
    else if requestLen + contentLen < dataLen then some (requestLen + contentLen.toNat)
    else some dataLen
  else some dataLen

/-- What the header parser tells the loop about a request: whether it is a
parsable HTTP/1.0 or 1.1 request (`est_server_http.c` lines 1534-1544), `conn->content_len` (lines
1547-1554), and whether `should_keep_alive` holds after it was served (line
1582).  It is an arbitrary function of the header bytes in the theorems. -/
structure HdrInfo where
  ok : Bool
  contentLen : Int
  keepAlive : Bool

/-- `EST_MAX_CONTENT_LEN`, `est_locl.h` line 72. -/
def maxContentLen : Int := 8192

/-- State of the connection loop between two requests.  (`est_server_http.c` lines
1521-1600: `conn->buf` with `conn->data_len`, and the socket.). -/
structure CState where
  buf : List Nat
  sock : List Nat
  evs : List Ev
deriving DecidableEq, Repr

/-- Effect of one pass of the loop.  (`est_server_http.c` lines 1522-1599.). -/
structure COut where
  item : Option Handled     -- the EST layer was called with this
  next : Option CState      -- `none`: the connection is closed (or waits for ever)

/-- One pass of the loop of `process_new_connection`, `est_server_http.c` lines 1522-1599.  Requests
that are refused get an error status (400, 413, 505) or `must_close`, for which
`should_keep_alive` is false, so the loop ends.  `none` is undefined
behaviour. -/
def connStep (info : List Nat → HdrInfo) (bufsiz : Nat) (s : CState) : Option COut :=
  let rr := readRequest bufsiz s.buf s.sock s.evs
  match rr.res with
  | .blocked => some ⟨none, none⟩
  | .ret r =>
    if r ≤ 0 then some ⟨none, none⟩
    else
      let hdr := rr.buf.take r.toNat
      let hi := info hdr
      if !hi.ok || hi.contentLen > maxContentLen || hi.contentLen < 0 then
        (discardLen r.toNat hi.contentLen rr.buf.length).map fun _ => ⟨none, none⟩
      else
        let m := mgRead ⟨rr.buf, r.toNat, hi.contentLen, 0⟩ hi.contentLen.toNat rr.sock rr.evs
        if m.fin = .blocked then some ⟨none, none⟩
        else
          let item : Handled := ⟨hdr, hi.contentLen.toNat, m.bytes⟩
          (discardLen r.toNat hi.contentLen rr.buf.length).map fun d =>
            ⟨some item,
             if hi.keepAlive then some ⟨rr.buf.drop d, m.sock, m.evs⟩ else none⟩

/-- `fuel` passes of the loop; the list of calls into the EST layer.  (The `do … while`
of `est_server_http.c` lines 1522-1599.). -/
def connRun (info : List Nat → HdrInfo) (bufsiz : Nat) : Nat → CState → Option (List Handled)
  | 0, _ => some []
  | fuel + 1, s =>
    match connStep info bufsiz s with
    | none => none
    | some o =>
      let rest := match o.next with
        | none => some []
        | some s' => connRun info bufsiz fuel s'
      rest.map (o.item.toList ++ ·)

end Verif.HttpConn
