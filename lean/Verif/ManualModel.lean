import Verif.DispatchModel

/-!
# Manual approval in the sample server

`example/server/estserver.c`: the table in which the sample server remembers the public keys of
requests that wait for an operator, in the two forms in which it is compiled (a search tree of
the C library, a linked list), the two CA callbacks that use it, and the server running over
many requests with this state between them.
-/

namespace Verif.Manual

open Verif.Server

/-! ## The order of the keys -/

/-- `memcmp` of two blocks of equal length, as used by `compare`, `estserver.c` lines 305-316.
The C library may return any number with the right sign; here it is -1, 0 or 1. -/
def memcmp : List Nat → List Nat → Int
  | a :: as, b :: bs => if a = b then memcmp as bs else if a < b then -1 else 1
  | _, _ => 0

/-- `compare`, `estserver.c` lines 305-316 (and lines 434-441 of the other build).  An entry is
its `data`; `length` is the length of the list. -/
def cmp (a b : List Nat) : Int :=
  if a.length > b.length then 1
  else if a.length < b.length then -1
  else memcmp a b

/-! ## The tree of the C library -/

/-- What `lookup_root` points to in `estserver.c` lines 293-297: a search tree of the C library
(`<search.h>`).  Simplified: a plain search tree; the C library may also rebalance it, which
changes no answer. -/
inductive Tree
  | nil
  | node (l : Tree) (k : List Nat) (r : Tree)
deriving DecidableEq, Repr

/-- `tfind`, called in `estserver.c` lines 380-381: the comparison is given the wanted entry
first and the entry of the tree second. -/
def tfind (n : List Nat) : Tree → Bool
  | .nil => false
  | .node l k r =>
    if cmp n k = 0 then true else if cmp n k < 0 then tfind n l else tfind n r

/-- `tsearch` for an entry that is not in the tree, called in `estserver.c` lines 390-393. -/
def tsearch (n : List Nat) : Tree → Tree
  | .nil => .node .nil n .nil
  | .node l k r =>
    if cmp n k = 0 then .node l k r
    else if cmp n k < 0 then .node (tsearch n l) k r
    else .node l k (tsearch n r)

/-- The leftmost entry of a tree and the rest; a step of `tdelete`, which is called in
`estserver.c` lines 381-385. -/
def popMin : Tree → List Nat → Tree → List Nat × Tree
  | .nil, k, r => (k, r)
  | .node l' k' r', k, r =>
    let m := popMin l' k' r'
    (m.1, .node m.2 k r)

/-- A tree node with these two subtrees and no entry of its own any more; a step of `tdelete`,
which is called in `estserver.c` lines 381-385. -/
def join (l r : Tree) : Tree :=
  match l, r with
  | .nil, r => r
  | l, .nil => l
  | l, .node rl rk rr =>
    let m := popMin rl rk rr
    .node l m.1 m.2

/-- `tdelete`, called in `estserver.c` lines 381-385. -/
def tdelete (n : List Nat) : Tree → Tree
  | .nil => .nil
  | .node l k r =>
    if cmp n k = 0 then join l r
    else if cmp n k < 0 then .node (tdelete n l) k r
    else .node l k (tdelete n r)

/-! ## The linked list -/

/-- `search_list`, `estserver.c` lines 450-465: the comparison is given the entry of the list
first. -/
def searchList (n : List Nat) : List (List Nat) → Bool
  | [] => false
  | k :: ks => if cmp k n = 0 then true else searchList n ks

/-- `delete_lookup_entry`, `estserver.c` lines 467-501, for an entry that is in the list. -/
def deleteEntry (n : List Nat) : List (List Nat) → List (List Nat)
  | [] => []
  | k :: ks => if cmp k n = 0 then ks else k :: deleteEntry n ks

/-- `add_entry`, `estserver.c` lines 503-521, and the first entry, lines 614-622. -/
def addEntry (l : List (List Nat)) (n : List Nat) : List (List Nat) :=
  match l with
  | [] => [n]
  | k :: ks => k :: addEntry ks n

/-! ## The lookup -/

/-- The table and the number of memory blocks the lookup has allocated and not released.
`estserver.c` lines 293-297 and 421-432. -/
structure Tab (T : Type) where
  tab : T
  live : Nat
deriving DecidableEq, Repr

/-- `lookup_pkcs10_request` with the tree, `estserver.c` lines 329-408.  `key` is the PEM text
of the public key of a request, absent if the request cannot be decoded or has no key.  Two
blocks are allocated for the new entry.  If the key is found these two are released again; the
entry that was in the tree is not.  Simplified: the allocations succeed (they are not checked),
and the objects of OpenSSL are not counted. -/
def lookupTree (key : List Nat → Option (List Nat)) (st : Tab Tree) (p10 : List Nat) :
    Bool × Tab Tree :=
  match key p10 with
  | none => (true, st)
  | some n =>
    if tfind n st.tab then (true, ⟨tdelete n st.tab, st.live + 2 - 2⟩)
    else (false, ⟨tsearch n st.tab, st.live + 2⟩)

/-- `lookup_pkcs10_request` with the list, `estserver.c` lines 549-638.  If the key is found
the two blocks of the entry in the list are released, lines 443-448, and those of the new entry.
Simplified as `lookupTree`. -/
def lookupList (key : List Nat → Option (List Nat)) (st : Tab (List (List Nat)))
    (p10 : List Nat) : Bool × Tab (List (List Nat)) :=
  match key p10 with
  | none => (true, st)
  | some n =>
    if searchList n st.tab then (true, ⟨deleteEntry n st.tab, st.live + 2 - 2 - 2⟩)
    else (false, ⟨addEntry st.tab n, st.live + 2⟩)

/-! ## The CA callbacks -/

/-- What the callback leaves in its output arguments: an answer, or a positive length without a
buffer.  `estserver.c` lines 802-814. -/
inductive Given
  | res (r : CaRes)
  | hole

/-- One run of the callback: whether the CA was asked to sign, what was handed back, the table
afterwards.  The outcome of `estserver.c` lines 702-815. -/
structure Turn (σ : Type) where
  asked : Bool
  got : Given
  st : σ

/-- The end of `process_pkcs10_enrollment`, `estserver.c` lines 802-814: the output of the CA
is copied if it is shorter than MAX_CERT_LEN (8192).  No output object counts as no bytes. -/
def handBack (out : Option (List Nat)) : Given :=
  match out with
  | none => .res ⟨.none, []⟩
  | some b =>
    if b.length = 0 then .res ⟨.none, []⟩
    else if b.length < 8192 then .res ⟨.none, b⟩
    else .hole

/-- `process_pkcs10_enrollment`, `estserver.c` lines 702-815, and
`process_srvr_side_keygen_pkcs10_enrollment`, lines 904-1016, which does the same and leaves the
key alone.  `sign` is `ossl_simple_enroll`.  The messages and the copy of the request in a file
are left out. -/
def process {σ : Type} (look : σ → List Nat → Bool × σ) (manual : Bool)
    (sign : List Nat → Option (List Nat)) (st : σ) (p10 : List Nat) : Turn σ :=
  if manual then
    let l := look st p10
    if l.1 then ⟨true, handBack (sign p10), l.2⟩
    else ⟨false, .res ⟨.caEnrollRetry, []⟩, l.2⟩
  else ⟨true, handBack (sign p10), st⟩

/-- The answer of the callback as the library reads it; a missing buffer is dealt with in
`serve`.  `estserver.c` lines 802-814. -/
def Given.ans : Given → CaRes
  | .res r => r
  | .hole => ⟨.none, []⟩

/-! ## The server over many requests -/

/-- Which handler of the library the request reaches.  The three callbacks that the sample
server registers, `estserver.c` lines 2435-2459. -/
inductive Kind
  | enroll | reenroll | keygen
deriving DecidableEq, Repr

/-- One request: its connection and content, the settings in force, the key generation and the
CA as they are at that moment.  What the handlers of `est_server.c` lines 1630-2235 read. -/
structure Ask where
  kind : Kind
  cfg : Cfg
  tls : Tls
  net : Net
  rq : Req
  gen : KeygenCfg
  mp : Multi
  bodyOut : Nat → Nat
  sign : List Nat → Option (List Nat)

/-- The call of the CA callback among the effects of a handler; there is at most one.  The
calls in `est_server.c` lines 1758-1790 and 2081-2085. -/
def caCall : List Ev → Option CaReq
  | [] => none
  | .ca _ q :: _ => some q
  | _ :: es => caCall es

/-- The handler of the library with the callbacks of the sample server in the state `st`,
`est_server.c` lines 1630-2235 and `estserver.c` lines 2435-2459. -/
def handle {σ : Type} (look : σ → List Nat → Bool × σ) (manual : Bool)
    (parse : List Nat → Option Csr) (st : σ) (a : Ask) : Option Out :=
  let cb : CaReq → CaRes := fun q => (process look manual a.sign st q.body).got.ans
  match a.kind with
  | .enroll =>
    simpleEnroll { a.cfg with enrollCb := some cb, reenrollCb := some cb } a.tls a.net parse
      false a.rq
  | .reenroll =>
    simpleEnroll { a.cfg with enrollCb := some cb, reenrollCb := some cb } a.tls a.net parse
      true a.rq
  | .keygen =>
    serverKeygen a.cfg { a.gen with caCb := some fun q k => (cb q, k) } a.mp a.tls a.net
      a.bodyOut parse a.rq

/-- What one request comes to: the outcome of the handler, and the request the CA was asked to
sign, if it was.  The outcome of `est_server.c` lines 1630-2235. -/
structure Done where
  out : Out
  signed : Option (List Nat)

/-- One request to the sample server, `est_server.c` lines 1630-2235 with the callbacks of
`estserver.c` lines 702-815 and 904-1017.  The callback leaves the table as `process` says if it
was called.  A positive length without a buffer is undefined: the library goes on to read
through a pointer nobody has set, `est_server.c` line 1641 and lines 1786-1830 (in a key
generation through a null pointer).  Over CoAP the reading is done by the caller of the handler;
the model does not tell the two apart. -/
def serve {σ : Type} (look : σ → List Nat → Bool × σ) (manual : Bool)
    (parse : List Nat → Option Csr) (st : σ) (a : Ask) : Option (Done × σ) :=
  match handle look manual parse st a with
  | none => none
  | some o =>
    match caCall o.evs with
    | none => some (⟨o, none⟩, st)
    | some q =>
      let t := process look manual a.sign st q.body
      match t.got with
      | .hole => none
      | .res _ => some (⟨o, if t.asked then some q.body else none⟩, t.st)

/-- Many requests one after the other, `est_server.c` lines 1630-2235.  Simplified: the
requests do not overlap (the table is used outside the lock of `estserver.c` lines 773-797). -/
def run {σ : Type} (look : σ → List Nat → Bool × σ) (manual : Bool)
    (parse : List Nat → Option Csr) : σ → List Ask → Option (List Done × σ)
  | st, [] => some ([], st)
  | st, a :: as =>
    match serve look manual parse st a with
    | none => none
    | some (d, st1) =>
      match run look manual parse st1 as with
      | none => none
      | some (ds, st2) => some (d :: ds, st2)

/-- The empty table of the first build, `estserver.c` lines 297-297. -/
def emptyTree : Tab Tree := ⟨.nil, 0⟩

/-- The empty table of the second build, `estserver.c` lines 432-432. -/
def emptyList : Tab (List (List Nat)) := ⟨[], 0⟩

end Verif.Manual
