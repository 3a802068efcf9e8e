/-!
# Model of the proxy's table of client contexts

Source: `/repo/src/est/est_proxy.c` lines 44-71 (`cur_max_ctx_array`, `bsearch_compare`),
79-218 (`get_client_ctx`), 224-240 (`proxy_cleanup`), 2221-2222 (`est_proxy_init`);
`est_locl.h` lines 308-313.

The table size is one variable for all proxy contexts of the process.  A client context is
represented by a number.  Memory is never exhausted and the size stays below `INT_MAX`.
Calls are taken one after the other: there is no lock in the code.
-/
namespace Verif.ProxyTable

/-- `CLIENT_CTX_LU_NODE_T`: thread id and context, 0 and NULL for an unused entry.
`est_locl.h` lines 310-313. -/
structure Node where
  tid : Nat
  ctx : Option Nat
deriving DecidableEq, Repr

/-- The library's state: `cur_max_ctx_array`, the tables of the proxy contexts created so far
(`none` once destroyed), and the number of the next client context.  The variable is
`est_proxy.c` line 50; the tables are allocated at lines 2221-2222. -/
structure World where
  curMax : Nat
  tables : List (Option (List Node))
  next : Nat
deriving DecidableEq, Repr

/-- `INITIAL_PROXY_CLIENT_CTXS` is 8.  `est_locl.h` line 308, `est_proxy.c` line 50. -/
def World.init : World := ⟨8, [], 0⟩

/-- Result of `bsearch`; `ub` is a read behind the array.  bsearch is called in
`est_proxy.c` lines 104-117. -/
inductive Found
  | ub
  | no
  | here (i : Nat)
deriving DecidableEq, Repr

/-- `bsearch` with `bsearch_compare` (`est_proxy.c` lines 57-71) over the entries from `l` up to `u`,
as in the C library. -/
def search (arr : List Node) (key : Nat) : Nat → Nat → Nat → Found
  | 0, _, _ => .no
  | fuel + 1, l, u =>
    if l < u then
      match arr[(l + u) / 2]? with
      | none => .ub
      | some n =>
        if key > n.tid then search arr key fuel ((l + u) / 2 + 1) u
        else if key < n.tid then search arr key fuel l ((l + u) / 2)
        else .here ((l + u) / 2)
    else .no

/-- `bsearch (&key, arr, size, …)`.  Called in `est_proxy.c` lines 104-117. -/
def bsearch (arr : List Node) (size key : Nat) : Found := search arr key (size + 1) 0 size

/-- Insertion into a sorted list.  Auxiliary to qsort, called in `est_proxy.c` lines
172-208. -/
def insert (n : Node) : List Node → List Node
  | [] => [n]
  | m :: ms => if n.tid ≤ m.tid then n :: m :: ms else m :: insert n ms

/-- `qsort` with `bsearch_compare`.  Called in `est_proxy.c` lines 172-208; the order is
that of lines 57-71. -/
def sort : List Node → List Node
  | [] => []
  | n :: ns => insert n (sort ns)

/-- `qsort (arr, size, …)`; `none` if the array is shorter.  Called in `est_proxy.c`
lines 172-208. -/
def qsort (arr : List Node) (size : Nat) : Option (List Node) :=
  if size ≤ arr.length then some (sort (arr.take size) ++ arr.drop size) else none

/-- `est_proxy.c` lines 172-197: a table of twice the size; the entries are copied and sorted.  Result: new
size, table, and the index of an unused entry. -/
def grow (arr : List Node) (size : Nat) : Option (Nat × List Node × Nat) :=
  if arr.length < size then none
  else
    match qsort (arr.take size ++ List.replicate size ⟨0, none⟩) (size * 2) with
    | none => none
    | some arr' =>
      match bsearch arr' (size * 2) 0 with
      | .here i => some (size * 2, arr', i)
      | _ => none

/-- `est_proxy.c` lines 200-208: the entry is filled in and the table sorted. -/
def fill (arr : List Node) (size i key ctx : Nat) : Option (List Node) :=
  qsort (arr.set i ⟨key, some ctx⟩) size

/-- `get_client_ctx`, `est_proxy.c` lines 79-218, for proxy context `p` on the thread with this key.
`setup`: do `est_client_init` and the configuration functions succeed (lines 118-158)?
Result: the context (`none` for NULL) and the state.  The outer `none` is undefined
behaviour. -/
def getCtx (w : World) (p key : Nat) (setup : Bool) : Option (Option Nat × World) :=
  match w.tables[p]? with
  | some (some arr) =>
    match bsearch arr w.curMax key with
    | .ub => none
    | .here i =>
      match arr[i]? with
      | some n => some (n.ctx, w)
      | none => none
    | .no =>
      if !setup then some (none, w)
      else
        let space :=
          match bsearch arr w.curMax 0 with
          | .ub => none
          | .here i => some (w.curMax, arr, i)
          | .no => grow arr w.curMax
        match space with
        | none => none
        | some (size, arr', i) =>
          match fill arr' size i key w.next with
          | none => none
          | some arr'' =>
            some (some w.next,
              { w with
                  curMax := size
                  tables := w.tables.set p (some arr'')
                  next := w.next + 1 })
  | _ => none

/-- The key of a thread, `est_proxy.c` lines 104-107: thread id plus process id, as `unsigned long`. -/
def threadKey (self pid : Nat) : Nat := (self + pid) % 2 ^ 64

/-- The table part of `est_proxy_init`, `est_proxy.c` lines 2221-2222. -/
def initProxy (w : World) : World :=
  { w with tables := w.tables ++ [some (List.replicate w.curMax ⟨0, none⟩)] }

/-- `proxy_cleanup`, `est_proxy.c` lines 224-240: the contexts destroyed, and the state. -/
def cleanup (w : World) (p : Nat) : Option (List Nat × World) :=
  match w.tables[p]? with
  | some (some arr) =>
    if arr.length < w.curMax then none
    else some ((arr.take w.curMax).filterMap Node.ctx, { w with tables := w.tables.set p none })
  | some none => some ([], w)
  | none => none

/-- What the process does with one proxy context.  `est_proxy.c` lines 79-240 and
2221-2222. -/
inductive Op
  | init
  | get (p key : Nat) (setup : Bool)
  | cleanup (p : Nat)
deriving DecidableEq, Repr

/-- Answers of the operations.  The results of `est_proxy.c` lines 79-240. -/
inductive Ans
  | unit
  | ctx (c : Option Nat)
  | destroyed (cs : List Nat)
deriving DecidableEq, Repr

/-- `est_proxy.c` lines 79-240 and 2221-2222. -/
def step (w : World) : Op → Option (Ans × World)
  | .init => some (.unit, initProxy w)
  | .get p key setup => (getCtx w p key setup).map fun r => (.ctx r.1, r.2)
  | .cleanup p => (cleanup w p).map fun r => (.destroyed r.1, r.2)

/-- A sequence of calls; `none` as soon as one is undefined.  Calls of `est_proxy.c`
lines 79-240 and 2221-2222. -/
def run (w : World) : List Op → Option (List Ans × World)
  | [] => some ([], w)
  | o :: os =>
    match step w o with
    | none => none
    | some (a, w') => (run w' os).map fun r => (a :: r.1, r.2)

end Verif.ProxyTable
