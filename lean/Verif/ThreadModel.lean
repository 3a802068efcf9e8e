import Verif.ProxyTableModel

/-!
# Model of requests that are handled at the same time

Source: `/repo/src/est/est_server.c` 2283-2343 (`est_handle_csr_attrs`),
`/repo/src/est/est_proxy.c` 1448-1469 (`est_proxy_handle_csr_attrs`) and 79-218
(`get_client_ctx`), `/repo/example/server/estserver.c` 596-626 (`lookup_pkcs10_request`).

The library has no lock.  The threads of an application call `est_server_handle_request` with
one context, so their steps interleave.  A schedule is the list of the numbers of the threads
in the order in which they make a step.  A step is one access to the shared data, or one call
of `bsearch`, `qsort` or a list function; in reality these calls can be interrupted as well.
Memory is taken to be sequentially consistent.
-/
namespace Verif.Thread

/-! ### The flag of the CSR attributes -/

/-- Where a thread is in the handling of a request for CSR attributes: before line 2295 of
`est_server.c`, before line 2306, before line 2308, behind it (was challengePassword added?).
The proxy does the same in `est_proxy.c` lines 1448, 1467 and 1469. -/
inductive APc
  | start
  | zeroed
  | stored
  | done (added : Bool)
deriving DecidableEq, Repr

/-- `ctx->csr_pop_present` and the threads, `est_server.c` lines 2295-2308. -/
structure Attr where
  flag : Bool
  pcs : List APc
deriving DecidableEq, Repr

/-- One step of thread `i`, `est_server.c` lines 2295-2308, on a server that asks for proof of
possession.  `has` says for each thread whether the attributes its callback returned contain
challengePassword already (`pop_present`, line 2297). -/
def attrStep (has : List Bool) (s : Attr) (i : Nat) : Attr :=
  match s.pcs[i]?, has[i]? with
  | some .start, some _ => ⟨false, s.pcs.set i .zeroed⟩
  | some .zeroed, some h => ⟨h, s.pcs.set i .stored⟩
  | some .stored, some _ => ⟨s.flag, s.pcs.set i (.done (!s.flag))⟩
  | _, _ => s

/-- The steps of a schedule.  `est_server.c` lines 2295-2308. -/
def attrRun (has : List Bool) (s : Attr) (sched : List Nat) : Attr :=
  sched.foldl (attrStep has) s

/-- All threads at the beginning.  `est_server.c` line 2283. -/
def attrInit (flag : Bool) (n : Nat) : Attr := ⟨flag, List.replicate n .start⟩

/-! ### The table of the proxy -/

/-- Where a thread is in `get_client_ctx`, `est_proxy.c` lines 106-217: at the beginning; with a
pointer to the found entry (line 214; the array it points into has a number); with a new client
context `c` (line 164); with the index of an unused entry (line 198); with the thread id written
(line 204); with both written (line 206); at the end. -/
inductive TPc
  | start
  | found (gen idx : Nat)
  | fresh (c : Nat)
  | slot (c idx : Nat)
  | named (c idx : Nat)
  | filled (c : Nat)
  | done (c : Option Nat)
deriving DecidableEq, Repr

/-- The shared data of `get_client_ctx` and the threads.  `gen` counts the arrays allocated, an
older one has been released (`est_proxy.c` lines 180-186). -/
structure Tab where
  gen : Nat
  size : Nat
  arr : List ProxyTable.Node
  next : Nat
  pcs : List TPc
deriving DecidableEq, Repr

/-- One step of thread `i` with key `k`, `est_proxy.c` lines 106-217; `none` is undefined
behaviour.  The new client context (lines 116-162) is taken to be set up without failure, and
growing the table (lines 173-197) is one step. -/
def tabStepAt (s : Tab) (i k : Nat) : TPc → Option Tab
  | .start =>
    match ProxyTable.bsearch s.arr s.size k with
    | .ub => none
    | .here j => some { s with pcs := s.pcs.set i (.found s.gen j) }
    | .no => some { s with next := s.next + 1, pcs := s.pcs.set i (.fresh s.next) }
  | .found g j =>
    if g = s.gen then
      match s.arr[j]? with
      | some n => some { s with pcs := s.pcs.set i (.done n.ctx) }
      | none => none
    else none
  | .fresh c =>
    match ProxyTable.bsearch s.arr s.size 0 with
    | .ub => none
    | .here j => some { s with pcs := s.pcs.set i (.slot c j) }
    | .no =>
      match ProxyTable.grow s.arr s.size with
      | none => none
      | some (size, arr, j) =>
        some { s with gen := s.gen + 1, size := size, arr := arr, pcs := s.pcs.set i (.slot c j) }
  | .slot c j =>
    match s.arr[j]? with
    | some n => some { s with arr := s.arr.set j ⟨k, n.ctx⟩, pcs := s.pcs.set i (.named c j) }
    | none => none
  | .named c j =>
    match s.arr[j]? with
    | some n => some { s with arr := s.arr.set j ⟨n.tid, some c⟩, pcs := s.pcs.set i (.filled c) }
    | none => none
  | .filled c =>
    match ProxyTable.qsort s.arr s.size with
    | some arr => some { s with arr := arr, pcs := s.pcs.set i (.done (some c)) }
    | none => none
  | .done _ => some s

/-- One step of thread `i`; `keys` are the keys of the threads.  `est_proxy.c` lines 79-218. -/
def tabStep (keys : List Nat) (s : Tab) (i : Nat) : Option Tab :=
  match s.pcs[i]?, keys[i]? with
  | some pc, some k => tabStepAt s i k pc
  | _, _ => some s

/-- The steps of a schedule; `none` as soon as one is undefined.  `est_proxy.c` lines 79-218. -/
def tabRun (keys : List Nat) (s : Tab) : List Nat → Option Tab
  | [] => some s
  | i :: is =>
    match tabStep keys s i with
    | none => none
    | some s' => tabRun keys s' is

/-! ### The list of the sample server -/

/-- Where a thread is in `lookup_pkcs10_request`, `estserver.c` lines 601-626: before the search;
with a match (line 605); without one (line 614); about to make its entry the first one (line
618); at the end, with the return value. -/
inductive MPc
  | start
  | hit
  | miss
  | root
  | done (signed : Bool)
deriving DecidableEq, Repr

/-- The list behind `lookup_root`, by its keys, and the threads.  `estserver.c` lines 596-626. -/
structure Man where
  list : List Nat
  pcs : List MPc
deriving DecidableEq, Repr

/-- One step of thread `i` with key `k`, `estserver.c` lines 601-626.  Simplified: the list is
followed by its keys; a thread that runs along it while another one releases an entry is not
followed. -/
def manStepAt (s : Man) (i k : Nat) : MPc → Man
  | .start => ⟨s.list, s.pcs.set i (if k ∈ s.list then .hit else .miss)⟩
  | .hit => ⟨s.list.erase k, s.pcs.set i (.done true)⟩
  | .miss =>
    if s.list = [] then ⟨s.list, s.pcs.set i .root⟩
    else ⟨s.list ++ [k], s.pcs.set i (.done false)⟩
  | .root => ⟨[k], s.pcs.set i (.done false)⟩
  | .done _ => s

/-- One step of thread `i`.  `estserver.c` lines 596-626. -/
def manStep (keys : List Nat) (s : Man) (i : Nat) : Man :=
  match s.pcs[i]?, keys[i]? with
  | some pc, some k => manStepAt s i k pc
  | _, _ => s

/-- The steps of a schedule.  `estserver.c` lines 596-626. -/
def manRun (keys : List Nat) (s : Man) (sched : List Nat) : Man := sched.foldl (manStep keys) s

end Verif.Thread
