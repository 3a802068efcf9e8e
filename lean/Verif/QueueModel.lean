/-!
# The work queue of the sample server and proxy

`example/util/simple_server.c` is the TCP server that both `estserver` and
`estproxy` run.  One thread accepts connections and puts them on a ring of twenty
entries, a number of worker threads take them off and hand them to
`est_server_handle_request`, and a signal handler asks all of them to stop.

A connection is named by its number in the order of `accept` (the kernel's
descriptor numbers, which are reused after `close`, are not kept).  The threads run
in any order, one `Move` at a time.  What a thread does while it holds the mutex is
cut wherever it reads `stop_flag`, which is written without the mutex, and at
`pthread_cond_wait`; the rest of a critical section is one move.  A signal wakes one
waiting thread of the scheduler's choice, if any waits, and a waiting thread can also
wake up for no reason, as POSIX allows.
-/

namespace Verif.Queue

/-- `ARRAY_SIZE(queue)`.  `example/util/simple_server.c` lines 44-44, 52-52. -/
def slots : Nat := 20

/-- Where a worker is.  `taken` is whether this call of `grab_work` put a
connection in `*sp`.  `example/util/simple_server.c` lines 59-105. -/
inductive WPc where
  /-- before `pthread_mutex_lock` of `grab_work` -/
  | start
  /-- holds the mutex, about to test the loop condition -/
  | check
  /-- holds the mutex, has found nothing to do and is about to wait -/
  | toWait
  /-- waits for `full` -/
  | waiting
  /-- was woken, wants the mutex back -/
  | woken
  /-- holds the mutex, leaves the loop -/
  | take
  /-- has released the mutex, about to read `stop_flag` for the result -/
  | ret
  /-- about to hand the connection to the library -/
  | serve
  /-- about to close it -/
  | close
  /-- left the loop, wants the mutex to sign off -/
  | leave
  /-- has returned -/
  | done
deriving DecidableEq, Repr

/-- A worker: where it is and its variable `sock`; `none` is the initial 0, which no
`accept` has returned.  `example/util/simple_server.c` lines 85-87. -/
structure Worker where
  pc : WPc
  sock : Option Nat
deriving DecidableEq, Repr

/-- Where the accepting thread is.  `example/util/simple_server.c` lines 107-125,
207-223, 241-259. -/
inductive MPc where
  /-- about to test `stop_flag` of the accept loop -/
  | loop
  /-- about to call `accept` -/
  | accept
  /-- `accept` failed, about to test `stop_flag` -/
  | failed
  /-- has a connection, about to test `stop_flag` -/
  | got (c : Nat)
  /-- wants the mutex of `process_socket` -/
  | lock (c : Nat)
  /-- holds the mutex, about to test the loop condition -/
  | check (c : Nat)
  /-- holds the mutex, has found the queue full and is about to wait -/
  | toWait (c : Nat)
  /-- waits for `empty` -/
  | waiting (c : Nat)
  /-- was woken, wants the mutex back -/
  | woken (c : Nat)
  /-- holds the mutex, leaves the loop -/
  | put (c : Nat)
  /-- about to tell the workers to shut down -/
  | bcast
  /-- wants the mutex to count the workers -/
  | join
  /-- waits for `cond` -/
  | joinWait
  /-- has destroyed the mutex and set `stop_flag` to 2 -/
  | fin
deriving DecidableEq, Repr

/-- Who holds the mutex.  `example/util/simple_server.c` lines 42-42. -/
inductive Owner where
  | free
  | master
  | worker (i : Nat)
deriving DecidableEq, Repr

/-- The server.  The counters `head` and `tail` are C `int`s.  The last four fields
are a record of what happened: connections accepted so far, connections handed to
the library (`none`: the variable `sock` was never set), connections closed, and
whether one was handed over after the context had been given back.
`example/util/simple_server.c` lines 28-49. -/
structure St where
  stop : Nat
  head : Int
  tail : Int
  queue : List Nat
  mutex : Owner
  num : Int
  master : MPc
  workers : List Worker
  returned : Bool
  accepted : Nat
  served : List (Option Nat)
  closed : List (Option Nat)
  late : Bool
deriving DecidableEq, Repr

/-- One move of one thread.  `acc` is whether `accept` has a connection, `k` which
of the waiting threads a signal wakes.  `example/util/simple_server.c` lines 59-125,
207-259, 274-277, 376-385. -/
inductive Move where
  /-- worker `i` -/
  | worker (i : Nat)
  /-- the accepting thread -/
  | master (acc : Bool) (k : Nat)
  /-- the signal handler, or the end of the delay -/
  | sig
  /-- a waiting worker wakes up for no reason -/
  | spurW (i : Nat)
  /-- the accepting thread wakes up for no reason -/
  | spurM
  /-- `start_simple_server` sees `stop_flag` and returns; its caller frees the context -/
  | ret
deriving DecidableEq, Repr

/-- Worker `i` goes to `pc`.  `example/util/simple_server.c` lines 85-105. -/
def setPc (ws : List Worker) (i : Nat) (pc : WPc) : List Worker :=
  ws.modify i (fun w => { w with pc := pc })

/-- The workers waiting for `full`.  `example/util/simple_server.c` lines 64-64. -/
def sleepers (ws : List Worker) : List Nat :=
  (List.range ws.length).filter fun i =>
    match ws[i]? with
    | some w => decide (w.pc = WPc.waiting)
    | none => false

/-- `pthread_cond_signal(&full)`: the scheduler picks one of the waiting workers.
`example/util/simple_server.c` lines 123-123. -/
def signalFull (ws : List Worker) (k : Nat) : List Worker :=
  match (sleepers ws)[k % (sleepers ws).length]? with
  | some i => setPc ws i .woken
  | none => ws

/-- `pthread_cond_broadcast(&full)`.  `example/util/simple_server.c` lines 243-243. -/
def broadcastFull (ws : List Worker) : List Worker :=
  ws.map fun w => if w.pc = .waiting then { w with pc := .woken } else w

/-- `pthread_cond_signal(&empty)`: only the accepting thread ever waits for it.
`example/util/simple_server.c` lines 78-78. -/
def signalEmpty : MPc → MPc
  | .waiting c => .woken c
  | pc => pc

/-- `pthread_cond_signal(&cond)`: only the accepting thread ever waits for it.
`example/util/simple_server.c` lines 102-102. -/
def signalCond : MPc → MPc
  | .joinWait => .join
  | pc => pc

/-- The inner loop of `grab_work`, `while (tail > ARRAY_SIZE)`.  `fuel` bounds the
number of rounds, at least one for every twenty the counter is above the limit.
`example/util/simple_server.c` lines 73-76. -/
def align : Nat → Int → Int → Int × Int
  | 0, head, tail => (head, tail)
  | fuel + 1, head, tail =>
    if tail > (slots : Int) then align fuel (head - slots) (tail - slots)
    else (head, tail)

/-- Taking a connection off the queue: the new counters and the connection.  `none`:
nothing was there, `*sp` is left as it was.  `example/util/simple_server.c` lines
68-77. -/
def takeOff (s : St) : Option (Nat × Int × Int) :=
  if s.head > s.tail then
    let r := align (s.tail + 1).toNat s.head (s.tail + 1)
    some (s.queue[(s.tail % (slots : Int)).toNat]?.getD 0, r.1, r.2)
  else none

/-- Putting a connection on the queue, if there is room.
`example/util/simple_server.c` lines 116-120. -/
def putOn (s : St) (c : Nat) : St :=
  if s.head - s.tail < (slots : Int) then
    { s with queue := s.queue.set (s.head % (slots : Int)).toNat c, head := s.head + 1 }
  else s

/-- One move of worker `i`, whose record is `w`.  Handling a connection is one move
and so is closing it.  `example/util/simple_server.c` lines 59-105. -/
def workerStep (s : St) (i : Nat) (w : Worker) : St :=
  match w.pc with
  | .start | .woken =>
    if s.mutex = .free then
      { s with mutex := .worker i, workers := setPc s.workers i .check }
    else s
  | .check =>
    if s.head = s.tail ∧ s.stop = 0 then { s with workers := setPc s.workers i .toWait }
    else { s with workers := setPc s.workers i .take }
  | .toWait => { s with mutex := .free, workers := setPc s.workers i .waiting }
  | .waiting => s
  | .take =>
    match takeOff s with
    | some (c, h, t) =>
      { s with head := h, tail := t, master := signalEmpty s.master, mutex := .free,
               workers := s.workers.modify i fun _ => ⟨.ret, some c⟩ }
    | none =>
      { s with master := signalEmpty s.master, mutex := .free,
               workers := setPc s.workers i .ret }
  | .ret =>
    if s.stop = 0 then { s with workers := setPc s.workers i .serve }
    else { s with workers := setPc s.workers i .leave }
  | .serve =>
    { s with served := s.served ++ [w.sock], late := s.late || s.returned,
             workers := setPc s.workers i .close }
  | .close =>
    { s with closed := s.closed ++ [w.sock], workers := setPc s.workers i .start }
  | .leave =>
    if s.mutex = .free then
      { s with num := s.num - 1, master := signalCond s.master,
               workers := setPc s.workers i .done }
    else s
  | .done => s

/-- One move of the accepting thread.  The sockets and addresses of lines 148-206 are
left out; the wait of line 248 is entered in the same move as its test, because
`num_threads` is only written under the mutex.  `example/util/simple_server.c` lines
107-125, 207-223, 241-259. -/
def masterStep (s : St) (acc : Bool) (k : Nat) : St :=
  match s.master with
  | .loop => if s.stop = 0 then { s with master := .accept } else { s with master := .bcast }
  | .accept =>
    if acc then { s with master := .got s.accepted, accepted := s.accepted + 1 }
    else { s with master := .failed }
  | .failed => if s.stop = 0 then { s with master := .loop } else { s with master := .bcast }
  | .got c => if s.stop = 0 then { s with master := .lock c } else { s with master := .loop }
  | .lock c | .woken c =>
    if s.mutex = .free then { s with mutex := .master, master := .check c } else s
  | .check c =>
    if s.stop = 0 ∧ s.head - s.tail ≥ (slots : Int) then { s with master := .toWait c }
    else { s with master := .put c }
  | .toWait c => { s with mutex := .free, master := .waiting c }
  | .waiting _ => s
  | .put c =>
    { putOn s c with mutex := .free, master := .loop, workers := signalFull s.workers k }
  | .bcast => { s with workers := broadcastFull s.workers, master := .join }
  | .join =>
    if s.mutex = .free then
      if s.num > 0 then { s with master := .joinWait }
      else { s with master := .fin, stop := 2 }
    else s
  | .joinWait => s
  | .fin => s

/-- One move.  A thread that cannot move leaves the server as it is.
`example/util/simple_server.c` lines 59-125, 207-259, 274-277, 376-385. -/
def step (s : St) : Move → St
  | .worker i =>
    match s.workers[i]? with
    | some w => workerStep s i w
    | none => s
  | .master acc k => masterStep s acc k
  | .sig => { s with stop := 1 }
  | .spurW i =>
    match s.workers[i]? with
    | some w => if w.pc = .waiting then { s with workers := setPc s.workers i .woken } else s
    | none => s
  | .spurM =>
    match s.master with
    | .waiting c => { s with master := .woken c }
    | .joinWait => { s with master := .join }
    | _ => s
  | .ret => if s.stop = 0 then s else { s with returned := true }

/-- Any number of moves.  `example/util/simple_server.c` lines 59-125, 207-259. -/
def run : St → List Move → St
  | s, [] => s
  | s, m :: ms => run (step s m) ms

/-- The server as it starts with `n` workers.  Counting the workers one by one while
they already run (lines 358-366) is simplified to a count that is right from the
beginning.  `example/util/simple_server.c` lines 28-49, 349-366. -/
def init (n : Nat) : St :=
  { stop := 0, head := 0, tail := 0, queue := List.replicate slots 0, mutex := .free,
    num := n, master := .loop, workers := List.replicate n ⟨.start, none⟩,
    returned := false, accepted := 0, served := [], closed := [], late := false }

end Verif.Queue
