import Verif.CoapAllModel
import Verif.ClientRespModel
import Verif.EstUriModel

/-!
# Model of the performance timers

Source: `/repo/src/est/est.c` lines 2323-2679, with the places in
`/repo/src/est/est_server_coap.c` and `/repo/src/est/est_server.c` that start and stop timers.
A time is a number of microseconds, 0 is the time that `timerisset` calls not set.  The clock
stands still while one of the functions below runs.
-/
namespace Verif.Timer
open Verif.Coap (Req Path)

/-! ## One timer -/

/-- `EST_TIMER`, `est_locl.h` lines 22-27.  Of the pointer to the context it is only kept whether it
is set. -/
structure Timer where
  ctx : Bool
  tag : Option (List Nat)
  start : Nat
  stop : Nat
deriving DecidableEq, Repr

/-- A line of the log: tag, identification of the request or session, times of start and end.
The arguments in `est.c` lines 2586 and 2626. -/
structure Line where
  tag : List Nat
  id : Option (List Nat)
  start : Nat
  stop : Nat
deriving DecidableEq, Repr

/-- What is logged: a line of a timer, an error or a warning, or a message in which a null pointer
or an uninitialised one is printed with `%s`.  The calls in `est.c` lines 2374-2630. -/
inductive Log
  | line (l : Line)
  | error
  | warn
  | ub
deriving DecidableEq, Repr

/-- `timersub` gives normalised seconds and microseconds.  `est.c` lines 2585 and 2625. -/
def secs (l : Line) : Int := ((l.stop : Int) - l.start) / 1000000

/-- The microseconds of the difference, `est.c` lines 2585 and 2625. -/
def usecs (l : Line) : Nat := (((l.stop : Int) - l.start) % 1000000).toNat

/-- `%06ld` for a number below 1000000.  `est.c` lines 2586 and 2626. -/
def six (n : Nat) : List Nat :=
  [48 + n / 100000 % 10, 48 + n / 10000 % 10, 48 + n / 1000 % 10, 48 + n / 100 % 10,
    48 + n / 10 % 10, 48 + n % 10]

/-- `%ld`.  `est.c` lines 2586 and 2626. -/
def signed (i : Int) : List Nat :=
  if i < 0 then 45 :: ClientResp.decimal i.natAbs else ClientResp.decimal i.natAbs

/-- The text of a line, `est.c` lines 2586 and 2626. -/
def Line.text (l : Line) : List Nat :=
  l.tag ++ (match l.id with | none => [] | some i => [45, 45] ++ i) ++ [32, 61, 62, 32] ++
    signed (secs l) ++ [46] ++ six (usecs l) ++ [32, 115, 101, 99, 111, 110, 100, 115]

/-- `null_timer`, `est.c` lines 2631-2639. -/
def nullTimer : Timer := ⟨false, none, 0, 0⟩

/-- `start_timer`, `est.c` lines 2377-2396, with a timer, a context and a tag. -/
def startTimer (on : Bool) (now : Nat) (tag : List Nat) : Timer :=
  if on then ⟨true, some tag, now, 0⟩ else ⟨true, none, 0, 0⟩

/-- `stop_timer` (no `id`) and `stop_timer_with_id`, `est.c` lines 2562-2590 and 2600-2629. -/
def stopTimer (on : Bool) (now : Nat) (id : Option (List Nat)) (t : Timer) : Int × Timer × List Log :=
  if !t.ctx then (-1, t, [.error])
  else if !on then (1, t, [])
  else
    match t.tag with
    | none => (-1, t, [.error])
    | some g => (1, { t with stop := now }, [.line ⟨g, id, t.start, now⟩])

/-- `is_started`, `est.c` lines 2651-2660. -/
def isStarted (t : Timer) : Bool := t.tag.isSome && t.start != 0

/-- `is_stopped`, `est.c` lines 2661-2670. -/
def isStopped (t : Timer) : Bool := t.tag.isNone || t.stop != 0

/-- `is_running`, `est.c` lines 2672-2678. -/
def isRunning (t : Timer) : Bool := isStarted t && !isStopped t

/-! ## The timers of a CoAP session -/

/-- `coap_req_node_t`, `est_locl.h` lines 345-356: key, current request and the three timers. -/
structure Node where
  key : List Nat
  cur : Req
  session : Timer
  handle : Timer
  gap : Timer
deriving DecidableEq, Repr

/-- A zeroed slot that gets a key and a request type, `est_server_coap.c` lines 262-274. -/
def newNode (key : List Nat) (r : Req) : Node := ⟨key, r, nullTimer, nullTimer, nullTimer⟩

/-- The last word of the tags, `est.c` lines 2438-2451 and 2478-2491. -/
def word : Path → List Nat
  | .crts => [99, 114, 116, 115]
  | .att => [97, 116, 116]
  | .sen => [115, 101, 110]
  | .sren => [115, 114, 101, 110]
  | .skg => [115, 107, 103]

/-- The request types that belong to a resource.  `est_locl.h` lines 332-339. -/
def pathOf : Req → Option Path
  | .crts => some .crts
  | .att => some .att
  | .sen => some .sen
  | .sren => some .sren
  | .skg => some .skg
  | .reset => none

/-- `est.c` lines 2426 and 2438-2451. -/
def handleTag (p : Path) : List Nat := [67, 111, 65, 80, 32, 104, 97, 110, 100, 108, 101, 95, 114, 101, 113, 95, 116, 105, 109, 101, 114, 32] ++ word p

/-- `est.c` lines 2478-2491. -/
def gapTag (p : Path) : List Nat := [67, 111, 65, 80, 32, 114, 101, 113, 95, 103, 97, 112, 95, 116, 105, 109, 101, 114, 32] ++ word p

/-- The tag of the first gap, `est.c` line 2429. -/
def firstGapTag : List Nat := [67, 111, 65, 80, 32, 114, 101, 113, 95, 103, 97, 112, 95, 116, 105, 109, 101, 114]

/-- The tag of the session, `est.c` line 2427. -/
def sessionTag : List Nat := [67, 111, 65, 80, 32, 115, 101, 115, 115, 105, 111, 110, 95, 116, 105, 109, 101, 114]

/-- `start_coap_req_timers`, `est.c` lines 2405-2462.  With timers disabled the context of
the gap timer is not set. -/
def startReqTimers (on : Bool) (now : Nat) (n : Node) : Node × List Log :=
  if !on then
    ({ n with session := { n.session with ctx := true }, handle := { n.handle with ctx := true } }, [])
  else
    match pathOf n.cur with
    | none =>
      if !isStarted n.session then
        ({ n with session := startTimer on now sessionTag, gap := startTimer on now firstGapTag }, [])
      else (n, [.warn])
    | some p =>
      if !isStarted n.handle then ({ n with handle := startTimer on now (handleTag p) }, [])
      else (n, [.warn])

/-- `enter_wait_coap_req_timers`, `est.c` lines 2471-2511.  The warning of lines 2502-2503 prints
the tag of a timer that was not started. -/
def enterWait (on : Bool) (now : Nat) (n : Node) : Node × List Log :=
  if !on then (n, [])
  else
    match pathOf n.cur with
    | none => (n, [.error])
    | some p =>
      let h : Timer × List Log :=
        if isStarted n.handle then (stopTimer on now (some n.key) n.handle).2
        else (n.handle, [if n.handle.tag.isNone then .ub else .warn])
      if !isStarted n.gap then
        ({ n with handle := h.1, gap := startTimer on now (gapTag p) }, h.2)
      else ({ n with handle := h.1 }, h.2 ++ [.warn])

/-- The timers that are still running or were started are stopped, `est_server_coap.c` lines
385-394 and 434-443. -/
def stopOpen (on : Bool) (now : Nat) (n : Node) : List Log :=
  (if isRunning n.handle then .error :: (stopTimer on now (some n.key) n.handle).2.2 else []) ++
    (if isStarted n.gap then (stopTimer on now (some n.key) n.gap).2.2 else [])

/-- `reinit_coap_req`, `est_server_coap.c` lines 417-463: the timers. -/
def reinit (on : Bool) (now : Nat) (r : Req) (n : Node) : Node × List Log :=
  let x := startReqTimers on now { n with cur := r, handle := nullTimer, gap := nullTimer }
  (x.1, stopOpen on now n ++ x.2)

/-- `get_coap_req`, `est_server_coap.c` lines 252-328: the timers.  There is room for another record. -/
def getReq (on : Bool) (now : Nat) (key : List Nat) (r : Req) (s : Option Node) : Node × List Log :=
  match s with
  | none => startReqTimers on now (newNode key r)
  | some n => if n.cur ≠ r ∧ r ≠ .reset then reinit on now r n else (n, [])

/-- `remove_coap_req`, `est_server_coap.c` lines 380-398: the timers. -/
def remove (on : Bool) (now : Nat) (n : Node) : List Log :=
  (stopTimer on now (some n.key) n.session).2.2 ++ stopOpen on now n

/-- What happens to a session: it is connected (`est_server_coap.c` lines 2812-2822), a message for
a resource is handled (lines 516-2541), it is closed (lines 2824-2833).  A message is
handled between two times; `again` says that it starts a new request while the record still
has an earlier one of the same kind (lines 654-668 and 1329-1343), `last` that the
last block of an answer or an error is sent (lines 1102-1123, 1907-1928, 2204-2231 and
2492-2522).  The flag `perf_timers_enabled` may be another one each time it is looked at. -/
inductive Op
  | connect (on : Bool) (t : Nat)
  | turn (on on' : Bool) (p : Path) (again last : Bool) (t t' : Nat)
  | close (on : Bool) (t : Nat)
deriving DecidableEq, Repr

/-- The record a message works on, `est_server_coap.c` lines 636-668 and 1312-1343.  A record that
`get_coap_req` has just taken for another kind of request is empty, and `again` has no effect. -/
def turnStart (on : Bool) (t : Nat) (key : List Nat) (p : Path) (again : Bool) (s : Option Node) :
    Node × List Log :=
  match s with
  | some n => if n.cur = p.req ∧ again = true then reinit on t p.req n else getReq on t key p.req (some n)
  | none => getReq on t key p.req none

/-- One step of a session, `est_server_coap.c` lines 516-2541 and 2795-2843. -/
def step (key : List Nat) (s : Option Node) : Op → Option Node × List Log
  | .connect on t =>
    let x := getReq on t key .reset s
    (some x.1, x.2)
  | .turn on on' p again last t t' =>
    let x := turnStart on t key p again s
    if last then
      let y := enterWait on' t' x.1
      (some y.1, x.2 ++ y.2)
    else (some x.1, x.2)
  | .close on t =>
    let x := getReq on t key .reset s
    (none, x.2 ++ remove on t x.1)

/-- The log of a session, `est_server_coap.c` lines 516-2541 and 2795-2843. -/
def run (key : List Nat) : Option Node → List Op → List Log
  | _, [] => []
  | s, o :: os => (step key s o).2 ++ run key (step key s o).1 os

/-- The record of `Verif.Coap` a message works on, `est_server_coap.c` lines 252-328. -/
def coapRecord (s : Option Coap.Node) (key : List Nat) (r : Req) : Coap.Node :=
  match s with
  | some n => if n.cur ≠ r then Coap.reinit n r else n
  | none => ⟨key, [], [], r⟩

/-- What an action of `Verif.Coap` is for the timers: nothing if the handler leaves before it has the
record (`est_server_coap.c` lines 553-640, 1258-1316, 2009-2034 and 2294-2319), otherwise a message
that starts over (lines 654-668 and 1329-1343) or not and that sends the END event (lines
1102-1123, 1907-1928, 2204-2231 and 2492-2522) or not.  `n` is the record of the
session, `f` the flag and `t` the time, at the start and at the end. -/
def opOf (odd : Bool → List Nat → List Nat) (cut : Coap.Cut) (f f' : Bool) (t t' : Nat)
    (s : Option Coap.Node) : Coap.Act → Option Op
  | .msg est peer path m =>
    match Coap.precheck peer path m with
    | some _ => none
    | none =>
      let n := coapRecord s peer.key path.req
      let again := match path with
        | .crts | .att => false
        | _ => Coap.begun n.req && Coap.startsNew m.pdu
      some (.turn f f' path again (decide (.done ∈ (Coap.nodeStep odd cut est path m n).evs)) t t')
  | .connect _ => some (.connect f t)
  | .close _ => some (.close f t)

/-! ## The timer between two calls of the application -/

/-- `ctx->down_time_timer` and `ctx->down_time_timer_initialized`, `est_locl.h` lines 427-428. -/
structure Down where
  timer : Timer
  init : Bool
deriving DecidableEq, Repr

/-- `est_server_coap_run_once`, `est_server_coap.c` lines 67-80 and 2945-2970: called at time `t`
and done with the work at time `t'`. -/
def runOnce (on on' : Bool) (t t' : Nat) (d : Down) : Down × List Log :=
  let x : Timer × List Log := if d.init then (stopTimer on t none d.timer).2 else (d.timer, [])
  (⟨startTimer on' t' [67, 111, 65, 80, 32, 68, 111, 119, 110, 32, 84, 105, 109, 101, 32, 84, 105, 109, 101, 114], d.init || on'⟩, x.2)

/-- The log of several calls, `est_server_coap.c` lines 2945-2970. -/
def runMany : Down → List (Bool × Bool × Nat × Nat) → List Log
  | _, [] => []
  | d, (a, b, t, t') :: l => (runOnce a b t t' d).2 ++ runMany (runOnce a b t t' d).1 l

/-! ## The timers of an HTTP request -/

/-- The tag of a request, `est.c` lines 2533-2548; `none` for another operation. -/
def httpTag : EstUri.Op → Option (List Nat)
  | .cacerts => some [72, 84, 84, 80, 32, 99, 97, 99, 101, 114, 116, 115, 32, 114, 101, 113]
  | .csrattrs => some [72, 84, 84, 80, 32, 99, 115, 114, 97, 116, 116, 114, 115, 32, 114, 101, 113]
  | .simpleEnroll => some [72, 84, 84, 80, 32, 115, 105, 109, 112, 108, 101, 101, 110, 114, 111, 108, 108, 32, 114, 101, 113]
  | .simpleReenroll => some [72, 84, 84, 80, 32, 115, 105, 109, 112, 108, 101, 114, 101, 101, 110, 114, 111, 108, 108, 32, 114, 101, 113]
  | .serverKeygen => some [72, 84, 84, 80, 32, 115, 101, 114, 118, 101, 114, 107, 101, 121, 103, 101, 110, 32, 114, 101, 113]
  | _ => none

/-- The kind of enrolment in the tags of the event timers, `est_server.c` lines 2837-2938. -/
def kindWord : EstUri.Op → List Nat
  | .serverKeygen => [83, 69, 82, 86, 69, 82, 75, 69, 89, 71, 69, 78, 95, 82, 69, 81]
  | .simpleReenroll => [82, 69, 69, 78, 82, 79, 76, 76, 95, 82, 69, 81]
  | _ => [83, 73, 77, 80, 76, 69, 95, 69, 78, 82, 79, 76, 76, 95, 82, 69, 81]

/-- The tags of the timers around event callbacks, `est_server.c` lines 2755-2756, 2837-2938 and
3067-3068. -/
inductive Event
  | reqStart
  | enrolReq (op : EstUri.Op)
  | enrolRsp (op : EstUri.Op)
  | reqEnd

/-- The text of a tag, `est_server.c` lines 2756, 2840, 2865, 2904-2911, 2929-2936, 3068. -/
def Event.tag : Event → List Nat
  | .reqStart => [72, 84, 84, 80, 32, 101, 115, 116, 95, 105, 110, 118, 111, 107, 101, 95, 101, 110, 100, 112, 111, 105, 110, 116, 95, 114, 101, 113, 95, 101, 118, 101, 110, 116, 95, 99, 98, 32, 82, 69, 81, 95, 83, 84, 65, 82, 84]
  | .enrolReq op => [72, 84, 84, 80, 32, 101, 115, 116, 95, 105, 110, 118, 111, 107, 101, 95, 101, 110, 114, 111, 108, 108, 95, 114, 101, 113, 95, 101, 118, 101, 110, 116, 95, 99, 98, 32] ++ kindWord op
  | .enrolRsp op => [72, 84, 84, 80, 32, 101, 115, 116, 95, 105, 110, 118, 111, 107, 101, 95, 101, 110, 114, 111, 108, 108, 95, 114, 115, 112, 95, 101, 118, 101, 110, 116, 95, 99, 98, 32] ++ kindWord op
  | .reqEnd => [72, 84, 84, 80, 32, 101, 115, 116, 95, 105, 110, 118, 111, 107, 101, 95, 101, 110, 100, 112, 111, 105, 110, 116, 95, 114, 101, 113, 95, 101, 118, 101, 110, 116, 95, 99, 98, 32, 82, 69, 81, 95, 69, 78, 68]

/-- A timer in a local variable: nothing is known about it, or only that its context is set,
or it has a value.  `est_server.c` lines 2720-2721. -/
inductive Var
  | junk
  | ctxOnly
  | val (t : Timer)
deriving DecidableEq, Repr

/-- `start_http_req_timer` on an uninitialised variable, `est.c` lines 2520-2552. -/
def startHttp (on : Bool) (now : Nat) (op : EstUri.Op) : Var × List Log :=
  if !on then (.ctxOnly, [])
  else
    match httpTag op with
    | some g => (.val (startTimer on now g), [])
    | none => (.junk, [.error])

/-- `stop_timer_with_id` on a local variable with the text `pid`, `none` if that array was not written,
`est.c` lines 2600-2629. -/
def stopVar (on : Bool) (now : Nat) (pid : Option (List Nat)) (v : Var) : List Log :=
  match v with
  | .junk => [.ub]
  | .ctxOnly => if on then [.ub] else []
  | .val t =>
    match pid with
    | some i => (stopTimer on now (some i) t).2.2
    | none => if on ∧ t.ctx = true ∧ t.tag.isSome = true then [.ub] else (stopTimer on now (some []) t).2.2

/-- A timer around an event callback: started and stopped.  `est_server.c` lines 2755-2767,
2837-2843, 2862-2869, 2901-2912, 2926-2938 and 3067-3071. -/
def around (on on' : Bool) (t t' : Nat) (pid : Option (List Nat)) (e : Event) : List Log :=
  stopVar on' t' pid (.val (startTimer on t e.tag))

/-- The course of a request through `est_http_request`: refused because of its URI; refused before a
handler is called (method, content type); handled, with the event callbacks that are registered and
whether the handler's result lets the function go on to its end.  The ways through
`est_server.c` lines 2755-3081. -/
inductive Way
  | badUri
  | refused (op : EstUri.Op)
  | handled (op : EstUri.Op) (reqCb rspCb good : Bool)

/-- Is it one of the three operations with a CSR?  `est_server.c` lines 2805-2807. -/
def enrols : EstUri.Op → Bool
  | .simpleEnroll | .simpleReenroll | .serverKeygen => true
  | _ => false

/-- The timers of `est_http_request`, `est_server.c` lines 2755-3081.  `on i` is the flag and `t i` the
time at the place number `i`: 0 to 2 start of the event timer, process number, its end;
3 start of the request's timer; 4 to 7 the two events of an enrolment; 8 end of the request's timer;
9 and 10 the event at the end.  BRSKI requests do not stop the timer. -/
def request (pid : List Nat) (on : Nat → Bool) (t : Nat → Nat) (w : Way) : List Log :=
  let id := if on 1 then some pid else none
  let first := around (on 0) (on 2) (t 0) (t 2) id .reqStart
  match w with
  | .badUri => first
  | .refused op =>
    let v := startHttp (on 3) (t 3) op
    first ++ v.2 ++ (if (httpTag op).isSome then stopVar (on 8) (t 8) id v.1 else [])
  | .handled op reqCb rspCb good =>
    let v := startHttp (on 3) (t 3) op
    first ++ v.2 ++
      (if enrols op && reqCb then around (on 4) (on 5) (t 4) (t 5) id (.enrolReq op) else []) ++
      (if enrols op && rspCb then around (on 6) (on 7) (t 6) (t 7) id (.enrolRsp op) else []) ++
      (if (httpTag op).isSome then stopVar (on 8) (t 8) id v.1 else []) ++
      (if good then around (on 9) (on 10) (t 9) (t 10) id .reqEnd else [])

end Verif.Timer
