/-!
# Model of the callbacks and the data an application hangs on a context

Source: `/repo/src/est/est_server.c` 4223-4306 (`est_set_brski_voucher_req_cb`,
`est_set_brski_voucher_status_cb`, `est_set_brski_enroll_status_cb`), 4365-4389
(`est_set_est_err_event_cb`), 4447-4624 (`est_set_enroll_req_event_cb`,
`est_set_enroll_rsp_event_cb`, `est_set_enroll_auth_result_event_cb`,
`est_set_endpoint_req_event_cb`), the tests in front of the calls at 2385-2388, 2514-2517,
2606-2609, 4629-4639, 4816-4828, 4891-4905, 4970-4980, 5012-5024;
`/repo/src/est/est.c` 100-136 (`est_log`), 261-276 (`est_init_logger`), 701-731
(`est_set_ex_data`, `est_get_ex_data`).

A callback and a piece of data is its address, a number; `none` is the null pointer.  A context
is a number too: the contexts an application has made, as `est_server_init` leaves them.  What is
printed to the log is left out, except for the error callback a message can set off; backtraces
are off.
-/
namespace Verif.Hook

/-- The answers of the functions.  `est.h` lines 195-289 (`EST_ERROR`), those used here. -/
inductive Rc
  | none_
  | noCtx
  | invalidParameters
  | nullCallback
deriving DecidableEq, Repr

/-- What a context holds for the application: `est_locl.h` lines 454-457, 472-474, 568. -/
structure Ctx where
  enrollReq : Option Nat
  enrollRsp : Option Nat
  authResult : Option Nat
  endpoint : Option Nat
  voucherReq : Option Nat
  voucherStatus : Option Nat
  enrollStatus : Option Nat
  exData : Option Nat
deriving DecidableEq, Repr

/-- A context as it is made: `est_server.c` lines 3251-3256 (`memzero_s` over the structure). -/
def Ctx.fresh : Ctx := ⟨none, none, none, none, none, none, none, none⟩

/-- What there is: the error callback, `est_server.c` line 53, the level of logging, `est.c`
line 57, and the contexts. -/
structure St where
  err : Option Nat
  level : Nat
  ctx : Nat → Ctx

/-- The state a program begins in: `est_server.c` line 53, `est.c` line 57 (`EST_LOG_LVL_ERR`,
`est.h` line 322). -/
def St.init : St := ⟨none, 1, fun _ => Ctx.fresh⟩

/-- The contexts with one of them changed: the assignments through `ctx` in `est_server.c` lines
4235-4617 and `est.c` line 709. -/
def St.put (s : St) (c : Nat) (f : Ctx → Ctx) : St :=
  { s with ctx := fun i => if i = c then f (s.ctx i) else s.ctx i }

/-- What an operation does that can be seen: a call of a callback, an answer, data handed out.
`est_server.c` lines 2433-5053. -/
inductive Out
  | called (cb : Nat)
  | rc (r : Rc)
  | data (d : Option Nat)
deriving DecidableEq, Repr

/-- A call of a callback, if there is one: `est_server.c` lines 4634-4636. -/
def invoke : Option Nat → List Out
  | none => []
  | some cb => [.called cb]

/-- `EST_LOG_ERR` as far as the error callback goes: `est.c` lines 107-109, 131-133. -/
def logErr (s : St) : List Out :=
  if 1 > s.level then [] else invoke s.err

/-- `est_init_logger` as far as the level goes: `est.c` lines 261-276. -/
def initLogger (s : St) (lvl : Nat) : St × List Out :=
  ({ s with level := lvl }, [.rc .none_])

/-- `est_set_est_err_event_cb`, `est_server.c` lines 4365-4389. -/
def setErr (s : St) (cb : Option Nat) : St × List Out :=
  ({ s with err := cb }, [])

/-- `est_set_enroll_req_event_cb`, `est_server.c` lines 4447-4479. -/
def setEnrollReq (s : St) (ctx : Option Nat) (cb : Option Nat) : St × List Out :=
  match ctx with
  | some c => (s.put c fun x => { x with enrollReq := cb }, [])
  | none => (s, logErr s)

/-- `est_set_enroll_rsp_event_cb`, `est_server.c` lines 4494-4526. -/
def setEnrollRsp (s : St) (ctx : Option Nat) (cb : Option Nat) : St × List Out :=
  match ctx with
  | some c => (s.put c fun x => { x with enrollRsp := cb }, [])
  | none => (s, logErr s)

/-- `est_set_enroll_auth_result_event_cb`, `est_server.c` lines 4543-4576. -/
def setAuthResult (s : St) (ctx : Option Nat) (cb : Option Nat) : St × List Out :=
  match ctx with
  | some c => (s.put c fun x => { x with authResult := cb }, [])
  | none => (s, logErr s)

/-- `est_set_endpoint_req_event_cb`, `est_server.c` lines 4592-4624. -/
def setEndpoint (s : St) (ctx : Option Nat) (cb : Option Nat) : St × List Out :=
  match ctx with
  | some c => (s.put c fun x => { x with endpoint := cb }, [])
  | none => (s, logErr s)

/-- `est_set_brski_voucher_req_cb`, `est_server.c` lines 4223-4238. -/
def setVoucherReq (s : St) (ctx : Option Nat) (cb : Option Nat) : St × List Out :=
  match ctx with
  | none => (s, logErr s ++ [.rc .noCtx])
  | some c =>
    match cb with
    | none => (s, logErr s ++ [.rc .invalidParameters])
    | some f => (s.put c fun x => { x with voucherReq := some f }, [.rc .none_])

/-- `est_set_brski_voucher_status_cb`, `est_server.c` lines 4257-4272. -/
def setVoucherStatus (s : St) (ctx : Option Nat) (cb : Option Nat) : St × List Out :=
  match ctx with
  | none => (s, logErr s ++ [.rc .noCtx])
  | some c =>
    match cb with
    | none => (s, logErr s ++ [.rc .invalidParameters])
    | some f => (s.put c fun x => { x with voucherStatus := some f }, [.rc .none_])

/-- `est_set_brski_enroll_status_cb`, `est_server.c` lines 4291-4306. -/
def setEnrollStatus (s : St) (ctx : Option Nat) (cb : Option Nat) : St × List Out :=
  match ctx with
  | none => (s, logErr s ++ [.rc .noCtx])
  | some c =>
    match cb with
    | none => (s, logErr s ++ [.rc .invalidParameters])
    | some f => (s.put c fun x => { x with enrollStatus := some f }, [.rc .none_])

/-- `est_set_ex_data`, `est.c` lines 701-711.  A missing context is answered without a message. -/
def setExData (s : St) (ctx : Option Nat) (d : Option Nat) : St × List Out :=
  match ctx with
  | none => (s, [.rc .noCtx])
  | some c => (s.put c fun x => { x with exData := d }, [.rc .none_])

/-- `est_get_ex_data`, `est.c` lines 725-731. -/
def getExData (s : St) (ctx : Option Nat) : List Out :=
  match ctx with
  | none => [.data none]
  | some c => [.data (s.ctx c).exData]

/-- The four kinds of event: the functions of `est_server.c` lines 4447-4624. -/
inductive Ev
  | enrollReq
  | enrollRsp
  | authResult
  | endpoint
deriving DecidableEq, Repr

/-- The three kinds of BRSKI request: the functions of `est_server.c` lines 4223-4306. -/
inductive Br
  | voucherReq
  | voucherStatus
  | enrollStatus
deriving DecidableEq, Repr

/-- The field an event callback is looked up in: `est_server.c` lines 4828, 4905, 4980, 5024. -/
def Ctx.event (x : Ctx) : Ev → Option Nat
  | .enrollReq => x.enrollReq
  | .enrollRsp => x.enrollRsp
  | .authResult => x.authResult
  | .endpoint => x.endpoint

/-- The field a BRSKI callback is looked up in: `est_server.c` lines 2385, 2514, 2606. -/
def Ctx.brski (x : Ctx) : Br → Option Nat
  | .voucherReq => x.voucherReq
  | .voucherStatus => x.voucherStatus
  | .enrollStatus => x.enrollStatus

/-- An event occurs: `est_server.c` lines 4816-5057, the request being readable and its subjects
found (`EventModel` has the rest). -/
def occurs (s : St) (e : Ev) (ctx : Option Nat) : List Out :=
  match ctx with
  | none => []
  | some c => invoke ((s.ctx c).event e)

/-- A BRSKI request has come in and the client is let in: `est_server.c` lines 2385-2388, 2433,
2514-2517, 2561, 2606-2609, 2653. -/
def asks (s : St) (b : Br) (c : Nat) : List Out :=
  match (s.ctx c).brski b with
  | none => logErr s ++ [.rc .nullCallback]
  | some f => [.called f]

/-- What an application and its peers can do.  `est_server.c` lines 2385-5057, `est.c` lines
261-731. -/
inductive Op
  | logger (lvl : Nat)
  | onError (cb : Option Nat)
  | onEvent (e : Ev) (ctx : Option Nat) (cb : Option Nat)
  | onBrski (b : Br) (ctx : Option Nat) (cb : Option Nat)
  | setData (ctx : Option Nat) (d : Option Nat)
  | getData (ctx : Option Nat)
  | event (e : Ev) (ctx : Option Nat)
  | request (b : Br) (c : Nat)
  | error
deriving DecidableEq, Repr

/-- One of them.  `est_server.c` lines 2385-5057, `est.c` lines 261-731. -/
def step (s : St) : Op → St × List Out
  | .logger l => initLogger s l
  | .onError cb => setErr s cb
  | .onEvent .enrollReq c cb => setEnrollReq s c cb
  | .onEvent .enrollRsp c cb => setEnrollRsp s c cb
  | .onEvent .authResult c cb => setAuthResult s c cb
  | .onEvent .endpoint c cb => setEndpoint s c cb
  | .onBrski .voucherReq c cb => setVoucherReq s c cb
  | .onBrski .voucherStatus c cb => setVoucherStatus s c cb
  | .onBrski .enrollStatus c cb => setEnrollStatus s c cb
  | .setData c d => setExData s c d
  | .getData c => (s, getExData s c)
  | .event e c => (s, occurs s e c)
  | .request b c => (s, asks s b c)
  | .error => (s, logErr s)

/-- A whole history.  `est_server.c` lines 2385-5057, `est.c` lines 261-731. -/
def run (s : St) : List Op → St
  | [] => s
  | o :: r => run (step s o).1 r

end Verif.Hook
