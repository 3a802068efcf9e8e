/-!
# Model of the logging functions

Source: `/repo/src/est/est.c` 56-298 (`est_log`, `est_log_backtrace`, `est_init_logger`,
`est_enable_backtrace`), `/repo/src/est/est_locl.h` 632-663 (the macros),
`/repo/src/est/est_server.c` 4365-4432, 4629-4655 (error callbacks),
`/repo/src/est/est_ossl_util.c` 310-334 (`ossl_dump_ssl_errors`),
`/repo/src/est/est_client.c` 566-620 (the loops of `verify_cacert_resp`).

The loggers are taken to print what they are given, as the default one and those of the sample
programs do.
-/
namespace Verif.Log

/-- An argument of a message.  A pointer to characters is the memory from there to the end of the
block, `none` for a byte nothing has been written to; `other` points to something that is not
text; a number comes as its digits.  `est.c` lines 62-79 (`vfprintf`). -/
inductive Arg
  | num (digits : List Nat)
  | text (mem : List (Option Nat))
  | null
  | other
deriving DecidableEq, Repr

/-- A format, cut at its conversions.  `est.c` line 73. -/
inductive Piece
  | lit (s : List Nat)
  | str
  | int
deriving DecidableEq, Repr

/-- `%s`: the bytes up to the NUL; `none` if there is none, or if a byte is indeterminate.
`vfprintf`, called in `est.c` line 73. -/
def strOf : List (Option Nat) → Option (List Nat)
  | [] => none
  | none :: _ => none
  | some 0 :: _ => some []
  | some c :: m =>
    match strOf m with
    | none => none
    | some w => some (c :: w)

/-- `vfprintf`, called in `est.c` line 73; `none` is undefined behaviour. -/
def render : List Piece → List Arg → Option (List Nat)
  | [], _ => some []
  | .lit s :: f, as =>
    match render f as with
    | none => none
    | some t => some (s ++ t)
  | .str :: f, .text m :: as =>
    match strOf m, render f as with
    | some w, some t => some (w ++ t)
    | _, _ => none
  | .int :: f, .num d :: as =>
    match render f as with
    | none => none
    | some t => some (d ++ t)
  | _ :: _, _ => none

/-- The settings of the library: `est_log_func` (`none`: the default logger),
`est_desired_log_lvl`, `est_backtrace_enabled` (`est.c` lines 56-58), `est_err_event_cb`,
`ssl_proto_err_event_cb` (`est_server.c` lines 53-54). -/
structure St where
  func : Option Nat
  lvl : Nat
  bt : Bool
  errCb : Option Nat
  sslCb : Option Nat
deriving DecidableEq, Repr

/-- The settings at the start, `est.c` lines 56-58; 1 is `EST_LOG_LVL_ERR`. -/
def St.init : St := ⟨none, 1, false, none, none⟩

/-- What the application sees: text for a logger (`est.c` lines 114-118), a call of one of the
callbacks (`est_server.c` lines 4636, 4652). -/
inductive Out
  | line (to : Option Nat) (text : List Nat)
  | errEvent (cb : Nat) (text : List Nat)
  | sslEvent (cb : Nat) (arg : Arg)
deriving DecidableEq, Repr

/-- `est_log`, `est.c` lines 101-137, with `est_invoke_est_err_event_cb`, `est_server.c` lines
4629-4639. -/
def estLog (st : St) (lvl : Nat) (fmt : List Piece) (args : List Arg) : Option (List Out) :=
  if st.lvl < lvl then some []
  else
    match render fmt args with
    | none => none
    | some t =>
      some (.line st.func t ::
        (if lvl = 1 then
          match st.errCb with
          | some c => [.errEvent c t]
          | none => []
        else []))

/-- `est_log_backtrace`, `est.c` lines 169-201, with `est_log_msg` (lines 81-96).  `syms`: what
`backtrace_symbols` returns, `none` for NULL; there is at least one frame. -/
def backtrace (st : St) (syms : Option (List (List Nat))) : Option (List Out) :=
  if st.bt then
    match syms with
    | none => none
    | some ss => some (ss.map (fun s => .line st.func (10 :: s)) ++ [.line st.func [10, 10]])
  else some []

/-- The three macros, `est_locl.h` lines 633-655. -/
inductive Sev
  | info
  | warn
  | err
deriving DecidableEq, Repr

/-- The levels, `est.h` lines 321-325. -/
def Sev.lvl : Sev → Nat
  | .err => 1
  | .warn => 2
  | .info => 3

/-- The names in the prefix, `est_locl.h` lines 635, 642, 650. -/
def Sev.tag : Sev → List Nat
  | .err => [69, 82, 82, 79, 82]
  | .warn => [87, 65, 82, 78, 73, 78, 71]
  | .info => [73, 78, 70, 79]

/-- `__func__` and the digits of `__LINE__`, `est_locl.h` lines 633-655. -/
structure Site where
  func : List Nat
  line : List Nat
deriving DecidableEq, Repr

/-- The format of a macro, `est_locl.h` lines 633-655. -/
def fmtOf (s : Sev) (fmt : List Piece) : List Piece :=
  [.lit ([42, 42, 42, 69, 83, 84, 32, 91] ++ s.tag ++ [93, 91]), .str, .lit [58], .int, .lit [93, 45, 45, 62, 32]] ++ fmt ++
    [.lit [10]]

/-- `EST_LOG_INFO`, `EST_LOG_WARN`, `EST_LOG_ERR`, `est_locl.h` lines 633-655. -/
def logAt (st : St) (s : Sev) (at_ : Site) (syms : Option (List (List Nat))) (fmt : List Piece)
    (args : List Arg) : Option (List Out) :=
  match estLog st s.lvl (fmtOf s fmt) (.text (at_.func.map some ++ [some 0]) :: .num at_.line :: args) with
  | none => none
  | some o =>
    if s = .info then some o
    else
      match backtrace st syms with
      | none => none
      | some b => some (o ++ b)

/-- `ossl_dump_ssl_errors`, `est_ossl_util.c` lines 310-334, with
`est_invoke_ssl_proto_err_event_cb`, `est_server.c` lines 4644-4656.  `bio`: does `BIO_new`
succeed; `errors`: the lines of the error queue; `behind`: the bytes of the buffer of the BIO
behind the text.  A BIO nothing was written to has no buffer. -/
def dump (st : St) (syms : Option (List (List Nat))) (bio : Bool) (errors : List (List Nat))
    (behind : List (Option Nat)) : Option (List Out) :=
  if !bio then logAt st .err ⟨[111, 115, 115, 108, 95, 100, 117, 109, 112, 95, 115, 115, 108, 95, 101, 114, 114, 111, 114, 115], [51, 49, 55]⟩ syms [.lit [66, 73, 79, 95, 110, 101, 119, 32, 102, 97, 105, 108, 101, 100]] []
  else
    let data := if errors.flatten = [] then Arg.null
      else .text (errors.flatten.map some ++ behind)
    match logAt st .warn ⟨[111, 115, 115, 108, 95, 100, 117, 109, 112, 95, 115, 115, 108, 95, 101, 114, 114, 111, 114, 115], [51, 50, 51]⟩ syms [.lit [79, 83, 83, 76, 32, 101, 114, 114, 111, 114, 58, 32], .str] [data] with
    | none => none
    | some o =>
      some (o ++
        match st.sslCb with
        | some c => [.sslEvent c data]
        | none => [])

/-- A callback as `%p` prints it; simplified: its number.  `est_server.c` lines 4378, 4420. -/
def ptr : Option Nat → Arg
  | none => .num [40, 110, 105, 108, 41]
  | some n => .num [n]

/-- What the application and the library do to the settings and the log.  `est.c` lines 101-299. -/
inductive Op
  /-- `est_init_logger`, `est.c` lines 260-276. -/
  | logger (lvl : Nat) (f : Option Nat)
  /-- `est_enable_backtrace`, `est.c` lines 296-299. -/
  | trace (on : Bool)
  /-- `est_set_est_err_event_cb`, `est_server.c` lines 4365-4389. -/
  | onErr (cb : Option Nat)
  /-- `est_set_ssl_proto_err_event_cb`, `est_server.c` lines 4407-4432. -/
  | onSsl (cb : Option Nat)
  /-- One of the macros, `est_locl.h` lines 633-655. -/
  | msg (s : Sev) (at_ : Site) (syms : Option (List (List Nat))) (fmt : List Piece)
      (args : List Arg)
  /-- `ossl_dump_ssl_errors`, `est_ossl_util.c` lines 310-334. -/
  | dump (syms : Option (List (List Nat))) (bio : Bool) (errors : List (List Nat))
      (behind : List (Option Nat))
deriving DecidableEq, Repr

/-- One call; `none` is undefined behaviour.  `est.c` lines 101-299, `est_server.c` lines
4365-4432. -/
def step (st : St) : Op → Option (St × List Out)
  | .logger lvl f => some ({ st with func := f, lvl := lvl }, [])
  | .trace on => some ({ st with bt := on }, [])
  | .onErr cb =>
    (logAt st .info ⟨[101, 115, 116, 95, 115, 101, 116, 95, 101, 115, 116, 95, 101, 114, 114, 95, 101, 118, 101, 110, 116, 95, 99, 98], [52, 51, 55, 56]⟩ none
      (match st.errCb, cb with
        | some _, none => [.lit [69, 83, 84, 32, 101, 114, 114, 111, 114, 32, 99, 97, 108, 108, 98, 97, 99, 107, 32, 100, 105, 115, 97, 98, 108, 101, 100, 46]]
        | some _, some _ =>
          [.lit [67, 104, 97, 110, 103, 105, 110, 103, 32, 116, 104, 101, 32, 69, 83, 84, 32, 101, 114, 114, 111, 114, 32, 99, 97, 108, 108, 98, 97, 99, 107, 32, 102, 114, 111, 109, 32], .int, .lit [32, 116, 111, 32], .int]
        | none, _ => [.lit [69, 83, 84, 32, 101, 114, 114, 111, 114, 32, 99, 97, 108, 108, 98, 97, 99, 107, 32], .int, .lit [32, 101, 110, 97, 98, 108, 101, 100, 46]])
      (match st.errCb with
        | some c => [ptr (some c), ptr cb]
        | none => [ptr cb])).map fun o => ({ st with errCb := cb }, o)
  | .onSsl cb =>
    (logAt st .info ⟨[101, 115, 116, 95, 115, 101, 116, 95, 115, 115, 108, 95, 112, 114, 111, 116, 111, 95, 101, 114, 114, 95, 101, 118, 101, 110, 116, 95, 99, 98], [52, 52, 50, 48]⟩ none
      (match st.sslCb, cb with
        | some _, none => [.lit [83, 83, 76, 32, 112, 114, 111, 116, 111, 99, 111, 108, 32, 101, 114, 114, 111, 114, 32, 99, 97, 108, 108, 98, 97, 99, 107, 32, 100, 105, 115, 97, 98, 108, 101, 100, 46]]
        | some _, some _ =>
          [.lit [67, 104, 97, 110, 103, 105, 110, 103, 32, 116, 104, 101, 32, 83, 83, 76, 32, 112, 114, 111, 116, 111, 99, 111, 108, 32, 101, 114, 114, 111, 114, 32, 99, 97, 108, 108, 98, 97, 99, 107, 32, 102, 114, 111, 109, 32], .int, .lit [32, 116, 111, 32], .int]
        | none, _ => [.lit [83, 83, 76, 32, 112, 114, 111, 116, 111, 99, 111, 108, 32, 101, 114, 114, 111, 114, 32, 99, 97, 108, 108, 98, 97, 99, 107, 32], .int, .lit [32, 101, 110, 97, 98, 108, 101, 100, 46]])
      (match st.sslCb with
        | some c => [ptr (some c), ptr cb]
        | none => [ptr cb])).map fun o => ({ st with sslCb := cb }, o)
  | .msg s at_ syms fmt args => (logAt st s at_ syms fmt args).map fun o => (st, o)
  | .dump syms bio errors behind => (dump st syms bio errors behind).map fun o => (st, o)

/-- A sequence of calls.  `est.c` lines 101-299. -/
def run (st : St) : List Op → Option (St × List Out)
  | [] => some (st, [])
  | op :: ops =>
    match step st op with
    | none => none
    | some (st', o) =>
      match run st' ops with
      | none => none
      | some (st'', o') => some (st'', o ++ o')

/-- A certificate of a CA certificates response: `X509_check_issued` of itself, and what
`X509_verify_cert` will say.  `est_client.c` lines 573, 612. -/
structure Cert where
  self : Bool
  ok : Bool
deriving DecidableEq, Repr

/-- The second loop of `verify_cacert_resp`, `est_client.c` lines 594-620, as far as it logs.
`%s` is given the result of `X509_get_subject_name`, a pointer to an `X509_NAME`.  Result: was
there a certificate that does not verify (`failed`)? -/
def checkLoop (st : St) (syms : Option (List (List Nat))) : List Cert → Option (Bool × List Out)
  | [] => some (false, [])
  | c :: cs =>
    match logAt st .info ⟨[118, 101, 114, 105, 102, 121, 95, 99, 97, 99, 101, 114, 116, 95, 114, 101, 115, 112], [54, 48, 57]⟩ syms
        [.lit [65, 100, 100, 105, 110, 103, 32, 99, 101, 114, 116, 32, 116, 111, 32, 115, 116, 111, 114, 101, 32, 40], .str, .lit [41]] [.other] with
    | none => none
    | some o1 =>
      match (if c.ok then some [] else
        logAt st .warn ⟨[118, 101, 114, 105, 102, 121, 95, 99, 97, 99, 101, 114, 116, 95, 114, 101, 115, 112], [54, 49, 55]⟩ syms
          [.lit [67, 101, 114, 116, 105, 102, 105, 99, 97, 116, 101, 32, 102, 97, 105, 108, 101, 100, 32, 118, 101, 114, 105, 102, 105, 99, 97, 116, 105, 111, 110, 32, 40], .str, .lit [41]] [.other]) with
      | none => none
      | some o2 =>
        match checkLoop st syms cs with
        | none => none
        | some (failed, o3) => some (!c.ok || failed, o1 ++ o2 ++ o3)

/-- The first loop of `verify_cacert_resp`, `est_client.c` lines 566-578, as far as it logs. -/
def trustLoop (st : St) (syms : Option (List (List Nat))) : List Cert → Option (List Out)
  | [] => some []
  | c :: cs =>
    match (if c.self then
      logAt st .info ⟨[118, 101, 114, 105, 102, 121, 95, 99, 97, 99, 101, 114, 116, 95, 114, 101, 115, 112], [53, 55, 53]⟩ syms
        [.lit [65, 100, 100, 105, 110, 103, 32, 99, 101, 114, 116, 32, 116, 111, 32, 116, 114, 117, 115, 116, 101, 100, 32, 115, 116, 111, 114, 101, 32, 40], .str, .lit [41]] [.other] else some []) with
    | none => none
    | some o =>
      match trustLoop st syms cs with
      | none => none
      | some o' => some (o ++ o')

/-- Both loops.  `est_client.c` lines 566-620. -/
def verifyCerts (st : St) (syms : Option (List (List Nat))) (cs : List Cert) :
    Option (Bool × List Out) :=
  match trustLoop st syms cs with
  | none => none
  | some o => (checkLoop st syms cs).map fun r => (r.1, o ++ r.2)

end Verif.Log
