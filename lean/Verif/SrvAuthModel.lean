import Verif.AuthHdrModel
import Verif.ConfigModel
import Verif.WireModel

/-!
# Model of the callbacks of the sample server that say who is let in

Source: `/repo/example/server/estserver.c`: the options of `main` that matter for authentication
(lines 2125-2302 and 2412-2665), `process_http_auth` (lines 1861-1936), `process_ssl_srp_auth`
(lines 1949-1983), `extract_sub_name` (lines 645-665) and `process_csrattrs_request` (lines
1021-1045).  The header has been parsed by `AuthHdr.parseAuthHeader`.  Memory is available.
-/
namespace Verif.SrvAuth
open Verif.AuthHdr (Ah Parsed)

/-- Invalid accesses to memory: through NULL, behind what may be read, behind what may be written.
What can happen in `estserver.c` lines 645-665 and 1861-1936. -/
inductive Bad
  | null
  | read
  | write
deriving DecidableEq, Repr

/-! ## Options -/

/-- The options that matter here: `-h`, `-b`, `--token`, `-n`, `-o`, `-r`, `--enhcd_cert_auth`,
`--cert_auth_ah_pwd`, `--cert_auth_csr_check_on` and `-t`.  `estserver.c` lines 2125-2302.  The other
options of enhanced certificate authentication (name and field of a manufacturer, field of the
local PKI) are not given. -/
inductive Opt
  | digest
  | basic
  | token (t : List Nat)
  | disable
  | optional
  | realm (r : List Nat)
  | eca
  | ecaPwd (p : List Nat)
  | ecaCheck
  | pop
deriving DecidableEq, Repr

/-- The variables that the options set, with the values before `main`.  Texts are kept without
the NUL characters behind them.  `estserver.c` lines 80-138. -/
structure Glob where
  digest : Bool := false
  basic : Bool := false
  tokenOn : Bool := false
  token : List Nat := []
  disable : Bool := false
  optional : Bool := false
  realm : List Nat := []
  eca : Bool := false
  pwdSet : Bool := false
  pwd : List Nat := []
  check : Bool := false
  pop : Bool := false
deriving DecidableEq, Repr

/-- One round of the loop over the options, `estserver.c` lines 2125-2302; `none`: the program ends.
`valid_token_value` has 513 bytes (cleared first), `cert_auth_ah_pwd` has 256, `realm` has 255. -/
def opt (g : Glob) : Opt → Option Glob
  | .digest => some { g with digest := true }
  | .basic => some { g with basic := true }
  | .token t => some { g with tokenOn := true, token := t.take 512 }
  | .disable => some { g with disable := true }
  | .optional => some { g with optional := true }
  | .realm r => if 32 < r.length then none else some { g with realm := r }
  | .eca => some { g with eca := true }
  | .ecaPwd p => some { g with pwdSet := true, pwd := p.take 256 }
  | .ecaCheck => some { g with check := true }
  | .pop => some { g with pop := true }

/-- The loop of `estserver.c` lines 2125-2302. -/
def opts : Glob → List Opt → Option Glob
  | g, [] => some g
  | g, o :: os =>
    match opt g o with
    | none => none
    | some g' => opts g' os

/-- `DEFAULT_ENHCD_CERT_PWD`, `estserver.c` line 66 (lines 60-68). -/
def defaultPwd : List Nat := [99, 105, 115, 99, 111]

/-- The password for enhanced certificate authentication, `estserver.c` lines 2576-2578 and 1885. -/
def ecaPass (g : Glob) : List Nat := if g.pwdSet then g.pwd else defaultPwd

/-- The calls of libest that these variables lead to, in order: `estserver.c` lines 2412-2416,
2512-2520, 2522-2535, 2557-2573 and 2575-2595.  `NID_commonName` is 13. -/
def calls (g : Glob) : List Setter.SrvOp :=
  (if g.pop then [] else [.disablePop]) ++
  ((if g.optional then [.setRequired 0] else []) ++
  ((if g.digest then [.setAuthMode 2] else []) ++
  ((if g.basic then [.setAuthMode 1] else []) ++
  ((if g.tokenOn then [.setAuthMode 3] else []) ++
  (if g.eca then [.enableEca 13 (some (ecaPass g)) (if g.check then 1 else 0)] else [])))))

/-- `main` ends when a call fails.  `estserver.c` lines 2512-2600. -/
def goOn (lib : Setter.Lib) : Setter.Srv → List Setter.SrvOp → Option Setter.Srv
  | s, [] => some s
  | s, o :: os =>
    match Setter.step lib s o with
    | (.none, s') => goOn lib s' os
    | _ => none

/-- From the options to the running server: its variables and the configuration of libest.
`estserver.c` lines 2125-2665. -/
def start (lib : Setter.Lib) (os : List Opt) : Option (Glob × Setter.Srv) :=
  match opts {} os with
  | none => none
  | some g =>
    if !g.eca && g.pwdSet then none
    else
      match goOn lib Setter.Srv.init (calls g) with
      | none => none
      | some s => some (g, s)

/-! ## The check of HTTP credentials -/

/-- `sprintf (…, "%.2x", …)` of a byte, `estserver.c` lines 2549-2553. -/
def hex2 (b : Nat) : List Nat :=
  let d := fun n : Nat => if n < 10 then 48 + n else 87 + n
  [d (b / 16), d (b % 16)]

/-- `digest_user[2]`, made once at the start, as the 32 bytes that are read of it.  `H` is MD5.
`estserver.c` lines 1845 and 2522-2555. -/
def ha1 (H : List Nat → List Nat) (g : Glob) : List Nat :=
  if g.digest then (H ([101, 115, 116, 117, 115, 101, 114] ++ 58 :: (g.realm ++ 58 :: [101, 115, 116, 112, 119, 100]))).flatMap hex2
  else List.replicate 32 0

/-- `!strcmp (p, t)`.  Called in `estserver.c` lines 1887, 1896 and 1924. -/
def same (p : Option (List Nat)) (t : List Nat) : Except Bad Bool :=
  match p with
  | none => .error .null
  | some s => .ok (s == t)

/-- A line on standard output: the text before the value, and the value.  Those of `estserver.c`
lines 1919-1922. -/
structure Line where
  label : List Nat
  value : Option (List Nat)
deriving DecidableEq, Repr

/-- `process_http_auth`, `estserver.c` lines 1861-1936: what it prints and what it returns.  The
path segment is printed as well, which is left out here. -/
def httpAuth (H : List Nat → List Nat) (g : Glob) (ah : Ah) : List Line × Except Bad Bool :=
  match ah.mode with
  | .basic =>
    let user := if g.eca then [47, 67, 78, 61, 49, 50, 55, 46, 48, 46, 48, 46, 49] else [101, 115, 116, 117, 115, 101, 114]
    let pass := if g.eca then ecaPass g else [101, 115, 116, 112, 119, 100]
    ([], match same ah.user user with
      | .ok true => same ah.pwd pass
      | r => r)
  | .digest =>
    ([], match same ah.user [101, 115, 116, 117, 115, 101, 114] with
      | .ok true =>
        match AuthHdr.serverDigest H ah (ha1 H g) with
        | none => .error .null
        | some d =>
          match ah.response with
          | none => .error .null
          | some r => .ok (r.take 32 == d.take 32)
      | r => r)
  | .token =>
    ([⟨[67, 111, 110, 102, 105, 103, 117, 114, 101, 100, 32, 97, 99, 99, 101, 115, 115, 32, 116, 111, 107, 101, 110, 32, 61, 32], ah.token⟩,
      ⟨[67, 108, 105, 101, 110, 116, 32, 97, 99, 99, 101, 115, 115, 32, 116, 111, 107, 101, 110, 32, 114, 101, 99, 101, 105, 118, 101, 100, 32, 61, 32], some g.token⟩],
     same ah.token g.token)
  | _ => ([], .ok false)

/-- What becomes of the Authorization header of a request, when the handler looks at it:
`est_server.c` lines 639-683 with the callback of `estserver.c` lines 1861-1936.  `false` also
stands for a header that is missing or bad. -/
def login (H : List Nat → List Nat) (g : Glob) : Parsed → Except Bad Bool
  | .ub => .error .read
  | .missing => .ok false
  | .bad => .ok false
  | .good ah _ => (httpAuth H g ah).2

/-! ## The other callbacks -/

/-- `process_ssl_srp_auth`, `estserver.c` lines 1949-1983: the value returned, whether an alert is set,
and how many records of users stay allocated.  `known` is what `SRP_VBASE_get1_by_user` finds,
`set` the outcome of `SSL_set_srp_server_param`. -/
def srpAuth (login : Option (List Nat)) (known : List Nat → Bool) (set : Bool) : Int × Bool × Nat :=
  match login with
  | none => (-1, false, 0)
  | some u =>
    if !known u then (2, false, 0)
    else if !set then (2, true, 1)
    else (0, false, 0)

/-- `extract_sub_name (cert, sn, 64)` for an array `sn` of 64 zero bytes, and what is printed of it:
`estserver.c` lines 645-665, 728-732 and 929-933.  `text` is the subject as OpenSSL prints it, `rest` the
contents of the buffer of the memory BIO behind it; there is no buffer when nothing was printed. -/
def subName (text rest : List Nat) : Except Bad (List Nat) :=
  let buf := text ++ rest
  let s := buf.takeWhile (· ≠ 0)
  if text = [] then .error .null
  else if s.length = buf.length ∧ buf.length < 64 then .error .read
  else
    let name := s.take 64 ++ List.replicate (64 - s.length) 0
    if text.length < 64 then .ok ((name.set text.length 0).takeWhile (· ≠ 0))
    else .error .write

/-- `TEST_CSR`, `estserver.c` line 1020 (lines 1018-1020). -/
def testCsr : List Nat := [77, 67, 89, 71, 66, 121, 115, 71, 65, 81, 69, 66, 65, 82, 89, 71, 67, 83, 113, 71, 83, 73, 98, 51, 68, 81, 69, 74, 65, 81, 89, 70, 75, 52, 69, 69, 65, 67, 73, 71, 67, 87, 67, 71, 83, 65, 70, 108, 65, 119, 81, 67, 65, 103, 61, 61]

/-- `process_csrattrs_request`, `estserver.c` lines 1021-1045: the length it reports and the bytes of
the buffer; `none` is a byte that was not written.  `env` is the environment variable. -/
def csrAttrs (env : Option (List Nat)) : Nat × List (Option Nat) :=
  match env with
  | some t => (t.length, t.map some ++ [none])
  | none => (testCsr.length + 1, testCsr.map some ++ [some 0, none])

end Verif.SrvAuth
