import Verif.AuthHdrModel
import Verif.ClientRespModel
/-!
# Model of the sample proxy

Source: `/repo/example/proxy/estproxy.c`: the variables (lines 57-115), `process_http_auth` (lines
172-254), `auth_credentials_token_cb` (lines 269-312), `process_ssl_srp_auth` (lines 325-359) and
`main` (lines 412-974), built with libcoap and with POSIX threads.

The words of the command line have been read by `getopt_long`: the model begins with what it
returns.  There are no words besides the options.  Messages are left out, except that printing a
text reads it.  What libest, OpenSSL and the files answer is a parameter.
-/
namespace Verif.PxSample
open Verif.AuthHdr (Ah)
open Verif.ClientResp (atoi)

/-- An array of characters after `strncpy`: the characters before the first NUL, and whether there
is a NUL inside of the array.  `estproxy.c` lines 68-115. -/
structure Buf where
  text : List Nat
  ended : Bool
deriving DecidableEq, Repr

/-- `strncpy (buf, arg, n)` into an array of `size` characters; the one behind the `n` is NUL from
the start, if there is one.  The calls in `estproxy.c` lines 468-569. -/
def strncpy (n size : Nat) (arg : List Nat) : Buf := ⟨arg.take n, decide (arg.length < n) || decide (n < size)⟩

/-- An array that nothing was copied to: `estproxy.c` lines 68-115. -/
def Buf.zero : Buf := ⟨[], true⟩

/-- What `getopt_long` returns: a long option of the table by its name, a letter, each with the
argument (empty if it takes none), or a question mark.  `estproxy.c` lines 429-462. -/
inductive Got
  | long (name arg : List Nat)
  | short (c : Nat) (arg : List Nat)
  | unknown
deriving DecidableEq, Repr

/-- The letters `getopt_long` knows, `estproxy.c` line 461 (lines 461-462). -/
def letters : List Nat := [118, 116, 54, 110, 104, 102, 114, 99, 107, 115, 112, 108, 100, 119]

/-- The variables that the options set: `estproxy.c` lines 62-115 and 426-427. -/
structure Glob where
  srp : Bool := false
  vfile : Buf := .zero
  tokenOn : Bool := false
  token : Buf := .zero
  clientTok : Bool := false
  authToken : Buf := .zero
  eca : Bool := false
  pwd : Buf := .zero
  pwdSet : Bool := false
  check : Bool := false
  localNid : Buf := .zero
  localSet : Bool := false
  mfgName : Buf := .zero
  nameSet : Bool := false
  mfgStore : Buf := .zero
  storeSet : Bool := false
  mfgNid : Buf := .zero
  nidSet : Bool := false
  seg : Buf := .zero
  segSet : Bool := false
  coap : Bool := false
  dtlsTimeout : Int := 0
  dtlsMtu : Int := 0
  dtlsMax : Int := 32
  perf : Bool := false
  verbose : Bool := false
  pop : Bool := false
  v6 : Bool := false
  digest : Bool := false
  basic : Bool := false
  disable : Bool := false
  cert : Buf := .zero
  key : Buf := .zero
  realm : Buf := .zero
  server : Buf := .zero
  serverSet : Bool := false
  timeout : Int := 10
  sleep : Int := 0
  port : Int := 0
  listen : Int := 8086
deriving DecidableEq, Repr

/-- `!strncmp (name, t, strlen (t))`, the tests of `estproxy.c` lines 465-539. -/
def starts (t name : List Nat) : Bool := t.isPrefixOf name

/-- A long option, `estproxy.c` lines 464-540. -/
def long (n v : List Nat) (g : Glob) : Glob :=
  let g := if starts [115, 114, 112] n then { g with srp := true, vfile := strncpy 255 255 v } else g
  let g := if starts [116, 111, 107, 101, 110] n then { g with tokenOn := true, token := strncpy 512 512 v } else g
  let g := if starts [97, 117, 116, 104, 45, 116, 111, 107, 101, 110] n then { g with authToken := strncpy 512 513 v, clientTok := true } else g
  let g := if starts [101, 110, 104, 99, 100, 95, 99, 101, 114, 116, 95, 97, 117, 116, 104] n then { g with eca := true } else g
  let g := if starts [99, 101, 114, 116, 95, 97, 117, 116, 104, 95, 97, 104, 95, 112, 119, 100] n then { g with pwd := strncpy 256 256 v, pwdSet := true } else g
  let g := if starts [99, 101, 114, 116, 95, 97, 117, 116, 104, 95, 99, 115, 114, 95, 99, 104, 101, 99, 107, 95, 111, 110] n then { g with check := true } else g
  let g := if starts [101, 110, 104, 99, 100, 95, 99, 101, 114, 116, 95, 108, 111, 99, 97, 108, 95, 110, 105, 100] n then { g with localNid := strncpy 256 256 v, localSet := true } else g
  let g := if starts [101, 110, 104, 99, 100, 95, 99, 101, 114, 116, 95, 109, 102, 103, 95, 110, 97, 109, 101] n then { g with mfgName := strncpy 256 256 v, nameSet := true } else g
  let g := if starts [101, 110, 104, 99, 100, 95, 99, 101, 114, 116, 95, 109, 102, 103, 95, 116, 114, 117, 115, 116, 115, 116, 111, 114, 101] n then { g with mfgStore := strncpy 255 255 v, storeSet := true } else g
  let g := if starts [101, 110, 104, 99, 100, 95, 99, 101, 114, 116, 95, 109, 102, 103, 95, 110, 105, 100] n then { g with mfgNid := strncpy 256 256 v, nidSet := true } else g
  let g := if starts [112, 97, 116, 104, 45, 115, 101, 103] n then { g with seg := strncpy 129 129 v, segSet := true } else g
  let g := if starts [101, 110, 97, 98, 108, 101, 45, 99, 111, 97, 112] n then { g with coap := true } else g
  let g := if starts [100, 116, 108, 115, 45, 104, 97, 110, 100, 115, 104, 97, 107, 101, 45, 116, 105, 109, 101, 111, 117, 116] n then { g with dtlsTimeout := atoi v } else g
  let g := if starts [100, 116, 108, 115, 45, 104, 97, 110, 100, 115, 104, 97, 107, 101, 45, 109, 116, 117] n then { g with dtlsMtu := atoi v } else g
  let g := if starts [100, 116, 108, 115, 45, 115, 101, 115, 115, 105, 111, 110, 45, 109, 97, 120] n then { g with dtlsMax := atoi v } else g
  if starts [112, 101, 114, 102, 45, 116, 105, 109, 101, 114, 115, 45, 111, 110] n then { g with perf := true } else g

/-- How the program ends: with the usage, with an error, by an invalid access; or it serves.
`estproxy.c` lines 169, 577-970. -/
inductive Fin
  | usage
  | error
  | ub
  | serves
deriving DecidableEq, Repr

/-- A letter, `estproxy.c` lines 541-608.  `fips` is whether that mode can be turned on. -/
def short (fips : Bool) (c : Nat) (v : List Nat) (g : Glob) : Except Fin Glob :=
  if c ∉ letters then .error .usage
  else if c = 118 then .ok { g with verbose := true }
  else if c = 116 then .ok { g with pop := true }
  else if c = 54 then .ok { g with v6 := true }
  else if c = 104 then .ok { g with digest := true }
  else if c = 98 then .ok { g with basic := true }
  else if c = 110 then .ok { g with disable := true }
  else if c = 99 then .ok { g with cert := strncpy 255 255 v }
  else if c = 107 then .ok { g with key := strncpy 255 255 v }
  else if c = 114 then .ok { g with realm := strncpy 255 255 v }
  else if c = 115 then .ok { g with server := strncpy 32 32 v, serverSet := true }
  else if c = 119 then
    if atoi v > 3600 then .error .error else .ok { g with timeout := atoi v }
  else if c = 100 then .ok { g with sleep := atoi v }
  else if c = 112 then .ok { g with port := atoi v }
  else if c = 108 then .ok { g with listen := atoi v }
  else if fips then .ok g
  else .error .error

/-- One round of the loop, `estproxy.c` lines 461-609. -/
def round (fips : Bool) (g : Glob) : Got → Except Fin Glob
  | .long n v => .ok (long n v g)
  | .short c v => short fips c v g
  | .unknown => .error .usage

/-- The loop, `estproxy.c` lines 461-609. -/
def opts (fips : Bool) : Glob → List Got → Except Fin Glob
  | g, [] => .ok g
  | g, o :: os =>
    match round fips g o with
    | .error f => .error f
    | .ok g' => opts fips g' os

/-- The calls of libest: `estproxy.c` lines 710-970.  Modes: 2 digest, 1 basic, 3 token. -/
inductive Call
  | init (realm : List Nat)
  | authCb
  | authMode (m : Nat)
  | eca (nid : Nat) (pwd : List Nat) (check : Bool)
  | addMfg (name : List Nat) (nid : Nat)
  | pathSeg (t : List Nat)
  | readTimeout (n : Int)
  | disablePop
  | setServer (host : List Nat) (port : Int)
  | srp
  | credCb
  | perf
  | dtlsTimeout (n : Int)
  | dtlsMtu (n : Int)
  | dtlsMax (n : Int)
  | coapStart (port : Int)
  | start
  | listen (port : Int) (v6 : Bool)
deriving DecidableEq, Repr

/-- What the program finds: whether FIPS mode can be turned on, the lengths of the two files of
certificates (`none` without the variable), whether a certificate and a key are read from a file, the
number of a name of a field (0: unknown), the length of the manufacturer's file, whether the SRP file
is read, and the answers of libest.  `estproxy.c` lines 596-970. -/
structure World where
  fips : Bool
  trusted : Option Int
  cacerts : Option Int
  cert : List Nat → Bool
  key : List Nat → Bool
  nid : List Nat → Nat
  mfgStore : List Nat → Int
  vfile : List Nat → Bool
  ok : Call → Bool

/-- What `main` does, step by step: a call that has to succeed, a call whose answer is not looked at, a
test, a test that ends with the usage, and a text that is read.  `estproxy.c` lines 613-970. -/
inductive Act
  | must (c : Call)
  | may (c : Call)
  | test (b : Bool)
  | orUsage (b : Bool)
  | reads (b : Buf)
deriving DecidableEq, Repr

/-- Enhanced certificate authentication, `estproxy.c` lines 750-840.  `NID_commonName` is 13. -/
def planEca (w : World) (g : Glob) : List Act :=
  if g.eca then
    let pwd := if g.pwdSet then g.pwd else strncpy 255 256 [99, 105, 115, 99, 111]
    (if g.localSet then
      [.reads g.localNid, .test (w.nid g.localNid.text != 0),
       .must (.eca (w.nid g.localNid.text) pwd.text g.check)]
     else [.must (.eca 13 pwd.text g.check)]) ++
    (if g.storeSet || g.nameSet then
      [.test (g.storeSet && g.nameSet), .reads g.mfgStore,
       .test (decide (w.mfgStore g.mfgStore.text > 0))] ++
      (if g.nidSet then
        [.reads g.mfgNid, .test (w.nid g.mfgNid.text != 0),
         .must (.addMfg g.mfgName.text (w.nid g.mfgNid.text))]
       else [.must (.addMfg g.mfgName.text 13)])
     else [])
  else [.orUsage (!(g.pwdSet || g.localSet || g.nameSet || g.storeSet || g.nidSet))]

/-- Starting to serve, `estproxy.c` lines 909-970. -/
def planStart (g : Glob) : List Act :=
  (if g.coap then
    (if g.dtlsTimeout ≠ 0 then [.must (.dtlsTimeout g.dtlsTimeout)] else []) ++
    (if g.dtlsMtu ≠ 0 then [.must (.dtlsMtu g.dtlsMtu)] else []) ++
    (if g.dtlsMax ≠ 0 then [.must (.dtlsMax g.dtlsMax)] else []) ++
    [.must (.coapStart g.listen)]
   else [.must .start]) ++
  [.may (.listen g.listen g.v6)]

/-- All of `main` after the options, `estproxy.c` lines 613-970.  The password, the name of the
manufacturer and the path segment are measured by libest, which looks at no more bytes than
there are. -/
def plan (w : World) (g : Glob) : List Act :=
  (if g.verbose then [.reads g.server, .reads g.cert, .reads g.key, .reads g.realm] else []) ++
  [.test w.trusted.isSome,
   .test (match w.cacerts with | some n => decide (n > 0) | none => true),
   .test (match w.trusted with | some n => decide (n > 0) | none => true),
   .test g.serverSet,
   .reads g.cert, .test (w.cert g.cert.text),
   .reads g.key, .test (w.key g.key.text),
   .reads g.realm, .must (.init g.realm.text)] ++
  (if g.disable then [] else [.must .authCb]) ++
  (if g.digest then [.must (.authMode 2)] else []) ++
  (if g.basic then [.must (.authMode 1)] else []) ++
  (if g.tokenOn then [.must (.authMode 3)] else []) ++
  planEca w g ++
  (if g.segSet then [.must (.pathSeg g.seg.text)] else []) ++
  [.must (.readTimeout g.timeout)] ++
  (if g.pop then [] else [.may .disablePop]) ++
  [.reads g.server, .may (.setServer g.server.text g.port)] ++
  (if g.srp then [.reads g.vfile, .test (w.vfile g.vfile.text), .must .srp] else []) ++
  (if g.clientTok then [.must .credCb] else []) ++
  (if g.perf then [.may .perf] else []) ++
  planStart g

/-- The steps one after the other, to the first that fails: the calls made and the end.
`estproxy.c` lines 613-970. -/
def exec (w : World) : List Act → List Call × Fin
  | [] => ([], .serves)
  | .must c :: r =>
    if w.ok c then (c :: (exec w r).1, (exec w r).2) else ([c], .error)
  | .may c :: r => (c :: (exec w r).1, (exec w r).2)
  | .test b :: r => if b then exec w r else ([], .error)
  | .orUsage b :: r => if b then exec w r else ([], .usage)
  | .reads b :: r => if b.ended then exec w r else ([], .ub)

/-- `main`, `estproxy.c` lines 412-974. -/
def main (w : World) (got : List Got) : List Call × Fin :=
  match got with
  | [] => ([], .usage)
  | [.short 104 _] => ([], .usage)
  | _ =>
    match opts w.fips {} got with
    | .error f => ([], f)
    | .ok g => exec w (plan w g)

/-! ## The callbacks -/

/-- Invalid accesses: through NULL, behind what may be read.  What can happen in `estproxy.c` lines
192-252. -/
inductive Bad
  | null
  | read
deriving DecidableEq, Repr

/-- `!strcmp (p, buf)`: reading goes on behind the array if all of it agrees and there is no NUL in
it.  Called in `estproxy.c` lines 205, 214 and 242. -/
def same (p : Option (List Nat)) (b : Buf) : Except Bad Bool :=
  match p with
  | none => .error .null
  | some s =>
    if b.ended then .ok (s == b.text)
    else if s.take b.text.length = b.text then .error .read
    else .ok false

/-- `digest_user[2]`, `estproxy.c` lines 172-177. -/
def ha1 : List Nat := [51, 54, 56, 48, 55, 102, 97, 50, 48, 48, 55, 52, 49, 98, 98, 48, 101, 56, 102, 98, 48, 52, 102, 99, 102, 48, 56, 101, 50, 100, 101, 54]

/-- `process_http_auth`, `estproxy.c` lines 179-254.  The messages for a token (lines 238-240)
print the array with the expected one, and read on behind it if it has no NUL.  `H` is MD5. -/
def httpAuth (H : List Nat → List Nat) (g : Glob) (ah : Ah) : Except Bad Bool :=
  match ah.mode with
  | .basic =>
    let user : Buf := ⟨if g.eca then [49, 50, 55, 46, 48, 46, 48, 46, 49] else [101, 115, 116, 117, 115, 101, 114], true⟩
    let pass : Buf := if g.eca then (if g.pwdSet then g.pwd else ⟨[99, 105, 115, 99, 111], true⟩) else ⟨[101, 115, 116, 112, 119, 100], true⟩
    match same ah.user user with
    | .ok true => same ah.pwd pass
    | r => r
  | .digest =>
    match same ah.user ⟨[101, 115, 116, 117, 115, 101, 114], true⟩ with
    | .ok true =>
      match AuthHdr.serverDigest H ah ha1 with
      | none => .error .null
      | some d =>
        match ah.response with
        | none => .error .null
        | some r => .ok (r.take 32 == d.take 32)
    | r => r
  | .token =>
    if !g.token.ended then .error .read
    else same ah.token g.token
  | _ => .ok false

/-- `auth_credentials_token_cb`, `estproxy.c` lines 269-312: whether it reports success, and the token
it leaves in the structure (`some none`: a null pointer; `none`: it is left alone).  `mem`: there is memory. -/
def tokenCb (g : Glob) (isToken mem : Bool) : Bool × Option (Option (List Nat)) :=
  if isToken then
    if g.authToken.text ≠ [] then
      if mem then (true, some (some g.authToken.text)) else (false, none)
    else (true, some none)
  else (false, none)

/-- `process_ssl_srp_auth`, `estproxy.c` lines 325-359: the value returned, whether an alert is set,
and how many records of users stay allocated. -/
def srpAuth (login : Option (List Nat)) (known : List Nat → Bool) (set : Bool) : Int × Bool × Nat :=
  match login with
  | none => (-1, false, 0)
  | some u =>
    if !known u then (2, false, 0)
    else if !set then (2, true, 1)
    else (0, false, 0)

end Verif.PxSample
