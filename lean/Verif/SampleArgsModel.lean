import Verif.SampleCliModel

/-!
# The command line of the sample client

A model of `main` of the sample client (`example/client/estclient.c` lines 1095-1571
with the variables of lines 58-112, and `example/util/utils.c` lines 160-195): the
options are stored, checked, and the files they name are read; then the threads run,
which are the programs of `Verif.SampleCli`.

Strings of the command line are lists of bytes without a null byte.  The arrays of
the program are lists of their full length, so that a string without an end can be
told from others; reading behind an array is undefined.
-/
namespace Verif.SampleArgs
open Verif.SampleCli (Opts Proxy)
open Verif.ClientResp (atoi)

/-- The long options, `estclient.c` lines 1110-1128. -/
inductive Name
  | trustanchor | srp | srpUser | srpPassword | authToken | commonName | pemOutput | pathSeg
  | keypassStdin | keypassArg | proxyServer | proxyPort | proxyProto | proxyAuth | proxyUsername | proxyPassword
deriving DecidableEq, Repr

/-- Their texts, `estclient.c` lines 1111-1126. -/
def Name.text : Name → List Nat
  | .trustanchor => [116, 114, 117, 115, 116, 97, 110, 99, 104, 111, 114]
  | .srp => [115, 114, 112]
  | .srpUser => [115, 114, 112, 45, 117, 115, 101, 114]
  | .srpPassword => [115, 114, 112, 45, 112, 97, 115, 115, 119, 111, 114, 100]
  | .authToken => [97, 117, 116, 104, 45, 116, 111, 107, 101, 110]
  | .commonName => [99, 111, 109, 109, 111, 110, 45, 110, 97, 109, 101]
  | .pemOutput => [112, 101, 109, 45, 111, 117, 116, 112, 117, 116]
  | .pathSeg => [112, 97, 116, 104, 45, 115, 101, 103]
  | .keypassStdin => [107, 101, 121, 112, 97, 115, 115, 95, 115, 116, 100, 105, 110]
  | .keypassArg => [107, 101, 121, 112, 97, 115, 115, 95, 97, 114, 103]
  | .proxyServer => [112, 114, 111, 120, 121, 45, 115, 101, 114, 118, 101, 114]
  | .proxyPort => [112, 114, 111, 120, 121, 45, 112, 111, 114, 116]
  | .proxyProto => [112, 114, 111, 120, 121, 45, 112, 114, 111, 116, 111]
  | .proxyAuth => [112, 114, 111, 120, 121, 45, 97, 117, 116, 104]
  | .proxyUsername => [112, 114, 111, 120, 121, 45, 117, 115, 101, 114, 110, 97, 109, 101]
  | .proxyPassword => [112, 114, 111, 120, 121, 45, 112, 97, 115, 115, 119, 111, 114, 100]

/-- What `getopt_long` finds: a long option, an option of one letter, each with its
argument (empty when it has none), or something else.  `estclient.c` line 1147. -/
inductive Arg
  | long (n : Name) (v : List Nat)
  | short (c : Char) (v : List Nat)
  | other
deriving DecidableEq, Repr

/-- `strncpy (a, s, n)` for an array with at least `n` bytes.  Used in `estclient.c`
lines 1139, 1167-1227 and 1255-1276. -/
def strncpy (a s : List Nat) (n : Nat) : List Nat :=
  s.take n ++ List.replicate (n - s.length) 0 ++ a.drop n

/-- An array read as a string, `none` if there is no null byte in it.  The uses of the
arrays of `estclient.c` lines 64-98. -/
def str (a : List Nat) : Option (List Nat) :=
  if 0 ∈ a then some (a.takeWhile (· ≠ 0)) else none

/-- `!strncmp (s, p, strlen (p))`.  Used in `estclient.c` lines 1156-1229. -/
def starts (s p : List Nat) : Bool := p.isPrefixOf s

/-- How the password for a private key is found, `estclient.c` line 99. -/
inductive Cb
  | none | stdin | arg
deriving DecidableEq, Repr

/-- The variables of `estclient.c` lines 64-106 and 1130-1131 that options set. -/
structure Vars where
  uid : List Nat := List.replicate 256 0
  pwd : List Nat := List.replicate 256 0
  srpUid : List Nat := List.replicate 255 0
  srpPwd : List Nat := List.replicate 255 0
  cn : List Nat := strncpy (List.replicate 64 0) [49, 50, 55, 46, 48, 46, 48, 46, 49] 64
  server : List Nat := List.replicate 255 0
  token : List Nat := List.replicate 513 0
  port : Int := 0
  verbose : Bool := false
  srp : Bool := false
  tokenMode : Bool := false
  pem : Bool := false
  csrFile : List Nat := List.replicate 255 0
  keyFile : List Nat := List.replicate 255 0
  clientKey : List Nat := List.replicate 255 0
  clientCert : List Nat := List.replicate 255 0
  threads : Int := 1
  timeout : Int := 10
  iterations : Int := 1
  outDir : List Nat := List.replicate 255 0
  enroll : Bool := false
  getcsr : Bool := false
  getcert : Bool := false
  reenroll : Bool := false
  keygen : Bool := false
  forcePop : Bool := false
  seg : Option (List Nat) := none
  keyPwd : List Nat := List.replicate 255 0
  cb : Cb := .none
  proxyServer : Option (List Nat) := none
  proxyPort : Int := 0
  proxyProto : Int := 0
  proxyAuth : Nat := 0
  proxyUser : Option (List Nat) := none
  proxyPwd : Option (List Nat) := none
  trust : Bool := true
  trustFile : Option (List Nat) := none
deriving DecidableEq, Repr

/-- `--proxy-proto`, `estclient.c` lines 1188-1200. -/
def proto (v : List Nat) (old : Int) : Int :=
  if starts v [83, 79, 67, 75, 83, 52] then 4
  else if starts v [83, 79, 67, 75, 83, 52, 65] then 6
  else if starts v [83, 79, 67, 75, 83, 53] then 5
  else if starts v [83, 79, 67, 75, 83, 95, 72, 79, 83, 84, 78, 65, 77, 69] then 7
  else if starts v [72, 84, 84, 80, 95, 78, 79, 84, 85, 78, 78, 69, 76] then 0
  else if starts v [72, 84, 84, 80, 95, 84, 85, 78, 78, 69, 76] then 1
  else old

/-- `--proxy-auth`, `estclient.c` lines 1203-1207. -/
def auth (v : List Nat) (old : Nat) : Nat :=
  if starts v [66, 65, 83, 73, 67] then old ||| 1
  else if starts v [78, 84, 76, 77] then old ||| 8
  else old

/-- A fresh block of `n + 1` zero bytes with at most `n` bytes of a string; there is
memory.  `estclient.c` lines 1177-1178, 1181-1182, 1210-1211 and 1214-1215. -/
def block (v : List Nat) (n : Nat) : List Nat := strncpy (List.replicate (n + 1) 0) v n

/-- A long option: every test is made, one after the other.  `estclient.c` lines
1156-1231. -/
def long (n : Name) (v : List Nat) (s : Vars) : Vars :=
  let s := if starts n.text [116, 114, 117, 115, 116, 97, 110, 99, 104, 111, 114] then
      if starts v [110, 111] then { s with trust := false } else { s with trustFile := some v }
    else s
  let s := if starts n.text [115, 114, 112] then { s with srp := true } else s
  let s := if starts n.text [115, 114, 112, 45, 117, 115, 101, 114] then { s with srpUid := strncpy s.srpUid v 255 } else s
  let s := if starts n.text [115, 114, 112, 45, 112, 97, 115, 115, 119, 111, 114, 100] then { s with srpPwd := strncpy s.srpPwd v 255 } else s
  let s := if starts n.text [97, 117, 116, 104, 45, 116, 111, 107, 101, 110] then { s with token := strncpy s.token v 512, tokenMode := true } else s
  let s := if starts n.text [112, 97, 116, 104, 45, 115, 101, 103] then { s with seg := some (block v 128) } else s
  let s := if starts n.text [112, 114, 111, 120, 121, 45, 115, 101, 114, 118, 101, 114] then { s with proxyServer := some (block v 255) } else s
  let s := if starts n.text [112, 114, 111, 120, 121, 45, 112, 111, 114, 116] then { s with proxyPort := atoi v } else s
  let s := if starts n.text [112, 114, 111, 120, 121, 45, 112, 114, 111, 116, 111] then { s with proxyProto := proto v s.proxyProto } else s
  let s := if starts n.text [112, 114, 111, 120, 121, 45, 97, 117, 116, 104] then { s with proxyAuth := auth v s.proxyAuth } else s
  let s := if starts n.text [112, 114, 111, 120, 121, 45, 117, 115, 101, 114, 110, 97, 109, 101] then { s with proxyUser := some (block v 255) } else s
  let s := if starts n.text [112, 114, 111, 120, 121, 45, 112, 97, 115, 115, 119, 111, 114, 100] then { s with proxyPwd := some (block v 255) } else s
  let s := if starts n.text [107, 101, 121, 112, 97, 115, 115, 95, 115, 116, 100, 105, 110] then { s with cb := .stdin } else s
  let s := if starts n.text [107, 101, 121, 112, 97, 115, 115, 95, 97, 114, 103] then { s with keyPwd := strncpy s.keyPwd v 255, cb := .arg } else s
  let s := if starts n.text [99, 111, 109, 109, 111, 110, 45, 110, 97, 109, 101] then { s with cn := strncpy s.cn v 64 } else s
  if starts n.text [112, 101, 109, 45, 111, 117, 116, 112, 117, 116] then { s with pem := true } else s

/-- An option of one letter, `estclient.c` lines 1233-1319; a number is the code with
which the process is left.  `fips`: FIPS mode can be turned on. -/
def short (fips : Bool) (c : Char) (v : List Nat) (s : Vars) : Except Nat Vars :=
  match c with
  | 'v' => .ok { s with verbose := true }
  | 'z' => .ok { s with forcePop := true }
  | 'a' => .ok { s with getcsr := true }
  | 'g' => .ok { s with getcert := true }
  | 'e' => .ok { s with enroll := true }
  | 'r' => .ok { s with reenroll := true }
  | 'q' => .ok { s with keygen := true }
  | 'u' => .ok { s with uid := strncpy s.uid v 255 }
  | 'h' => .ok { s with pwd := strncpy s.pwd v 255 }
  | 's' => .ok { s with server := strncpy s.server v 255 }
  | 'x' => .ok { s with keyFile := strncpy s.keyFile v 255 }
  | 'y' => .ok { s with csrFile := strncpy s.csrFile v 255 }
  | 'k' => .ok { s with clientKey := strncpy s.clientKey v 255 }
  | 'c' => .ok { s with clientCert := strncpy s.clientCert v 255 }
  | 'o' => .ok { s with outDir := strncpy s.outDir v 255 }
  | 'p' => .ok { s with port := atoi v }
  | 'f' => if fips then .ok s else .error 1
  | 't' => if atoi v > 10 then .error 1 else .ok { s with threads := atoi v }
  | 'w' => if atoi v > 3600 then .error 1 else .ok { s with timeout := atoi v }
  | 'i' => if atoi v > 1000000 then .error 1 else .ok { s with iterations := atoi v }
  | _ => .error 255

/-- One option, `estclient.c` lines 1148-1320. -/
def option (fips : Bool) (a : Arg) (s : Vars) : Except Nat Vars :=
  match a with
  | .long n v => .ok (long n v s)
  | .short c v => short fips c v s
  | .other => .error 255

/-- All options, `estclient.c` lines 1147-1321. -/
def options (fips : Bool) : List Arg → Vars → Except Nat Vars
  | [], s => .ok s
  | a :: as, s =>
    match option fips a s with
    | .error n => .error n
    | .ok s => options fips as s

/-- The first byte of an array, as C tests it.  `estclient.c` lines 1332-1376. -/
def first (a : List Nat) : Nat := a.headD 0

/-- The checks of `estclient.c` lines 1332-1379 in their order; true: the process is
left with 1.  `reenroll & csr_file[0]` is the lowest bit of the first byte.  What is
printed with `-v` is left out. -/
def rejected (s : Vars) : Bool :=
  (first s.uid != 0 && first s.pwd == 0) ||
  (first s.csrFile != 0 && s.getcsr) ||
  (first s.csrFile != 0 && first s.keyFile != 0) ||
  (first s.csrFile != 0 && s.forcePop) ||
  (s.reenroll && first s.csrFile % 2 == 1) ||
  (s.enroll && s.reenroll) ||
  first s.outDir == 0

/-- What `main` needs of the system: the environment variable `EST_OPENSSL_CACERT`,
which files have CA certificates, a certificate or a private key (for this password
callback), whether a key can be made, whether a password typed in is good, one answer
for each time it is asked for, whether the library is built with threads, and FIPS
mode.  `estclient.c` lines 1283, 1386-1495 and 1496. -/
structure Env where
  caVar : Option (List Nat)
  caOk : List Nat → Bool
  certOk : List Nat → Bool
  keyOk : List Nat → Cb → Bool
  genOk : Bool
  typed : List Bool
  threaded : Bool
  fips : Bool

/-- What `main` does with files, `estclient.c` lines 1396-1491. -/
inductive Act
  | readCa (name : List Nat)
  | readCert (name : List Nat)
  | readKey (name : List Nat)
  | writeKey (name : List Nat)
deriving DecidableEq, Repr

/-- How `main` goes on: it leaves the process, does something undefined, keeps going
round a loop, or runs the threads.  `ca`: there are CA certificates.  `estclient.c`
lines 1095-1571. -/
inductive Out
  | exit (n : Nat)
  | ub
  | busy
  | run (o : Opts) (ca : Bool) (threads : Nat) (rounds : Nat) (acts : List Act)
deriving DecidableEq, Repr

/-- The loop in `generate_private_RSA_key`, `utils.c` lines 177-190: whether there is
a key.  Without a callback there is one round.  With one, the loop goes on until the
password is good: OpenSSL refuses an empty one from the callback of
`estclient.c` lines 118-122, which gives the same one each time.  `none`: it does not
end.  A list of answers that is used up stands for a user who types no more. -/
def genKey (e : Env) (cb : Cb) (pwd : List Nat) : Option Bool :=
  match cb with
  | .none => some e.genOk
  | .stdin => if true ∈ e.typed then some true else none
  | .arg => if pwd = [] then none else some true

/-- The key for an enrolment: `estclient.c` lines 1465-1495.  The name of the file is
cut to 254 bytes by `snprintf`. -/
def keyPart (e : Env) (s : Vars) : Except Out (List Act) :=
  match (if first s.keyFile == 0 && s.enroll && first s.csrFile == 0 then
      match str s.outDir, (if s.cb = .arg then str s.keyPwd else some []) with
      | some d, some p =>
        match genKey e s.cb p with
        | none => .error .busy
        | some false => .error (.exit 1)
        | some true =>
          let n := (d ++ [47, 107, 101, 121, 45, 120, 45, 120, 46, 112, 101, 109]).take 254
          .ok ([.writeKey n], strncpy s.keyFile n 255)
      | _, _ => .error .ub
    else .ok ([], s.keyFile) : Except Out (List Act × List Nat)) with
  | .error x => .error x
  | .ok (acts, kf) =>
    if (s.enroll || s.keygen) && first s.csrFile == 0 then
      match str kf with
      | none => .error .ub
      | some n => if e.keyOk n s.cb then .ok (acts ++ [.readKey n]) else .error (.exit 1)
    else .ok acts

/-- The CA certificates, `estclient.c` lines 1381-1401. -/
def trustPart (e : Env) (s : Vars) : Except Out (List Act) :=
  if s.trust then
    match (match s.trustFile with | some f => some f | none => e.caVar) with
    | none => .error (.exit 1)
    | some f => if e.caOk f then .ok [.readCa f] else .error (.exit 1)
  else .ok []

/-- The certificate and the key of the client, `estclient.c` lines 1408-1446. -/
def identPart (e : Env) (s : Vars) : Except Out (List Act) :=
  match (if first s.clientCert != 0 then
      match str s.clientCert with
      | none => .error .ub
      | some n => if e.certOk n then .ok [.readCert n] else .error (.exit 1)
    else .ok [] : Except Out (List Act)) with
  | .error x => .error x
  | .ok acts =>
    if first s.clientKey != 0 then
      match str s.clientKey with
      | none => .error .ub
      | some n => if e.keyOk n s.cb then .ok (acts ++ [.readKey n]) else .error (.exit 1)
    else .ok acts

/-- A string in a block that is there or not, `estclient.c` lines 875-892. -/
def strOpt (b : Option (List Nat)) : Option (Option (List Nat)) :=
  match b with
  | none => some none
  | some a => (str a).map some

/-- A string that is used only in some cases, `estclient.c` lines 475-480 and 851-860. -/
def strIf (c : Bool) (a : List Nat) : Option (List Nat) := if c then str a else some []

/-- The strings that a round uses if it does what it is told to: the user and the
server always, those of SRP with SRP, the common name in a simple enrolment without a
CSR, the name of the CSR with one, the directory always (the checks want one).
`estclient.c` lines 459, 475-480, 515, 851-892.  Using one without an end is
undefined; that it is used only if all before it goes well is left out. -/
def opts (s : Vars) : Option Opts := do
  let uid ← str s.uid
  let pwd ← str s.pwd
  let server ← str s.server
  let dir ← str s.outDir
  let token ← str s.token
  let srpUid ← strIf s.srp s.srpUid
  let srpPwd ← strIf s.srp s.srpPwd
  let simple := (s.enroll || s.keygen) && !s.getcsr
  let cn ← strIf (simple && first s.csrFile == 0) s.cn
  let _ ← strIf (simple && first s.csrFile != 0) s.csrFile
  let seg ← strOpt s.seg
  let host ← strOpt s.proxyServer
  let user ← strOpt s.proxyUser
  let ppwd ← strOpt s.proxyPwd
  some { uid := uid, pwd := pwd, cert := first s.clientCert != 0, key := first s.clientKey != 0,
         srp := s.srp, srpUid := srpUid, srpPwd := srpPwd, tokenMode := s.tokenMode, token := token,
         cn := cn, server := server, port := s.port, seg := seg,
         proxy := host.map fun h => ⟨h, s.proxyPort, s.proxyProto.toNat, s.proxyAuth, user, ppwd⟩,
         timeout := s.timeout, csrFile := first s.csrFile != 0, pem := s.pem, outDir := dir,
         getcert := s.getcert, enroll := s.enroll, keygen := s.keygen, getcsr := s.getcsr,
         reenroll := s.reenroll, forcePop := s.forcePop }

/-- `main`, `estclient.c` lines 1095-1571.  Without threads there is one, with number
0 (lines 1548-1550). -/
def main (e : Env) (as : List Arg) : Out :=
  match options e.fips as {} with
  | .error n => .exit n
  | .ok s =>
    if rejected s then .exit 1
    else
      match trustPart e s with
      | .error x => x
      | .ok a1 =>
        match identPart e s with
        | .error x => x
        | .ok a2 =>
          match keyPart e s with
          | .error x => x
          | .ok a3 =>
            match opts s with
            | none => .ub
            | some o => .run o s.trust (if e.threaded then s.threads.toNat else 1) s.iterations.toNat (a1 ++ a2 ++ a3)

end Verif.SampleArgs
