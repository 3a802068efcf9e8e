import Verif.EstErr
import Verif.ClientRespModel

/-!
# The sample client

A model of what a thread of the sample client does
(`example/client/estclient.c` lines 58-122 and 204-1067): it makes a context,
sets it up from the command line, asks for CA certificates, enrols, waits and
tries again when told to, fetches attributes, re-enrols, and writes what it got
into files.

The functions of the library and of the system are not part of this model.  A
program is a tree: what it does next, and for every answer it may get, how it goes
on.  The answers are not restricted, so what is proved holds for every server and
every state of the machine; where a statement needs to know how the library
answers, it says so.
-/
namespace Verif.SampleCli
open Verif.ClientResp (decimal)

/-- A buffer from `malloc`: the bytes that have been written into it, and the
number of bytes behind them that have not.  The buffers of `estclient.c` lines
503-543, 714-759, 910-924 and 1027-1047. -/
structure Buf where
  bytes : List Nat
  unset : Nat
deriving DecidableEq, Repr

/-- The proxy of the command line, `estclient.c` lines 101-106. -/
structure Proxy where
  host : List Nat
  port : Int
  proto : Nat
  auth : Nat
  user : Option (List Nat)
  pwd : Option (List Nat)
deriving DecidableEq, Repr

/-- What the program asks of the library and the system, with the arguments that
matter: the calls of `estclient.c` lines 204-231, 417-440, 449-547, 553-763,
766-817 and 834-1059. -/
inductive Call
  | init
  | readTimeout (n : Int)
  | setAuth (uid pwd : List Nat) (cert key : Bool)
  | enableSrp (bits : Nat) (uid pwd : List Nat)
  | setCredCb
  | setServer (host : List Nat) (port : Int) (seg : Option (List Nat))
  | setProxy (p : Proxy)
  | getCacerts
  | copyCacerts
  | forcePop
  | readCsr
  | freeReq
  | enroll (cn : List Nat)
  | keygenEnroll (cn : List Nat)
  | enrollCsr (key : Bool)
  | keygenEnrollCsr (key : Bool)
  | reenroll
  | copyKey
  | copyCert
  | copyRetry
  | getAttrs
  | newReq
  | populate (cn : List Nat)
  | decodeAttrs
  | nextAttr
  | addAttr (nid : Int) (s : List Nat)
  | alloc (n : Nat)
  | toPem (b : Buf)
  | write (name : List Nat) (b : Buf)
  | now
  | sleep (n : Int)
  | failed (what : Nat) (rv : EstErr)
  | destroy
deriving DecidableEq, Repr

/-- An answer.  Each call uses some of these: the error code, whether a pointer is
not null, the length of the certificate or of the data, the length of the key, the
number of the attribute, the bytes delivered, and the two ways of naming a time.
The results of the calls of `estclient.c` lines 834-1059. -/
structure Ans where
  rc : EstErr := .none
  ptr : Bool := true
  len : Nat := 0
  klen : Nat := 0
  nid : Int := 0
  data : List Nat := []
  delay : Int := 0
  time : Int := 0
deriving DecidableEq, Repr

/-- A call with its answer.  `estclient.c` lines 834-1059. -/
structure Ev where
  call : Call
  ans : Ans
deriving DecidableEq, Repr

/-- A program: it is done with a value, leaves the process, does something that is
undefined, keeps going round a loop, or makes a call and goes on with the answer.
The ways through `estclient.c` lines 834-1059. -/
inductive Prog (α : Type) : Type
  | ret (a : α)
  | exit (n : Nat)
  | ub
  | busy
  | ask (c : Call) (k : Ans → Prog α)

/-- One program after another.  The order of the statements in `estclient.c` lines
834-1059. -/
def Prog.bind {α β : Type} : Prog α → (α → Prog β) → Prog β
  | .ret a, f => f a
  | .exit n, _ => .exit n
  | .ub, _ => .ub
  | .busy, _ => .busy
  | .ask c k, f => .ask c fun a => (k a).bind f

/-- How a program ends.  `estclient.c` lines 834-1059. -/
inductive End (α : Type) : Type
  | ret (a : α)
  | exit (n : Nat)
  | ub
  | busy
deriving DecidableEq, Repr

/-- What the command line has left for the threads, `estclient.c` lines 58-106. -/
structure Opts where
  uid : List Nat := []
  pwd : List Nat := []
  cert : Bool := false
  key : Bool := false
  srp : Bool := false
  srpUid : List Nat := []
  srpPwd : List Nat := []
  tokenMode : Bool := false
  token : List Nat := []
  cn : List Nat := [49, 50, 55, 46, 48, 46, 48, 46, 49]
  server : List Nat := []
  port : Int := 0
  seg : Option (List Nat) := none
  proxy : Option Proxy := none
  timeout : Int := 10
  csrFile : Bool := false
  pem : Bool := false
  outDir : List Nat := []
  getcert : Bool := false
  enroll : Bool := false
  keygen : Bool := false
  getcsr : Bool := false
  reenroll : Bool := false
  forcePop : Bool := false
deriving DecidableEq, Repr

/-- `snprintf` into a file name, at most `MAX_FILENAME_LEN` with the end.
`estclient.c` lines 47, 213 and 218. -/
def cut (l : List Nat) : List Nat := l.take 254

/-- The names of the files, without the ending: `kind` is `cacert`, `cert` or `key`.
`estclient.c` lines 515, 541, 732, 757, 922 and 1045. -/
def baseName (o : Opts) (kind : List Nat) (tid i : Nat) : List Nat :=
  cut (o.outDir ++ [47] ++ kind ++ [45] ++ decimal tid ++ [45] ++ decimal i)

/-- `save_cert`, `estclient.c` lines 204-221.  The text that the conversion allocates
is `data` of its answer; whether the file can be opened is left out. -/
def saveCert (o : Opts) (name : List Nat) (b : Buf) : Prog Unit :=
  if o.pem then
    .ask (.toPem b) fun a =>
      if a.len > 0 then .ask (.write (cut (name ++ [46, 112, 101, 109])) ⟨a.data, 0⟩) fun _ => .ret ()
      else .ret ()
  else .ask (.write (cut (name ++ [46, 112, 107, 99, 115, 55])) b) fun _ => .ret ()

/-- `save_key`, `estclient.c` lines 224-230. -/
def saveKey (name : List Nat) (b : Buf) : Prog Unit :=
  .ask (.write (cut (name ++ [46, 107, 101, 121])) b) fun _ => .ret ()

/-- A copy out of the context into a buffer of `n` bytes: the code and the buffer
afterwards.  The calls of `estclient.c` lines 510, 528, 721, 744, 911 and 1032; that
the library writes behind the buffer is undefined. -/
def copyInto (c : Call) (n : Nat) (k : EstErr → Buf → Prog α) : Prog α :=
  .ask c fun a =>
    if a.rc ≠ .none then k a.rc ⟨[], n⟩
    else if a.data.length > n then .ub
    else k .none ⟨a.data, n - a.data.length⟩

/-- What both kinds of enrolment do with a certificate, `estclient.c` lines 520-546
and 737-762. -/
def fetchCert (o : Opts) (tid i : Nat) (len : Nat) : Prog EstErr :=
  .ask (.alloc len) fun m =>
    if !m.ptr then .ret .malloc
    else copyInto .copyCert len fun rv b =>
      (saveCert o (baseName o [99, 101, 114, 116] tid i) b).bind fun _ => .ret rv

/-- What both kinds of enrolment do when the library is done, `estclient.c` lines
497-546 and 708-762: the key that the server made, if it was to make one, then the
certificate.  Messages are left out. -/
def fetch (o : Opts) (tid i : Nat) (b : Ans) : Prog EstErr :=
  if b.rc ≠ .none then .ret b.rc
  else if o.keygen then
    .ask (.alloc b.klen) fun m =>
      if !m.ptr then .ret .malloc
      else copyInto .copyKey b.klen fun _ k =>
        (saveKey (baseName o [107, 101, 121] tid i) k).bind fun _ => fetchCert o tid i b.len
  else fetchCert o tid i b.len

/-- `simple_enroll_attempt` behind the proof of possession, `estclient.c` lines
467-547.  `read_csr`, lines 417-440, is one call. -/
def simpleGo (o : Opts) (tid i : Nat) : Prog EstErr :=
  if o.csrFile then
    .ask .readCsr fun r =>
      if !r.ptr then .ret .pemRead
      else .ask (if o.keygen then .keygenEnrollCsr false else .enrollCsr false) fun b =>
        .ask .freeReq fun _ => fetch o tid i b
  else
    .ask (if o.keygen then .keygenEnroll o.cn else .enroll o.cn) fun b => fetch o tid i b

/-- `simple_enroll_attempt`, `estclient.c` lines 449-547. -/
def simpleAttempt (o : Opts) (tid i : Nat) : Prog EstErr :=
  if o.forcePop then
    .ask .forcePop fun a => if a.rc ≠ .none then .ret a.rc else simpleGo o tid i
  else simpleGo o tid i

/-- The loop over the attributes, `estclient.c` lines 652-689, for at most so many
rounds; `len`: what is left of the attributes. -/
def attrLoop : Nat → Nat → Prog Unit
  | _, 0 => .ret ()
  | 0, _ + 1 => .busy
  | f + 1, _ + 1 =>
    .ask .nextAttr fun a =>
      if a.rc ≠ .none then attrLoop f a.len
      else if a.nid = 13 then .ask (.addAttr 13 [116, 101, 115, 116, 10]) fun _ => attrLoop f a.len
      else if a.nid = 48 then .ask (.addAttr 48 [98, 117, 98, 98, 97, 64, 110, 111, 116, 109, 121, 101, 109, 97, 105, 108, 46, 99, 111, 109]) fun _ => attrLoop f a.len
      else if a.nid = 0 then attrLoop f a.len
      else .ask (.addAttr a.nid []) fun _ => attrLoop f a.len

/-- The answers to the request for attributes with which the program goes on,
`estclient.c` lines 596-597 and 625-626. -/
def attrsFine (e : EstErr) : Bool := e = .none || e = .httpNoContent || e = .httpNotFound

/-- `regular_enroll_attempt`, `estclient.c` lines 606-763; `f` bounds the rounds of
the loop. -/
def regularAttempt (o : Opts) (tid i f : Nat) : Prog EstErr :=
  .ask .getAttrs fun g =>
    if !attrsFine g.rc then .ret g.rc
    else .ask .newReq fun r =>
      if !r.ptr then .ret .noCsr
      else .ask (.populate [69, 83, 84, 45, 99, 108, 105, 101, 110, 116]) fun p =>
        if !p.ptr then .ret .x509Pubkey
        else .ask .decodeAttrs fun d =>
          if d.rc ≠ .none then .ret d.rc
          else (attrLoop f d.len).bind fun _ =>
            .ask (if o.keygen then .keygenEnrollCsr true else .enrollCsr true) fun b => fetch o tid i b

/-- `regular_csr_attempt`, `estclient.c` lines 585-604.  The attributes are `data`
of the answer. -/
def csrAttempt (o : Opts) (tid i : Nat) : Prog EstErr :=
  .ask .getAttrs fun g =>
    if !attrsFine g.rc then .ret g.rc
    else
      .ask (.write (cut (o.outDir ++ [47, 99, 115, 114, 45] ++ decimal tid ++ [45] ++ decimal i ++ [46, 98, 97, 115, 101, 54, 52])) ⟨g.data, 0⟩)
        fun _ => .ret g.rc

/-- `retry_enroll_delay`, `estclient.c` lines 766-817.  The difference of two times
is taken as exact. -/
def delay (d t : Int) : Prog Unit :=
  if d ≠ 0 then .ask (.sleep d) fun _ => .ret ()
  else if t ≠ 0 then
    .ask .now fun n =>
      if t - n.time ≤ 0 then .ret ()
      else if t - n.time ≤ 120 then .ask (.sleep (t - n.time)) fun _ => .ret ()
      else .ret ()
  else .ret ()

/-- An attempt that is repeated once when the server wants the client to come back,
`estclient.c` lines 937-957, 967-987 and 998-1018. -/
def again (rc : α → EstErr) (p : Prog α) : Prog α :=
  p.bind fun a =>
    if rc a = .caEnrollRetry then
      .ask .copyRetry fun r =>
        (if r.rc = .none then delay r.delay r.time else .ret ()).bind fun _ => p
    else .ret a

/-- A call that ends the process if it fails, `estclient.c` lines 844-897. -/
def must (c : Call) : Prog Unit :=
  .ask c fun a => if a.rc ≠ .none then .exit 1 else .ret ()

/-- Part of the set-up that is done only when asked for, `estclient.c` lines
859-897. -/
def given (b : Bool) (p : Prog Unit) : Prog Unit := if b then p else .ret ()

/-- The set-up of a context, `estclient.c` lines 836-897. -/
def configure (o : Opts) : Prog Unit :=
  .ask .init fun a =>
    if !a.ptr then .exit 1
    else (must (.readTimeout o.timeout)).bind fun _ =>
      (must (.setAuth o.uid o.pwd o.cert o.key)).bind fun _ =>
        (given o.srp (must (.enableSrp 1024 o.srpUid o.srpPwd))).bind fun _ =>
          (given o.tokenMode (must .setCredCb)).bind fun _ =>
            (must (.setServer o.server o.port o.seg)).bind fun _ =>
              match o.proxy with
              | some p => must (.setProxy p)
              | none => .ret ()

/-- The variables `operation` and `rv` of `worker_thread`, `estclient.c` lines
824-830.  Operations: 1 CA certificates, 2 and 3 regular enrolment (3 with a key
from the server), 4 and 5 simple enrolment, 6 attributes, 7 re-enrolment; 0: none
yet. -/
structure St where
  op : Nat
  rv : EstErr
deriving DecidableEq, Repr

/-- The CA certificates, `estclient.c` lines 899-927.  The buffer is used without
looking whether there was memory; that is taken as undefined. -/
def caPart (o : Opts) (tid i : Nat) : Prog St :=
  if o.getcert then
    .ask .getCacerts fun g =>
      if g.rc ≠ .none then .ret ⟨1, g.rc⟩
      else .ask (.alloc g.len) fun m =>
        if !m.ptr then .ub
        else copyInto .copyCacerts g.len fun rv b =>
          (saveCert o (baseName o [99, 97, 99, 101, 114, 116] tid i) b).bind fun _ => .ret ⟨1, rv⟩
  else .ret ⟨0, .none⟩

/-- Enrolment or attributes, `estclient.c` lines 929-992. -/
def enrollPart (o : Opts) (tid i f : Nat) (s : St) : Prog St :=
  if (o.enroll || o.keygen) && o.getcsr then
    (again id (regularAttempt o tid i f)).bind fun rv => .ret ⟨if o.keygen then 3 else 2, rv⟩
  else if (o.enroll || o.keygen) && !o.getcsr then
    (again id (simpleAttempt o tid i)).bind fun rv => .ret ⟨if o.keygen then 5 else 4, rv⟩
  else if !o.enroll && o.getcsr then
    (csrAttempt o tid i).bind fun rv => .ret ⟨6, rv⟩
  else .ret s

/-- Re-enrolment, `estclient.c` lines 995-1049. -/
def reenrollPart (o : Opts) (tid i : Nat) (s : St) : Prog St :=
  if o.reenroll then
    (again Ans.rc (.ask .reenroll .ret)).bind fun a =>
      if a.rc ≠ .none then .ret ⟨7, a.rc⟩
      else .ask (.alloc a.len) fun m =>
        if !m.ptr then .ub
        else copyInto .copyCert a.len fun rv b =>
          (saveCert o (baseName o [99, 101, 114, 116] tid i) b).bind fun _ => .ret ⟨7, rv⟩
  else .ret s

/-- The end of a round: the message, and the end of the context.  `estclient.c`
lines 1051-1059. -/
def finish (s : St) : Prog Unit :=
  if s.rv ≠ .none then .ask (.failed s.op s.rv) fun _ => .ask .destroy fun _ => .ret ()
  else .ask .destroy fun _ => .ret ()

/-- What a round does with its context, `estclient.c` lines 899-1059. -/
def use (o : Opts) (tid i f : Nat) : Prog Unit :=
  (caPart o tid i).bind fun s =>
    (enrollPart o tid i f s).bind fun s =>
      (reenrollPart o tid i s).bind finish

/-- A round of `worker_thread`, `estclient.c` lines 834-1060.  The variables that
are declared outside of the loop are always set before they are used. -/
def iteration (o : Opts) (tid i f : Nat) : Prog Unit :=
  (configure o).bind fun _ => use o tid i f

/-- `worker_thread`, `estclient.c` lines 819-1067: `n` rounds beginning with number
`i`. -/
def worker (o : Opts) (tid f : Nat) : Nat → Nat → Prog Unit
  | 0, _ => .ret ()
  | n + 1, i => (iteration o tid i f).bind fun _ => worker o tid f n (i + 1)

/-! ## The callbacks -/

/-- `client_manual_cert_verify`, `estclient.c` lines 360-400: the library asks about
a certificate that OpenSSL has refused with the error (3 is
`X509_V_ERR_UNABLE_TO_GET_CRL`); 1 accepts.  What it prints is left out. -/
def verifyCb (err : Int) : Int := if err = 3 then 1 else 0

/-- Result of the callback for a token: the code and the token handed over.
`estclient.c` lines 246-285. -/
inductive Cred
  | success (token : Option (List Nat))
  | notAvailable
deriving DecidableEq, Repr

/-- `auth_credentials_token_cb`, `estclient.c` lines 246-285; `tokenMode`: the
server has asked for a token; `mem`: there is memory.  The copy ends at the first
null byte. -/
def tokenCb (o : Opts) (tokenMode mem : Bool) : Cred :=
  if tokenMode then
    if o.token = [] then .success none
    else if !mem then .notAvailable
    else .success (some o.token)
  else .notAvailable

/-- `string_password_cb`, `estclient.c` lines 118-122: what it leaves in a buffer of
`size` bytes and the length it returns; `pwd`: the password without its end. -/
def passwordCb (pwd : List Nat) (size : Nat) : List Nat × Nat :=
  let b := pwd.take size ++ List.replicate (size - pwd.length) 0
  (b, (b.takeWhile (· ≠ 0)).length)

end Verif.SampleCli
