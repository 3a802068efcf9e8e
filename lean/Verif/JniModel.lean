import Verif.ClientMemModel

/-!
# The Java binding

A model of `java/jni/client.c`: the native methods that the Java classes
`ESTClient` and `PKCS10CertificateRequest` call.  They fetch their arguments
from the virtual machine, run the client library (the model in
`ClientMemModel`), and give back either a length or an exception.

Each native method is a list of steps that ends early when a step raises an
exception; what was obtained is then released at the label at the end of the
function.  The local variables that hold memory are the slots of `Slot`.

What the virtual machine gives for `GetByteArrayElements` and
`GetStringUTFChars` is a block of memory, or `NULL` when there is none left.
`ReleaseByteArrayElements` with `JNI_COMMIT` copies the bytes back and keeps the
block (JNI specification), `ReleaseStringUTFChars` releases it.  Passing a null
reference to these functions is undefined behaviour.

Not modelled: the failure of `FindClass` and `ThrowNew`, the text of the
messages beyond the table index used for it, the messages of OpenSSL printed on
the way, `JNI_OnLoad`, `JNI_OnUnload`, the FIPS and log level switches.
-/
namespace Verif.Jni
open ClientMem (Mem alloc allocIf free use undef)

/-! ## Exceptions -/

/-- The exception classes, `client.c` lines 19-25. -/
inductive Exn | enroll | bufsiz | cacerts | pkcs10 | retry | invalidKey | illegalArg
deriving DecidableEq, Repr

/-- An exception: its class, the error code in its text, and whether the text
was taken from outside the table of error strings.  `client.c` lines 106-123. -/
structure Thrown where
  cls : Exn
  code : Int
  wild : Bool
deriving DecidableEq, Repr

/-- The number of an error code, `est.h` lines 83-178 and 285-289. -/
def num (e : EstErr) : Nat := e.ctorIdx

/-- The number of entries of `EST_ERR_STRINGS`, `est.c` lines 51-54. -/
def errStrings : Nat := num .unknown + 1

/-- `est_client_raise_exception`, `client.c` lines 106-123.  The text of the
error code is `EST_ERR_STRINGS[err_code]` (`est.h` lines 290-291) without a
check of the index. -/
def raise (cls : Exn) (code : Int) : Thrown :=
  ⟨cls, code, !(decide (0 ≤ code) && decide (code < errStrings))⟩

/-! ## The local variables -/

/-- The local variables that hold memory: the copies of the byte arrays, the
strings, the objects of OpenSSL and the two buffers for the certificates.
`client.c` lines 274-285, 515-540 and 1128-1140. -/
inductive Slot
  | newArr | trustArr | keyArr | authCertArr | authKeyArr | csrArr | oldArr
  | user | pwd | srpUser | srpPwd | server
  | tlsCert | tlsKey | req | old | key | cert | pem
  | cn | country | locality | province | org | unit | out
deriving DecidableEq, Repr

/-- The calls made to the library, with the arguments that come from Java.
`est_client_init`, `est_client_set_auth`, `est_client_enable_srp`,
`est_client_set_server`, `est_client_force_pop`, `est_client_enroll_csr`,
`est_client_reenroll`, `est_client_get_cacerts` in `client.c` lines 690-761 and
1184-1211. -/
inductive Call
  | init (certs : Option (List Nat))
  | setAuth (user pwd : Option (List Nat)) (cert : Bool)
  | srp (bits : Nat) (user pwd : Option (List Nat))
  | server (name : Option (List Nat)) (port : Int)
  | forcePop
  | enroll
  | reenroll
  | getCacerts
deriving DecidableEq, Repr

/-- The local variables that hold values: the bytes in the copy of the trust
anchors, the return value, the text put into the copy of the result array, and
the text and its length that the conversion gave; and, for the statements, the
calls made and the library's answer to the request.  `client.c` lines 508-543. -/
structure Vals where
  trust : List Nat
  ret : Int
  text : List Nat
  told : List Call
  answer : Option EstErr
  newLen : Int
  pemText : List Nat
deriving DecidableEq, Repr

/-- The local variables: the slots, the context and the values.  `client.c` lines
508-543. -/
structure Loc where
  slot : Slot → Option Nat
  ctx : Option ClientMem.Ctx
  v : Vals

/-- The values at the start, `client.c` lines 542-543: the return value is −1. -/
def startVals (trust : List Nat) : Vals := ⟨trust, -1, [], [], none, 0, []⟩

/-- The variables at the start, `client.c` lines 515-543: everything `NULL`. -/
def start (trust : List Nat) : Loc := ⟨fun _ => none, none, startVals trust⟩

/-- Assignment to a local variable that holds memory, e.g. `client.c` line 548. -/
def Loc.set (l : Loc) (s : Slot) (p : Nat) : Loc :=
  { l with slot := fun t => if t = s then some p else l.slot t }

/-! ## Steps -/

/-- One step: it goes on or ends with an exception.  `client.c` lines 33-53. -/
abbrev Stage := Loc → Mem (Option Thrown × Loc)

/-- Raise an exception and go to the end, e.g. `client.c` lines 36-38. -/
def stop (e : Exn) (code : Int) : Stage := fun l => pure (some (raise e code), l)

/-- The steps one after the other.  `client.c` lines 547-813. -/
def steps : List Stage → Stage
  | [] => fun l => pure (none, l)
  | s :: ss => fun l => do
    match ← s l with
    | (some t, l) => pure (some t, l)
    | (none, l) => steps ss l

/-- `GET_JNI_BYTE_ARRAY_LEN`, `client.c` lines 33-39.  The length is a
`uint32_t`, so the `int` it is compared with is taken modulo 2³². -/
def getLen (a : Option (List Nat)) (min : Int) (e : Exn) : Stage := fun l =>
  match a with
  | none => undef
  | some a => if a.length ≤ (min % 4294967296).toNat then stop e 0 l else pure (none, l)

/-- `GET_JNI_BYTE_ARRAY`, `client.c` lines 41-46. -/
def getArray (s : Slot) (e : Exn) : Stage := fun l => do
  match ← alloc with
  | none => stop e 0 l
  | some p => pure (none, l.set s p)

/-- `GET_JNI_STRING`, `client.c` lines 48-53. -/
def getString (a : Option (List Nat)) (s : Slot) (e : Exn) : Stage := fun l =>
  match a with
  | none => undef
  | some _ => do
    match ← alloc with
    | none => stop e 0 l
    | some p => pure (none, l.set s p)

/-- A string that may be missing, `client.c` lines 620-630. -/
def getOptional (a : Option (List Nat)) (s : Slot) (e : Exn) : Stage := fun l =>
  match a with
  | none => pure (none, l)
  | some _ => getString a s e l

/-- A string whose absence is not an error, `client.c` lines 1152-1155. -/
def getQuietly (s : Slot) : Stage := fun l => do
  match ← alloc with
  | none => pure (none, l)
  | some p => pure (none, l.set s p)

/-- The last byte of the copy of the trust anchors becomes 0, `client.c` lines
555-560 and 1169-1174. -/
def zeroLast : Stage := fun l => do
  use (l.slot .trustArr)
  pure (none, { l with v.trust := l.v.trust.dropLast ++ [0] })

/-- Decoding of a certificate or request, `client.c` lines 574-589, 640-655 and
657-669. -/
def decode (src dst : Slot) (good : Bool) (e : Exn) : Stage := fun l => do
  match ← alloc with
  | none => stop e 0 l
  | some bio =>
    use (l.slot src)
    let x ← allocIf good
    free (some bio)
    match x with
    | none => stop e 0 l
    | some x => pure (none, l.set dst x)

/-- `est_load_key` for DER (`est.c` lines 397-430) and what follows it in
`client.c` lines 310-316, 596-601 and 678-684. -/
def loadKey (src dst : Slot) (good : Bool) : Stage := fun l => do
  match ← alloc with
  | none => stop .invalidKey 0 l
  | some bio =>
    use (l.slot src)
    let x ← allocIf good
    free (some bio)
    match x with
    | none => stop .invalidKey 0 l
    | some x => pure (none, l.set dst x)

/-- The length check of `est_client_init`, `est_client.c` lines 4485-4491: the
bytes before the first 0 must be all of them, and not more than `EST_CA_MAX`. -/
def lengthAgrees (certs : Option (List Nat)) : Bool :=
  match certs with
  | none => true
  | some cs => !cs.contains 0 && decide (cs.length ≤ ClientMem.caMax)

/-- `est_client_init` and what follows it, `client.c` lines 689-704 and
1184-1192; a context without trust anchors is treated like one with an empty
store. -/
def createCtx (certs : Loc → Option (List Nat)) (i : ClientMem.InitIn) (e : Exn) : Stage :=
  fun l => do
    let l := { l with v.told := l.v.told ++ [.init (certs l)] }
    if !lengthAgrees (certs l) then stop e 0 l
    else match ← ClientMem.init i with
      | none => stop e 0 l
      | some c => pure (none, { l with ctx := some c })

/-- A call of the library that needs no memory of its own, and the exception
for its error code.  `client.c` lines 711-749, 1194-1206. -/
def tell (c : Call) (r : EstErr) (e : Exn) : Stage := fun l => do
  match l.ctx with
  | none => undef
  | some x =>
    use (some x.self)
    let l := { l with v.told := l.v.told ++ [c] }
    if r ≠ .none then stop e (num r) l else pure (none, l)

/-- The request to the server is answered: `EST_ERR_CA_ENROLL_RETRY` has its own
exception.  `client.c` lines 762-776. -/
def enrollAnswer (r : EstErr) : Stage := fun l =>
  match r with
  | .none => pure (none, l)
  | .caEnrollRetry => stop .retry (num .caEnrollRetry) l
  | r => stop .enroll (num r) l

/-- The buffer for the certificates, `client.c` lines 778-783 and 1222-1226.
`known`: the library has set the length. -/
def allocCert (known : Bool) (e : Exn) : Stage := fun l => do
  if !known then undef
  else match ← alloc with
    | none => stop e 0 l
    | some p => pure (none, l.set .cert p)

/-! ## From base64 to text -/

/-- What the server sent: no PKCS7, one of another type, one of a type that has
certificates but without its content (optional in its ASN.1), one without
certificates, one whose certificates give no text, or the certificates as text.
`est_ossl_util.c` lines 386-450. -/
inductive P7 | garbage | otherType | noContent | noCerts | noText | certs (text : List Nat)
deriving DecidableEq, Repr

/-- `est_convert_p7b64_to_pem`, `est_ossl_util.c` lines 352-471: the length or
−1, the text, and the block it is in.  The two base64 `BIO`s and their buffer
are lost when memory is short, the `BIO` around the buffer when there is no
PKCS7, the output `BIO` when there is no text or no memory for it. -/
def convert (src : Option Nat) (r : P7) : Mem (Int × List Nat × Option Nat) := do
  match ← alloc with
  | none => pure (-1, [], none)
  | some b64 =>
    match ← alloc with
    | none => pure (-1, [], none)
    | some inp =>
      match ← alloc with
      | none => pure (-1, [], none)
      | some dec =>
        use src
        free (some inp)
        free (some b64)
        match ← alloc with
        | none =>
          free (some dec)
          pure (-1, [], none)
        | some bio =>
          match ← allocIf (r != .garbage) with
          | none =>
            free (some dec)
            pure (-1, [], none)
          | some p7 =>
            free (some bio)
            free (some dec)
            match r with
            | .garbage | .otherType | .noCerts =>
              free (some p7)
              pure (-1, [], none)
            | .noContent => undef
            | .noText =>
              match ← alloc with
              | none =>
                free (some p7)
                pure (-1, [], none)
              | some _ =>
                free (some p7)
                pure (-1, [], none)
            | .certs text =>
              match ← alloc with
              | none =>
                free (some p7)
                pure (-1, [], none)
              | some out =>
                match ← alloc with
                | none =>
                  free (some p7)
                  pure (-1, [], none)
                | some pem =>
                  use (some pem)
                  use (some out)
                  free (some out)
                  free (some p7)
                  pure (text.length, text, some pem)

/-- The conversion as a step, `client.c` lines 800-801 and 1242. -/
def convertStep (r : P7) : Stage := fun l => do
  let (n, text, pem) ← convert (l.slot .cert) r
  let l := { l with v.newLen := n, v.pemText := text }
  match pem with
  | none => pure (none, l)
  | some p => pure (none, l.set .pem p)

/-- The text is put into the copy of the Java array when it is shorter than the
limit, `client.c` lines 803-813 and 1244-1254.  `max`: the limit as it is now;
`room`: the length of the array.  Writing beyond the array is undefined. -/
def deliver (max room : Nat) (e : Exn) : Stage := fun l =>
  if 0 < l.v.newLen ∧ l.v.newLen < max then do
    use (l.slot .newArr)
    use (l.slot .pem)
    if room < l.v.newLen.toNat then undef
    else pure (none, { l with v.ret := l.v.newLen, v.text := l.v.pemText })
  else if (max : Int) ≤ l.v.newLen then stop .bufsiz l.v.newLen l
  else stop e l.v.newLen l

/-! ## Enrolment -/

/-- The arguments of the enrolment methods as Java passes them, `none` for a
null reference.  `room`: the array for the result.  `client.c` lines 508-514. -/
structure Args where
  trust : Option (List Nat)
  keypair : Option (List Nat)
  server : Option (List Nat)
  port : Int
  authCert : Option (List Nat)
  authKey : Option (List Nat)
  user : Option (List Nat)
  pwd : Option (List Nat)
  disablePop : Int
  csr : Option (List Nat)
  room : Option (List Nat)
  srpUser : Option (List Nat)
  srpPwd : Option (List Nat)
deriving DecidableEq, Repr

/-- What OpenSSL, the library and the server answer: whether the certificate and
the keys can be decoded, how the context is created, what the setters and the
checks before the request give, how the exchange goes, whether the extensions
of the old certificate can be copied, and what the server sent.  The calls of
`client.c` lines 574-801. -/
structure World where
  certOk : Bool
  authKeyOk : Bool
  reqOk : Bool
  keyOk : Bool
  init : ClientMem.InitIn
  setAuth : EstErr
  srp : EstErr
  setServer : EstErr
  check : EstErr
  exchange : ClientMem.Exchange
  extOk : Bool
  p7 : P7
deriving DecidableEq, Repr

/-- `auth_cert && auth_key`, `client.c` line 571. -/
def Args.tlsAuth (a : Args) : Bool := a.authCert.isSome && a.authKey.isSome

/-- The certificate that identifies the client, `client.c` lines 568-602. -/
def authSteps (a : Args) (w : World) : List Stage :=
  if a.tlsAuth then
    [getLen a.authCert 0 .enroll, getArray .authCertArr .enroll,
     decode .authCertArr .tlsCert w.certOk .enroll,
     getLen a.authKey 0 .invalidKey, getArray .authKeyArr .invalidKey,
     loadKey .authKeyArr .tlsKey w.authKeyOk]
  else []

/-- The slots of the signing request or of the certificate to be renewed,
`client.c` lines 604-616. -/
def csrSlot (reenroll : Bool) : Slot := if reenroll then .oldArr else .csrArr

/-- The slots of the decoded request or certificate, `client.c` lines 637-670. -/
def reqSlot (reenroll : Bool) : Slot := if reenroll then .old else .req

/-- The trust anchors given to `est_client_init`, `client.c` lines 689-699. -/
def enrollAnchors (srp : Bool) (l : Loc) : Option (List Nat) :=
  if l.v.trust.dropLast.length = 0 ∧ srp then none else some l.v.trust.dropLast

/-- SRP, `client.c` lines 721-730. -/
def srpSteps (a : Args) (w : World) (srp : Bool) : List Stage :=
  if srp then
    [getString a.srpUser .srpUser .enroll, getString a.srpPwd .srpPwd .enroll,
     tell (.srp 1024 a.srpUser a.srpPwd) w.srp .enroll]
  else []

/-- Proof of possession, `client.c` lines 739-749. -/
def popSteps (a : Args) : List Stage :=
  if a.disablePop = 0 then [tell .forcePop .none .enroll] else []

/-- `est_client_enroll_csr` or `est_client_reenroll`, `client.c` lines 751-761. -/
def ask (reenroll : Bool) (w : World) (l : Loc) (c : ClientMem.Ctx) : Mem (EstErr × ClientMem.Ctx) :=
  if w.check ≠ .none then pure (w.check, c)
  else if reenroll then do
    use (l.slot .old)
    ClientMem.reenroll c w.exchange w.extOk
  else match l.slot .req with
    | none => undef
    | some q => ClientMem.enroll c w.exchange q

/-- The request and the switch on its result, `client.c` lines 751-776. -/
def request (reenroll : Bool) (w : World) : Stage := fun l => do
  match l.ctx with
  | none => undef
  | some c =>
    let l := { l with v.told := l.v.told ++ [if reenroll then Call.reenroll else Call.enroll] }
    use (l.slot .key)
    let (r, c) ← ask reenroll w l c
    enrollAnswer r { l with ctx := some c, v.answer := some r }

/-- `est_client_copy_enrolled_cert`, `client.c` lines 785-793. -/
def takeCert : Stage := fun l => do
  match l.ctx with
  | none => undef
  | some c =>
    use (l.slot .cert)
    let (r, c) ← ClientMem.copyCert c
    let l := { l with ctx := some c }
    if r ≠ .none then stop .enroll (num r) l else pure (none, l)

/-- The steps of `send_enroll_request`, `client.c` lines 544-813.  `m` is
`max_buffer_length` at the start, `m'` at the end. -/
def enrollSteps (m m' : Nat) (srp reenroll : Bool) (a : Args) (w : World) : List Stage :=
  [getLen a.room ((m : Int) - 1) .enroll, getArray .newArr .enroll,
   getLen a.trust 0 .enroll, getArray .trustArr .enroll, zeroLast,
   getLen a.keypair 0 .invalidKey, getArray .keyArr .invalidKey] ++
  authSteps a w ++
  [getLen a.csr 0 .enroll, getArray (csrSlot reenroll) .enroll,
   getOptional a.user .user .enroll, getOptional a.pwd .pwd .enroll,
   getString a.server .server .enroll,
   decode (csrSlot reenroll) (reqSlot reenroll) w.reqOk .enroll,
   loadKey .keyArr .key w.keyOk,
   createCtx (enrollAnchors srp) w.init .enroll,
   tell (.setAuth a.user a.pwd a.tlsAuth) w.setAuth .enroll] ++
  srpSteps a w srp ++
  [tell (.server a.server a.port) w.setServer .enroll] ++
  popSteps a ++
  [request reenroll w, allocCert (!reenroll || w.extOk) .enroll, takeCert, convertStep w.p7,
   deliver m' (a.room.getD []).length .enroll]

/-- `ReleaseByteArrayElements` with `JNI_COMMIT`, `client.c` lines 852-865: the
bytes are copied back, the copy stays. -/
def commit : Option Nat → Mem Unit
  | none => pure ()
  | some p => use (some p)

/-- `est_destroy` of a context that may not exist, `client.c` lines 828-831. -/
def dropCtx : Option ClientMem.Ctx → Mem Unit
  | none => pure ()
  | some c => ClientMem.destroy c

/-- The end of `send_enroll_request`, `client.c` lines 815-865. -/
def enrollCleanup (l : Loc) : Mem Unit := do
  free (l.slot .pem)
  free (l.slot .cert)
  free (l.slot .req)
  dropCtx l.ctx
  free (l.slot .key)
  free (l.slot .old)
  free (l.slot .tlsCert)
  free (l.slot .tlsKey)
  free (l.slot .user)
  free (l.slot .pwd)
  free (l.slot .srpUser)
  free (l.slot .srpPwd)
  free (l.slot .server)
  commit (l.slot .trustArr)
  commit (l.slot .keyArr)
  commit (l.slot .csrArr)
  commit (l.slot .oldArr)
  commit (l.slot .newArr)
  commit (l.slot .authCertArr)
  commit (l.slot .authKeyArr)

/-- What Java sees: the value returned, the exception, the text in the result
array, the array of trust anchors afterwards; and, for the statements, the calls
made and the library's answer.  `client.c` lines 867 and 1277. -/
structure Out where
  ret : Int
  thrown : Option Thrown
  text : List Nat
  trust : Option (List Nat)
  told : List Call
  answer : Option EstErr
deriving DecidableEq, Repr

/-- The result from the local variables; the array of trust anchors is written
back if there is a copy of it.  `client.c` lines 852 and 867. -/
def finish (trust : Option (List Nat)) (t : Option Thrown) (l : Loc) : Out :=
  ⟨l.v.ret, t, l.v.text, if (l.slot .trustArr).isSome then some l.v.trust else trust, l.v.told, l.v.answer⟩

/-- `send_enroll_request`, `client.c` lines 508-868. -/
def sendEnroll (m m' : Nat) (srp reenroll : Bool) (a : Args) (w : World) : Mem Out := do
  let (t, l) ← steps (enrollSteps m m' srp reenroll a w) (start (a.trust.getD []))
  enrollCleanup l
  pure (finish a.trust t l)

/-- How the client authenticates: the six enrolment methods come in pairs.
`client.c` lines 885-1102. -/
inductive Mode | http | srp | tls
deriving DecidableEq, Repr

/-- The arguments that may not be null, `client.c` lines 889-895, 929-935,
970-976, 1006-1012, 1046-1052 and 1087-1093. -/
def required (md : Mode) (a : Args) : Bool :=
  a.trust.isSome && a.keypair.isSome && a.server.isSome &&
  (match md with
   | .http => a.user.isSome && a.pwd.isSome
   | .srp => a.srpUser.isSome && a.srpPwd.isSome
   | .tls => a.authCert.isSome && a.authKey.isSome) &&
  a.csr.isSome && a.room.isSome

/-- The arguments that a method passes on, `client.c` lines 897-903, 937-943,
978-984, 1014-1020, 1054-1060 and 1095-1101. -/
def passed (md : Mode) (a : Args) : Args :=
  match md with
  | .http => { a with authCert := none, authKey := none, srpUser := none, srpPwd := none }
  | .srp => { a with authCert := none, authKey := none }
  | .tls => { a with srpUser := none, srpPwd := none }

/-- The six enrolment methods, `client.c` lines 885-1102. -/
def enroll (m m' : Nat) (md : Mode) (reenroll : Bool) (a : Args) (w : World) : Mem Out :=
  if !required md a then
    pure ⟨-1, some (raise .enroll 0), [], a.trust, [], none⟩
  else sendEnroll m m' (decide (md = .srp)) reenroll (passed md a) w

/-! ## CA certificates -/

/-- The arguments of `send_cacerts_request`, `client.c` lines 1119-1123. -/
structure CaArgs where
  trust : Option (List Nat)
  server : Option (List Nat)
  port : Int
  srpUser : Option (List Nat)
  srpPwd : Option (List Nat)
  room : Option (List Nat)
deriving DecidableEq, Repr

/-- What the library and the server answer, `client.c` lines 1184-1242. -/
structure CaWorld where
  init : ClientMem.InitIn
  srp : EstErr
  setServer : EstErr
  conn : ClientMem.Conn
  send : ClientMem.Send
  verify : ClientMem.Verify
  ses : ClientMem.Ses
  p7 : P7
deriving DecidableEq, Repr

/-- `srp_enabled`, `client.c` lines 1156-1158. -/
def srpOn (l : Loc) : Bool := (l.slot .srpUser).isSome && (l.slot .srpPwd).isSome

/-- The SRP strings, `client.c` lines 1152-1155. -/
def caSrpStrings (a : CaArgs) : List Stage :=
  if a.srpUser.isSome && a.srpPwd.isSome then [getQuietly .srpUser, getQuietly .srpPwd] else []

/-- Without SRP there must be trust anchors, `client.c` lines 1165-1168. -/
def anchorsNeeded (a : CaArgs) : Stage := fun l =>
  if (a.trust.getD []).length ≤ 1 ∧ srpOn l = false then stop .cacerts 0 l else pure (none, l)

/-- The trust anchors given to `est_client_init`, `client.c` lines 1184-1188. -/
def caAnchors (l : Loc) : Option (List Nat) :=
  if l.v.trust.dropLast.length = 0 then none else some l.v.trust.dropLast

/-- SRP, `client.c` lines 1200-1206: the exception is the one for enrolments. -/
def caSrp (a : CaArgs) (w : CaWorld) : Stage := fun l =>
  if srpOn l then tell (.srp 1024 a.srpUser a.srpPwd) w.srp .enroll l else pure (none, l)

/-- `est_client_get_cacerts` and the switch, `client.c` lines 1208-1220. -/
def caRequest (w : CaWorld) : Stage := fun l => do
  match l.ctx with
  | none => undef
  | some c =>
    let l := { l with v.told := l.v.told ++ [Call.getCacerts] }
    let (r, c) ← ClientMem.getCacerts c w.conn w.send w.verify w.ses
    let l := { l with ctx := some c, v.answer := some r }
    if r ≠ .none then stop .cacerts (num r) l else pure (none, l)

/-- `est_client_copy_cacerts`, `client.c` lines 1228-1235. -/
def takeCacerts : Stage := fun l => do
  match l.ctx with
  | none => undef
  | some c =>
    use (l.slot .cert)
    let (r, c) ← ClientMem.copyCacerts c
    let l := { l with ctx := some c }
    if r ≠ .none then stop .cacerts (num r) l else pure (none, l)

/-- The steps of `send_cacerts_request`, `client.c` lines 1143-1254. -/
def caSteps (m m' : Nat) (a : CaArgs) (w : CaWorld) : List Stage :=
  [getLen a.room ((m : Int) - 1) .cacerts, getArray .newArr .cacerts] ++
  caSrpStrings a ++
  [getLen a.trust 0 .cacerts, getArray .trustArr .cacerts, anchorsNeeded a, zeroLast,
   getString a.server .server .cacerts,
   createCtx caAnchors w.init .cacerts,
   tell (.server a.server a.port) w.setServer .cacerts, caSrp a w,
   caRequest w, allocCert true .cacerts, takeCacerts, convertStep w.p7,
   deliver m' (a.room.getD []).length .cacerts]

/-- The end of `send_cacerts_request`, `client.c` lines 1256-1275. -/
def caCleanup (l : Loc) : Mem Unit := do
  free (l.slot .pem)
  free (l.slot .cert)
  dropCtx l.ctx
  free (l.slot .server)
  free (l.slot .srpUser)
  free (l.slot .srpPwd)
  commit (l.slot .trustArr)
  commit (l.slot .newArr)

/-- `send_cacerts_request`, `client.c` lines 1119-1278. -/
def cacerts (m m' : Nat) (a : CaArgs) (w : CaWorld) : Mem Out :=
  if !(a.trust.isSome && a.server.isSome && a.room.isSome) then
    pure ⟨-1, some (raise .enroll 0), [], a.trust, [], none⟩
  else do
    let (t, l) ← steps (caSteps m m' a w) (start (a.trust.getD []))
    caCleanup l
    pure (finish a.trust t l)

/-! ## A new signing request -/

/-- The arguments of `create_csr`, `client.c` lines 269-273. -/
structure CsrArgs where
  keypair : Option (List Nat)
  cn : Option (List Nat)
  country : Option (List Nat)
  locality : Option (List Nat)
  province : Option (List Nat)
  org : Option (List Nat)
  unit : Option (List Nat)
  room : Option (List Nat)
deriving DecidableEq, Repr

/-- What OpenSSL answers: the key can be decoded, the request can be filled
(`filled`: version, subject and public key, `client.c` lines 331-415), signing
can start and succeeds, and the encoding.  `client.c` lines 307-455. -/
structure CsrWorld where
  keyOk : Bool
  filled : Bool
  signInit : Bool
  signOk : Bool
  encoded : Bool
  der : List Nat
deriving DecidableEq, Repr

/-- `X509_REQ_new`, `client.c` lines 321-326. -/
def newReq : Stage := fun l => do
  match ← alloc with
  | none => stop .pkcs10 0 l
  | some p => pure (none, l.set .req p)

/-- The nine calls that fill the request, each with the same exception class,
`client.c` lines 331-415; taken together. -/
def fillReq (w : CsrWorld) : Stage := fun l => do
  use (l.slot .req)
  if !w.filled then stop .pkcs10 0 l
  else do
    use (l.slot .key)
    use (l.slot .cn)
    use (l.slot .country)
    use (l.slot .locality)
    use (l.slot .province)
    use (l.slot .org)
    use (l.slot .unit)
    pure (none, l)

/-- `jni_est_client_X509_REQ_sign` (`client.c` lines 129-174) and its use
(417-424); the digest context is lost when signing cannot start. -/
def signReq (w : CsrWorld) : Stage := fun l => do
  match ← alloc with
  | none => stop .pkcs10 0 l
  | some md =>
    use (l.slot .key)
    if !w.signInit then stop .pkcs10 0 l
    else do
      use (l.slot .req)
      free (some md)
      if w.signOk then pure (none, l) else stop .pkcs10 0 l

/-- The encoding into the Java array, `client.c` lines 430-454. -/
def encodeReq (max room : Nat) (w : CsrWorld) : Stage := fun l => do
  match ← alloc with
  | none => stop .pkcs10 0 l
  | some out =>
    let l := l.set .out out
    use (l.slot .req)
    if !w.encoded then stop .pkcs10 0 l
    else if 0 < w.der.length ∧ w.der.length < max then do
      use (l.slot .newArr)
      if room < w.der.length then undef
      else pure (none, { l with v.ret := w.der.length, v.text := w.der })
    else if max ≤ w.der.length then stop .bufsiz 0 l
    else stop .pkcs10 0 l

/-- The steps of `create_csr`, `client.c` lines 291-454. -/
def csrSteps (m m' : Nat) (a : CsrArgs) (w : CsrWorld) : List Stage :=
  [getLen a.keypair 0 .invalidKey, getArray .keyArr .invalidKey,
   getLen a.room ((m : Int) - 1) .pkcs10, getArray .newArr .pkcs10,
   getString a.cn .cn .pkcs10, getString a.country .country .pkcs10,
   getString a.locality .locality .pkcs10, getString a.province .province .pkcs10,
   getString a.org .org .pkcs10, getString a.unit .unit .pkcs10,
   loadKey .keyArr .key w.keyOk, newReq, fillReq w, signReq w,
   encodeReq m' (a.room.getD []).length w]

/-- The end of `create_csr`, `client.c` lines 456-478. -/
def csrCleanup (l : Loc) : Mem Unit := do
  free (l.slot .out)
  free (l.slot .req)
  free (l.slot .key)
  free (l.slot .cn)
  free (l.slot .country)
  free (l.slot .locality)
  free (l.slot .province)
  free (l.slot .org)
  free (l.slot .unit)
  commit (l.slot .keyArr)
  commit (l.slot .newArr)

/-- `create_csr`, `client.c` lines 269-479.  Its arguments are not checked for
null references. -/
def createCsr (m m' : Nat) (a : CsrArgs) (w : CsrWorld) : Mem Out := do
  let (t, l) ← steps (csrSteps m m' a w) (start [])
  csrCleanup l
  pure (finish none t l)

/-! ## The limit -/

/-- `set_max_cert_length`, `client.c` lines 233-251: the value returned, the
exception and the limit afterwards. -/
def setMax (m : Nat) (new : Int) : Int × Option Thrown × Nat :=
  if 131072 < new ∨ new < 0 then (-1, some (raise .illegalArg 0), m)
  else (0, none, new.toNat)

/-- Several calls of `set_max_cert_length`, starting from the default
`16*1024`.  `client.c` lines 84 and 233-251. -/
def limitAfter (news : List Int) : Nat := news.foldl (fun m n => (setMax m n).2.2) 16384

end Verif.Jni
