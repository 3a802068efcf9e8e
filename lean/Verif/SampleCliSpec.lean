import Verif.SampleCliModel

/-!
# The words in which C130 is stated

The statements are about lists of calls and answers: the calls are those that the
program makes of the library and the system, the answers can be anything.
-/
namespace Verif.SampleCli
open Verif.ClientResp (decimal)

/-- `t` is a list of calls and answers that is possible for the program, after which
it ends with `e`. -/
def Can {α : Type} : Prog α → List Ev → End α → Prop
  | .ret a, t, e => t = [] ∧ e = .ret a
  | .exit n, t, e => t = [] ∧ e = .exit n
  | .ub, t, e => t = [] ∧ e = .ub
  | .busy, t, e => t = [] ∧ e = .busy
  | .ask c k, t, e => ∃ a t', t = ⟨c, a⟩ :: t' ∧ Can (k a) t' e

/-- The calls that set up a context of the command line, in order. -/
def SetUp (o : Opts) : List Call :=
  [.init, .readTimeout o.timeout, .setAuth o.uid o.pwd o.cert o.key]
  ++ (if o.srp then [.enableSrp 1024 o.srpUid o.srpPwd] else [])
  ++ (if o.tokenMode then [.setCredCb] else [])
  ++ [.setServer o.server o.port o.seg]
  ++ (match o.proxy with | some p => [.setProxy p] | none => [])

/-- The answer means that the call has worked. -/
def Worked (x : Ev) : Prop := if x.call = .init then x.ans.ptr = true else x.ans.rc = .none

/-- Calls that belong to the set-up. -/
def OfSetUp : Call → Prop
  | .init | .readTimeout _ | .setAuth .. | .enableSrp .. | .setCredCb | .setServer .. | .setProxy _ => True
  | _ => False

instance : DecidablePred OfSetUp := fun c => by cases c <;> (simp only [OfSetUp]; infer_instance)

/-- `t` is the whole of `cs`, all of it has worked. -/
def AllOk (cs : List Call) (t : List Ev) : Prop := t.map Ev.call = cs ∧ ∀ x ∈ t, Worked x

/-- `t` is a beginning of `cs`; the last of it has failed, what is before has worked. -/
def LastBad (cs : List Call) (t : List Ev) : Prop :=
  ∃ (t' : List Ev) (x : Ev) (r : List Call), t = t' ++ [x] ∧ cs = t.map Ev.call ++ r ∧ (∀ y ∈ t', Worked y) ∧ ¬ Worked x

/-- The four kinds of enrolment requests. -/
def IsEnrol : Call → Prop
  | .enroll _ | .keygenEnroll _ | .enrollCsr _ | .keygenEnrollCsr _ => True
  | _ => False

instance : DecidablePred IsEnrol := fun c => by cases c <;> (simp only [IsEnrol]; infer_instance)

/-- Waiting: for how long the server says, what time it is, and the waiting itself. -/
def IsWait : Call → Prop
  | .copyRetry | .now | .sleep _ => True
  | _ => False

instance : DecidablePred IsWait := fun c => by cases c <;> (simp only [IsWait]; infer_instance)

/-- Calls that are part of the talk about an enrolment: requests and waiting. -/
def IsTalk (c : Call) : Prop := IsEnrol c ∨ c = .reenroll ∨ IsWait c

instance : DecidablePred IsTalk := fun c => by unfold IsTalk; infer_instance

/-- The waiting that belongs to what the library says of the time to come back: none
if it does not say; so many seconds; or until a point in time, if that is at most two
minutes away. -/
def WaitsFor (r : Ans) (w : List Ev) : Prop :=
  if r.rc ≠ .none then w = []
  else if r.delay ≠ 0 then w.map Ev.call = [.sleep r.delay]
  else if r.time ≠ 0 then
    ∃ n : Ans, if 0 < r.time - n.time ∧ r.time - n.time ≤ 120 then
        ∃ a, w = [⟨.now, n⟩, ⟨.sleep (r.time - n.time), a⟩]
      else w = [⟨.now, n⟩]
  else w = []

/-- A list of at most one request, of the kind `S`. -/
def AtMostOne (S : Call → Prop) (q : List Ev) : Prop := q.length ≤ 1 ∧ ∀ x ∈ q, S x.call

/-- The talk about an enrolment: at most one request; or at most one request, that the
server has put off, the question when to come back, the waiting, and at most one more
request.  `stop`: the program was stopped. -/
def Talked (S : Call → Prop) (stop : Prop) (l : List Ev) : Prop :=
  (AtMostOne S l ∧ (¬ stop → ∀ x ∈ l, x.ans.rc ≠ .caEnrollRetry)) ∨
  ∃ (q1 q2 w : List Ev) (r : Ans), l = q1 ++ ⟨.copyRetry, r⟩ :: (w ++ q2) ∧ AtMostOne S q1 ∧ AtMostOne S q2 ∧
    (∀ x ∈ q1, x.ans.rc = .caEnrollRetry) ∧ WaitsFor r w

/-- Only requests are put off. -/
def Sane (t : List Ev) : Prop :=
  ∀ x ∈ t, x.ans.rc = .caEnrollRetry → IsEnrol x.call ∨ x.call = .reenroll ∨ x.call = .getAttrs

/-! ## Files -/

/-- The contents of a buffer of `n` bytes after a copy. -/
def Filled (n : Nat) (y : Ans) (b : Buf) : Prop :=
  if y.rc = .none then y.data.length ≤ n ∧ b = ⟨y.data, n - y.data.length⟩ else b = ⟨[], n⟩

/-- The name of a file. -/
def FileName (o : Opts) (kind : List Nat) (tid i : Nat) (ext : List Nat) : List Nat :=
  ((o.outDir ++ 47 :: kind ++ 45 :: decimal tid ++ 45 :: decimal i).take 254 ++ ext).take 254

/-- The file `n` with contents `b` is how certificates in `b0` are stored. -/
def Stored (o : Opts) (kind : List Nat) (tid i : Nat) (h : List Ev) (b0 : Buf) (n : List Nat) (b : Buf) : Prop :=
  if o.pem then
    ∃ p : Ans, ⟨.toPem b0, p⟩ ∈ h ∧ 0 < p.len ∧ n = FileName o kind tid i [46, 112, 101, 109] ∧ b = ⟨p.data, 0⟩
  else n = FileName o kind tid i [46, 112, 107, 99, 115, 55] ∧ b = b0

/-- What a file has to do with what came before: the attributes; a key; a certificate;
CA certificates.  In the last three a request has worked (`g`), a buffer of the length
the request has told was allocated (`m`), and it was filled (`y`). -/
def FileOk (o : Opts) (tid i : Nat) (h : List Ev) (n : List Nat) (b : Buf) : Prop :=
  (∃ g : Ans, ⟨.getAttrs, g⟩ ∈ h ∧ (g.rc = .none ∨ g.rc = .httpNoContent ∨ g.rc = .httpNotFound) ∧ b = ⟨g.data, 0⟩ ∧
    n = (o.outDir ++ [47, 99, 115, 114, 45] ++ decimal tid ++ 45 :: decimal i ++ [46, 98, 97, 115, 101, 54, 52]).take 254) ∨
  (∃ (g : Ev) (m y : Ans), [g, ⟨.alloc g.ans.klen, m⟩, ⟨.copyKey, y⟩].Sublist h ∧ IsEnrol g.call ∧ g.ans.rc = .none ∧
    o.keygen = true ∧ Filled g.ans.klen y b ∧ n = FileName o [107, 101, 121] tid i [46, 107, 101, 121]) ∨
  (∃ (g : Ev) (m y : Ans) (b0 : Buf), [g, ⟨.alloc g.ans.len, m⟩, ⟨.copyCert, y⟩].Sublist h ∧
    (IsEnrol g.call ∨ g.call = .reenroll) ∧ g.ans.rc = .none ∧ Filled g.ans.len y b0 ∧ Stored o [99, 101, 114, 116] tid i h b0 n b) ∨
  (∃ (g m y : Ans) (b0 : Buf), [⟨.getCacerts, g⟩, ⟨.alloc g.len, m⟩, ⟨.copyCacerts, y⟩].Sublist h ∧
    g.rc = .none ∧ Filled g.len y b0 ∧ Stored o [99, 97, 99, 101, 114, 116] tid i h b0 n b)

/-- There was no memory, or the library has copied more than it had announced. -/
def OutOfBounds (h : List Ev) : Prop :=
  (∃ x ∈ h, ∃ n, x.call = .alloc n ∧ x.ans.ptr = false) ∨
  ∃ (n : Nat) (m : Ans) (y : Ev), [⟨.alloc n, m⟩, y].Sublist h ∧
    (y.call = .copyKey ∨ y.call = .copyCert ∨ y.call = .copyCacerts) ∧ y.ans.rc = .none ∧ n < y.ans.data.length

/-! ## Requests -/

/-- The command line asks for this request, with these arguments. -/
def Wanted (o : Opts) : Call → Prop
  | .getCacerts => o.getcert = true
  | .enroll cn => o.enroll = true ∧ o.keygen = false ∧ o.getcsr = false ∧ o.csrFile = false ∧ cn = o.cn
  | .keygenEnroll cn => o.keygen = true ∧ o.getcsr = false ∧ o.csrFile = false ∧ cn = o.cn
  | .enrollCsr k => o.enroll = true ∧ o.keygen = false ∧ k = o.getcsr ∧ (o.getcsr = true ∨ o.csrFile = true)
  | .keygenEnrollCsr k => o.keygen = true ∧ k = o.getcsr ∧ (o.getcsr = true ∨ o.csrFile = true)
  | .reenroll => o.reenroll = true
  | .getAttrs => o.getcsr = true
  | .readCsr => o.csrFile = true ∧ o.getcsr = false
  | .forcePop => o.forcePop = true ∧ o.getcsr = false
  | _ => True

/-- The last of the operations that the command line asks for. -/
def LastOp (o : Opts) : Nat :=
  if o.reenroll then 7
  else if o.enroll || o.keygen then
    if o.getcsr then (if o.keygen then 3 else 2) else (if o.keygen then 5 else 4)
  else if o.getcsr then 6
  else if o.getcert then 1
  else 0

/-- Something has gone wrong, and `e` says what. -/
def Trouble (h : List Ev) (e : EstErr) : Prop := ∃ y ∈ h, y.ans.rc = e ∨ y.ans.ptr = false

/-- The last of the operations that the command line asks for has succeeded. -/
def Success (o : Opts) (h : List Ev) : Prop :=
  if o.reenroll then ∃ y : Ans, ⟨.copyCert, y⟩ ∈ h ∧ y.rc = .none
  else if o.enroll || o.keygen then ∃ y : Ans, ⟨.copyCert, y⟩ ∈ h ∧ y.rc = .none
  else if o.getcsr then ∃ y : Ans, ⟨.getAttrs, y⟩ ∈ h ∧ y.rc = .none
  else if o.getcert then ∃ y : Ans, ⟨.copyCacerts, y⟩ ∈ h ∧ y.rc = .none
  else True

/-- What has to come before a call. -/
def Order (o : Opts) (tid i : Nat) (h : List Ev) (x : Ev) : Prop :=
  match x.call with
  | .write n b => FileOk o tid i h n b
  | .copyCert => ∃ g ∈ h, (IsEnrol g.call ∨ g.call = .reenroll) ∧ g.ans.rc = .none
  | .copyKey => ∃ g ∈ h, IsEnrol g.call ∧ g.ans.rc = .none
  | .copyCacerts => ∀ g ∈ h, ¬ IsEnrol g.call ∧ g.call ≠ .reenroll
  | .enroll _ | .keygenEnroll _ => o.forcePop = true → ∃ g ∈ h, g.call = .forcePop ∧ g.ans.rc = .none
  | .failed n e => n = LastOp o ∧ e ≠ .none ∧ Trouble h e
  | _ => True

end Verif.SampleCli
