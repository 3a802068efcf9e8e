import Verif.SampleArgsModel

/-!
# C131: how a command line is meant
-/
namespace Verif.SampleArgs
open Verif.SampleCli (Opts Proxy)
open Verif.ClientResp (atoi)

/-- The value of an option of one letter, if this is one. -/
def ofShort (c : Char) : Arg → Option (List Nat)
  | .short d v => if d = c then some v else none
  | _ => none

/-- The value of a long option, if this is one. -/
def ofLong (n : Name) : Arg → Option (List Nat)
  | .long m v => if m = n then some v else none
  | _ => none

/-- The last value of an option of one letter on a command line. -/
def lastShort (as : List Arg) (c : Char) : Option (List Nat) := (as.filterMap (ofShort c)).getLast?

/-- The last value of a long option on a command line. -/
def lastLong (as : List Arg) (n : Name) : Option (List Nat) := (as.filterMap (ofLong n)).getLast?

/-- The option is on the command line. -/
def has (as : List Arg) (c : Char) : Bool := (lastShort as c).isSome

/-- The long option is on the command line. -/
def hasLong (as : List Arg) (n : Name) : Bool := (lastLong as n).isSome

/-- The value of an argument. -/
def Arg.value : Arg → List Nat
  | .long _ v => v
  | .short _ v => v
  | .other => []

/-- Command lines come as strings. -/
def Strings (as : List Arg) : Prop := ∀ a ∈ as, 0 ∉ a.value

/-- One of the three options whose name begins with `srp`. -/
def ofSrp : Arg → Option Unit
  | .long .srp _ => some ()
  | .long .srpUser _ => some ()
  | .long .srpPassword _ => some ()
  | _ => none

/-- One of the two options for the password of a key. -/
def ofCb : Arg → Option Cb
  | .long .keypassStdin _ => some .stdin
  | .long .keypassArg _ => some .arg
  | _ => none

/-- A trust anchor whose name begins with `no`. -/
def ofNo : Arg → Option Unit
  | .long .trustanchor v => if starts v [110, 111] then some () else none
  | _ => none

/-- A trust anchor with another name. -/
def ofFile : Arg → Option (List Nat)
  | .long .trustanchor v => if starts v [110, 111] then none else some v
  | _ => none

/-- The protocols that can be named. -/
def protoOf (v : List Nat) : Option Int :=
  if starts v [83, 79, 67, 75, 83, 52] then some 4
  else if starts v [83, 79, 67, 75, 83, 53] then some 5
  else if starts v [83, 79, 67, 75, 83, 95, 72, 79, 83, 84, 78, 65, 77, 69] then some 7
  else if starts v [72, 84, 84, 80, 95, 78, 79, 84, 85, 78, 78, 69, 76] then some 0
  else if starts v [72, 84, 84, 80, 95, 84, 85, 78, 78, 69, 76] then some 1
  else none

/-- A proxy protocol that the program knows. -/
def ofProto : Arg → Option Int
  | .long .proxyProto v => protoOf v
  | _ => none

/-- A way to authenticate to the proxy that the program knows. -/
def ofAuth : Arg → Option Nat
  | .long .proxyAuth v => if starts v [66, 65, 83, 73, 67] then some 1 else if starts v [78, 84, 76, 77] then some 8 else none
  | _ => none

/-- The value of an option of one letter, empty if it is not there. -/
def val (as : List Arg) (c : Char) : List Nat := (lastShort as c).getD []

/-- The same for a long option. -/
def valLong (as : List Arg) (n : Name) : List Nat := (lastLong as n).getD []

/-- What the threads are meant to find: of each option the last value; user name and
password cut to 255 bytes, the token to 512, the path segment to 128. -/
structure Meant (as : List Arg) (o : Opts) : Prop where
  uid : o.uid = (val as 'u').take 255
  pwd : o.pwd = (val as 'h').take 255
  cert : o.cert = !(val as 'c').isEmpty
  key : o.key = !(val as 'k').isEmpty
  srp : o.srp = (as.filterMap ofSrp).getLast?.isSome
  srpUid : o.srp = true → o.srpUid = valLong as .srpUser
  srpPwd : o.srp = true → o.srpPwd = valLong as .srpPassword
  tokenMode : o.tokenMode = hasLong as .authToken
  token : o.token = (valLong as .authToken).take 512
  cn : (o.enroll || o.keygen) = true → o.getcsr = false → o.csrFile = false →
    o.cn = (lastLong as .commonName).getD [49, 50, 55, 46, 48, 46, 48, 46, 49]
  server : o.server = val as 's'
  port : o.port = ((lastShort as 'p').map atoi).getD 0
  seg : o.seg = (lastLong as .pathSeg).map (·.take 128)
  proxy : o.proxy = (lastLong as .proxyServer).map fun h =>
    ⟨h.take 255, ((lastLong as .proxyPort).map atoi).getD 0, ((as.filterMap ofProto).getLast?.getD 0).toNat,
      (as.filterMap ofAuth).foldl (· ||| ·) 0, (lastLong as .proxyUsername).map (·.take 255),
      (lastLong as .proxyPassword).map (·.take 255)⟩
  timeout : o.timeout = ((lastShort as 'w').map atoi).getD 10
  csrFile : o.csrFile = !(val as 'y').isEmpty
  pem : o.pem = hasLong as .pemOutput
  outDir : o.outDir = val as 'o'
  getcert : o.getcert = has as 'g'
  enroll : o.enroll = has as 'e'
  keygen : o.keygen = has as 'q'
  getcsr : o.getcsr = has as 'a'
  reenroll : o.reenroll = has as 'r'
  forcePop : o.forcePop = has as 'z'

/-- Combinations that make no sense. -/
def Nonsense (as : List Arg) : Prop :=
  (val as 'u' ≠ [] ∧ val as 'h' = []) ∨
  (val as 'y' ≠ [] ∧ (has as 'a' = true ∨ val as 'x' ≠ [] ∨ has as 'z' = true)) ∨
  (has as 'e' = true ∧ has as 'r' = true) ∨ val as 'o' = []

end Verif.SampleArgs
