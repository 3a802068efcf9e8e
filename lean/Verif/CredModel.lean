import Verif.ChallengeModel
import Verif.ClientReqModel

/-!
# Model of the credentials of a client

Source: `/repo/src/est/est_client.c` lines 3107-3145 (`est_client_set_uid_pw`), 4286-4320
(`est_client_set_auth`), 4374-4384 (`est_client_set_auth_cred_cb`), 986-1045
(`est_client_retrieve_credentials`), 1056-1235 (`est_client_add_auth_hdr`);
`/repo/src/est/est_client_http.c` lines 1255-1309 (what of a challenge is stored).
-/
namespace Verif.Cred
open Verif.ClientResp (Mode)
open Verif.ClientReq (Auth)
open Verif.Challenge (Toks)

/-- What the callback of the application leaves in `EST_HTTP_AUTH_HDR`; its return value is
only logged.  `est.h` lines 439-450, read at `est_client.c` lines 1011-1042 and
1189-1213. -/
structure Given where
  user : Option (List Nat) := none
  pwd : Option (List Nat) := none
  token : Option (List Nat) := none
deriving DecidableEq

/-- The context's `userid`, `password` and `auth_credentials_cb`.  `est_locl.h` lines
389-578. -/
structure Store where
  userid : List Nat := []
  password : List Nat := []
  cb : Option (Mode → Given) := none

/-- `est_client_set_uid_pw`, `est_client.c` lines 3107-3145: was it accepted, and the context
afterwards.  The user name is stored before the password is looked at. -/
def setUidPw (s : Store) : Option (List Nat) → Option (List Nat) → Bool × Store
  | some _, none => (false, s)
  | none, some _ => (false, s)
  | none, none => (true, s)
  | some uid, some pwd =>
    if 255 < uid.length then (false, s)
    else
      let s := { s with userid := uid }
      if 255 < pwd.length then (false, s) else (true, { s with password := pwd })

/-- The calls that concern credentials; of `est_client_set_auth` only lines 4296-4299.
`est_client.c` lines 4286-4320 and 4374-4384. -/
inductive Call
  | setAuth (uid pwd : Option (List Nat))
  | setCb (cb : Option (Mode → Given))

/-- One call: was it accepted, and the context afterwards.  `est_client.c` lines 4286-4320 and
4374-4384. -/
def step (s : Store) : Call → Bool × Store
  | .setAuth uid pwd => setUidPw s uid pwd
  | .setCb cb => (true, { s with cb := cb })

/-- Calls one after the other, and whether all were accepted.  `est_client.c` lines 4286-4384,
as an application calls them. -/
def run (s : Store) : List Call → Bool × Store
  | [] => (true, s)
  | c :: cs => ((step s c).1 && (run (step s c).2 cs).1, (run (step s c).2 cs).2)

/-- A value of the callback in a buffer of zeroes: nothing, or more than 255 characters, gives
the empty string.  `est_client.c` lines 1023-1042. -/
def fit : Option (List Nat) → List Nat
  | none => []
  | some v => if 255 < v.length then [] else v

/-- `est_client_retrieve_credentials`, `est_client.c` lines 986-1045.  It is only called while
the context's values are empty, so clearing these (lines 996-1002) does nothing. -/
def retrieve (s : Store) (m : Mode) : List Nat × List Nat :=
  match s.cb with
  | none => ([], [])
  | some cb => (fit (cb m).user, fit (cb m).pwd)

/-- Are there values in the context?  `est_client.c` lines 1093 and 1138. -/
def configured (s : Store) : Bool := s.userid != [] || s.password != []

/-- User name and password for Basic and Digest.  `est_client.c` lines 1093-1110 and
1138-1150. -/
def pair (s : Store) (m : Mode) : List Nat × List Nat :=
  if configured s then (s.userid, s.password) else retrieve s m

/-- The token of the callback; a missing one is the empty string.  `est_client.c` lines
1189-1213. -/
def token (s : Store) : List Nat :=
  match s.cb with
  | none => []
  | some cb => (cb .token).token.getD []

/-- What the system supplies while a header is made: eight random bytes (none if `RAND_bytes`
fails), and whether the digest could be made.  `est_client.c` lines 1125-1130 and
1152-1161. -/
structure Env where
  rnd : Option (List Nat)
  digestOk : Bool

/-- `est_client_add_auth_hdr`, `est_client.c` lines 1056-1235; `none` is undefined behaviour: a
configured user name of 255 characters fills the first 255 bytes of a local array of 256 that
is not cleared (lines 1145-1147; `strcpy_s` with a limit of 255 adds no NUL), and is then
printed with `%s`.  The password is only read up to 255 characters. -/
def addAuthHdr (H : List Nat → List Nat) (s : Store) (t : Toks) (e : Env) (uri : List Nat) :
    Mode → Option Auth
  | .basic => (AuthHdr.basicValue (pair s .basic).1 (pair s .basic).2).map .value
  | .digest =>
    match e.rnd with
    | none => some .failed
    | some r =>
      if e.digestOk = false then some .failed
      else if configured s ∧ 255 ≤ s.userid.length then none
      else some (.value (AuthHdr.digestValueText H (pair s .digest).1 t.realm (pair s .digest).2
        t.nonce (AuthHdr.hex r) uri))
  | .token => (AuthHdr.tokenValue (token s)).map .value
  | _ => some .none

/-- The URI that the builders pass for the digest: a constant for each operation, without the
path segment of the context.  `est_locl.h` lines 237-241, used at `est_client.c` lines 1298,
1434, 1475 and 1516. -/
def digestUri : EstUri.Op → List Nat
  | .simpleEnroll => [47, 46, 119, 101, 108, 108, 45, 107, 110, 111, 119, 110, 47, 101, 115, 116, 47, 115, 105, 109, 112, 108, 101, 101, 110, 114, 111, 108, 108]
  | .simpleReenroll => [47, 46, 119, 101, 108, 108, 45, 107, 110, 111, 119, 110, 47, 101, 115, 116, 47, 115, 105, 109, 112, 108, 101, 114, 101, 101, 110, 114, 111, 108, 108]
  | .csrattrs => [47, 46, 119, 101, 108, 108, 45, 107, 110, 111, 119, 110, 47, 101, 115, 116, 47, 99, 115, 114, 97, 116, 116, 114, 115]
  | _ => [47, 46, 119, 101, 108, 108, 45, 107, 110, 111, 119, 110, 47, 101, 115, 116, 47, 115, 101, 114, 118, 101, 114, 107, 101, 121, 103, 101, 110]

/-- What of an answer is stored in the context for later digests: the first `WWW-Authenticate`
header of a 401 is read, unless credentials had been sent.  `none` is undefined behaviour.
`est_client_http.c` lines 1255-1309, called at lines 1638-1652. -/
def learn (m : Mode) (s : Toks) (raw : List Nat) : Option Toks :=
  let t := raw.takeWhile (· != 0)
  if ClientResp.statusCode t ≠ some 401 then some s
  else if m = .digest ∨ m = .basic ∨ m = .token then some s
  else
    match (ClientResp.clientHeaders t).1.find? (fun h => ([87, 87, 87, 45, 65, 117, 116, 104, 101, 110, 116, 105, 99, 97, 116, 101]).isPrefixOf h.name) with
    | none => some s
    | some h =>
      if ([66, 97, 115, 105, 99]).isPrefixOf h.value || ([68, 105, 103, 101, 115, 116]).isPrefixOf h.value ||
          ([66, 101, 97, 114, 101, 114]).isPrefixOf h.value then
        match Challenge.parseTokens h.value s with
        | .ub => none
        | .invalid t => some t
        | .ok t => some t
      else some s

end Verif.Cred
