import Verif.ClientRespModel
import Verif.EstUriModel
import Verif.AuthHdrModel

/-!
# Model of the challenge of the server and its reading by the client

Source: `/repo/src/est/est_server_http.c` lines 1069-1112 (`mg_send_authorization_request`),
`/repo/src/est/est_client_http.c` lines 658-714 (`HTNextField`), 740-824
(`est_io_parse_auth_tokens`).  The choice of the mode, lines 1255-1309, is
`ClientResp.authRequest`.
-/
namespace Verif.Challenge
open Verif.HttpHdr (isSpace)
open Verif.ClientResp (Mode decimal)
open Verif.EstUri (strcaseEq)

/-- What separates fields, `est_client_http.c` lines 670 and 703.  (`isspace` of a negative `char` is not
modelled.) -/
def delim (c : Nat) : Bool := isSpace c || c == 44 || c == 59 || c == 61

/-- The scan for a closing character, `est_client_http.c` lines 680-684, 688-692, 695-699; a backslash hides the
character behind it.  Result: the text before and the text from the closing character on. -/
def scan (q : Nat) : List Nat → List Nat × List Nat
  | [] => ([], [])
  | [c] => if c = q then ([], [c]) else ([c], [])
  | c :: d :: r =>
    if c = q then ([], c :: d :: r)
    else if c = 92 then (c :: d :: (scan q r).1, (scan q r).2)
    else (c :: (scan q (d :: r)).1, (scan q (d :: r)).2)

/-- Result of `HTNextField`: undefined behaviour (the pointer was moved over the end of the
string), no field, or a field and the rest.  The outcomes of `est_client_http.c` lines
658-714. -/
inductive Field
  | ub
  | none
  | word (w rest : List Nat)
deriving DecidableEq, Repr

/-- `HTNextField`, `est_client_http.c` lines 658-714.  Each round of the loop uses up characters, so the length
of the text bounds the number of rounds. -/
def nextField : Nat → List Nat → Field
  | 0, _ => .none
  | k + 1, t =>
    match t.dropWhile delim with
    | [] => .none
    | c :: r =>
      if c = 34 then .word (scan 34 r).1 ((scan 34 r).2.drop 1)
      else if c = 60 then .word (scan 62 r).1 ((scan 62 r).2.drop 1)
      else if c = 40 then
        match (scan 41 (c :: r)).2 with
        | [] => .ub
        | _ :: rest => nextField k rest
      else .word ((c :: r).takeWhile (fun x => !delim x)) (((c :: r).dropWhile (fun x => !delim x)).drop 1)

/-- The fields of the context that are filled; `MAX_REALM` 255, `MAX_NONCE` 64,
`MAX_TOKEN_ERROR` 255, `MAX_TOKEN_ERROR_DESC` 255.  The limits are `est.h` lines
327-338; the fields are `est_locl.h` lines 403, 431-432 and 489. -/
structure Toks where
  realm : List Nat
  nonce : List Nat
  error : List Nat
  errorDesc : List Nat
deriving DecidableEq, Repr

/-- Result of `est_io_parse_auth_tokens`.  `est_client_http.c` lines 740-824. -/
inductive Res
  | ub
  | invalid (s : Toks)
  | ok (s : Toks)
deriving DecidableEq, Repr

/-- The value of a name, if there is one, is stored; else the challenge is invalid and the
nonce is cleared, `est_client_http.c` lines 816-819. -/
def valued (f : Field) (s : Toks) (store : List Nat → Toks) (cont : List Nat → Toks → Res) : Res :=
  match f with
  | .ub => .ub
  | .none => .invalid { s with nonce := [] }
  | .word v rest => cont rest (store v)

/-- The loop of `est_client_http.c` lines 756-822.  Names are compared ignoring case, and an empty name is equal to
the first one. -/
def tokens (len : Nat) : Nat → List Nat → Toks → Res
  | 0, _, s => .ok s
  | k + 1, t, s =>
    match nextField len t with
    | .ub => .ub
    | .none => .ok s
    | .word name r =>
      let f := nextField len r
      if strcaseEq name [114, 101, 97, 108, 109] then
        valued f s (fun v => { s with realm := v.take 255 }) (tokens len k)
      else if strcaseEq name [110, 111, 110, 99, 101] then
        valued f s (fun v => { s with nonce := v.take 64 }) (tokens len k)
      else if strcaseEq name [113, 111, 112] then valued f s (fun _ => s) (tokens len k)
      else if strcaseEq name [97, 108, 103, 111, 114, 105, 116, 104, 109] then
        match f with
        | .ub => .ub
        | .none => tokens len k [] s
        | .word v rest =>
          if strcaseEq v [109, 100, 53] then tokens len k rest s
          else .invalid { s with nonce := [] }
      else if strcaseEq name [101, 114, 114, 111, 114] then
        valued f s (fun v => { s with error := v.take 255 }) (tokens len k)
      else if strcaseEq name [101, 114, 114, 111, 114, 95, 100, 101, 115, 99, 114, 105, 112, 116, 105, 111, 110] then
        valued f s (fun v => { s with errorDesc := v.take 255 }) (tokens len k)
      else tokens len k r s

/-- `est_io_parse_auth_tokens`, `est_client_http.c` lines 740-824: the first field (the scheme) is skipped. -/
def parseTokens (hdr : List Nat) (s : Toks) : Res :=
  let len := hdr.length + 1
  match nextField len hdr with
  | .ub => .ub
  | .none => .ok s
  | .word _ r => tokens len len r s

/-- Is the value accepted?.  `est_client_http.c` lines 740-824: the return value is
EST_ERR_NONE. -/
def tokensOk (s : Toks) (hdr : List Nat) : Bool :=
  match parseTokens hdr s with
  | .ok _ => true
  | _ => false

/-- The value of the `WWW-Authenticate` header the server sends.  `est_server_http.c`
lines 1069-1112. -/
def challenge (mode : Mode) (realm : List Nat) (time : Nat) : List Nat :=
  match mode with
  | .basic => [66, 97, 115, 105, 99, 32, 114, 101, 97, 108, 109, 61, 34] ++ (realm ++ [34])
  | .digest => [68, 105, 103, 101, 115, 116, 32, 113, 111, 112, 61, 34, 97, 117, 116, 104, 34, 44, 32, 114, 101, 97, 108, 109, 61, 34] ++ (realm ++ ([34, 44, 32, 110, 111, 110, 99, 101, 61, 34] ++ (decimal time ++ [34])))
  | .token => [66, 101, 97, 114, 101, 114, 32, 114, 101, 97, 108, 109, 61, 34] ++ (realm ++ [34])
  | _ => []

/-- `mg_send_authorization_request`, `est_server_http.c` lines 1069-1112; nothing is sent in other modes. -/
def challengeText (mode : Mode) (realm : List Nat) (time : Nat) : List Nat :=
  match mode with
  | .basic | .digest | .token =>
    [72, 84, 84, 80, 47, 49, 46, 49, 32, 52, 48, 49, 32, 85, 110, 97, 117, 116, 104, 111, 114, 105, 122, 101, 100, 13, 10, 67, 111, 110, 116, 101, 110, 116, 45, 76, 101, 110, 103, 116, 104, 58, 32, 48, 13, 10, 87, 87, 87, 45, 65, 117, 116, 104, 101, 110, 116, 105, 99, 97, 116, 101, 58, 32] ++
      (challenge mode realm time ++ [13, 10, 13, 10])
  | _ => []

end Verif.Challenge
