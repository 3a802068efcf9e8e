import Verif.Base64Model
import Verif.HexModel
import Verif.HttpHdrModel
import Verif.ClientRespModel

/-!
# Model of the HTTP authentication header on both sides

Source: `/repo/src/est/est_server_http.c` lines 785-1067 (the server's parsers),
`/repo/src/est/est_server.c` lines 362-417 (`est_server_generate_auth_digest`),
`/repo/src/est/est_client.c` lines 900-978 (`est_client_generate_auth_digest`) and 1056-1235
(`est_client_add_auth_hdr`), `/repo/src/est/est.c` lines 2258-2302 (`skip_quoted`).
-/
namespace Verif.AuthHdr
open Verif.HttpHdr (isSpace skipWord toLower)
open Verif.ClientResp (Mode)

/-- The C string in a buffer.  The parsers of `est_server_http.c` lines 790-992 work on
NUL-terminated text. -/
def cstr (b : List Nat) : List Nat := b.takeWhile (· ≠ 0)

/-! ## The server -/

/-- `EST_HTTP_AUTH_HDR`; a missing value is the NULL pointer.  `est.h` lines 439-450. -/
structure Ah where
  mode : Mode := .none
  user : Option (List Nat) := none
  pwd : Option (List Nat) := none
  uri : Option (List Nat) := none
  nonce : Option (List Nat) := none
  nc : Option (List Nat) := none
  cnonce : Option (List Nat) := none
  qop : Option (List Nat) := none
  response : Option (List Nat) := none
  token : Option (List Nat) := none
deriving DecidableEq, Repr

/-- `MAX_UIDPWD`.  `est.h` line 329. -/
def maxUidPwd : Nat := 255

/-- The decoded credentials, `est_server_http.c` lines 813-858: `both` is the string, `len` what the decoder
returned. -/
def splitBasic (both : List Nat) (len : Nat) : Ah :=
  if !both.contains 58 then {}
  else if both.head? = some 58 then
    if len > 1 then { mode := .basic, pwd := some (both.tail.take maxUidPwd) } else {}
  else
    { mode := .basic
      user := some ((both.takeWhile (· ≠ 58)).take maxUidPwd)
      pwd := some ((both.dropWhile (· ≠ 58)).tail.take maxUidPwd) }

/-- `mg_parse_auth_hdr_basic`, `est_server_http.c` lines 790-861.  When nothing follows the scheme, the decoder
reads the byte in front of its text (`est.c` line 935); here that byte belongs to the header,
and the decoder returns 0.  The result is optional only to be like that of the parser for
Digest. -/
def parseBasic (odd : Bool → List Nat → List Nat) (h : List Nat) : Option Ah :=
  match Base64.decode odd ((h.drop 6).dropWhile isSpace) 512 with
  | .ub => some {}
  | .ret n b => if n = 0 ∨ 512 ≤ n then some {} else some (splitBasic (cstr b) n)

/-- `skip_quoted (s, "\"", " ", '\\')`: the word built so far is `acc`, `t` is the text from
the delimiter on.  A delimiter behind a backslash takes the place of the backslash.
The loop of skip_quoted, `est.c` lines 2267-2286, as called at `est_server_http.c`
lines 790-992. -/
def quotedTail : Nat → List Nat → List Nat → List Nat × List Nat
  | 0, acc, t => (acc, t)
  | _ + 1, acc, [] => (if acc.getLast? = some 92 then acc.dropLast else acc, [])
  | k + 1, acc, d :: t =>
    if acc.getLast? = some 92 then
      let seg := t.takeWhile (· ≠ 34)
      quotedTail k (acc.dropLast ++ d :: seg) (t.drop seg.length)
    else (acc, t.dropWhile (· = 32))

/-- The same from the start of the word.  skip_quoted, `est.c` lines 2258-2302. -/
def skipQuoted (t : List Nat) : List Nat × List Nat :=
  let w := t.takeWhile (· ≠ 34)
  quotedTail (t.length + 1) w (t.drop w.length)

/-- The value behind a name, `est_server_http.c` lines 887-897. -/
def digestValue (s : List Nat) : List Nat × List Nat :=
  match s with
  | 34 :: t =>
    let r := skipQuoted t
    (r.1, match r.2 with | 44 :: u => u | u => u)
  | s => skipWord [44, 32] [32] s

/-- Which field is meant, `est_server_http.c` lines 902-944; names are compared by prefix. -/
def setField (name value : List Nat) (ah : Ah) : Ah :=
  if [117, 115, 101, 114, 110, 97, 109, 101].isPrefixOf name then { ah with user := some (value.take 255) }
  else if [99, 110, 111, 110, 99, 101].isPrefixOf name then { ah with cnonce := some (value.take 64) }
  else if [114, 101, 115, 112, 111, 110, 115, 101].isPrefixOf name then { ah with response := some (value.take 64) }
  else if [117, 114, 105].isPrefixOf name then { ah with uri := some (value.take 255) }
  else if [113, 111, 112].isPrefixOf name then { ah with qop := some (value.take 10) }
  else if [110, 99].isPrefixOf name then { ah with nc := some (value.take 9) }
  else if [110, 111, 110, 99, 101].isPrefixOf name then { ah with nonce := some (value.take 64) }
  else ah

/-- The loop of `est_server_http.c` lines 881-945.  Each round uses up a character, so the size of the buffer
bounds the number of rounds. -/
def digestLoop : Nat → List Nat → Ah → Ah
  | 0, _, ah => ah
  | k + 1, s, ah =>
    let a := skipWord [61] [32] (s.dropWhile isSpace)
    let b := digestValue a.2
    if a.1 = [] then ah else digestLoop k b.2 (setField a.1 b.1 ah)

/-- `MAX_AUTH_HDR_LEN`, `est_server_http.c` line 785. -/
def maxAuthHdr : Nat := 384

/-- `mg_parse_auth_hdr_digest`, `est_server_http.c` lines 867-946.  The copy of the text (`strcpy_s`, which here
is `strncpy`) has no NUL if the text does not fit: reading it is undefined. -/
def parseDigest (h : List Nat) : Option Ah :=
  let t := h.drop 7
  if maxAuthHdr ≤ t.length then none else some (digestLoop maxAuthHdr t { mode := .digest })

/-- `mg_parse_auth_hdr_token`, `est_server_http.c` lines 953-991; an empty value as in
`parseBasic`. -/
def parseToken (odd : Bool → List Nat → List Nat) (h : List Nat) : Option Ah :=
  let s := (h.drop 6).dropWhile isSpace
  match Base64.decode odd s 1024 with
  | .ub => some {}
  | .ret n b =>
    if n = 0 ∨ 1024 ≤ n then some {}
    else if s = [] then some {}
    else some { mode := .token, token := some ((cstr b).take 512) }

/-- `mg_strncasecmp(h, p, strlen(p)) == 0`.  mg_strncasecmp is `est_server_http.c` lines
249-260, called at lines 1014-1026. -/
def startsWith (p h : List Nat) : Bool := (p.map toLower).isPrefixOf (h.map toLower)

/-- `EST_HTTP_AUTH_HDR_RESULT`, with the user name that is stored on the connection.
The enumeration is `est_locl.h` lines 272-279; the user name is stored by
`est_server_http.c` lines 1040-1066. -/
inductive Parsed
  | ub
  | missing
  | bad
  | good (ah : Ah) (userId : Option (List Nat))
deriving DecidableEq, Repr

/-- The checks behind the parsers, `est_server_http.c` lines 1040-1066. -/
def judge (ah : Ah) : Parsed :=
  if ah.mode = .digest ∧ (ah.uri = none ∨ ah.nonce = none ∨ ah.nc = none ∨ ah.cnonce = none) then .bad
  else if ah.mode = .token then .good ah none
  else match ah.user with
    | none => .bad
    | some u => .good ah (some u)

/-- `none` from a parser is undefined behaviour.  The parsers are called at
`est_server_http.c` lines 1014-1035. -/
def judge? : Option Ah → Parsed
  | none => .ub
  | some ah => judge ah

/-- `mg_parse_auth_header`, `est_server_http.c` lines 1002-1067; `mode` is the mode the server is configured
for. -/
def parseAuthHeader (odd : Bool → List Nat → List Nat) (mode : Mode) (h : Option (List Nat)) : Parsed :=
  match h with
  | none => .missing
  | some h =>
    if startsWith [68, 105, 103, 101, 115, 116, 32] h then (if mode = .digest then judge? (parseDigest h) else .bad)
    else if startsWith [66, 97, 115, 105, 99, 32] h then (if mode = .basic then judge? (parseBasic odd h) else .bad)
    else if startsWith [66, 101, 97, 114, 101, 114, 32] h then (if mode = .token then judge? (parseToken odd h) else .bad)
    else .bad

/-! ## Digests -/

/-- `est_hex_to_str` without the NUL.  `est.c` lines 1159-1168. -/
def hex (b : List Nat) : List Nat := ((Hex.hexToStr b).getD [0]).dropLast

/-- HA1 of a user, lines 915-932 of `est_client.c`. -/
def ha1 (H : List Nat → List Nat) (user realm pwd : List Nat) : List Nat :=
  hex (H (user.take 255 ++ 58 :: (realm.take 255 ++ 58 :: pwd.take 255)))

/-- The last step, the same text on both sides (`est_client.c` lines 952-966, `est_server.c`
lines 398-411). -/
def respond (H : List Nat → List Nat) (ha1 nonce nc cnonce uri : List Nat) : List Nat :=
  hex (H (ha1 ++ 58 :: (nonce.take 64 ++ 58 :: (nc.take 9 ++ 58 :: (cnonce.take 64 ++
    58 :: ([97, 117, 116, 104] ++ 58 :: hex (H ([80, 79, 83, 84] ++ 58 :: uri.take 255))))))))

/-- `est_client_generate_auth_digest`, lines 900-978 of `est_client.c`. -/
def clientDigest (H : List Nat → List Nat) (user realm pwd nonce cnonce uri : List Nat) : List Nat :=
  respond H (ha1 H user realm pwd) nonce [48, 48, 48, 48, 48, 48, 48, 49] cnonce uri

/-- `est_server_generate_auth_digest`, lines 362-417 of `est_server.c`; 32 characters of the
application's HA1 are used.  A missing value would be a NULL pointer. -/
def serverDigest (H : List Nat → List Nat) (ah : Ah) (a1 : List Nat) : Option (List Nat) :=
  match ah.uri, ah.nonce, ah.nc, ah.cnonce with
  | some uri, some nonce, some nc, some cnonce => some (respond H (a1.take 32) nonce nc cnonce uri)
  | _, _, _, _ => none

/-! ## The client -/

/-- `est_base64_encode` into a zeroed buffer of `n` bytes, read as a string.  `est.c`
lines 986-1058, called at `est_client.c` lines 1113 and 1219. -/
def b64 (n : Nat) (src : List Nat) : Option (List Nat) :=
  (Base64.encode false src (List.replicate n 0)).map (fun r => cstr r.2)

/-- The value of the Basic header, lines 1083-1120 of `est_client.c`. -/
def basicValue (user pwd : List Nat) : Option (List Nat) :=
  (b64 1020 ((user ++ 58 :: pwd).take 511)).map (fun t => [66, 97, 115, 105, 99, 32] ++ t)

/-- The value of the Digest header, `est_client.c` lines 1121-1183. -/
def digestValueText (H : List Nat → List Nat) (user realm pwd nonce cnonce uri : List Nat) : List Nat :=
  [68, 105, 103, 101, 115, 116, 32, 117, 115, 101, 114, 110, 97, 109, 101, 61] ++ 34 :: (user ++ ([34, 44, 32, 114, 101, 97, 108, 109, 61, 34] ++ (realm ++ ([34, 44, 32, 110, 111, 110, 99, 101, 61, 34] ++
    (nonce ++ ([34, 44, 32, 117, 114, 105, 61, 34] ++ (uri ++ ([34, 44, 32, 99, 110, 111, 110, 99, 101, 61, 34] ++ (cnonce ++
    ([34, 44, 32, 110, 99, 61, 48, 48, 48, 48, 48, 48, 48, 49, 44, 32, 113, 111, 112, 61, 34, 97, 117, 116, 104, 34, 44, 32, 114, 101, 115, 112, 111, 110, 115, 101, 61, 34] ++
    (clientDigest H user realm pwd nonce cnonce uri ++ [34])))))))))))

/-- The value of the Bearer header, `est_client.c` lines 1184-1227; a token that is too long is replaced by
the empty one. -/
def tokenValue (token : List Nat) : Option (List Nat) :=
  (b64 1024 (if 512 < token.length then [] else token)).map (fun t => [66, 101, 97, 114, 101, 114, 32] ++ t)

end Verif.AuthHdr
