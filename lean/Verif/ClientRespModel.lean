import Verif.EstErr
import Verif.HttpHdrModel

/-!
# Model of the client's handling of an HTTP response

Source: `/repo/src/est/est_client_http.c` lines 608-636 (`est_op_map`), 860-905
(`parse_http_headers`), 1197-1465 and 1542-1822 (`est_io_get_response_internal`),
`/repo/src/est/est_client.c` lines 4875-4894 (`est_client_copy_retry_after`), and of
the texts the server sends: `/repo/src/est/est_server.c` lines 59-181,
`/repo/src/est/est_server_http.c` lines 371-399.
-/
namespace Verif.ClientResp
open Verif.HttpHdr (Hdr skip skipWord caseEq isSpace)

/-! ## Operations -/

/-- `EST_OPERATION`, `est_locl.h` lines 281-294, without the dummy entry. -/
inductive Op
  | enroll | reenroll | cacerts | csrattrs | keygen | voucherReq | voucherStatus | enrollStatus
deriving DecidableEq, Repr

/-- Value of the enumerators, `est_locl.h` lines 281-294 (number 5 is the dummy). -/
def Op.idx : Op → Nat
  | .enroll => 0
  | .reenroll => 1
  | .cacerts => 2
  | .csrattrs => 3
  | .keygen => 4
  | .voucherReq => 6
  | .voucherStatus => 7
  | .enrollStatus => 8

/-- `est_op_map`, `est_client_http.c` lines 624-636: operation and content type of each entry, in the order of
the table. -/
def opMap : List (Op × List Nat) := [
  (.enroll, [97, 112, 112, 108, 105, 99, 97, 116, 105, 111, 110, 47, 112, 107, 99, 115, 55, 45, 109, 105, 109, 101, 59, 32, 115, 109, 105, 109, 101, 45, 116, 121, 112, 101, 61, 99, 101, 114, 116, 115, 45, 111, 110, 108, 121]),
  (.reenroll, [97, 112, 112, 108, 105, 99, 97, 116, 105, 111, 110, 47, 112, 107, 99, 115, 55, 45, 109, 105, 109, 101, 59, 32, 115, 109, 105, 109, 101, 45, 116, 121, 112, 101, 61, 99, 101, 114, 116, 115, 45, 111, 110, 108, 121]),
  (.cacerts, [97, 112, 112, 108, 105, 99, 97, 116, 105, 111, 110, 47, 112, 107, 99, 115, 55, 45, 109, 105, 109, 101]),
  (.csrattrs, [97, 112, 112, 108, 105, 99, 97, 116, 105, 111, 110, 47, 99, 115, 114, 97, 116, 116, 114, 115]),
  (.keygen, [97, 112, 112, 108, 105, 99, 97, 116, 105, 111, 110, 47, 112, 107, 99, 115, 56]),
  (.keygen, [97, 112, 112, 108, 105, 99, 97, 116, 105, 111, 110, 47, 112, 107, 99, 115, 55, 45, 109, 105, 109, 101]),
  (.voucherReq, [97, 112, 112, 108, 105, 99, 97, 116, 105, 111, 110, 47, 118, 111, 117, 99, 104, 101, 114, 43, 99, 109, 115]),
  (.voucherStatus, [97, 112, 112, 108, 105, 99, 97, 116, 105, 111, 110, 47, 106, 115, 111, 110]),
  (.enrollStatus, [97, 112, 112, 108, 105, 99, 97, 116, 105, 111, 110, 47, 106, 115, 111, 110])]

/-- `est_op_map[op].content_type`.  `est_client_http.c` lines 624-636, read at lines
1408-1465. -/
def opType (op : Op) : List Nat := ((opMap[op.idx]?).map (·.2)).getD []

/-! ## Parsing -/

/-- `est_io_parse_response_status_code`, `est_client_http.c` lines 1205-1244; `none` is -1. -/
def statusCode (t : List Nat) : Option Nat :=
  if [72, 84, 84, 80, 47, 49, 46, 49, 32, 50, 48, 48].isPrefixOf t then some 200
  else if [72, 84, 84, 80, 47, 49, 46, 49, 32, 50, 48, 50].isPrefixOf t then some 202
  else if [72, 84, 84, 80, 47, 49, 46, 49, 32, 50, 48, 52].isPrefixOf t then some 204
  else if [72, 84, 84, 80, 47, 49, 46, 49, 32, 52, 48, 48].isPrefixOf t then some 400
  else if [72, 84, 84, 80, 47, 49, 46, 49, 32, 52, 48, 49].isPrefixOf t then some 401
  else if [72, 84, 84, 80, 47, 49, 46, 49, 32, 52, 48, 52].isPrefixOf t then some 404
  else if [72, 84, 84, 80, 47, 49, 46, 49, 32, 52, 50, 51].isPrefixOf t then some 423
  else if [72, 84, 84, 80, 47, 49, 46, 49, 32, 53, 48, 48].isPrefixOf t then some 500
  else if [72, 84, 84, 80, 47, 49, 46, 49, 32, 53, 48, 50].isPrefixOf t then some 502
  else if [72, 84, 84, 80, 47, 49, 46, 49, 32, 53, 48, 52].isPrefixOf t then some 504
  else none

/-- `strstr (buf, "\r\n\r\n")`, `est_client_http.c` lines 877-878: the number of characters from the first
blank line on. -/
def findDelim : List Nat → Option Nat
  | [] => none
  | c :: cs => if [13, 10, 13, 10].isPrefixOf (c :: cs) then some (cs.length + 1) else findDelim cs

/-- `(*buf) > hdr_end`, `est_client_http.c` line 899; `hdr_end` is NULL if there is no blank line. -/
def past (e : Option Nat) (rest : List Nat) : Bool :=
  match e with
  | none => true
  | some n => decide (rest.length < n)

/-- The loop of `parse_http_headers`, `est_client_http.c` lines 889-902, for at most `n` headers: the headers
and the remaining text. -/
def parseHdrs (e : Option Nat) : Nat → List Nat → List Hdr × List Nat
  | 0, t => ([], t)
  | n + 1, t =>
    let a := skipWord [58] [32] t
    let b := skip [13, 10] a.2
    if a.1 = [] then ([], b.2)
    else if past e b.2 then ([⟨a.1, b.1⟩], b.2)
    else (⟨a.1, b.1⟩ :: (parseHdrs e n b.2).1, (parseHdrs e n b.2).2)

/-- `parse_http_headers`, `est_client_http.c` lines 860-905 (`MAX_HEADERS` is 16): the headers and the rest of
the string. -/
def clientHeaders (t : List Nat) : List Hdr × List Nat :=
  parseHdrs (findDelim t) 16 (skip [13, 10] t).2

/-- Value of a string of digits (`atoll`); too large values saturate in the C library, which
makes no difference for the comparisons below.  Called at `est_client_http.c` line
1381. -/
def numVal (t : List Nat) : Nat := t.foldl (fun a c => a * 10 + (c - 48)) 0

/-- The test of strisdigit_s, called at `est_client_http.c` line 1379. -/
def isDigit (c : Nat) : Bool := 48 ≤ c && c ≤ 57

/-- Optional sign of `strtol`.  Part of atoi, called at `est_client_http.c` line 1447. -/
def splitSign : List Nat → Bool × List Nat
  | 45 :: r => (true, r)
  | 43 :: r => (false, r)
  | t => (false, t)

/-- `atoi`: `strtol` (saturating at 64 bits) and truncation to 32 bits.  Called at
`est_client_http.c` line 1447. -/
def atoi (t : List Nat) : Int :=
  let p := splitSign (t.dropWhile isSpace)
  let n : Int := numVal (p.2.takeWhile isDigit)
  let v : Int := if p.1 then max (-n) (-(2 ^ 63)) else min n (2 ^ 63 - 1)
  (v + 2 ^ 31) % 2 ^ 32 - 2 ^ 31

/-- The loop of `est_io_parse_http_retry_after_resp`, `est_client_http.c` lines 1344-1390: result code and delay.
Date values are not supported (line 1363). -/
def retryLoop : List Hdr → EstErr × Nat → EstErr × Nat
  | [], r => r
  | h :: hs, r =>
    retryLoop hs
      (if caseEq h.name [82, 101, 116, 114, 121, 45, 65, 102, 116, 101, 114] && h.value != [] && h.value.all isDigit &&
          decide (numVal h.value ≤ 2147483647) then (.caEnrollRetry, numVal h.value) else r)

/-- `est_io_parse_http_retry_after_resp`, `est_client_http.c` lines 1327-1399. -/
def retryAfter (hs : List Hdr) : EstErr × Nat := retryLoop hs (.invalidRetryValue, 0)

/-- `AUTH_MODE` of the client context.  The modes of EST_HTTP_AUTH_MODE, `est.h` lines
293-299, that `est_client_http.c` lines 1255-1309 set. -/
inductive Mode
  | none | basic | digest | token | fail
deriving DecidableEq, Repr

/-- `est_io_parse_http_auth_request`, `est_client_http.c` lines 1255-1309: the new mode.  `tokensOk`: does
`est_io_parse_auth_tokens` accept the value? -/
def authRequest (tokensOk : List Nat → Bool) : List Hdr → Mode
  | [] => .fail
  | h :: hs =>
    if [87, 87, 87, 45, 65, 117, 116, 104, 101, 110, 116, 105, 99, 97, 116, 101].isPrefixOf h.name then
      if [66, 97, 115, 105, 99].isPrefixOf h.value then (if tokensOk h.value then .basic else .fail)
      else if [68, 105, 103, 101, 115, 116].isPrefixOf h.value then (if tokensOk h.value then .digest else .fail)
      else if [66, 101, 97, 114, 101, 114].isPrefixOf h.value then (if tokensOk h.value then .token else .fail)
      else .fail
    else authRequest tokensOk hs

/-- The loop of `est_io_check_http_hdrs`, `est_client_http.c` lines 1420-1449: `none` if a content type does not
match, else (content type seen, content length). -/
def checkLoop (ct : List Nat) : List Hdr → Bool × Option Int → Option (Bool × Option Int)
  | [], r => some r
  | h :: hs, (ctSeen, cl) =>
    if h.name = [67, 111, 110, 116, 101, 110, 116, 45, 84, 121, 112, 101] then
      if ct.isPrefixOf h.value then checkLoop ct hs (true, cl) else none
    else if h.name = [67, 111, 110, 116, 101, 110, 116, 45, 76, 101, 110, 103, 116, 104] then checkLoop ct hs (ctSeen, some (atoi h.value))
    else checkLoop ct hs (ctSeen, cl)

/-- `est_io_check_http_hdrs`, `est_client_http.c` lines 1408-1465: the content length, if all is present. -/
def checkHdrs (op : Op) (hs : List Hdr) : Option Int :=
  match checkLoop (opType op) hs (false, none) with
  | some (true, some n) => some n
  | _ => none

/-- `EST_CA_MAX`.  `est_locl.h` line 68. -/
def caMax : Nat := 2000000

/-- What the application sees: result code, new authentication mode, retry delay, body.
The output parameters of `est_client_http.c` lines 1547-1822 and the fields of the
context it sets. -/
structure Result where
  err : EstErr
  mode : Mode
  delay : Nat
  body : Option (List Nat)
deriving DecidableEq, Repr

/-- The state of the context before: authentication mode and retry delay.  The fields of
the context that `est_client_http.c` lines 1547-1822 read or set. -/
structure Ctx where
  mode : Mode
  delay : Nat
deriving DecidableEq, Repr

/-- `est_client_http.c` lines 1765-1803: length checks; `payload` is what was received behind the headers. -/
def takeBody (cl : Int) (payload : List Nat) : EstErr × Option (List Nat) :=
  if cl > caMax then (.httpUnsupported, none)
  else if cl < 0 then (.httpUnsupported, none)
  else if cl ≠ payload.length then (.httpUnsupported, none)
  else if cl = 0 then (.none, none)
  else (.none, some payload)

/-- `est_client_http.c` lines 1750-1808: status 200, not a key generation. -/
def okBody (op : Op) (hs : List Hdr) (payload : List Nat) : EstErr × Option (List Nat) :=
  if op = .voucherStatus ∨ op = .enrollStatus then (.none, none)
  else
    match checkHdrs op hs with
    | none => (.httpUnsupported, none)
    | some cl => takeBody cl payload

/-- The switch of `est_client_http.c` lines 1607-1672 for a status other than 200: result code, mode, delay. -/
def statusErr (tokensOk : List Nat → Bool) (ctx : Ctx) (hs : List Hdr) (st : Option Nat) :
    EstErr × Mode × Nat :=
  match st with
  | some 204 => (.httpNoContent, ctx.mode, ctx.delay)
  | some 404 => (.httpNotFound, ctx.mode, ctx.delay)
  | some 202 => ((retryAfter hs).1, ctx.mode, (retryAfter hs).2)
  | some 400 => (.httpBadReq, ctx.mode, ctx.delay)
  | some 401 =>
    if ctx.mode = .digest ∨ ctx.mode = .basic ∨ ctx.mode = .token then (.authFail, .fail, ctx.delay)
    else (.authFail, authRequest tokensOk hs, ctx.delay)
  | some 423 => (.httpLocked, ctx.mode, ctx.delay)
  | some 500 => (.unknown, ctx.mode, ctx.delay)
  | some 502 => (.unknown, ctx.mode, ctx.delay)
  | some 504 => (.unknown, ctx.mode, ctx.delay)
  | none => (.unknown, ctx.mode, ctx.delay)
  | some _ => (.httpUnsupported, ctx.mode, ctx.delay)

/-- `est_io_get_response_internal`, `est_client_http.c` lines 1547-1822, for the operations other than server key
generation, on the bytes `raw` that `est_io_read_raw` delivered (fewer than `EST_CA_MAX`).
The string functions see the text up to the first NUL. -/
def getResponse (tokensOk : List Nat → Bool) (ctx : Ctx) (op : Op) (raw : List Nat) : Result :=
  if raw = [] then ⟨.httpNotFound, ctx.mode, ctx.delay, none⟩
  else
    let s := raw.takeWhile (· != 0)
    let p := clientHeaders s
    let st := statusCode s
    if st = some 200 then
      let r := okBody op p.1 (p.2 ++ raw.drop s.length)
      ⟨r.1, ctx.mode, ctx.delay, r.2⟩
    else
      let r := statusErr tokensOk ctx p.1 st
      ⟨r.1, r.2.1, r.2.2, none⟩

/-- `est_client_copy_retry_after`, `est_client.c` lines 4875-4894: what is handed out, and the context
afterwards. -/
def copyRetryAfter (ctx : Ctx) : Nat × Ctx := (ctx.delay, { ctx with delay := 0 })

/-! ## What the server writes -/

/-- `%d` of a number that is not negative.  Used by the formats of `est_server_http.c`
lines 371-399 and `est_server.c` lines 160-181. -/
def decimal (n : Nat) : List Nat :=
  if n < 10 then [48 + n] else decimal (n / 10) ++ [48 + n % 10]
termination_by n

/-- The reason phrases, `est_locl.h` lines 141-149. -/
def reason (st : Nat) : List Nat :=
  if st = 202 then [65, 99, 99, 101, 112, 116, 101, 100]
  else if st = 204 then [78, 111, 32, 67, 111, 110, 116, 101, 110, 116]
  else if st = 400 then [66, 97, 100, 32, 82, 101, 113, 117, 101, 115, 116]
  else if st = 401 then [85, 110, 97, 117, 116, 104, 111, 114, 105, 122, 101, 100]
  else if st = 404 then [78, 111, 116, 32, 70, 111, 117, 110, 100]
  else if st = 423 then [76, 111, 99, 107, 101, 100]
  else if st = 500 then [73, 110, 116, 101, 114, 110, 97, 108, 32, 83, 101, 114, 118, 101, 114, 32, 69, 114, 114, 111, 114]
  else if st = 502 then [66, 97, 100, 32, 71, 97, 116, 101, 119, 97, 121]
  else [71, 97, 116, 101, 119, 97, 121, 32, 84, 105, 109, 101, 45, 111, 117, 116]

/-- The body of `mg_send_http_error`, `est_server_http.c` lines 384-391; `text` is the
explanation, shorter than the buffer. -/
def errorBody (st : Nat) (text : List Nat) : List Nat :=
  if st = 204 then []
  else [69, 114, 114, 111, 114, 32] ++ decimal st ++ [58, 32] ++ reason st ++ [10] ++ text

/-- `mg_send_http_error`, `est_server_http.c` lines 371-399; `keep` is the answer of
`suggest_connection_header`. -/
def errorText (st : Nat) (text : List Nat) (keep : Bool) : List Nat :=
  [72, 84, 84, 80, 47, 49, 46, 49, 32] ++ decimal st ++ [32] ++ reason st ++ [13, 10] ++
  [67, 111, 110, 116, 101, 110, 116, 45, 76, 101, 110, 103, 116, 104, 58, 32] ++ decimal (errorBody st text).length ++ [13, 10] ++
  [67, 111, 110, 110, 101, 99, 116, 105, 111, 110, 58, 32] ++ (if keep then [107, 101, 101, 112, 45, 97, 108, 105, 118, 101] else [99, 108, 111, 115, 101]) ++ [13, 10, 13, 10] ++
  errorBody st text

/-- `est_server_send_http_retry_after`, `est_server.c` lines 160-181. -/
def retryText (delay : Nat) : List Nat :=
  [72, 84, 84, 80, 47, 49, 46, 49, 32, 50, 48, 50, 32, 65, 99, 99, 101, 112, 116, 101, 100] ++ [13, 10] ++ [83, 116, 97, 116, 117, 115, 58, 32, 50, 48, 50, 32, 65, 99, 99, 101, 112, 116, 101, 100] ++ [13, 10] ++
  [82, 101, 116, 114, 121, 45, 65, 102, 116, 101, 114, 58, 32] ++ decimal delay ++ [13, 10, 13, 10]

end Verif.ClientResp
