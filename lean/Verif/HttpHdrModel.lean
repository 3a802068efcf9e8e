/-!
# Model of the server's HTTP header parser and keep-alive decision

Source: `/repo/src/est/est.c` lines 2213-2310 (`est_strcspn`, `est_strspn`,
`skip_quoted`, `skip`), `/repo/src/est/est_server_http.c` lines 244-271
(`mg_strcasecmp`), 320-362 (`get_header`, `should_keep_alive`), 1117-1177
(`parse_http_headers` to `parse_http_request`).

Text is a list of byte values without NUL.  The C functions cut the buffer into
words in place; the model returns the word and the rest.
-/
namespace Verif.HttpHdr

/-- `est_strcspn`: the text before the first delimiter (`est.c` lines 2213-2230). -/
def wordOf (delims t : List Nat) : List Nat := t.takeWhile (fun c => !delims.contains c)

/-- `skip_quoted (buf, delims, ws, 0)`, `est.c` lines 2258-2302, for the quote character 0
(no quoting).  Result: the word and the advanced buffer. -/
def skipWord (delims ws t : List Nat) : List Nat × List Nat :=
  let w := wordOf delims t
  match t.drop w.length with
  | [] => (w, [])
  | _ :: rest => (w, rest.dropWhile (fun c => ws.contains c))

/-- `skip (buf, delims)`, `est.c` lines 2306-2309. -/
def skip (delims t : List Nat) : List Nat × List Nat := skipWord delims delims t

/-- A header as found in the request.  struct mg_header, `est_server_http.h` lines
247-250, filled at `est_server_http.c` lines 1121-1127. -/
structure Hdr where
  name : List Nat
  value : List Nat
deriving DecidableEq, Repr

/-- `parse_http_headers`, `est_server_http.c` lines 1117-1129, with room for `n` headers (64 in
`struct mg_request_info`). -/
def parseHeaders : Nat → List Nat → List Hdr
  | 0, _ => []
  | n + 1, t =>
    let a := skipWord [58] [32] t
    let b := skip [13, 10] a.2
    if a.1 = [] then [] else ⟨a.1, b.1⟩ :: parseHeaders n b.2

/-- `ARRAY_SIZE(ri->http_headers)`, `est_server_http.h`.  The array is declared in
`est_server_http.h` line 250. -/
def maxHeaders : Nat := 64

/-- C `isspace` in the C locale.  Called at `est_server_http.c` line 1152. -/
def isSpace (c : Nat) : Bool := c == 32 || (9 ≤ c && c ≤ 13)

/-- The fields of struct mg_request_info (`est_server_http.h` lines 238-250) that
parse_http_message fills, `est_server_http.c` lines 1155-1158. -/
structure Req where
  method : List Nat
  uri : List Nat
  version : List Nat
  hdrs : List Hdr
deriving DecidableEq, Repr

/-- `parse_http_message`, `est_server_http.c` lines 1140-1163, for a complete header text; the last
character of it is overwritten with NUL (line 1149). -/
def parseMessage (header : List Nat) : Req :=
  let t := (header.take (header.length - 1)).dropWhile isSpace
  let m := skip [32] t
  let u := skip [32] m.2
  let v := skip [13, 10] u.2
  ⟨m.1, u.1, v.1, parseHeaders maxHeaders v.2⟩

/-- `is_valid_http_method`, `est_server_http.c` lines 1131-1135: "GET" or "POST", compared as
prefixes. -/
def validMethod (m : List Nat) : Bool := [71, 69, 84].isPrefixOf m || [80, 79, 83, 84].isPrefixOf m

/-- `parse_http_request`, `est_server_http.c` lines 1165-1177: `none` if the request is not accepted,
else the request with "HTTP/" removed from the version. -/
def parseRequest (header : List Nat) : Option Req :=
  let r := parseMessage header
  if validMethod r.method && [72, 84, 84, 80, 47].isPrefixOf r.version then
    some { r with version := r.version.drop 5 }
  else none

/-- C `tolower` in the C locale.  Called by lowercase, `est_server_http.c` lines
244-247. -/
def toLower (c : Nat) : Nat := if 65 ≤ c ∧ c ≤ 90 then c + 32 else c

/-- `mg_strcasecmp (a, b) == 0`, `est_server_http.c` lines 262-271. -/
def caseEq : List Nat → List Nat → Bool
  | [], [] => true
  | a :: as, b :: bs => if toLower a = toLower b then caseEq as bs else false
  | _, _ => false

/-- `get_header`, `est_server_http.c` lines 320-332. -/
def getHeader (hs : List Hdr) (name : List Nat) : Option (List Nat) :=
  match hs with
  | [] => none
  | h :: hs => if caseEq name h.name then some h.value else getHeader hs name

/-- The state `should_keep_alive` looks at.  The fields read at `est_server_http.c`
lines 342-362. -/
structure KA where
  mustClose : Bool
  status : Int
  enabled : Bool
  version : Option (List Nat)
  hdrs : List Hdr

/-- `should_keep_alive`, `est_server_http.c` lines 342-362. -/
def shouldKeepAlive (k : KA) : Bool :=
  let header := getHeader k.hdrs [67, 111, 110, 110, 101, 99, 116, 105, 111, 110]
  !(k.mustClose || k.status == 202 || decide (k.status ≥ 400) || !k.enabled ||
     (match header with
      | some h => !caseEq h [107, 101, 101, 112, 45, 97, 108, 105, 118, 101]
      | none => match k.version with
        | some v => !([49, 46, 49].isPrefixOf v)
        | none => false))

end Verif.HttpHdr
