import Verif.ClientRespModel

/-!
# Model of the client's handling of a server key generation response

Source: `/repo/src/est/multipart_parser.c` (whole file),
`/repo/src/est/est_client_http.c` lines 908-1195 and 1547-1750 (key generation part of
`est_io_get_response_internal`), and the text written by the server:
`/repo/src/est/est_server.c` lines 2088-2199.

Characters are numbers below 256.  Memory behind the received text is zero
(`memzero_s`, line 1568); the received text is taken to end at least three bytes before
the end of that buffer.
-/
namespace Verif.Multipart
open Verif.HttpHdr (Hdr skip skipWord)
open Verif.ClientResp (Ctx Mode findDelim past statusCode statusErr)

/-! ## The multipart parser -/

/-- What the callbacks store in `struct multipart_parser`, `multipart_parser.c` lines 62-84: the headers of the
current part (newest first), the name of the header being read, key and certificate. -/
structure Store where
  hdrs : List (List Nat × List Nat) := []
  name : List Nat := []
  key : List Nat := []
  cert : List Nat := []
deriving DecidableEq, Repr

/-- `strncmp (value, lit, strlen (lit))` on a value that has no terminating NUL
(`read_header_value`, `est_client_http.c` lines 927-934): `none` if the comparison runs into
the byte behind the value, which was never written. -/
def cmpUnterminated (lit value : List Nat) : Option Bool :=
  if value.length < lit.length ∧ value.isPrefixOf lit then none else some (lit.isPrefixOf value)

/-- `multipart_parser.c` line 157. -/
def ctName : List Nat := [67, 111, 110, 116, 101, 110, 116, 45, 84, 121, 112, 101]
/-- `multipart_parser.c` line 164. -/
def cteName : List Nat := [67, 111, 110, 116, 101, 110, 116, 45, 84, 114, 97, 110, 115, 102, 101, 114, 45, 69, 110, 99, 111, 100, 105, 110, 103]
/-- `multipart_parser.c` line 158 and `est_client_http.c` line 970. -/
def ctKey : List Nat := [97, 112, 112, 108, 105, 99, 97, 116, 105, 111, 110, 47, 112, 107, 99, 115, 56]
/-- `multipart_parser.c` line 159 and `est_client_http.c` line 976. -/
def ctCert : List Nat := [97, 112, 112, 108, 105, 99, 97, 116, 105, 111, 110, 47, 112, 107, 99, 115, 55, 45, 109, 105, 109, 101, 59, 32, 115, 109, 105, 109, 101, 45, 116, 121, 112, 101, 61, 99, 101, 114, 116, 115, 45, 111, 110, 108, 121]
/-- `multipart_parser.c` line 165 and `est_client_http.c` line 953. -/
def cteB64 : List Nat := [98, 97, 115, 101, 54, 52]

/-- `read_header_name`, `est_client_http.c` lines 919-925: `none` if the header array (16
entries) is left. -/
def onName (s : Store) (n : List Nat) : Option Store :=
  if s.hdrs.length < 16 then some { s with name := n } else none

/-- `multipart_parser_set_hdr_value`, `multipart_parser.c` lines 155-182. -/
def onValue (s : Store) (v : List Nat) : Option Store :=
  if ctName.isPrefixOf s.name then
    match cmpUnterminated ctKey v with
    | none => none
    | some true => some { s with hdrs := (s.name, v) :: s.hdrs }
    | some false =>
      match cmpUnterminated ctCert v with
      | none => none
      | some true => some { s with hdrs := (s.name, v) :: s.hdrs }
      | some false => some s
  else if cteName.isPrefixOf s.name then
    match cmpUnterminated cteB64 v with
    | none => none
    | some true => some { s with hdrs := (s.name, v) :: s.hdrs }
    | some false => some s
  else some s

/-- `multipart_get_data_ct` / `_cte`, `multipart_parser.c` lines 188-208: the newest header with that name. -/
def lookup (n : List Nat) (hs : List (List Nat × List Nat)) : Option (List Nat) :=
  (hs.find? (fun h => n.isPrefixOf h.1)).map (·.2)

/-- Blanks and line ends only, `est_client_http.c` lines 957-962. -/
def blank (d : List Nat) : Bool := d.all (fun c => c == 32 || c == 13 || c == 10)

/-- `part_data_cb`, `est_client_http.c` lines 941-991; the `Bool` tells whether the parser is
to stop.  The stored header values passed the comparisons of `onValue`, so the ones made
here stay inside them. -/
def onData (s : Store) (d : List Nat) : Store × Bool :=
  match lookup ctName s.hdrs, lookup cteName s.hdrs with
  | some ct, some _ =>
    if 8192 < d.length then (s, true)
    else if ctKey.isPrefixOf ct then
      if blank d then (s, true)
      else if s.cert ≠ [] then ({ s with key := d }, true)
      else ({ s with key := d, hdrs := [] }, false)
    else
      if blank d then (s, true)
      else if s.key ≠ [] then ({ s with cert := d }, true)
      else ({ s with cert := d, hdrs := [] }, false)
  | _, _ => (s, false)

/-- `enum state`, `multipart_parser.c` lines 86-104 (`s_start` is `startBoundary` with index 0). -/
inductive St
  | startBoundary | headerFieldStart | headerField | headersAlmostDone | headerValueStart
  | headerValue | headerValueAlmostDone | partDataStart | partData | partDataAlmostBoundary
  | partDataBoundary | partDataAlmostEnd | partDataEnd | partDataFinalHyphen | fin
deriving DecidableEq, Repr

/-- The parser and the local variables of `multipart_parser_execute`; `acc` is the text
from `mark` to the current position, `skip` the number of characters still to be stepped
over by an `i += 2`.  `multipart_parser.c` lines 62-84 and 239-250. -/
structure M where
  st : St := .startBoundary
  idx : Nat := 0
  acc : List Nat := []
  skip : Nat := 0
  seenHeaders : Bool := false
  seenDelim : Bool := false
  payloads : Nat := 0
  look : List Nat := []
  store : Store := {}
deriving DecidableEq, Repr

/-- Result of one turn of the loop.  The outcomes of `multipart_parser.c` lines 250-463. -/
inductive Step
  | ub
  | stop (s : Store)
  | go (m : M)
deriving DecidableEq, Repr

/-- `s_header_field`, `multipart_parser.c` lines 295-320; `m.acc` holds the characters since `mark`. -/
def stepField (m : M) (last : Bool) (c : Nat) : Step :=
  if c = 13 then .go { m with st := .headersAlmostDone }
  else if c = 58 then
    match onName m.store m.acc with
    | none => .ub
    | some s =>
      .go { m with st := .headerValueStart, seenHeaders := true, seenDelim := true, store := s }
  else if 63 < m.acc.length ∧ !m.seenDelim then .stop m.store
  else if c ≠ 45 ∧ ¬ (97 ≤ c ∧ c ≤ 122) ∧ ¬ (65 ≤ c ∧ c ≤ 90) then .stop m.store
  else if last then
    match onName m.store (m.acc ++ [c]) with
    | none => .ub
    | some s => .go { m with st := .headerField, acc := m.acc ++ [c], store := s }
  else .go { m with st := .headerField, acc := m.acc ++ [c] }

/-- `s_header_value`, `multipart_parser.c` lines 344-355. -/
def stepValue (m : M) (last : Bool) (c : Nat) : Step :=
  if c = 13 then
    match onValue m.store m.acc with
    | none => .ub
    | some s => .go { m with st := .headerValueAlmostDone, seenDelim := false, store := s }
  else if last then
    match onValue m.store (m.acc ++ [c]) with
    | none => .ub
    | some s =>
      .go { m with st := .headerValue, acc := m.acc ++ [c], seenDelim := false, store := s }
  else .go { m with st := .headerValue, acc := m.acc ++ [c], seenDelim := false }

/-- `s_part_data`, `multipart_parser.c` lines 377-392; `c1`, `c2` are the next two characters. -/
def stepData (m : M) (last : Bool) (c c1 c2 : Nat) : Step :=
  if c = 13 ∧ (c1 = 45 ∨ c2 = 45) then
    let r := onData m.store m.acc
    if r.2 then .stop r.1
    else .go { m with st := .partDataAlmostBoundary, payloads := m.payloads + 1, acc := [13], look := [13], store := r.1 }
  else if last then
    let r := onData m.store (m.acc ++ [c])
    if r.2 then .stop r.1
    else .go { m with st := .partData, acc := m.acc ++ [c], store := r.1 }
  else .go { m with st := .partData, acc := m.acc ++ [c] }

/-- `s_part_data_boundary`, `multipart_parser.c` lines 412-425.  The array `lookbehind` has 70 entries. -/
def stepBoundary (b : List Nat) (m : M) (last : Bool) (c : Nat) : Step :=
  if b[m.idx]?.getD 0 ≠ c then
    let r := onData m.store m.look
    if r.2 then .stop r.1
    else stepField { m with acc := [], store := r.1 } last c
  else if 70 ≤ 2 + m.idx then .ub
  else
    .go { m with
      st := if m.idx + 1 = b.length then .partDataAlmostEnd else .partDataBoundary
      idx := m.idx + 1
      look := m.look ++ [c] }

/-- One turn of the loop of `multipart_parser_execute`, `multipart_parser.c` lines 250-463; `t` is the text from
the current position on, `last` is `is_last`.  The turns that look at the same character again
(`mark = i --`, lines 408 and 417) are done together with the turn following them. -/
def step (b : List Nat) (m : M) (last : Bool) (t : List Nat) : Step :=
  let c := t.headD 0
  if 0 < m.skip then .go { m with skip := m.skip - 1 }
  else
    match m.st with
    | .startBoundary =>
      if m.idx = b.length then
        if c = 13 then .go { m with idx := m.idx + 1 }
        else if c = 45 then .go { m with st := .partDataFinalHyphen, idx := m.idx + 1 }
        else .stop m.store
      else if m.idx = b.length + 1 then
        if c = 10 then .go { m with st := .headerFieldStart, idx := 0, seenHeaders := false }
        else .stop m.store
      else .go { m with idx := m.idx + 1 }
    | .headerFieldStart => stepField { m with acc := [] } last c
    | .headerField => stepField m last c
    | .headersAlmostDone =>
      if c = 10 then
        .go { m with st := if m.seenHeaders then .partDataStart else .headerFieldStart }
      else .stop m.store
    | .headerValueStart =>
      if c = 32 then .go m else stepValue { m with acc := [] } last c
    | .headerValue => stepValue m last c
    | .headerValueAlmostDone =>
      if c = 10 then
        if (t[1]?).getD 0 = 45 then .go { m with st := .startBoundary, skip := 2 }
        else .go { m with st := .headerFieldStart }
      else .stop m.store
    | .partDataStart =>
      stepData { m with acc := [] } last c ((t[1]?).getD 0) ((t[2]?).getD 0)
    | .partData => stepData m last c ((t[1]?).getD 0) ((t[2]?).getD 0)
    | .partDataAlmostBoundary =>
      if c = 10 then
        .go { m with
          st := if m.payloads = 2 then .partDataBoundary else .startBoundary
          look := m.look ++ [10]
          idx := 0
          skip := 2 }
      else
        let r := onData m.store [13]
        if r.2 then .stop r.1
        else
          stepData { m with acc := [], store := r.1 } last c ((t[1]?).getD 0) ((t[2]?).getD 0)
    | .partDataBoundary => stepBoundary b m last c
    | .partDataAlmostEnd =>
      if c = 45 then .go { m with st := .partDataFinalHyphen }
      else if c = 13 then .go { m with st := .partDataEnd }
      else .stop m.store
    | .partDataFinalHyphen => if c = 45 then .go { m with st := .fin } else .stop m.store
    | .partDataEnd => if c = 10 then .go { m with st := .headerFieldStart } else .stop m.store
    | .fin => .go m

/-- Result of `multipart_parser_execute`: has it parsed all of the text?.  The outcomes
of `multipart_parser.c` lines 239-469. -/
inductive Exec
  | ub
  | done (all : Bool) (s : Store)
deriving DecidableEq, Repr

/-- The loop of `multipart_parser_execute`, `multipart_parser.c` line 250; `n` is `len - i`. -/
def run (b : List Nat) : Nat → M → List Nat → Exec
  | 0, m, _ => .done true m.store
  | n + 1, m, t =>
    match step b m (n == 0) t with
    | .ub => .ub
    | .stop s => .done false s
    | .go m' => run b n m' t.tail

/-- `multipart_parser_execute`, `multipart_parser.c` lines 239-469: the leading hyphens are stepped over but `len`
stays. -/
def execute (b : List Nat) (len : Nat) (mem : List Nat) : Exec :=
  run b len {} (mem.dropWhile (· == 45))

/-- What comes out of the payload: key and certificate, or an error.  The outcomes of
`est_client_http.c` lines 993-1026. -/
inductive Parts
  | ub
  | err (e : EstErr)
  | ok (key cert : List Nat)
deriving DecidableEq, Repr

/-- `parse_remaining_multipart_payload`, `est_client_http.c` lines 993-1026, the copy of the
boundary (70 bytes with its NUL, `multipart_parser.c` line 113), and the length checks of
lines 1740-1750; `mem` is the memory from the hyphens of the first boundary on. -/
def parseParts (b mem : List Nat) : Parts :=
  if 70 ≤ b.length then .ub
  else
    match execute b (mem.takeWhile (· != 0)).length mem with
    | .ub => .ub
    | .done all s =>
      if s.key = [] ∨ s.cert = [] then .err (if all then .zeroLengthBuf else .multipartParse)
      else if s.key.length < 256 ∨ s.cert.length < 128 then .err .zeroLengthBuf
      else .ok s.key s.cert

/-! ## The HTTP headers -/

/-- `strstr`: number of characters before the first occurrence.  Called at
`est_client_http.c` line 1700. -/
def strstr (p : List Nat) : List Nat → Option Nat
  | [] => if p = [] then some 0 else none
  | c :: cs => if p.isPrefixOf (c :: cs) then some 0 else (strstr p cs).map (· + 1)

/-- Trailing blanks removed, `est_client_http.c` lines 1060-1063.  For blanks only, the loop
stops at the '=' in front of the text. -/
def stripBlanks (t : List Nat) : List Nat := (t.reverse.dropWhile (· == 32)).reverse

/-- `sanitize_boundary`, `est_client_http.c` lines 1046-1083, on the first 72 characters of the text; the result
is empty if `bound_len` comes out below one.  The last test, for a trailing ';', never
applies since the text was cut at the first one. -/
def sanitize (t : List Nat) : List Nat :=
  let s2 := stripBlanks (t.takeWhile (· != 59))
  if s2.head? = some 34 ∧ s2.getLast? = some 34 then (s2.drop 1).dropLast else s2

/-- `validate_boundary_string`, `est_client_http.c` lines 1028-1044. -/
def validChar (c : Nat) : Bool :=
  (43 ≤ c && c ≤ 58) || (65 ≤ c && c ≤ 90) || (97 ≤ c && c ≤ 122) || (39 ≤ c && c ≤ 41) ||
  c == 95 || c == 61 || c == 63 || c == 32

/-- `est_client_http.c` lines 1124-1180: what a header value says about the boundary; `.error` means that the whole
response is refused. -/
def boundaryOf (v : List Nat) : Except Unit (Option (List Nat)) :=
  match strstr [109, 117, 108, 116, 105, 112, 97, 114, 116] v with
  | none => .ok none
  | some _ =>
    match strstr [109, 117, 108, 116, 105, 112, 97, 114, 116, 47, 109, 105, 120, 101, 100] v with
    | none => .error ()
    | some _ =>
      match strstr [98, 111, 117, 110, 100, 97, 114, 121, 61] v with
      | none => .error ()
      | some k =>
        let b := sanitize ((v.drop (k + 9)).take 72)
        if 70 < b.length ∨ b = [] ∨ !b.all validChar then .error () else .ok (some b)

/-- The loop of `parse_and_split_keygen_rsp`, `est_client_http.c` lines 1122-1191, for at most `n` headers; the
list ends with the header of empty name, if one was met. -/
def kgHdrs (e : Option Nat) : Nat → List Nat → List Hdr × List Nat
  | 0, t => ([], t)
  | n + 1, t =>
    let a := skipWord [58] [32] (t.dropWhile (· == 10))
    let b := skip [13, 10] a.2
    if a.1 = [] ∨ past e b.2 then ([⟨a.1, b.1⟩], b.2)
    else (⟨a.1, b.1⟩ :: (kgHdrs e n b.2).1, (kgHdrs e n b.2).2)

/-- The last boundary seen (`*boundary` is overwritten), or a refusal.
`est_client_http.c` lines 1122-1191. -/
def boundaries : List Hdr → Option (List Nat) → Except Unit (Option (List Nat))
  | [], r => .ok r
  | h :: hs, r =>
    match boundaryOf h.value with
    | .error _ => .error ()
    | .ok none => boundaries hs r
    | .ok (some b) => boundaries hs (some b)

/-- The two bytes in front of the payload: the end of the line ends that `skip` stepped over,
the first of which it has replaced by NUL.  If there is only one line end character, the byte
in front of it makes no difference, since the string then ends before the payload.
skip is called at `est_client_http.c` lines 1122-1191, the bytes are looked at because
of line 1706. -/
def before (consumed : List Nat) : List Nat :=
  match consumed.reverse.takeWhile (fun c => c == 13 || c == 10) with
  | c1 :: c2 :: _ :: _ => [c2, c1]
  | [c1, _] => [0, c1]
  | _ => [0, 0]

/-- What `est_io_get_multipart_response` returns: result code, authentication mode, retry
delay, key and certificate (empty if there is none).  The outcomes of
`est_client_http.c` lines 1547-1822. -/
inductive KgRes
  | ub
  | res (err : EstErr) (mode : Mode) (delay : Nat) (key cert : List Nat)
deriving DecidableEq, Repr

/-- `est_client_http.c` lines 1690-1722: `rest` is the payload as a string, `after` the memory behind it.  If the
boundary does not occur, the pointer is NULL - 2. -/
def split (b consumed rest after : List Nat) : Parts :=
  match strstr b rest with
  | none => .ub
  | some k => parseParts b ((before consumed ++ rest ++ after).drop k)

/-- `est_io_get_response_internal`, `est_client_http.c` lines 1547-1822, for the operation
`EST_OP_SERVER_KEYGEN`.  The in-place edits of the value of a multipart header do not show in
the header list. -/
def getKeygen (tokensOk : List Nat → Bool) (ctx : Ctx) (raw : List Nat) : KgRes :=
  if raw = [] then .res .httpNotFound ctx.mode ctx.delay [] []
  else
    let s := raw.takeWhile (· != 0)
    let p := kgHdrs (findDelim s) 16 (skip [13, 10] s).2
    match boundaries p.1 none with
    | .error _ => .res .multipartParse ctx.mode ctx.delay [] []
    | .ok b =>
      if statusCode s = some 200 then
        match b with
        | none => .res .none ctx.mode ctx.delay [] []
        | some b =>
          match split b (s.take (s.length - p.2.length)) p.2 (raw.drop s.length) with
          | .ub => .ub
          | .err e => .res e ctx.mode ctx.delay [] []
          | .ok key cert => .res .none ctx.mode ctx.delay key cert
      else
        let r := statusErr tokensOk ctx (p.1.filter (fun h => h.name != [])) (statusCode s)
        .res r.1 r.2.1 r.2.2 [] []

/-! ## What the server writes -/

/-- `EST_HTTP_BOUNDARY`, `est_locl.h` line 194. -/
def serverBoundary : List Nat := [101, 115, 116, 45, 115, 101, 114, 118, 101, 114, 45, 98, 111, 117, 110, 100, 97, 114, 121]

/-- The header of a part, `est_server.c` lines 2095-2102 and 2108-2115. -/
def partHdr (b ct : List Nat) : List Nat :=
  [45, 45] ++ b ++ [13, 10] ++ [67, 111, 110, 116, 101, 110, 116, 45, 84, 121, 112, 101, 58, 32] ++ ct ++ [13, 10] ++
  [67, 111, 110, 116, 101, 110, 116, 45, 84, 114, 97, 110, 115, 102, 101, 114, 45, 69, 110, 99, 111, 100, 105, 110, 103, 58, 32, 98, 97, 115, 101, 54, 52] ++ [13, 10, 13, 10]

/-- The body: key part, certificate part, final boundary, `est_server.c` lines 2157-2197. -/
def bodyText (b key cert : List Nat) : List Nat :=
  partHdr b ctKey ++ key ++ [13, 10] ++ partHdr b ctCert ++ cert ++
  [13, 10] ++ [45, 45] ++ b ++ [45, 45] ++ [13, 10, 13, 10]

/-- The HTTP header, `est_server.c` lines 2128-2142. -/
def headText (b : List Nat) (len : Nat) : List Nat :=
  [72, 84, 84, 80, 47, 49, 46, 49, 32, 50, 48, 48, 32, 79, 75] ++ [13, 10] ++ [83, 116, 97, 116, 117, 115, 58, 32, 50, 48, 48, 32, 79, 75] ++ [13, 10] ++
  [67, 111, 110, 116, 101, 110, 116, 45, 84, 121, 112, 101, 58, 32, 109, 117, 108, 116, 105, 112, 97, 114, 116, 47, 109, 105, 120, 101, 100, 59, 32, 98, 111, 117, 110, 100, 97, 114, 121, 61] ++ b ++ [13, 10] ++
  [67, 111, 110, 116, 101, 110, 116, 45, 76, 101, 110, 103, 116, 104, 58, 32] ++ ClientResp.decimal len ++ [13, 10, 13, 10]

/-- The whole response of `est_handle_server_keygen` for a key text and a certificate
text.  `est_server.c` lines 2088-2199. -/
def serverText (key cert : List Nat) : List Nat :=
  headText serverBoundary (bodyText serverBoundary key cert).length ++
  bodyText serverBoundary key cert

end Verif.Multipart
