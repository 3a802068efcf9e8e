/-!
# Model of request path parsing

Source: `/repo/src/est/est.c` lines 1865-1892 (`est_parse_operation`), 1899-2063
(`est_parse_uri` with uriparser), 2066-2100 (`est_parse_uri` without),
2196-2211 (`est_strcasecmp_s`), `/repo/safe_c_stub/src/safe_str_stub.c` lines
62-101 (`strcasecmp_s`), `/repo/src/est/est_locl.h` lines 227-251 (names).

Strings are lists of byte values without the terminating NUL.
-/
namespace Verif.EstUri

/-- `EST_OPERATION`, `est_locl.h` lines 282-294 (without the dummy entry and the
end marker). -/
inductive Op
  | simpleEnroll | simpleReenroll | cacerts | csrattrs | serverKeygen
  | reqVoucher | voucherStatus | enrollStatus
deriving DecidableEq, Repr

/-- The errors of interest (`est.h` lines 83-177). -/
inductive Err
  | invalidPathSegment | badReq
deriving DecidableEq, Repr

/-- Result of `est_parse_uri`; `ub` is undefined behaviour.  The outcomes of `est.c`
lines 1899-2100. -/
inductive Res
  | ub
  | err (e : Err)
  | ok (op : Op) (seg : Option (List Nat))
deriving DecidableEq, Repr

/-- `strncmp (a, b, n) == 0`.  Called at `est.c` lines 2074-2089. -/
def strncmpEq : Nat → List Nat → List Nat → Bool
  | 0, _, _ => true
  | _ + 1, [], [] => true
  | n + 1, a :: as, b :: bs => a == b && strncmpEq n as bs
  | _, _, _ => false

/-- `EST_URI_MAX_LEN`: 16 + 2 * 128, `est_locl.h`.  `est_locl.h` lines 64-66. -/
def uriMaxLen : Nat := 272

/-- "/.well-known/est/cacerts" (`EST_CACERTS_URI`, `est_locl.h` line 240). -/
def cacertsUri : List Nat := [47, 46, 119, 101, 108, 108, 45, 107, 110, 111, 119, 110, 47, 101, 115, 116, 47, 99, 97, 99, 101, 114, 116, 115]
/-- "/.well-known/est/simpleenroll" (`EST_SIMPLE_ENROLL_URI`).  `est_locl.h` line 237. -/
def simpleEnrollUri : List Nat := [47, 46, 119, 101, 108, 108, 45, 107, 110, 111, 119, 110, 47, 101, 115, 116, 47, 115, 105, 109, 112, 108, 101, 101, 110, 114, 111, 108, 108]
/-- "/.well-known/est/simplereenroll" (`EST_RE_ENROLL_URI`).  `est_locl.h` line 238. -/
def reEnrollUri : List Nat := [47, 46, 119, 101, 108, 108, 45, 107, 110, 111, 119, 110, 47, 101, 115, 116, 47, 115, 105, 109, 112, 108, 101, 114, 101, 101, 110, 114, 111, 108, 108]
/-- "/.well-known/est/csrattrs" (`EST_CSR_ATTRS_URI`).  `est_locl.h` line 239. -/
def csrAttrsUri : List Nat := [47, 46, 119, 101, 108, 108, 45, 107, 110, 111, 119, 110, 47, 101, 115, 116, 47, 99, 115, 114, 97, 116, 116, 114, 115]
/-- "/.well-known/est/serverkeygen" (`EST_KEYGEN_URI`).  `est_locl.h` line 241. -/
def keygenUri : List Nat := [47, 46, 119, 101, 108, 108, 45, 107, 110, 111, 119, 110, 47, 101, 115, 116, 47, 115, 101, 114, 118, 101, 114, 107, 101, 121, 103, 101, 110]
/-- "/.well-known/est/requestvoucher" (`EST_BRSKI_GET_VOUCHER_URI`).  `est_locl.h` line
249. -/
def voucherUri : List Nat := [47, 46, 119, 101, 108, 108, 45, 107, 110, 111, 119, 110, 47, 101, 115, 116, 47, 114, 101, 113, 117, 101, 115, 116, 118, 111, 117, 99, 104, 101, 114]
/-- "/.well-known/est/voucher_status" (`EST_BRSKI_VOUCHER_STATUS_URI`).  `est_locl.h`
line 250. -/
def voucherStatusUri : List Nat := [47, 46, 119, 101, 108, 108, 45, 107, 110, 111, 119, 110, 47, 101, 115, 116, 47, 118, 111, 117, 99, 104, 101, 114, 95, 115, 116, 97, 116, 117, 115]
/-- "/.well-known/est/enrollstatus" (`EST_BRSKI_ENROLL_STATUS_URI`).  `est_locl.h` line
251. -/
def enrollStatusUri : List Nat := [47, 46, 119, 101, 108, 108, 45, 107, 110, 111, 119, 110, 47, 101, 115, 116, 47, 101, 110, 114, 111, 108, 108, 115, 116, 97, 116, 117, 115]

/-- `est_parse_uri` in a build without uriparser, `est.c` lines 2066-2100.  `brski` is
`ENABLE_BRSKI`. -/
def parseUriPlain (brski : Bool) (uri : List Nat) : Res :=
  if strncmpEq uriMaxLen uri cacertsUri then .ok .cacerts none
  else if strncmpEq uriMaxLen uri simpleEnrollUri then .ok .simpleEnroll none
  else if strncmpEq uriMaxLen uri reEnrollUri then .ok .simpleReenroll none
  else if strncmpEq uriMaxLen uri csrAttrsUri then .ok .csrattrs none
  else if strncmpEq uriMaxLen uri keygenUri then .ok .serverKeygen none
  else if brski && strncmpEq uriMaxLen uri voucherUri then .ok .reqVoucher none
  else if brski && strncmpEq uriMaxLen uri voucherStatusUri then .ok .voucherStatus none
  else if brski && strncmpEq uriMaxLen uri enrollStatusUri then .ok .enrollStatus none
  else .err .invalidPathSegment

/-- C `toupper` in the C locale.  Called in strcasecmp_s, `safe_str_stub.c` lines 88-99. -/
def toUpper (c : Nat) : Nat := if 97 ≤ c ∧ c ≤ 122 then c - 32 else c

/-- The comparison loop of `strcasecmp_s`, `safe_str_stub.c` lines 88-99: is the indicator 0? -/
def caseLoop : List Nat → List Nat → Bool
  | [], [] => true
  | a :: as, b :: bs => if toUpper a = toUpper b then caseLoop as bs else false
  | _, _ => false

/-- `!est_strcasecmp_s (s1, s2)`, `est.c` lines 2196-2211: the length bound passed on is
the length of `s1`; for an empty `s1` `strcasecmp_s` answers `ESZEROL` after
setting the indicator to 0 (stub lines 70, 80-82), and the error is only
logged. -/
def strcaseEq (s1 s2 : List Nat) : Bool :=
  if s1 = [] then true else caseLoop s1 s2

/-- `est_parse_operation`, `est.c` lines 1865-1892; `none` is `EST_OP_MAX`. -/
def parseOperation (brski : Bool) (s : List Nat) : Option Op :=
  if strcaseEq s [99, 97, 99, 101, 114, 116, 115] then some .cacerts
  else if strcaseEq s [99, 115, 114, 97, 116, 116, 114, 115] then some .csrattrs
  else if strcaseEq s [115, 105, 109, 112, 108, 101, 101, 110, 114, 111, 108, 108] then some .simpleEnroll
  else if strcaseEq s [115, 105, 109, 112, 108, 101, 114, 101, 101, 110, 114, 111, 108, 108] then some .simpleReenroll
  else if strcaseEq s [115, 101, 114, 118, 101, 114, 107, 101, 121, 103, 101, 110] then some .serverKeygen
  else if brski && strcaseEq s [114, 101, 113, 117, 101, 115, 116, 118, 111, 117, 99, 104, 101, 114] then some .reqVoucher
  else if brski && strcaseEq s [118, 111, 117, 99, 104, 101, 114, 95, 115, 116, 97, 116, 117, 115] then some .voucherStatus
  else if brski && strcaseEq s [101, 110, 114, 111, 108, 108, 115, 116, 97, 116, 117, 115] then some .enrollStatus
  else none

/-- Split a text at every `/`.  Auxiliary to the model of uriParseUriA, called at
`est.c` line 1913. -/
def splitSlash : List Nat → List (List Nat)
  | [] => [[]]
  | c :: rest =>
    if c = 47 then [] :: splitSlash rest
    else
      match splitSlash rest with
      | [] => [[c]]
      | s :: ss => (c :: s) :: ss

/-- Is this character the end of the path part of a URI reference?.  Auxiliary to the
model of uriParseUriA, called at `est.c` line 1913. -/
def pathEnd (c : Nat) : Bool := c == 63 || c == 35

/-- The segment list uriparser builds for a URI reference without scheme and
authority (library behaviour, RFC 3986): the path ends at `?` or `#`; the path
"/" has no segments at all.  The result of uriParseUriA, called at `est.c` line 1913. -/
def uriSegments (uri : List Nat) : List (List Nat) :=
  let path := uri.takeWhile (fun c => !pathEnd c)
  match path with
  | [] => []
  | c :: rest =>
    if c = 47 then (if rest = [] then [] else splitSlash rest)
    else splitSlash path

/-- The text of the URI from segment number `k` on (where the segment's
`text.first` points to): what follows the leading slash and `k` further ones.
cur_seg->text.first, read at `est.c` lines 1916-2061. -/
def textFrom : Nat → List Nat → List Nat
  | 0, t => t
  | k + 1, t => textFrom k ((t.dropWhile (· ≠ 47)).drop 1)

/-- `EST_MAX_PATH_SEGMENT_LEN`, `est.h`.  `est.h` line 48. -/
def maxSeg : Nat := 128

/-- `est_parse_uri` in a build with uriparser, `est.c` lines 1899-2063.

* `uriOk` says whether uriparser accepts the text.
* `after` is the C string that stands in memory behind the NUL of `uri`: line
  2033 looks there if the path segment is the last thing in the URI.
* The path is one that went through `remove_double_dots_and_double_slashes`, so
  it has no empty segment except possibly the last one.  For an empty segment
  uriparser lets `text.first` and `text.afterLast` point to a constant "X", so
  the comparison with "est" fails and `*afterLast` is not NUL.

Undefined behaviour: no segment at all (`*operation` is not set, lines 1916 and
2061), or fewer than three (`cur_seg->next` is NULL, lines 1939-1940 and
1955-1956). -/
def parseUriLib (brski : Bool) (uriOk : List Nat → Bool) (after uri : List Nat) : Res :=
  if !uriOk uri then .err .invalidPathSegment
  else
    let text := if uri.head? = some 47 then uri.drop 1 else uri
    match uriSegments uri with
    | [] => .ub
    | s0 :: r0 =>
      if s0 = [] || !([46, 119, 101, 108, 108, 45, 107, 110, 111, 119, 110].isPrefixOf text) then .err .invalidPathSegment
      else
        match r0 with
        | [] => .ub
        | s1 :: r1 =>
          if s1 = [] || !([101, 115, 116].isPrefixOf (textFrom 1 text)) then .err .invalidPathSegment
          else
            match r1 with
            | [] => .ub
            | s2 :: _ =>
              if s2.length > maxSeg then .err .invalidPathSegment
              else
                -- the text behind this segment
                let behind := (textFrom 2 text).drop s2.length
                match parseOperation brski s2 with
                | none =>
                  -- jump over the segment and one more character
                  let next := match behind with
                    | [] => after
                    | _ :: b => b
                  match parseOperation brski next with
                  | none => .err .badReq
                  | some op => .ok op (some s2)
                | some op =>
                  if s2 = [] then .err .invalidPathSegment
                  else if behind = [] then .ok op none
                  else .err .invalidPathSegment

end Verif.EstUri
