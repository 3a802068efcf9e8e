import Verif.Base64Model
import Verif.EstErr
/-!
# Model of the ASN.1 code: CSR attributes and the attributes of a CSR

Source: `/repo/src/est/est.c` lines 1223-1247 and 1308-1555, `/repo/src/est/est_server.c`
lines 1248-1625.  `ASN1_get_object` and `d2i_ASN1_OBJECT` belong to OpenSSL; they are
described by `getObject` and `oidOk` (after OpenSSL 1.1.1, the second also quoted in
`est.c` lines 1223-1247) and are part of the trusted base.
-/
namespace Verif.Asn1

open Verif.Base64 (decode encode DecRes)

/-! ## OpenSSL: one header -/

/-- What `ASN1_get_object` reports: length of the header, length of the contents, tag,
class, "constructed", "indefinite length".  The variables j, len, tag, xclass of
`est.c` line 1334 and `est_server.c` lines 1263 and 1520. -/
structure Hdr where
  hl : Nat
  len : Nat
  tag : Nat
  cls : Nat
  cons : Bool
  inf : Bool
deriving DecidableEq, Repr

/-- Outcome of reading one header: `stray` means that a byte behind the data was read.
The call is at `est.c` line 1334 and `est_server.c` lines 1263 and 1520. -/
inductive Get
  | stray
  | bad
  | ok (h : Hdr)
deriving DecidableEq, Repr

/-- Result of the two parts of a header.  Auxiliary to the model of the OpenSSL function
called at `est.c` line 1334 and `est_server.c` line 1263. -/
inductive Part
  | stray
  | bad
  | ok (value : Nat) (inf : Bool) (used : Nat)
deriving DecidableEq, Repr

/-- Tags above 30: base 128, `INT_MAX >> 7` = 16777215 is the largest value that is
extended (`ASN1_get_object` in OpenSSL's `asn1_lib.c`).  `max` bytes may be read.
Part of the OpenSSL function called at `est.c` line 1334 and `est_server.c` line 1263. -/
def highTag : List Nat → Nat → Nat → Nat → Part
  | [], _, _, _ => .stray
  | b :: l, max, v, used =>
    if max ≤ 1 then .bad
    else if 128 ≤ b then
      if v * 128 + b % 128 > 16777215 then .bad
      else highTag l (max - 1) (v * 128 + b % 128) (used + 1)
    else .ok (v * 128 + b) false (used + 1)

/-- Number written in base 256.  Auxiliary to the length field of the OpenSSL function
called at `est.c` line 1334 and `est_server.c` line 1263. -/
def number (ds : List Nat) : Nat := ds.foldl (fun n d => n * 256 + d) 0

/-- The length field, `asn1_get_length` in OpenSSL's `asn1_lib.c`.  Part of the OpenSSL
function called at `est.c` line 1334 and `est_server.c` line 1263. -/
def getLen (l : List Nat) (max : Nat) : Part :=
  if max < 1 then .bad
  else
    match l with
    | [] => .stray
    | b :: l =>
      if b = 128 then .ok 0 true 1
      else if b < 128 then .ok b false 1
      else if max - 1 < b - 128 + 1 then .bad
      else if l.length < b - 128 then .stray
      else
        let ds := (l.take (b - 128)).dropWhile (· == 0)
        if ds.length > 8 then .bad
        else if number ds ≥ 2 ^ 63 then .bad
        else .ok (number ds) false (1 + (b - 128))

/-- `ASN1_get_object` in OpenSSL's `asn1_lib.c` on the data `l` with the limit `max`.
Called at `est.c` lines 1334 and 1472 and `est_server.c` lines 1263 and 1520. -/
def getObject (l : List Nat) (max : Nat) : Get :=
  if max = 0 then .bad
  else
    match l with
    | [] => .stray
    | b :: l1 =>
      if max ≤ 1 then .bad
      else
        match (if b % 32 = 31 then highTag l1 (max - 1) 0 1 else .ok (b % 32) false 1) with
        | .stray => .stray
        | .bad => .bad
        | .ok tag _ u =>
          match getLen ((b :: l1).drop u) (max - u) with
          | .stray => .stray
          | .bad => .bad
          | .ok n inf v =>
            if inf && !(b / 32 % 2 == 1) then .bad
            else if n > max - (u + v) then .bad
            else .ok ⟨u + v, n, tag, b / 64 % 4, b / 32 % 2 == 1, inf⟩

/-- No subidentifier starts with 0x80; `start` says whether one starts here.  A
condition of d2i_ASN1_OBJECT (OpenSSL), called in `est.c` lines 1223-1247. -/
def subOk : Bool → List Nat → Bool
  | _, [] => true
  | start, b :: l => !(start && b == 128) && subOk (decide (b < 128)) l

/-- The contents `d2i_ASN1_OBJECT` takes (`est.c` lines 1231-1247): at least one byte, the
last one below 0x80, no subidentifier starting with 0x80. -/
def oidOk (c : List Nat) : Bool :=
  (match c.getLast? with
   | none => false
   | some b => decide (b < 128)) && subOk true c

/-- The contents of the OBJECT IDENTIFIER challengePassword, `hex_chpw` in `est.c` lines
47-48 without its two header bytes. -/
def chpw : List Nat := [0x2A, 0x86, 0x48, 0x86, 0xF7, 0x0D, 0x01, 0x09, 0x07]

/-- `i2t_ASN1_OBJECT` into a buffer of `EST_MAX_ATTR_LEN` = 128 bytes: `text` gives the
name or the dotted form of an OID, the buffer takes 127 characters.  Called at
`est_server.c` lines 1313 and 1550; the size is `est_locl.h` line 580. -/
def oidText (text : List Nat → List Nat) (c : List Nat) : List Nat := (text c).take 127

/-! ## The OIDs of a CSR -/

/-- Outcome of the walk through a CSR: a read behind the data, an error (return value 0),
the return value (1 or 2) with the new position and the OID texts found so far.  `limit`
stands for the end of the fuel of the model and never occurs (`walk_limit`).  The
outcomes of `est_server.c` lines 1248-1337. -/
inductive Walk
  | stray
  | bad
  | limit
  | done (r pos : Nat) (oids : List (List Nat))
deriving DecidableEq, Repr

mutual
/-- The loop of `est_server_csr_asn1_parse`, `est_server.c` lines 1263-1336, at position
`pos` of the decoded CSR `buf`, with the bounds `tot` and `length`.  The test `op < ptr`
always holds.  Failing allocations are left out. -/
def walk (text : List Nat → List Nat) (buf : List Nat) :
    Nat → Nat → Nat → Nat → List (List Nat) → Walk
  | 0, _, _, _, _ => .limit
  | n + 1, pos, tot, length, acc =>
    if pos < tot then
      match getObject (buf.drop pos) length with
      | .stray => .stray
      | .bad => .bad
      | .ok h =>
        let p := pos + h.hl
        let left := length - h.hl
        if h.cons then
          if h.len > left then .bad
          else if h.inf && h.len == 0 then
            match walk text buf n p (p + (tot - p)) (tot - p) acc with
            | .done r p' acc' =>
              if r = 2 ∨ p' ≥ tot then .done 1 p' acc'
              else walk text buf n p' tot (left - h.len) acc'
            | e => e
          else
            match many text buf n p (p + h.len) h.len acc with
            | .done _ p' acc' => walk text buf n p' tot (left - h.len) acc'
            | e => e
        else if h.cls ≠ 0 then walk text buf n (p + h.len) tot (left - h.len) acc
        else if h.tag = 6 then
          if buf.length < p + h.len then .stray
          else if oidOk ((buf.drop p).take h.len) then
            walk text buf n (p + h.len) tot (left - h.len)
              (acc ++ [oidText text ((buf.drop p).take h.len)])
          else .bad
        else if h.tag = 0 then .done 2 (p + h.len) acc
        else walk text buf n (p + h.len) tot (left - h.len) acc
    else .done 1 pos acc

/-- The inner loop, `est_server.c` lines 1287-1293: each round starts again with the full length. -/
def many (text : List Nat → List Nat) (buf : List Nat) :
    Nat → Nat → Nat → Nat → List (List Nat) → Walk
  | 0, _, _, _, _ => .limit
  | n + 1, p, ep, len, acc =>
    if p < ep then
      match walk text buf n p (p + len) len acc with
      | .done _ p' acc' => many text buf n p' ep len acc'
      | e => e
    else .done 1 p acc
end

/-- `est_server_csr_asn1_parse` called for the whole CSR, `est_server.c` line 1368. -/
def csrOids (text : List Nat → List Nat) (der : List Nat) : Walk :=
  walk text der (2 * der.length + 2) 0 der.length der.length []

/-! ## The OIDs the server demands -/

/-- Outcome of a function of the library: undefined behaviour or its return value.  Used
for the functions of `est.c` lines 1376-1438 and `est_server.c` lines 1387-1625. -/
inductive Res
  | ub
  | ret (e : EstErr)
deriving DecidableEq, Repr

/-- The loop of `est_server_all_csrattrs_present`, `est_server.c` lines 1499-1601, on the attributes of the
server: the class of a tag is not looked at.  `have_` are the texts found in the CSR. -/
def need (text : List Nat → List Nat) (have_ : List (List Nat)) : Nat → List Nat → Res
  | 0, _ => .ub
  | n + 1, l =>
    if l = [] then .ret .none
    else
      match getObject l l.length with
      | .stray => .ub
      | .bad => .ret .badAsn1Hex
      | .ok h =>
        let c := l.drop h.hl
        if h.tag = 6 then
          let o := c.take h.len
          if !oidOk o then .ret .unknown
          else if o = chpw then need text have_ n (c.drop h.len)
          else if oidText text o ∈ have_ then need text have_ n (c.drop h.len)
          else .ret .csrAttrMissing
        else if h.tag = 16 ∨ h.tag = 17 then need text have_ n c
        else need text have_ n (c.drop h.len)

/-- Where the attributes come from: nothing configured, the stored text, or what the
application returned.  The three cases of `est_server.c` lines 1409-1450. -/
inductive Source
  | nothing
  | stored (text : List Nat)
  | callback (text : Option (List Nat))
deriving DecidableEq, Repr

/-- `est_server.c` lines 1451-1624: the texts of the CSR are known, `t` is the attribute text. -/
def checkAttrs (text : List Nat → List Nat) (odd : Bool → List Nat → List Nat)
    (have_ : List (List Nat)) (t : List Nat) : Res :=
  if t.length < 4 then .ret .invalidParameters
  else
    match decode odd t (t.length * 2) with
    | .ub => .ub
    | .ret 0 _ => .ret .badBase64
    | .ret _ der =>
      if der.length > 1024 then .ret .invalidParameters
      else if der.length < 2 then .ret .invalidParameters
      else need text have_ (der.length + 1) der

/-- `est_server_all_csrattrs_present`, `est_server.c` lines 1386-1624, with
`est_server_build_csr_oid_list`, lines 1344-1380; `body` is the request body.  A length
reported by the application's callback is taken to be the length of its text. -/
def allPresent (text : List Nat → List Nat) (odd : Bool → List Nat → List Nat) (src : Source)
    (body : List Nat) : Res :=
  if src = .nothing then .ret .none
  else
    match decode odd body (body.length * 2) with
    | .ub => .ub
    | .ret 0 _ => .ret .badBase64
    | .ret _ der =>
      match csrOids text der with
      | .stray => .ub
      | .limit => .ub
      | .bad => .ret .unknown
      | .done _ _ oids =>
        match src with
        | .nothing => .ret .none
        | .callback none => .ret .cbFailed
        | .callback (some t) => checkAttrs text odd oids t
        | .stored t => checkAttrs text odd oids t

/-! ## The sanity test and the added challengePassword -/

/-- Outcome of the scan: read behind the data, error, "challengePassword seen".  The
outcomes of the loop at `est.c` lines 1330-1365. -/
inductive Scan
  | stray
  | bad
  | ok (pop : Bool)
deriving DecidableEq, Repr

/-- The loop of `est_asn1_sanity_test`, `est.c` lines 1330-1365.  After an OBJECT that
`d2i_ASN1_OBJECT` refuses the loop goes on inside the contents. -/
def scan : Nat → List Nat → Bool → Scan
  | 0, _, _ => .stray
  | n + 1, l, pop =>
    if l = [] then .ok pop
    else
      match getObject l l.length with
      | .stray => .stray
      | .bad => .bad
      | .ok h =>
        let c := l.drop h.hl
        if h.tag = 6 then
          if oidOk (c.take h.len) then
            scan n (c.drop h.len) (pop || decide (c.take h.len = chpw))
          else scan n c pop
        else if h.tag = 16 ∨ h.tag = 17 then scan n c pop
        else scan n (c.drop h.len) pop

/-- Result of the sanity test: undefined behaviour, or the error and the presence flag.
The outcomes of `est.c` lines 1308-1374. -/
inductive Parsed
  | ub
  | ret (e : EstErr) (pop : Bool)
deriving DecidableEq, Repr

/-- `est_asn1_sanity_test`, `est.c` lines 1308-1374.  The flag after an error is not used by any
caller and is reported as `false`. -/
def sanity (der : List Nat) : Parsed :=
  if der.length < 2 then .ret .badAsn1HexTooShort false
  else
    match scan (der.length + 1) der false with
    | .stray => .ub
    | .bad => .ret .badAsn1Hex false
    | .ok pop =>
      if der.length > (if pop then 1035 else 1024) then .ret .badAsn1HexTooLong false
      else .ret .none pop

/-- `est_asn1_parse_attributes`, `est.c` lines 1404-1438; the length argument is the length of the
text. -/
def parseAttributes (odd : Bool → List Nat → List Nat) (t : List Nat) : Parsed :=
  if t.length < 4 then .ret .invalidParameters false
  else
    match decode odd t (t.length * 2) with
    | .ub => .ub
    | .ret 0 _ => .ret .badBase64 false
    | .ret _ der => sanity der

/-- `est_is_challengePassword_present`, `est.c` lines 1384-1396. -/
def popPresent (odd : Bool → List Nat → List Nat) (t : List Nat) : Parsed :=
  if t = [] then .ret .none false else parseAttributes odd t

/-- Result of `est_add_challengePassword`.  The outcomes of `est.c` lines 1448-1555. -/
inductive Added
  | ub
  | err (e : EstErr)
  | ok (text : List Nat)
deriving DecidableEq, Repr

/-- The new header of the SEQUENCE, `est.c` lines 1487-1533; `n` is the length of the new
contents. -/
def seqHeader (n : Nat) : List Nat :=
  if n ≥ 256 then [0x30, 0x82, n / 256 % 256, n % 256]
  else if n ≥ 128 then [0x30, 0x81, n]
  else [0x30, n]

/-- `est_add_challengePassword`, `est.c` lines 1448-1555.  The return value of `ASN1_get_object` is
not looked at: after an error the tag is not set, which is counted as undefined
behaviour.  Everything behind the first header becomes contents of the new SEQUENCE. -/
def addPassword (odd : Bool → List Nat → List Nat) (t : List Nat) : Added :=
  match decode odd t (t.length * 2) with
  | .ub => .ub
  | .ret 0 _ => .err .malloc
  | .ret _ der =>
    match getObject der der.length with
    | .stray => .ub
    | .bad => .ub
    | .ok h =>
      if h.tag ≠ 16 then .err .badAsn1Hex
      else
        let c := der.drop h.hl ++ 6 :: 9 :: chpw
        let new := seqHeader c.length ++ c
        match encode false new (List.replicate (new.length * 2) 0) with
        | none => .ub
        | some (0, _) => .err .badBase64
        | some (r, d) => .ok (d.take r)

end Verif.Asn1
