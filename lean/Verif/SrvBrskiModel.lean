import Verif.VoucherModel

/-!
# Model of the sample server's BRSKI callbacks

Source: `/repo/example/server/estserver.c` lines 1048-1591 (`jsoneq`, `dump`,
`process_brski_voucher_request`, `process_brski_voucher_status`, `process_brski_enroll_status`)
and lines 1748-1792 (`est_load_ca_certs`), without `CMS_SIGNING` and `BASE64_ENCODE_VOUCHERS`.
`example/util/jsmn.c` is the same file as `src/est/jsmn.c`, so the text is read by
`Verif.Jsmn`; `jsoneq` is the same function as the client's, so that is `Verif.Voucher.jsoneq`.
The output of `printf` is left out, but not what it reads.
-/
namespace Verif.SrvBrski
open Verif.Jsmn (Tok Ty)
open Verif.Voucher (Found slice jsoneq)

/-- What goes wrong: a write behind the end of an array, a read behind the end of an array or
allocated block, use of a NULL pointer.  For `estserver.c` lines 1118-1591. -/
inductive Bad | write | read | null
deriving DecidableEq, Repr

/-- `EST_BRSKI_CALLBACK_RC`, `est.h` lines 497-502, and an `EST_ERROR` number in its place
(`estserver.c` line 1222). -/
inductive Code
  | success | retry | invalidParameter | failure
  | est (e : EstErr)
deriving DecidableEq, Repr

/-- The blocks the callbacks of `estserver.c` lines 1118-1591 allocate: `tok`, `voucher_buf` and
`signed_voucher_buf`. -/
inductive Blk | tok | plain | signed
deriving DecidableEq, Repr

/-- `calloc`, `free`, and handing the block over to the caller.  For `estserver.c`
lines 1118-1591. -/
inductive Ev | alloc (b : Blk) | free (b : Blk) | give (b : Blk)
deriving DecidableEq, Repr

/-- `tokcount`, `estserver.c` lines 1125, 1447 and 1527. -/
def tokCount : Nat := 100

/-! ## Printing the tokens -/

/-- The loops of `dump`, `estserver.c` lines 1070-1078 and 1080-1088: `k` calls of `dump`, `j` being
what the calls so far returned; `i` is the number of the token with the loop.  `count - j` is
of type `size_t` and only compared with 0, for which an integer serves as well. -/
def dumpLoop (g : Nat → Int → Option Nat) (i : Nat) (count : Int) : Nat → Nat → Option Nat
  | 0, j => some j
  | k + 1, j =>
    match g (i + 1 + j) (count - j) with
    | none => none
    | some d => dumpLoop g i count k (j + d)

/-- `dump`, `estserver.c` lines 1057-1091, on token number `i` of an array of `cap`: what it returns,
`none` if a token behind the array is read.  A member of an object takes two calls.  The array
is zeroed, so the type of an unused token is `JSMN_UNDEFINED`.  The first number bounds the
depth; every call is on a later token, so the number of tokens is enough. -/
def dump (toks : List Tok) (cap : Nat) : Nat → Nat → Int → Option Nat
  | 0, _, _ => some 0
  | f + 1, i, count =>
    if count = 0 then some 0
    else
      match toks[i]? with
      | none => if i < cap then some 0 else none
      | some t =>
        match t.ty with
        | .primitive => some 1
        | .string => some 1
        | .object => (dumpLoop (dump toks cap f) i count (2 * t.size) 0).map (· + 1)
        | .array => (dumpLoop (dump toks cap f) i count t.size 0).map (· + 1)

/-- The calls of `estserver.c` lines 1172, 1475 and 1555. -/
def dumpAll (toks : List Tok) (cap : Nat) : Option Nat :=
  dump toks cap (toks.length + 1) 0 toks.length

/-! ## Finding a value -/

/-- The loop of `estserver.c` lines 1175-1183 (and 1193-1201, 1479-1487, 1494-1502, 1559-1567,
1574-1582) on the tokens from number `i` on, up to the value.  The value of an unused token is
empty. -/
def look (js : List Nat) (name : List Nat) (cap : Nat) : Nat → List Tok → Found
  | _, [] => .absent
  | i, t :: rest =>
    if jsoneq js t name then
      match rest with
      | [] => if i + 1 < cap then .value [] else .over
      | u :: _ => .value (slice js u)
    else look js name cap (i + 1) rest

/-- The same loops with the `sprintf` of `estserver.c` lines 1177, 1195, 1481, 1496, 1561 and 1576
into an array of `size` bytes.  The value has no NUL in it since the tokeniser stops at one. -/
def scan (js : List Nat) (toks : List Tok) (name : List Nat) (size : Nat) :
    Except Bad (Option (List Nat)) :=
  match look js name tokCount 1 (toks.drop 1) with
  | .absent => .ok none
  | .over => .error .read
  | .value v => if v.length + 1 > size then .error .write else .ok (some v)

/-- The tokeniser and the printing, `estserver.c` lines 1167-1174, 1470-1477 and 1550-1557: the tokens
the loops behind it run over, none if the text is refused. -/
def tokens (js : List Nat) : Except Bad (List Tok) :=
  match Jsmn.parse tokCount js with
  | .ok _ toks =>
    match dumpAll toks tokCount with
    | none => .error .read
    | some _ => .ok toks
  | .undef => .error .read
  | .hang => .error .read
  | _ => .ok []

/-! ## Status messages -/

/-- `process_brski_voucher_status`, `estserver.c` lines 1441-1511, and `process_brski_enroll_status`,
lines 1522-1591, which differ in what they print.  The body is NULL or a string, `mem` says
whether `calloc` succeeds. -/
def statusCb (mem : Bool) (body : Option (List Nat)) : Except Bad (Code × List Ev) :=
  match body with
  | none => .error .null
  | some js =>
    if !mem then .ok (.invalidParameter, [])
    else
      match tokens js with
      | .error b => .error b
      | .ok toks =>
        match scan js toks [83, 116, 97, 116, 117, 115] 6 with
        | .error b => .error b
        | .ok none => .ok (.failure, [.alloc .tok, .free .tok])
        | .ok (some _) =>
          match scan js toks [82, 101, 97, 115, 111, 110] 255 with
          | .error b => .error b
          | .ok none => .ok (.failure, [.alloc .tok, .free .tok])
          | .ok (some _) => .ok (.success, [.alloc .tok, .free .tok])

/-! ## The voucher -/

/-- What a pointer to this block is as a string: the bytes before the first NUL, if there is one
in the block.  For `%s` at `estserver.c` lines 1227-1228. -/
def cStr (block : List Nat) : Option (List Nat) :=
  if 0 ∈ block then some (block.takeWhile (· ≠ 0)) else none

/-- `est_load_ca_certs`, `estserver.c` lines 1748-1792: `brski_ca_certs` from the base64 text of the
certificates, `none` for the errors before it.  A block of exactly the length of the text; memory
is not exhausted. -/
def loadCa (text : Option (List Nat)) : Option (List Nat) :=
  match text with
  | none => none
  | some t => if t.length = 0 then none else some t

/-- `VOUCHER`, `estserver.c` line 1102. -/
def voucherText (nonce ca serial : List Nat) : List Nat :=
  [123, 10, 13, 34, 105, 101, 116, 102, 45, 118, 111, 117, 99, 104, 101, 114, 58, 118, 111, 117, 99, 104, 101, 114, 34, 58, 123, 10, 13, 34, 110, 111, 110, 99, 101, 34, 58, 34] ++ (nonce ++
    ([34, 44, 10, 13, 34, 97, 115, 115, 101, 114, 116, 105, 111, 110, 34, 58, 34, 108, 111, 103, 103, 105, 110, 103, 34, 44, 10, 13, 34, 112, 105, 110, 110, 101, 100, 45, 100, 111, 109, 97, 105, 110, 45, 99, 101, 114, 116, 34, 58, 34] ++ (ca ++
      ([34, 44, 10, 13, 34, 115, 101, 114, 105, 97, 108, 45, 110, 117, 109, 98, 101, 114, 34, 58, 34] ++ (serial ++ [34, 125, 10, 13, 125])))))

/-- What the callback uses besides its arguments: `brski_ca_certs` (a block, or NULL),
`masa_ca_enabled` with what OpenSSL makes of the text (`none`: one of its functions fails), the
success of the three `calloc`s.  `estserver.c` lines 1162, 1225-1244, 1276 and 1381. -/
structure Reg where
  ca : Option (List Nat)
  masa : Option (List Nat → Option (List Nat))
  memTok : Bool
  memPlain : Bool
  memSigned : Bool

/-- What the callback of `estserver.c` lines 1118-1429 returns: the code, the bytes `*voucher` and
`*voucher_len` stand for (`none`: NULL, or not set), and what became of the memory. -/
structure VOut where
  code : Code
  voucher : Option (List Nat)
  evs : List Ev
deriving DecidableEq, Repr

/-- Signing, `estserver.c` lines 1242-1411: the text is in `voucher_buf` of 16384 bytes, cut to
16383 and with a NUL behind it, but the length given is that of the whole text. -/
def sign (r : Reg) (text : List Nat) (evs : List Ev) : Except Bad VOut :=
  match r.masa with
  | none => .ok ⟨.failure, some (text.take 16383), evs ++ [.give .plain]⟩
  | some f =>
    if !r.memSigned then .ok ⟨.failure, none, evs ++ [.free .plain]⟩
    else if text.length > 16384 then .error .read
    else
      match f ((text.take 16383 ++ [0]).take text.length) with
      | none => .ok ⟨.failure, none, evs ++ [.alloc .signed, .free .signed, .free .plain]⟩
      | some s =>
        if s.length > 16384 then .error .write
        else .ok ⟨.success, some s, evs ++ [.alloc .signed, .free .plain, .give .signed]⟩

/-- Writing the voucher, `estserver.c` lines 1225-1236. -/
def build (r : Reg) (nonce serial : List Nat) : Except Bad VOut :=
  if !r.memPlain then .ok ⟨.failure, none, [.alloc .tok, .free .tok]⟩
  else
    match r.ca with
    | none => .error .null
    | some block =>
      match cStr block with
      | none => .error .read
      | some ca =>
        sign r (voucherText nonce ca serial) [.alloc .tok, .free .tok, .alloc .plain]

/-- `process_brski_voucher_request`, `estserver.c` lines 1118-1429.  `peer`: no certificate, one
without a serial number in the subject, one with this serial number (`est_find_ser_num_in_subj`,
`est_ossl_util.c` lines 475-501). -/
def voucherCb (r : Reg) (body : Option (List Nat)) (peer : Option (Option (List Nat))) :
    Except Bad VOut :=
  match body with
  | none => .error .null
  | some js =>
    if !r.memTok then .ok ⟨.invalidParameter, none, []⟩
    else
      match tokens js with
      | .error b => .error b
      | .ok toks =>
        match scan js toks [110, 111, 110, 99, 101] 33 with
        | .error b => .error b
        | .ok none => .ok ⟨.failure, none, [.alloc .tok, .free .tok]⟩
        | .ok (some nonce) =>
          match scan js toks [112, 114, 111, 120, 105, 109, 105, 116, 121, 45, 114, 101, 103, 105, 115, 116, 114, 97, 114, 45, 99, 101, 114, 116] 8193 with
          | .error b => .error b
          | .ok none => .ok ⟨.failure, none, [.alloc .tok, .free .tok]⟩
          | .ok (some _) =>
            match peer with
            | none => .error .null
            | some none => .ok ⟨.est .clientBrskiSerialNumMissing, none, [.alloc .tok, .free .tok]⟩
            | some (some serial) => build r nonce serial

end Verif.SrvBrski
