/-!
# Model of the base64 routines

Source: `/repo/src/est/est.c` lines 838-1058.  The conversion itself is done by
OpenSSL's base64 filter, which is part of the trusted base and is described by
`enc`, `wrap` and `dec` below.
-/
namespace Verif.Base64

/-! ## OpenSSL's base64 filter -/

/-- The 64 characters of the alphabet: A-Z, a-z, 0-9, '+', '/'.  The alphabet of
BIO_f_base64 (OpenSSL), used at `est.c` lines 877-975 and 986-1060. -/
def ch (i : Nat) : Nat :=
  if i < 26 then 65 + i
  else if i < 52 then 97 + (i - 26)
  else if i < 62 then 48 + (i - 52)
  else if i = 62 then 43
  else 47

/-- Value of a character of the alphabet.  Inverse of the alphabet of BIO_f_base64
(OpenSSL), used at `est.c` lines 877-975. -/
def val (c : Nat) : Option Nat :=
  if 65 ≤ c ∧ c < 91 then some (c - 65)
  else if 97 ≤ c ∧ c < 123 then some (c - 97 + 26)
  else if 48 ≤ c ∧ c < 58 then some (c - 48 + 52)
  else if c = 43 then some 62
  else if c = 47 then some 63
  else none

/-- What the filter writes for some bytes with the flag "no newlines": groups of three
bytes become four characters, the last group is padded with '='.  BIO_f_base64
(OpenSSL), used at `est.c` lines 986-1058. -/
def enc : List Nat → List Nat
  | [] => []
  | [a] => [ch (a / 4), ch (a % 4 * 16), 61, 61]
  | [a, b] => [ch (a / 4), ch (a % 4 * 16 + b / 16), ch (b % 16 * 4), 61]
  | a :: b :: c :: rest =>
    ch (a / 4) :: ch (a % 4 * 16 + b / 16) :: ch (b % 16 * 4 + c / 64) :: ch (c % 64) ::
      enc rest

/-- Lines of 64 characters, each ended by a newline.  BIO_f_base64 without the flag,
used at `est.c` lines 986-1058. -/
def wrap (t : List Nat) : List Nat :=
  if _h : t = [] then []
  else t.take 64 ++ 10 :: wrap (t.drop 64)
termination_by t.length
decreasing_by
  have : t.length ≠ 0 := by simpa using _h
  simp; omega

/-- What the base64 filter writes; `nl`: with newlines.  BIO_f_base64 as used at `est.c`
lines 986-1058. -/
def bioWrite (nl : Bool) (src : List Nat) : List Nat :=
  if nl then wrap (enc src) else enc src

/-- Strict decoding: only texts as `enc` writes them (the unused bits of the last
character may be anything).  BIO_f_base64 as used at `est.c` lines 877-975. -/
def dec : List Nat → Option (List Nat)
  | [] => some []
  | [c1, c2, c3, c4] =>
    match val c1, val c2 with
    | some i1, some i2 =>
      if c3 = 61 then
        if c4 = 61 then some [i1 * 4 + i2 / 16] else none
      else
        match val c3 with
        | none => none
        | some i3 =>
          if c4 = 61 then some [i1 * 4 + i2 / 16, i2 % 16 * 16 + i3 / 4]
          else
            match val c4 with
            | none => none
            | some i4 =>
              some [i1 * 4 + i2 / 16, i2 % 16 * 16 + i3 / 4, i3 % 4 * 64 + i4]
    | _, _ => none
  | c1 :: c2 :: c3 :: c4 :: rest =>
    match val c1, val c2, val c3, val c4, dec rest with
    | some i1, some i2, some i3, some i4, some bs =>
      some ([i1 * 4 + i2 / 16, i2 % 16 * 16 + i3 / 4, i3 % 4 * 64 + i4] ++ bs)
    | _, _, _, _, _ => none
  | _ => none

/-- `isspace` in the C locale.  Called at `est.c` line 851. -/
def isspace (c : Nat) : Bool := (9 ≤ c && c ≤ 13) || c == 32

/-- A text as the filter writes it with newlines: whole lines of at most 76 characters
in groups of four; `k` is the length of the line so far.  A class of texts read by
BIO_f_base64 at `est.c` lines 877-975. -/
def regularLines : Nat → List Nat → Bool
  | k, [] => k == 0
  | k, c :: t =>
    if c = 10 then k % 4 == 0 && decide (0 < k) && decide (k ≤ 76) && regularLines 0 t
    else !isspace c && regularLines (k + 1) t

/-- All bytes the base64 filter can deliver when it reads a text.  OpenSSL is more
liberal than the strict reading (it skips odd lines, takes '=' for zero bits inside a
text, and so on); for texts that are not of the regular form the result is left
open: it is whatever `odd` says.  The reads of `est.c` lines 877-975. -/
def bioRead (odd : Bool → List Nat → List Nat) (noNl : Bool) (t : List Nat) : List Nat :=
  let t' := if t.getLast? = some 10 then t.dropLast else t
  if noNl && !t'.any isspace then (dec t').getD (odd noNl t)
  else if !noNl && regularLines 0 t then (dec (t.filter (!isspace ·))).getD (odd noNl t)
  else odd noNl t

/-! ## The library routines -/

/-- Result of `est_base64_decode`: undefined behaviour, or the return value and the
bytes written to the destination.  The outcomes of `est.c` lines 877-975. -/
inductive DecRes
  | ub
  | ret (n : Nat) (written : List Nat)
deriving DecidableEq, Repr

/-- Index of the first newline, `est_base64_str_analyze` `est.c` lines 843-867. -/
def firstNl (t : List Nat) : Option Nat := t.findIdx? (· == 10)

/-- `contains_newline` of `est_base64_str_analyze`: the first newline is not the last
character.  `est.c` lines 843-868. -/
def containsNewline (t : List Nat) : Bool :=
  match firstNl t with
  | none => false
  | some i => decide (i + 1 ≠ t.length)

/-- `est_base64_decode`, `est.c` lines 877-975.  `src` is the C string without its NUL; sizes
that overflow an `int` and failing allocations are left out.  The loop of lines
935-937 tests `src[-1]` when the string has nothing but white space. -/
def decode (odd : Bool → List Nat → List Nat) (src : List Nat) (dstSize : Nat) : DecRes :=
  let lenNoWs := (src.filter (!isspace ·)).length
  let maxIn := if dstSize % 3 ≠ 0 then (dstSize / 3 + 1) * 4 else dstSize / 3 * 4
  if lenNoWs > maxIn then .ret 0 []
  else if lenNoWs % 4 ≠ 0 then .ret 0 []
  else
    let core := (src.reverse.dropWhile isspace).reverse
    if core = [] then .ub
    else if core.length < 3 then .ret 0 []
    else
      let pad := if core.getLast? = some 61 then
          (if core.dropLast.getLast? = some 61 then 2 else 1) else 0
      let expected := 3 * lenNoWs / 4 - pad
      let bytes := (bioRead odd (!containsNewline src) src).take dstSize
      if bytes.length ≠ expected then .ret 0 bytes
      else .ret bytes.length bytes

/-- `est_base64_encode`, `est.c` lines 986-1058: `dst` is the destination before the call.
Result: the return value and the destination afterwards; `none` is a write outside the
destination (line 1052 writes the NUL whether or not `memcpy_s` copied). -/
def encode (nl : Bool) (src dst : List Nat) : Option (Nat × List Nat) :=
  let max := dst.length
  if src.length > max * 3 / 4 + 1 then some (0, dst)
  else if src = [] then some (0, dst)
  else
    let t := bioWrite nl src
    let dst' := if t.length ≤ max then t ++ dst.drop t.length else dst
    if t.length < max then some (t.length, dst'.set t.length 0)
    else none

end Verif.Base64
