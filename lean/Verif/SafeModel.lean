/-!
# The bounded memory and string functions

`safe_c_stub/src/safe_mem_stub.c` and `safe_c_stub/src/safe_str_stub.c`: the functions `…_s` that the
library uses in place of those of `string.h`.

An object in memory is the list of its bytes; a pointer is the part of its object from there on, and
`none` for `NULL`.  Reading or writing behind the end of an object is undefined (`none` as the result
of a function).  Source and destination are different objects.
-/
namespace Verif.Safe

/-- An object in memory from some place on.  The arguments of the functions in `safe_str_stub.c` lines
50-578. -/
abbrev Buf := List Nat

/-- `errno_t`: `EOK`, `ESNULLP`, `ESZEROL`, `ESLEMAX`, `ESOVRLP`, `ESNOSPC`, `ESRCH`.  Returned in
`safe_str_stub.c` lines 50-445. -/
inductive Err | ok | nullp | zerol | lemax | nospc | srch
deriving DecidableEq, Repr

/-- `RSIZE_MAX`, which is `RSIZE_MAX_STR` and `RSIZE_MAX_MEM`: half of `SIZE_MAX` of a 64-bit machine.
`safe_mem_lib.h` lines 41-49 and `safe_str_lib.h` lines 51-53. -/
def maxSize : Nat := 2 ^ 63 - 1

/-! ## The functions of `string.h` that are called -/

/-- `memset`.  Called in `safe_mem_stub.c` lines 56-162. -/
def memset (d : Buf) (c n : Nat) : Option Buf :=
  if n ≤ d.length then some (List.replicate n c ++ d.drop n) else none

/-- `memcpy` and `memmove` between different objects.  Called in `safe_mem_stub.c` lines 68 and 132. -/
def memcpy (d s : Buf) (n : Nat) : Option Buf :=
  if n ≤ d.length ∧ n ≤ s.length then some (s.take n ++ d.drop n) else none

/-- `memcmp`: the difference at the first place where there is one.  Called in `safe_mem_stub.c` line
82. -/
def memcmp : Nat → Buf → Buf → Option Int
  | 0, _, _ => some 0
  | n + 1, a :: l, b :: r => if a = b then memcmp n l r else some ((a : Int) - b)
  | _ + 1, _, _ => none

/-- `strncmp`.  Called in `safe_str_stub.c` line 53. -/
def strncmp : Nat → Buf → Buf → Option Int
  | 0, _, _ => some 0
  | n + 1, a :: l, b :: r =>
    if a ≠ b then some ((a : Int) - b) else if a = 0 then some 0 else strncmp n l r
  | _ + 1, _, _ => none

/-- `strncpy`: `n` bytes are written, zeros after the end of the source.  Called in
`safe_str_stub.c` line 312. -/
def strncpy : Nat → Buf → Buf → Option Buf
  | 0, d, _ => some d
  | n + 1, _ :: d, c :: s => (strncpy n d (if c = 0 then c :: s else s)).map (c :: ·)
  | _ + 1, _, _ => none

/-- The copying part of `strncat`: at most `n` characters and a zero byte.  Called in
`safe_str_stub.c` lines 111 and 300. -/
def append : Nat → Buf → Buf → Option Buf
  | 0, _ :: d, _ => some (0 :: d)
  | n + 1, _ :: d, c :: s => if c = 0 then some (0 :: d) else (append n d s).map (c :: ·)
  | _, _, _ => none

/-- `strncat`: goes to the end of the destination first.  Called in `safe_str_stub.c` lines 111 and
300. -/
def strncat (n : Nat) : Buf → Buf → Option Buf
  | [], _ => none
  | c :: d, s => if c = 0 then append n (c :: d) s else (strncat n d s).map (c :: ·)

/-- `strnlen`.  Called in `safe_str_stub.c` line 427. -/
def strnlen : Buf → Nat → Option Nat
  | _, 0 => some 0
  | [], _ + 1 => none
  | c :: l, n + 1 => if c = 0 then some 0 else (strnlen l n).map (· + 1)

/-- Does the string `s` begin with the string `p`?  Part of `strstr`, called in `safe_str_stub.c` line
439. -/
def isPrefix : Buf → Buf → Option Bool
  | [], _ => none
  | p :: ps, s =>
    if p = 0 then some true
    else match s with
      | [] => none
      | c :: s => if c = p then isPrefix ps s else some false

/-- `strstr`: the place of the first occurrence.  Called in `safe_str_stub.c` line 439. -/
def strstr (p : Buf) : Buf → Option (Option Nat)
  | [] => none
  | c :: s =>
    match isPrefix p (c :: s) with
    | none => none
    | some true => some (some 0)
    | some false => if c = 0 then some none else (strstr p s).map (·.map (· + 1))

/-! ## Memory -/

/-- `memzero_s`, `safe_mem_stub.c` lines 53-58. -/
def memzeroS (d : Option Buf) (dmax : Nat) : Option (Err × Option Buf) :=
  match d with
  | none => some (.nullp, none)
  | some d => (memset d 0 dmax).map fun d => (.ok, some d)

/-- `memcpy_s`, `safe_mem_stub.c` lines 65-70. -/
def memcpyS (d : Option Buf) (dmax : Nat) (s : Option Buf) (slen : Nat) : Option (Err × Option Buf) :=
  match s, d with
  | some s, some d => if slen > dmax then some (.lemax, some d) else (memcpy d s slen).map fun d => (.ok, some d)
  | _, d => some (.nullp, d)

/-- `memcmp_s`, `safe_mem_stub.c` lines 77-84: the difference is stored only in the last case. -/
def memcmpS (d : Option Buf) (dmax : Nat) (s : Option Buf) (slen : Nat) : Option (Err × Option Int) :=
  match s, d with
  | some s, some d =>
    if dmax = 0 then some (.zerol, none)
    else if slen = 0 then some (.zerol, none)
    else if slen > dmax then some (.lemax, none)
    else (memcmp slen d s).map fun i => (.ok, some i)
  | _, _ => some (.nullp, none)

/-- `memmove_s`, `safe_mem_stub.c` lines 92-136. -/
def memmoveS (d : Option Buf) (dmax : Nat) (s : Option Buf) (smax : Nat) : Option (Err × Option Buf) :=
  match d with
  | none => some (.nullp, none)
  | some d =>
    if dmax = 0 then some (.zerol, some d)
    else if dmax > maxSize then some (.lemax, some d)
    else if smax = 0 then (memset d 0 dmax).map fun d => (.zerol, some d)
    else if smax > dmax then (memset d 0 dmax).map fun d => (.lemax, some d)
    else match s with
      | none => (memset d 0 dmax).map fun d => (.nullp, some d)
      | some s => (memcpy d s smax).map fun d => (.ok, some d)

/-- `memset_s`, `safe_mem_stub.c` lines 143-165. -/
def memsetS (d : Option Buf) (smax c n : Nat) : Option (Err × Option Buf) :=
  match d with
  | none => some (.nullp, none)
  | some d =>
    if smax > maxSize then some (.lemax, some d)
    else if n > maxSize then (memset d c smax).map fun d => (.lemax, some d)
    else if n > smax then (memset d c smax).map fun d => (.lemax, some d)
    else (memset d c n).map fun d => (.ok, some d)

/-! ## Strings -/

/-- `strcmp_s`, `safe_str_stub.c` lines 50-55: code and indicator. -/
def strcmpS (d : Option Buf) (dmax : Nat) (s : Option Buf) : Option (Err × Option Int) :=
  match s, d with
  | some s, some d => if dmax = 0 then some (.zerol, none) else (strncmp dmax d s).map fun i => (.ok, some i)
  | _, _ => some (.nullp, none)

/-- `toupper` in the C locale.  Called in `safe_str_stub.c` lines 90 and 99. -/
def upper (c : Nat) : Nat := if 97 ≤ c ∧ c ≤ 122 then c - 32 else c

/-- The loop of `strcasecmp_s` and the subtraction after it, `safe_str_stub.c` lines 88-99.  When
`dmax` characters are equal, the ones after them are compared. -/
def caseLoop : Nat → Buf → Buf → Option Int
  | n, a :: l, b :: r =>
    if a ≠ 0 ∧ b ≠ 0 ∧ n ≠ 0 ∧ upper a = upper b then caseLoop (n - 1) l r
    else some ((upper a : Int) - upper b)
  | _, _, _ => none

/-- `strcasecmp_s`, `safe_str_stub.c` lines 62-101, with an indicator. -/
def strcasecmpS (d : Option Buf) (dmax : Nat) (s : Option Buf) : Option (Err × Int) :=
  match d, s with
  | some d, some s =>
    if dmax = 0 then some (.zerol, 0)
    else if dmax > maxSize then some (.lemax, 0)
    else (caseLoop dmax d s).map fun i => (.ok, i)
  | _, _ => some (.nullp, 0)

/-- `strcat_s`, `safe_str_stub.c` lines 108-113. -/
def strcatS (d : Option Buf) (dmax : Nat) (s : Option Buf) : Option (Err × Option Buf) :=
  match s, d with
  | some s, some d => if dmax = 0 then some (.zerol, some d) else (strncat dmax d s).map fun d => (.ok, some d)
  | _, d => some (.nullp, d)

/-- `strncat_s`, `safe_str_stub.c` lines 297-302. -/
def strncatS (d : Option Buf) (dmax : Nat) (s : Option Buf) (slen : Nat) : Option (Err × Option Buf) :=
  match s, d with
  | some s, some d => if dmax = 0 then some (.zerol, some d) else (strncat slen d s).map fun d => (.ok, some d)
  | _, d => some (.nullp, d)

/-- The loop of `strisdigit_s`, `safe_str_stub.c` lines 139-148; it does not look at `dmax`. -/
def digitLoop : Buf → Option Bool
  | [] => none
  | c :: l => if c = 0 then some true else if c < 48 ∨ c > 57 then some false else digitLoop l

/-- `strisdigit_s`, `safe_str_stub.c` lines 120-149. -/
def strisdigitS (d : Option Buf) (dmax : Nat) : Option Bool :=
  match d with
  | none => some false
  | some d =>
    if dmax = 0 then some false
    else if dmax > maxSize then some false
    else match d with
      | [] => none
      | c :: l => if c = 0 then some false else digitLoop (c :: l)

/-- The inner loops of `strcspn_s` and `strspn_s`, `safe_str_stub.c` lines 198-207 and 265-276: is
`c` among the first `smax` characters of the string? -/
def among (c : Nat) : Nat → Buf → Option Bool
  | 0, [] => none
  | 0, _ => some false
  | _ + 1, [] => none
  | n + 1, a :: l => if a = 0 then some false else if c = a then some true else among c n l

/-- The outer loops of `strcspn_s` (`stop` is `true`: up to a character that is among those of
`src`) and `strspn_s` (`false`), `safe_str_stub.c` lines 192-214 and 259-288. -/
def spanLoop (stop : Bool) (src : Buf) (slen : Nat) : Nat → Buf → Option Nat
  | _, [] => none
  | n, c :: l =>
    if c = 0 ∨ n = 0 then some 0
    else match among c slen src with
      | none => none
      | some b => if b = stop then some 0 else (spanLoop stop src slen (n - 1) l).map (· + 1)

/-- `strcspn_s` and `strspn_s`, `safe_str_stub.c` lines 156-215 and 222-289, with a place for the
count. -/
def spanS (stop : Bool) (d : Option Buf) (dmax : Nat) (s : Option Buf) (slen : Nat) : Option (Err × Nat) :=
  match d, s with
  | some d, some s =>
    if dmax = 0 then some (.zerol, 0)
    else if dmax > maxSize then some (.lemax, 0)
    else if slen = 0 then some (.zerol, 0)
    else if slen > maxSize then some (.lemax, 0)
    else (spanLoop stop s slen dmax d).map fun n => (.ok, n)
  | _, _ => some (.nullp, 0)

/-- `strcpy_s`, `safe_str_stub.c` lines 309-314. -/
def strcpyS (d : Option Buf) (dmax : Nat) (s : Option Buf) : Option (Err × Option Buf) :=
  match s, d with
  | some s, some d => if dmax = 0 then some (.zerol, some d) else (strncpy dmax d s).map fun d => (.ok, some d)
  | _, d => some (.nullp, d)

/-- The copying loops of `strncpy_s`, `safe_str_stub.c` lines 354-378 and 383-407: `true` if the end
was reached. -/
def ncpyLoop : Nat → Nat → Buf → Buf → Option (Bool × Buf)
  | 0, _, d, _ => some (false, d)
  | _ + 1, 0, _ :: d, _ => some (true, 0 :: d)
  | m + 1, n + 1, _ :: d, c :: s =>
    if c = 0 then some (true, 0 :: d) else (ncpyLoop m n d s).map fun x => (x.1, c :: x.2)
  | _, _, _, _ => none

/-- `strncpy_s`, `safe_str_stub.c` lines 321-416; the byte written at line 347 for a large `slen` is
written again later. -/
def strncpyS (d : Option Buf) (dmax : Nat) (s : Option Buf) (slen : Nat) : Option (Err × Option Buf) :=
  match d with
  | none => some (.nullp, none)
  | some d =>
    if dmax = 0 then some (.zerol, some d)
    else if dmax > maxSize then some (.lemax, some d)
    else match s with
      | none => (memset d 0 1).map fun d => (.nullp, some d)
      | some s =>
        match ncpyLoop dmax slen d s with
        | none => none
        | some (true, d) => some (.ok, some d)
        | some (false, d) => (memset d 0 1).map fun d => (.nospc, some d)

/-- `strnlen_s`, `safe_str_stub.c` lines 423-428. -/
def strnlenS (s : Option Buf) (smax : Nat) : Option Nat :=
  match s with
  | none => some 0
  | some s => strnlen s smax

/-- `strstr_s`, `safe_str_stub.c` lines 435-441; the lengths are not looked at, nor are the pointers. -/
def strstrS (d s : Option Buf) : Option (Err × Option Nat) :=
  match d, s with
  | some d, some s => (strstr s d).map fun r => (if r.isSome then .ok else .srch, r)
  | _, _ => none

/-! ## `strtok_s`

The text of the string being cut is a list of characters without the zero byte at its end; `dlen` is
the length that is left. -/

/-- Result of a scan: the delimiter list is too long or the length is used up (the function returns
`NULL` and clears the context), a character that is no delimiter, a delimiter.
`safe_str_stub.c` lines 494-564. -/
inductive Hit | fail | other | delim
deriving DecidableEq, Repr

/-- One character against the delimiters, `safe_str_stub.c` lines 505-522 and 546-571: at most 16 are
looked at. -/
def hit (c : Nat) : Nat → List Nat → Hit
  | _, [] => .other
  | 0, _ :: _ => .fail
  | n + 1, a :: l => if c = a then .delim else hit c n l

/-- The state after a call: what `strtok_s` returned (`none` for `NULL`), the context (`none` if it
was not written or cleared) and the length.  `safe_str_stub.c` lines 448-578. -/
structure Cut where
  token : Option (List Nat)
  rest : Option (List Nat)
  len : Nat
deriving DecidableEq, Repr

/-- From the second character of a token on, `safe_str_stub.c` lines 536-577; `acc` is the
token so far, `ctx` the context before and `len` the length before. -/
def tokEnd (delims : List Nat) (ctx : Option (List Nat)) (len : Nat) : Nat → List Nat → List Nat → Cut
  | dlen, acc, [] => ⟨some acc, ctx, dlen⟩
  | 0, _, _ :: _ => ⟨none, none, len⟩
  | dlen + 1, acc, c :: l =>
    match hit c 16 delims with
    | .fail => ⟨none, none, len⟩
    | .delim => ⟨some acc, some l, dlen⟩
    | .other => tokEnd delims ctx len dlen (acc ++ [c]) l

/-- The search for the beginning of a token, `safe_str_stub.c` lines 489-534.  With no delimiter at
all no token is found. -/
def tokStart (delims : List Nat) (ctx : Option (List Nat)) (len : Nat) : Nat → List Nat → Cut
  | dlen, [] => ⟨none, ctx, dlen⟩
  | 0, _ :: _ => ⟨none, none, len⟩
  | dlen + 1, c :: l =>
    match hit c 16 delims with
    | .fail => ⟨none, none, len⟩
    | .delim => tokStart delims ctx len dlen l
    | .other => if delims = [] then tokStart delims ctx len dlen l else tokEnd delims ctx len dlen [c] l

/-- `strtok_s`, `safe_str_stub.c` lines 448-578: `dest` is the string, or `none` to go on from the
context.  A context that was not written by an earlier call is undefined. -/
def strtokS (dest : Option (List Nat)) (len : Nat) (delims : List Nat) (ctx : Option (List Nat)) : Option Cut :=
  if len = 0 then some ⟨none, ctx, 0⟩
  else if len > maxSize then some ⟨none, ctx, len⟩
  else match dest, ctx with
    | some d, ctx => some (tokStart delims ctx len len d)
    | none, some d => some (tokStart delims ctx len len d)
    | none, none => none

/-- A string cut by repeated calls, at most `fuel` of them, until `NULL` is returned, as callers of
`strtok_s` (`safe_str_stub.c` lines 448-578) do. -/
def tokens (delims : List Nat) : Nat → Option (List Nat) → Nat → Option (List Nat) → Option (List (List Nat))
  | 0, _, _, _ => some []
  | fuel + 1, dest, len, ctx =>
    match strtokS dest len delims ctx with
    | none => none
    | some c =>
      match c.token with
      | none => some []
      | some t => (tokens delims fuel none c.len c.rest).map (t :: ·)

end Verif.Safe
