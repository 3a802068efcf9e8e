/-!
# Model of `est_hex_to_str`

Source: `/repo/src/est/est.c` lines 1153-1168.
-/
namespace Verif.Hex

/-- The character table `"0123456789abcdef"`, `est.c` line 1161.
Characters are given by their ASCII codes. -/
def hexTable : List Nat :=
  [48, 49, 50, 51, 52, 53, 54, 55, 56, 57, 97, 98, 99, 100, 101, 102]

/-- Array read `hex[i]` (`est.c` lines 1164-1165).  `none` is an out-of-bounds
read; it cannot occur because `src` is `unsigned char`. -/
def hexAt (i : Nat) : Option Nat := hexTable[i]?

/-- `est_hex_to_str (dst, src, len)`, `est.c` lines 1159-1168.  The result is the
sequence of characters stored in `dst`, the terminating NUL (line 1167)
included.  `none` stands for undefined behaviour (table index out of range). -/
def hexToStr : List Nat → Option (List Nat)
  | [] => some [0]
  | b :: bs => do
    let hi ← hexAt (b >>> 4)
    let lo ← hexAt (b &&& 0x0f)
    let rest ← hexToStr bs
    return hi :: lo :: rest

end Verif.Hex
