/-!
# Reading requests and keys from memory

`src/est/est.c` lines 322-373 and 397-429: `est_read_x509_request` and `est_load_key`.

Memory is the bytes of the application's object from the pointer on; reading behind them is undefined.  The decoders
of OpenSSL are parameters, and are taken to look at all bytes the memory BIO covers.
-/
namespace Verif.Reader

/-- What a call does: an invalid access, or the result with the bytes the decoder was shown and the memory BIOs that
are allocated afterwards.  `est.c` lines 322-429. -/
inductive Out (K : Type)
  | ub
  | ret (res : Option K) (seen : Option (List Nat)) (bios : Nat)
deriving DecidableEq, Repr

/-- What `BIO_new_mem_buf` covers as called in `est.c` lines 344 and 407: the given number of bytes, or for a negative
number those before the first zero byte.  `none`: there are not as many. -/
def covers (mem : List Nat) (len : Int) : Option (List Nat) :=
  if len < 0 then
    if 0 ∈ mem then some (mem.takeWhile (· ≠ 0)) else none
  else if len.toNat ≤ mem.length then some (mem.take len.toNat) else none

/-- `est_read_x509_request`, `est.c` lines 322-373.  The formats are 1 for PEM and 2 for DER, `est.h` lines 306-310;
`bio`: whether a BIO can be had.  The default of the `switch` (lines 357-359) cannot be reached. -/
def readRequest {K : Type} (pem der : List Nat → Option K) (bio : Bool) (csr : Option (List Nat)) (len format : Int)
    (bios : Nat) : Out K :=
  match csr with
  | none => .ret none none bios
  | some mem =>
    if len > 8192 then .ret none none bios
    else if format ≠ 1 ∧ format ≠ 2 then .ret none none bios
    else if !bio then .ret none none bios
    else
      match covers mem len with
      | none => .ub
      | some bytes => .ret (if format = 1 then pem bytes else der bytes) (some bytes) (bios + 1 - 1)

/-- `est_load_key`, `est.c` lines 397-429.  With another format nothing is decoded, but a negative length has been
measured by then. -/
def loadKey {K : Type} (pem der : List Nat → Option K) (bio : Bool) (key : Option (List Nat)) (len format : Int)
    (bios : Nat) : Out K :=
  match key with
  | none => .ret none none bios
  | some mem =>
    if !bio then .ret none none bios
    else
      let opened := bios + 1
      match covers mem len with
      | none => if format = 1 ∨ format = 2 ∨ len < 0 then .ub else .ret none none (opened - 1)
      | some bytes =>
        if format = 1 then .ret (pem bytes) (some bytes) (opened - 1)
        else if format = 2 then .ret (der bytes) (some bytes) (opened - 1)
        else .ret none none (opened - 1)

end Verif.Reader
