import Verif.ServerModel
import Verif.SafeModel

/-!
# The subject fields of certificates and requests

`src/est/est_enhcd_cert_auth.c` lines 196-449: how enhanced certificate authentication finds a field of a
subject name and compares it, byte for byte.  `Verif.ServerModel` has the same decisions over texts;
here are the bytes of the names and the functions `…_s` of `Verif.SafeModel`.

Simplified: OpenSSL keeps a zero byte behind the data of each string it parses, and `STRNDUP` has memory.
-/
namespace Verif.SubjField
open Verif.Safe (Buf strnlen strnlenS strcmpS)
open Verif.Server (HdrRes Mfg)

/-- `X509_NAME`: identifiers and values in order.  What `est_enhcd_cert_auth.c` lines 201-217 read of it. -/
abbrev Name := List (Nat × List Nat)

/-- `find_subject_field_from_x509_name`, `est_enhcd_cert_auth.c` lines 201-217: the data of the first entry with
the identifier.  The data in memory is followed by a zero byte. -/
def findField (name : Name) (nid : Nat) : Option Buf :=
  match name.findIdx? (fun e => e.1 == nid) with
  | none => none
  | some i => (name[i]?).map fun e => e.2 ++ [0]

/-- `get_cert_subject_line_field` and `get_csr_subject_line_field`, `est_enhcd_cert_auth.c` lines 224-260: the result
and the pointer that is written (`none`: it is left alone). -/
def getField (name : Name) (nid : Nat) : HdrRes × Option Buf :=
  match findField name nid with
  | none => (.ecaErr, none)
  | some f => (.good, some f)

/-- The branch of `perform_enhanced_cert_auth_csr_check` for a manufacturer's certificate,
`est_enhcd_cert_auth.c` lines 318-348 and 402-404; `none` is undefined behaviour. -/
def mfgBranch (peer csr : Name) (nid : Nat) : Option HdrRes :=
  match getField peer nid with
  | (.good, a) =>
    match getField csr nid with
    | (.good, b) =>
      match strnlenS a 256, strnlenS b 256 with
      | some n, some m =>
        if n ≠ m then some .csrCheckFail
        else
          match strcmpS a n b with
          | none => none
          | some (.ok, some i) => some (if i ≠ 0 then .csrCheckFail else .good)
          | some _ => some .ecaErr
      | _, _ => none
    | _ => some .csrCheckFail
  | _ => some .csrCheckFail

/-- The loop over the manufacturers for other certificates, `est_enhcd_cert_auth.c` lines 351-399: the value of `cmp_ind`
behind it; `none` is undefined behaviour. -/
def localLoop (peer csr : Name) : Int → List Mfg → Option Int
  | ind, [] => some ind
  | ind, m :: ms =>
    if m.active then
      match getField peer m.nid with
      | (.good, a) =>
        match getField csr m.nid with
        | (.good, b) =>
          match strnlenS a 256, strnlenS b 256 with
          | some n, some k =>
            if n ≠ k then localLoop peer csr 1 ms
            else
              match strcmpS a n b with
              | none => none
              | some (_, i) => if i.getD ind = 0 then some (i.getD ind) else localLoop peer csr (i.getD ind) ms
          | _, _ => none
        | _ => localLoop peer csr 1 ms
      | _ => localLoop peer csr 1 ms
    else localLoop peer csr ind ms

/-- `perform_enhanced_cert_auth_csr_check`, `est_enhcd_cert_auth.c` lines 298-405.  The context is the list of
manufacturers it points to; an index outside of the list is undefined. -/
def check (ctx : Option (Option (List Mfg))) (peer csr : Option Name) (index : Int) : Option HdrRes :=
  match ctx, peer, csr with
  | some list, some peer, some csr =>
    match list with
    | none => some .csrCheckFail
    | some ms =>
      if 0 ≤ index then
        match ms[index.toNat]? with
        | none => none
        | some m => mfgBranch peer csr m.nid
      else (localLoop peer csr 0 ms).map fun ind => if ind ≠ 0 then .csrCheckFail else .good
  | _, _, _ => some .ecaErr

/-- `STRNDUP` of a string with at most 256 characters, as called in `est_enhcd_cert_auth.c` lines 438 and 443: the
characters copied; `none` is undefined behaviour. -/
def strndup (s : Buf) : Option (List Nat) := (strnlen s 256).map fun n => s.take n

/-- `build_enhanced_cert_auth_header`, `est_enhcd_cert_auth.c` lines 425-449: the result, the user and the password in
the header.  `pwd` is the configured password with its zero byte. -/
def header (pwd : Buf) (peer : Name) (nid : Nat) : Option (HdrRes × List Nat × List Nat) :=
  match getField peer nid with
  | (.good, some f) =>
    match strndup f, strndup pwd with
    | some u, some p => some (.good, u, p)
    | _, _ => none
  | _ => some (.ecaErr, [], [])

end Verif.SubjField
