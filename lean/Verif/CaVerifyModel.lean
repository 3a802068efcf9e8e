import Verif.Base64Model
import Verif.EstErr

/-!
# Model of the client's check of received CA certificates

Source: `/repo/src/est/est_client.c` lines 268-362 (`est_client_remove_crls`), 369-413
(`b64_decode_cacerts`), 418-447 (`create_PKCS7`), 450-475 (`PKCS7_to_stack`), 495-638
(`verify_cacert_resp`), 3985-4016 (`est_client_copy_cacerts`).  It is used for the answer to a
CA certificates request (line 3064) and for the certificate in a voucher (line 5543).

The OpenSSL calls are parameters.  Failing allocations are left out.
-/
namespace Verif.CaVerify

/-- A certificate or CRL is its encoding.  The objects of the sets walked at
`est_client.c` lines 268-362 and 495-638. -/
abbrev Der := List Nat

/-- The types of PKCS7 messages that the code tells apart.  The cases of `est_client.c`
lines 495-638 (PKCS7_type_is_signed and OBJ_obj2nid). -/
inductive Kind
  | signed | signedAndEnveloped | other
deriving DecidableEq, Repr

/-- A PKCS7 message as `d2i_PKCS7_bio` delivers it; the sets of certificates and CRLs are optional,
and each may be empty.  Read at `est_client.c` lines 369-413. -/
structure P7 where
  kind : Kind
  certs : Option (List Der)
  crls : Option (List Der)
  rest : List Nat
deriving DecidableEq, Repr

/-- The OpenSSL calls: reading through the base64 filter, `d2i_PKCS7_bio`, `i2d_PKCS7_bio`,
`X509_check_issued (c, c) == X509_V_OK`, and `X509_verify_cert` with a store of trusted
certificates, the whole stack as untrusted ones, and the certificate: 1 is success, 0 failure, and
a negative number an internal error.  Called at `est_client.c` lines 268-450 and
495-638. -/
structure Ossl where
  b64 : List Nat → List Nat
  d2i : List Nat → Option P7
  i2d : P7 → Option (List Nat)
  selfIssued : Der → Bool
  verify : List Der → List Der → Der → Int

/-- The buffer with the message: its bytes, and the length that is noted beside it.  Behind the
bytes there is one NUL (`est_client.c` lines 3045-3051, 5522-5530). -/
structure Buf where
  bytes : List Nat
  len : Nat
deriving DecidableEq, Repr

/-- What the two functions return.  The outcomes of `est_client.c` lines 268-362 and
495-638. -/
inductive Res
  | error (e : EstErr)
  | ok (b : Buf)
deriving DecidableEq, Repr

/-- `est_client_remove_crls`, `est_client.c` lines 268-362.  `memcpy_s` does not copy if the new text is longer
than the buffer, but the new length is noted all the same. -/
def removeCrls (o : Ossl) (t : List Nat) (p : P7) : Res :=
  if p.kind = .other then .error .cacertVerification
  else
    match p.crls with
    | none => .ok ⟨t, t.length⟩
    | some _ =>
      match o.i2d { p with crls := none } with
      | none => .error .cacertVerification
      | some d =>
        let n := Base64.bioWrite true d
        if n.length = 0 then .error .cacertVerification
        else .ok ⟨if n.length ≤ t.length then n ++ List.replicate (t.length - n.length) 0
          else List.replicate t.length 0, n.length⟩

/-- `verify_cacert_resp`, `est_client.c` lines 495-638.  Certificates for which the verification returns 0 are
noted; the rest of the list is looked at all the same, and the CRLs are removed. -/
def verifyResp (o : Ossl) (t : List Nat) : Res :=
  match o.d2i (o.b64 t) with
  | none => .error .loadCacerts
  | some p =>
    if p.kind = .other then .error .cacertVerification
    else
      match p.certs with
      | none => .error .cacertVerification
      | some stack =>
        let trusted := stack.filter o.selfIssued
        let failed := stack.any fun c => o.verify trusted stack c == 0
        let r := removeCrls o t p
        if failed then .error .cacertVerification else r

/-- `est_client_copy_cacerts`, `est_client.c` lines 4005-4008: `none` is a read behind the buffer. -/
def copyOut (b : Buf) : Option (List Nat) :=
  if b.len ≤ b.bytes.length + 1 then some ((b.bytes ++ [0]).take b.len) else none

end Verif.CaVerify
