import Verif.Asn1Model

/-!
# The helpers for CSR attributes

A model of the functions with which an application goes through the attributes
that the client has fetched (`est.c` lines 1613-1789), and of the loop of the
sample client around them (`example/client/estclient.c` lines 624-690).
`ASN1_get_object` and `d2i_ASN1_OBJECT` of OpenSSL are `getObject` and `oidOk` of
`Asn1Model`.
-/
namespace Verif.Asn1
open Verif.Base64 (decode DecRes)

/-- Outcome of the search for the next OBJECT IDENTIFIER: a byte behind the data
was read, an error, nothing found, or the contents of the identifier and the data
behind it.  The ways out of `est.c` lines 1747-1788. -/
inductive Next
  | stray
  | bad
  | nothing
  | found (oid rest : List Nat)
deriving DecidableEq, Repr

/-- The loop of `est_get_attributes_helper`, `est.c` lines 1747-1786.  The first
argument bounds the number of rounds (each takes at least two bytes, so the length
of the data is enough). -/
def nextOid : Nat → List Nat → Next
  | 0, _ => .stray
  | n + 1, l =>
    if l = [] then .nothing
    else
      match getObject l l.length with
      | .stray => .stray
      | .bad => .bad
      | .ok h =>
        let c := l.drop h.hl
        if h.tag = 6 then
          if oidOk (c.take h.len) then .found (c.take h.len) (c.drop h.len)
          else nextOid n c
        else if h.tag = 16 ∨ h.tag = 17 then nextOid n c
        else nextOid n (c.drop h.len)

/-- The variables of the application that are passed by reference: the number of
the last identifier and the data that are left.  The parameters of `est.c` line
1719. -/
structure Cursor where
  nid : Int
  rest : List Nat
deriving DecidableEq, Repr

/-- Outcome of a call: undefined, or the error code and the variables.  `est.c`
lines 1719-1789. -/
inductive Got
  | ub
  | ret (e : EstErr) (c : Cursor)
deriving DecidableEq, Repr

/-- `est_get_attributes_helper`, `est.c` lines 1719-1789, without null pointers.
`nid`: `OBJ_obj2nid`, 0 for identifiers OpenSSL does not know. -/
def getAttribute (nid : List Nat → Int) (c : Cursor) : Got :=
  match nextOid (c.rest.length + 1) c.rest with
  | .stray => .ub
  | .bad => .ret .badAsn1Hex c
  | .nothing => .ret .none c
  | .found o r => .ret .none ⟨nid o, r⟩

/-- Outcome of the decoding.  `est.c` lines 1668-1704. -/
inductive Decoded
  | ub
  | err (e : EstErr)
  | ok (der : List Nat)
deriving DecidableEq, Repr

/-- `est_decode_attributes_helper`, `est.c` lines 1668-1704; `none` is a null
pointer, memory is available. -/
def decodeAttributes (odd : Bool → List Nat → List Nat) (t : Option (List Nat)) : Decoded :=
  match t with
  | none => .err .invalidParameters
  | some t =>
    if t.length < 4 then .err .invalidParameters
    else
      match decode odd t (t.length * 2) with
      | .ub => .ub
      | .ret 0 _ => .err .badBase64
      | .ret _ der => .ok der

/-- `est_add_attributes_helper`, `est.c` lines 1626-1652: `req`, `string`: not a
null pointer; `added`: what `X509_REQ_add1_attr_by_NID` returns for the type.
The result and the type of string used (`MBSTRING_ASC` is 0x1001). -/
def addAttribute (req : Bool) (nid : Int) (string : Bool) (chtype : Int) (added : Int → Bool) : EstErr × Option Int :=
  if !req then (.invalidParameters, none)
  else if nid = 0 then (.invalidParameters, none)
  else if !string then (.invalidParameters, none)
  else
    let ty := if chtype = 0 then 0x1001 else chtype
    if !added ty then (.x509Attr, none) else (.none, some ty)

/-- The loop of the sample client, `estclient.c` lines 652-689, for at most so
many rounds: whether it has come to its end, and the numbers it has seen with
success. -/
def sampleLoop (nid : List Nat → Int) : Nat → Cursor → Bool × List Int
  | 0, c => (decide (c.rest = []), [])
  | k + 1, c =>
    if c.rest = [] then (true, [])
    else
      match getAttribute nid c with
      | .ub => (false, [])
      | .ret e c' =>
        let r := sampleLoop nid k c'
        (r.1, if e = .none then c'.nid :: r.2 else r.2)

/-- The sample client before that loop, `estclient.c` lines 624-650: the answer
for the attributes and the text; whether it goes on, with the data. -/
def sampleStart (odd : Bool → List Nat → List Nat) (rv : EstErr) (t : Option (List Nat)) : Decoded :=
  if rv ≠ .none ∧ rv ≠ .httpNoContent ∧ rv ≠ .httpNotFound then .err rv
  else decodeAttributes odd t

end Verif.Asn1
