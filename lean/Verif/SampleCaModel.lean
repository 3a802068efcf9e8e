/-!
# The sample certification authority

`example/server/ossl_srv.c` is the certification authority behind the sample server: the
`ca` command of OpenSSL turned into a function, `ossl_simple_enroll`.  Each call reads the
configuration, the index of issued certificates and the file with the next serial number,
checks the request against the policy, signs, writes the two files under new names and then
renames them.

The configuration, the request and what the file system does are arguments.  Every file
operation can fail, and the process can be killed during any of them.  Names and texts are
lists of bytes.
-/

namespace Verif.SampleCa

/-- The ASN.1 string types that the checks distinguish.  `example/server/ossl_srv.c` lines 1494-1541. -/
inductive StrType where
  | printable | ia5 | t61 | utf8 | bmp | other
deriving DecidableEq, Repr

/-- An entry of a name: object, type and bytes.  Which entries share one RDN is left out.
`example/server/ossl_srv.c` lines 1494-1498. -/
structure Entry where
  nid : Nat
  type : StrType
  data : List Nat
deriving DecidableEq, Repr

/-- `NID_pkcs9_emailAddress`, `example/server/ossl_srv.c` lines 1521-1521. -/
def email : Nat := 48

/-- The value of a line of the policy.  `example/server/ossl_srv.c` lines 1591-1643. -/
inductive Rule where
  | optional | supplied | equal | unknown
deriving DecidableEq, Repr

/-- A line of the policy; `none` is a name `OBJ_txt2nid` does not know.
`example/server/ossl_srv.c` lines 1568-1576. -/
structure Line where
  nid : Option Nat
  rule : Rule
deriving DecidableEq, Repr

/-- An extension, its object and everything else.  `example/server/ossl_srv.c` lines 549-586. -/
structure Ext where
  oid : Nat
  val : List Nat
deriving DecidableEq, Repr

/-- `EXT_COPY_NONE`, `EXT_COPY_ADD`, `EXT_COPY_ALL`.  `example/server/ossl_srv.c` lines 549-586, 700-710. -/
inductive Copy where
  | never | add | all
deriving DecidableEq, Repr

/-- The configuration as far as it decides about a certificate.  `msie_hack` is simplified to
be off, as is the self-signed mode, which the code never turns on.
`example/server/ossl_srv.c` lines 2328-2338, 2400-2455, 2567-2616. -/
structure Conf where
  policy : List Line
  unique : Bool
  emailDn : Bool
  preserve : Bool
  copy : Copy
  exts : List Ext
  caName : List Entry
deriving DecidableEq, Repr

/-- A request: whether it can be decoded, whether its key can be unpacked, the result of
`X509_REQ_verify`, and what it asks for.  `example/server/ossl_srv.c` lines 2008-2047. -/
structure Csr where
  decodes : Bool
  keyOk : Bool
  sig : Int
  name : List Entry
  key : Nat
  exts : List Ext
deriving DecidableEq, Repr

/-- A signed certificate.  `example/server/ossl_srv.c` lines 1764-1892. -/
structure Cert where
  serial : Nat
  issuer : List Entry
  subject : List Entry
  key : Nat
  exts : List Ext
deriving DecidableEq, Repr

/-- A line of the index: its type character, whether it has a date of revocation, whether its
date of expiry is well formed, the serial number in hexadecimal and the name on one line.
`example/server/ossl_srv.c` lines 2467-2508. -/
structure Row where
  type : Nat
  revoked : Bool
  dateOk : Bool
  serial : List Nat
  name : List Nat
deriving DecidableEq, Repr

/-- The index file; `bad` is a file `TXT_DB_read` refuses, cut off in the middle of a line.
`example/server/ossl_srv.c` lines 913-919. -/
structure Idx where
  rows : List Row
  bad : Bool
deriving DecidableEq, Repr

/-- The file with the attributes of the index: the setting, if there is one, and whether the
file cannot be parsed.  `example/server/ossl_srv.c` lines 921-954. -/
structure Att where
  unique : Option Bool
  bad : Bool
deriving DecidableEq, Repr

/-- A file under its name, with the suffix `new` and with the suffix `old`.
`example/server/ossl_srv.c` lines 515-516, 1077-1081. -/
structure Gens (α : Type) where
  cur : Option α
  new : Option α
  old : Option α
deriving DecidableEq, Repr

/-- The three files of the authority.  `example/server/ossl_srv.c` lines 451-547, 1017-1140. -/
structure Fs where
  ser : Gens (List Nat)
  db : Gens Idx
  att : Gens Att
deriving DecidableEq, Repr

/-- What `rename` does: it works, it fails, or the process is killed before it.
`example/server/ossl_srv.c` lines 520-543, 1083-1137. -/
inductive Mv where
  | ok | fail | die
deriving DecidableEq, Repr

/-- Who notices that a file was not written to its end: the call that writes, nobody (the
data was in the buffer of stdio and `BIO_free` ignores the result of `fclose`), or the
process was killed.  `example/server/ossl_srv.c` lines 488-498, 1042-1057. -/
inductive How where
  | reported | silent | killed
deriving DecidableEq, Repr

/-- What writing a file does: all of it, the file cannot be opened, or only the first `k`
pieces, with half a piece behind them if `bad`.  `example/server/ossl_srv.c` lines 474-489, 1037-1057. -/
inductive Wr where
  | ok
  | noOpen
  | cut (k : Nat) (bad : Bool) (how : How)
deriving DecidableEq, Repr

/-- Everything the environment decides during one call: whether the configuration, the key and
the certificate of the authority load, whether the index and the serial number can be read,
whether OpenSSL makes and signs the certificate and extends the two lists, what the three
writes and the renames do, and whether the answer can be converted.
`example/server/ossl_srv.c` lines 2241-2774. -/
structure Env where
  config : Bool
  readDb : Bool
  readSer : Bool
  make : Bool
  push : Bool
  wSer : Wr
  wDb : Wr
  wAtt : Wr
  s1 : Mv
  s2 : Mv
  s3 : Mv
  d1 : Mv
  d2 : Mv
  d2' : Mv
  a1 : Mv
  a1' : Mv
  a1'' : Mv
  a2 : Mv
  a2' : Mv
  a2'' : Mv
  a2''' : Mv
  p7 : Bool
deriving DecidableEq, Repr

/-- The two functions of OpenSSL that the index needs: a name on one line, and the hash of a
string, which is 0 for the empty string and for NULL.  `example/server/ossl_srv.c` lines 986-991, 1946-1946. -/
structure Lib where
  oneline : List Entry → List Nat
  hash : List Nat → Nat
  hash_nil : hash [] = 0

/-- How a call ends: with a value, the process is killed, or undefined behaviour.
`example/server/ossl_srv.c` lines 2156-2804. -/
inductive Out (α : Type) where
  | val (a : α)
  | killed
  | ub
deriving DecidableEq, Repr

/-! ### Numbers -/

/-- The bytes of a number, most significant first; `fuel` bounds their number.
`example/server/ossl_srv.c` lines 1692-1695. -/
def bytesF : Nat → Nat → List Nat
  | 0, n => [n % 256]
  | fuel + 1, n => if n < 256 then [n] else bytesF fuel (n / 256) ++ [n % 256]

/-- `BN_bn2hex` and `i2a_ASN1_INTEGER` print two digits for each byte.
`example/server/ossl_srv.c` lines 488-488, 1692-1695. -/
def digit (d : Nat) : Nat := if d < 10 then 48 + d else 55 + d

/-- A number in hexadecimal.  The line breaks of `i2a_ASN1_INTEGER` after 35 bytes are left
out, as are negative numbers.  `example/server/ossl_srv.c` lines 488-488, 1692-1695. -/
def hexText (n : Nat) : List Nat :=
  (bytesF n n).flatMap fun b => [digit (b / 16), digit (b % 16)]

/-- A hexadecimal digit, in either case.  `example/server/ossl_srv.c` lines 428-432, 2498-2507. -/
def isHex (c : Nat) : Bool :=
  (48 ≤ c && c ≤ 57) || (65 ≤ c && c ≤ 70) || (97 ≤ c && c ≤ 102)

/-- Its value.  `example/server/ossl_srv.c` lines 428-432. -/
def hexDigit (c : Nat) : Nat := if c ≤ 57 then c - 48 else if c ≤ 70 then c - 55 else c - 87

/-- The value of a text of digits.  `example/server/ossl_srv.c` lines 428-437. -/
def hexVal (t : List Nat) : Nat := t.foldl (fun a c => 16 * a + hexDigit c) 0

/-- `load_serial` with a file that can be opened: the digits at the start of the first line,
an even number of them and at least two.  Continuation lines and a sign are left out.
`example/server/ossl_srv.c` lines 428-437. -/
def readSerial (t : List Nat) : Option Nat :=
  let d := (t.takeWhile (· != 10)).takeWhile isHex
  if d.length < 2 ∨ d.length % 2 ≠ 0 then none else some (hexVal d)

/-- What `save_serial` writes.  `example/server/ossl_srv.c` lines 488-489. -/
def serialText (n : Nat) : List Nat := hexText n ++ [10]

/-- `index_serial_cmp` skips zeros at the front.  `example/server/ossl_srv.c` lines 964-981. -/
def strip (t : List Nat) : List Nat := t.dropWhile (· == 48)

/-! ### The index -/

/-- The checks on each line of the index.  `example/server/ossl_srv.c` lines 2467-2508. -/
def rowOk (r : Row) : Bool :=
  !(r.type != 82 && r.revoked) && r.dateOk &&
    (let d := if r.serial.head? = some 45 then r.serial.drop 1 else r.serial
     d.length % 2 == 0 && decide (2 ≤ d.length) && d.all isHex)

/-- `TXT_DB_create_index` over the serial numbers: refused if two are the same.
`example/server/ossl_srv.c` lines 998-1006. -/
def noDupSerial : List Row → Bool
  | [] => true
  | r :: rs => !(rs.any fun x => strip x.serial == strip r.serial) && noDupSerial rs

/-- `TXT_DB_create_index` over the names of the valid certificates.
`example/server/ossl_srv.c` lines 983-991, 1007-1014. -/
def noDupName : List Row → Bool
  | [] => true
  | r :: rs => !(r.type == 86 && rs.any fun x => x.type == 86 && x.name == r.name) && noDupName rs

/-- `load_index`, the checks and `index_index`: the rows and whether subjects have to be unique.
`example/server/ossl_srv.c` lines 901-963, 998-1015, 2457-2520. -/
def loadIndex (cf : Conf) (e : Env) (fs : Fs) : Option (List Row × Bool) :=
  match fs.db.cur with
  | none => none
  | some idx =>
    if !e.readDb || idx.bad then none
    else
      match fs.att.cur with
      | none => finish idx.rows cf.unique
      | some a => if a.bad then none else finish idx.rows (a.unique.getD cf.unique)
where
  /-- The checks of the loaded index.  `example/server/ossl_srv.c` lines 998-1015, 2467-2520. -/
  finish (rows : List Row) (u : Bool) : Option (List Row × Bool) :=
    if rows.all rowOk && noDupSerial rows && (!u || noDupName rows) then some (rows, u) else none

/-- `TXT_DB_get_by_index` for the name of a row that has none yet: the hash of NULL is 0, and an
entry with the same hash is compared with `strcmp`.  The result is whether that happens;
otherwise nothing is found.  `example/server/ossl_srv.c` lines 986-991, 1701-1709. -/
def comparesNull (lib : Lib) (rows : List Row) : Bool :=
  rows.any fun r => r.type == 86 && lib.hash r.name == 0

/-- `TXT_DB_insert` of a valid certificate.  `example/server/ossl_srv.c` lines 1957-1972. -/
def insertRow (unique : Bool) (rows : List Row) (r : Row) : Option (List Row) :=
  if rows.any fun x => strip x.serial == strip r.serial then none
  else if unique && rows.any fun x => x.type == 86 && x.name == r.name then none
  else some (rows ++ [r])

/-! ### The certificate -/

/-- The characters of a PrintableString.  `example/server/ossl_srv.c` lines 1531-1535. -/
def isPrintable (c : Nat) : Bool :=
  (97 ≤ c && c ≤ 122) || (65 ≤ c && c ≤ 90) || (48 ≤ c && c ≤ 57) ||
    [32, 39, 40, 41, 43, 44, 45, 46, 47, 58, 61, 63].contains c

/-- `ASN1_PRINTABLE_type`.  `example/server/ossl_srv.c` lines 1531-1535. -/
def printableType (d : List Nat) : StrType :=
  if d.any (128 ≤ ·) then .t61 else if d.all isPrintable then .printable else .ia5

/-- The check of one entry of the subject of the request.  `example/server/ossl_srv.c` lines 1520-1541. -/
def entryOk (cf : Conf) (e : Entry) : Bool :=
  if e.nid = email ∧ cf.emailDn = false then true
  else if e.nid = email ∧ e.type ≠ .ia5 then false
  else if e.type ≠ .bmp ∧ e.type ≠ .utf8 then
    !((printableType e.data == .t61 && e.type != .t61) ||
      (printableType e.data == .ia5 && e.type == .printable))
  else true

/-- The entry of the authority's name with the object and the value of `t`, looked for from the
front.  `example/server/ossl_srv.c` lines 1613-1637. -/
def matching : List Entry → Nat → Entry → Option Entry
  | [], _, _ => none
  | c :: cs, nid, t =>
    if c.nid = nid ∧ c.type = t.type ∧ c.data = t.data then some c else matching cs nid t

/-- The loop over the entries of the request for one line of the policy; `first` is the round in
which `last` still is -1.  `example/server/ossl_srv.c` lines 1578-1655. -/
def policyLoop (cf : Conf) (nid : Nat) (rule : Rule) :
    (first : Bool) → List Entry → List Entry → Option (List Entry)
  | first, [], subject =>
    if first then
      match rule with
      | .optional => some subject
      | _ => none
    else some subject
  | first, t :: ts, subject =>
    if t.nid = nid then
      match rule with
      | .optional => policyLoop cf nid rule false ts (subject ++ [t])
      | .supplied => policyLoop cf nid rule false ts (subject ++ [t])
      | .equal =>
        match matching cf.caName nid t with
        | some c => policyLoop cf nid rule false ts (subject ++ [c])
        | none => none
      | .unknown => none
    else policyLoop cf nid rule first ts subject

/-- The loop over the policy.  `example/server/ossl_srv.c` lines 1568-1656. -/
def policySubject (cf : Conf) (name : List Entry) : List Line → List Entry → Option (List Entry)
  | [], subject => some subject
  | l :: ls, subject =>
    match l.nid with
    | none => none
    | some nid =>
      match policyLoop cf nid l.rule true name subject with
      | some s => policySubject cf name ls s
      | none => none

/-- The subject of the certificate: made by the policy, or the one of the request, and without
mail addresses if they are not wanted.  `example/server/ossl_srv.c` lines 1547-1690, 1888-1892. -/
def subjectOf (cf : Conf) (name : List Entry) : Option (List Entry) :=
  match policySubject cf name cf.policy [] with
  | none => none
  | some s =>
    let s := if cf.preserve then name else s
    some (if cf.emailDn then s else s.filter fun e => e.nid != email)

/-- `copy_extensions`.  `example/server/ossl_srv.c` lines 549-586. -/
def copyExts (copy : Copy) : List Ext → List Ext → List Ext
  | have_, [] => have_
  | have_, x :: xs =>
    match copy with
    | .never => have_
    | .add => if have_.any fun y => y.oid == x.oid then copyExts copy have_ xs
              else copyExts copy (have_ ++ [x]) xs
    | .all => copyExts copy ((have_.filter fun y => y.oid != x.oid) ++ [x]) xs

/-- `certify` and `do_body`: the certificate and the rows with it.  `none` is an error.  Reading
dates and the interactive question (`batch` is always set) are left out.
`example/server/ossl_srv.c` lines 1442-2059. -/
def certify (lib : Lib) (cf : Conf) (e : Env) (csr : Csr) (rows : List Row) (unique : Bool)
    (serial : Nat) : Out (Option (Cert × List Row)) :=
  if !csr.decodes || !csr.keyOk || decide (csr.sig ≤ 0) then .val none
  else if !csr.name.all (entryOk cf) then .val none
  else
    match subjectOf cf csr.name with
    | none => .val none
    | some subject =>
      if unique && comparesNull lib rows then .ub
      else if rows.any fun r => strip r.serial == strip (hexText serial) then .val none
      else if !e.make then .val none
      else
        let cert : Cert := ⟨serial, cf.caName, subject, csr.key, copyExts cf.copy cf.exts csr.exts⟩
        match insertRow unique rows ⟨86, false, true, hexText serial, lib.oneline subject⟩ with
        | none => .val none
        | some rows' => .val (some (cert, rows'))

/-! ### Writing -/

/-- Gives back what a file holds after a write that was cut off.  `example/server/ossl_srv.c`
lines 451-500. -/
def saveSerial (e : Env) (n : Nat) (fs : Fs) : Fs × Out Bool :=
  let put (t : List Nat) : Fs := { fs with ser := { fs.ser with new := some t } }
  match e.wSer with
  | .ok => (put (serialText n), .val true)
  | .noOpen => (fs, .val false)
  | .cut k _ .killed => (put ((serialText n).take k), .killed)
  | .cut k _ _ => (put ((serialText n).take k), .val true)

/-- `save_index`: first the rows, then the attributes, whose result is not looked at.
`example/server/ossl_srv.c` lines 1017-1061. -/
def saveIndex (e : Env) (rows : List Row) (unique : Bool) (fs : Fs) : Fs × Out Bool :=
  match e.wDb with
  | .noOpen => (fs, .val false)
  | .cut k bad .killed => (putDb ⟨rows.take k, bad⟩, .killed)
  | .cut k bad .reported => (putDb ⟨rows.take k, bad⟩, .val false)
  | .cut k bad .silent => saveAtt (putDb ⟨rows.take k, bad⟩)
  | .ok => saveAtt (putDb ⟨rows, false⟩)
where
  /-- The index under its new name.  `example/server/ossl_srv.c` lines 1035-1044. -/
  putDb (i : Idx) : Fs := { fs with db := { fs.db with new := some i } }
  /-- The attributes under their new name.  `example/server/ossl_srv.c` lines 1046-1057. -/
  saveAtt (fs : Fs) : Fs × Out Bool :=
    let put (a : Att) : Fs := { fs with att := { fs.att with new := some a } }
    match e.wAtt with
    | .ok => (put ⟨some unique, false⟩, .val true)
    | .noOpen => (fs, .val false)
    | .cut k bad .killed => (put ⟨if k = 0 then none else some unique, bad⟩, .killed)
    | .cut k bad _ => (put ⟨if k = 0 then none else some unique, bad⟩, .val true)

/-- Which of the three names.  `example/server/ossl_srv.c` lines 515-516. -/
inductive Gen where
  | cur | new | old
deriving DecidableEq, Repr

/-- The file under one of the names.  `example/server/ossl_srv.c` lines 520-543. -/
def Gens.get {α : Type} (g : Gens α) : Gen → Option α
  | .cur => g.cur
  | .new => g.new
  | .old => g.old

/-- Puts a file under a name.  `example/server/ossl_srv.c` lines 520-543. -/
def Gens.set {α : Type} (g : Gens α) : Gen → Option α → Gens α
  | .cur, x => { g with cur := x }
  | .new, x => { g with new := x }
  | .old, x => { g with old := x }

/-- The outcomes of `rename`: done, there is no such file, or another error.
`example/server/ossl_srv.c` lines 520-526. -/
inductive MvRes where
  | ok | missing | error
deriving DecidableEq, Repr

/-- `rename`; `none` if the process is killed.  Without a source it fails with ENOENT whatever
the environment says.  `example/server/ossl_srv.c` lines 520-543. -/
def mv {α : Type} (m : Mv) (a b : Gen) (g : Gens α) : Option (Gens α × MvRes) :=
  match m, g.get a with
  | .die, _ => none
  | _, none => some (g, .missing)
  | .fail, some _ => some (g, .error)
  | .ok, some x => some ((g.set b (some x)).set a none, .ok)

/-- `rotate_serial`.  `example/server/ossl_srv.c` lines 502-547. -/
def rotateSerial (e : Env) (g : Gens (List Nat)) : Gens (List Nat) × Out Bool :=
  match mv e.s1 .cur .old g with
  | none => (g, .killed)
  | some (g1, .error) => (g1, .val false)
  | some (g1, _) =>
    match mv e.s2 .new .cur g1 with
    | none => (g1, .killed)
    | some (g2, .ok) => (g2, .val true)
    | some (g2, _) =>
      match mv e.s3 .old .cur g2 with
      | none => (g2, .killed)
      | some (g3, _) => (g3, .val false)

/-- The part of `rotate_index` that undoes the renaming of the index.
`example/server/ossl_srv.c` lines 1110-1117, 1128-1135. -/
def undoDb (m m' : Mv) (d : Gens Idx) : Gens Idx × Out Bool :=
  match mv m .cur .new d with
  | none => (d, .killed)
  | some (d1, _) =>
    match mv m' .old .cur d1 with
    | none => (d1, .killed)
    | some (d2, _) => (d2, .val false)

/-- The part of `rotate_index` that renames the attributes.  `example/server/ossl_srv.c` lines 1102-1139. -/
def rotateAtt (e : Env) (d : Gens Idx) (a : Gens Att) : Gens Idx × Gens Att × Out Bool :=
  match mv e.a1 .cur .old a with
  | none => (d, a, .killed)
  | some (a1, .error) => let r := undoDb e.a1' e.a1'' d; (r.1, a1, r.2)
  | some (a1, _) =>
    match mv e.a2 .new .cur a1 with
    | none => (d, a1, .killed)
    | some (a2, .ok) => (d, a2, .val true)
    | some (a2, _) =>
      match mv e.a2' .old .cur a2 with
      | none => (d, a2, .killed)
      | some (a3, _) => let r := undoDb e.a2'' e.a2''' d; (r.1, a3, r.2)

/-- `rotate_index`.  `example/server/ossl_srv.c` lines 1063-1140. -/
def rotateIndex (e : Env) (d : Gens Idx) (a : Gens Att) : Gens Idx × Gens Att × Out Bool :=
  match mv e.d1 .cur .old d with
  | none => (d, a, .killed)
  | some (d1, .error) => (d1, a, .val false)
  | some (d1, _) =>
    match mv e.d2 .new .cur d1 with
    | none => (d1, a, .killed)
    | some (d2, .ok) => rotateAtt e d2 a
    | some (d2, _) =>
      match mv e.d2' .old .cur d2 with
      | none => (d2, a, .killed)
      | some (d3, _) => (d3, a, .val false)

/-- The name of the file for the certificate, which is built and never used: `/`, two digits for
each byte of the serial number, `.pem` and a NUL in 256 bytes.  The loop stops at the end of the
array but the rest is written without a check.  `example/server/ossl_srv.c` lines 2712-2747. -/
def nameFits (n : Nat) : Bool := decide (1 + (hexText n).length + 5 ≤ 256)

/-- `ossl_simple_enroll`.  `example/server/ossl_srv.c` lines 2156-2804. -/
def enroll (lib : Lib) (cf : Conf) (e : Env) (csr : Csr) (fs : Fs) : Fs × Out (Option Cert) :=
  if !e.config then (fs, .val none)
  else
    match loadIndex cf e fs, fs.ser.cur.bind readSerial with
    | some (rows, unique), some serial =>
      if !e.readSer then (fs, .val none)
      else
        match certify lib cf e csr rows unique serial with
        | .ub => (fs, .ub)
        | .killed => (fs, .killed)
        | .val none => (fs, .val none)
        | .val (some (cert, rows')) =>
          if !e.push then (fs, .val none) else
          match saveSerial e (serial + 1) fs with
          | (fs1, .val true) =>
            match saveIndex e rows' unique fs1 with
            | (fs2, .val true) => publish e cert serial fs2
            | (fs2, .val false) => (fs2, .val none)
            | (fs2, .killed) => (fs2, .killed)
            | (fs2, .ub) => (fs2, .ub)
          | (fs1, .val false) => (fs1, .val none)
          | (fs1, .killed) => (fs1, .killed)
          | (fs1, .ub) => (fs1, .ub)
    | _, _ => (fs, .val none)
where
  /-- The end of `ossl_simple_enroll`, after both files were written.
  `example/server/ossl_srv.c` lines 2712-2774. -/
  publish (e : Env) (cert : Cert) (serial : Nat) (fs : Fs) : Fs × Out (Option Cert) :=
    if !nameFits serial then (fs, .ub) else
    match rotateSerial e fs.ser with
    | (s, .val true) =>
      match rotateIndex e fs.db fs.att with
      | (d, a, .val true) => (⟨s, d, a⟩, .val (if e.p7 then some cert else none))
      | (d, a, .val false) => (⟨s, d, a⟩, .val none)
      | (d, a, .killed) => (⟨s, d, a⟩, .killed)
      | (d, a, .ub) => (⟨s, d, a⟩, .ub)
    | (s, .val false) => ({ fs with ser := s }, .val none)
    | (s, .killed) => ({ fs with ser := s }, .killed)
    | (s, .ub) => ({ fs with ser := s }, .ub)

/-- One enrolment: the configuration is read again each time.  `example/server/estserver.c`
lines 774-793. -/
structure Call where
  cf : Conf
  env : Env
  csr : Csr
deriving DecidableEq, Repr

/-- A sequence of enrolments, one at a time because of the mutex `m`; a server that was killed is
started again.  The certificates given out, the files at the end, and whether the behaviour was
defined up to then.  `example/server/estserver.c` lines 774-808, 975-1000. -/
def run (lib : Lib) : Fs → List Call → List Cert × Fs × Bool
  | fs, [] => ([], fs, true)
  | fs, c :: cs =>
    match enroll lib c.cf c.env c.csr fs with
    | (fs', .ub) => ([], fs', false)
    | (fs', .killed) => run lib fs' cs
    | (fs', .val none) => run lib fs' cs
    | (fs', .val (some cert)) =>
      let r := run lib fs' cs
      (cert :: r.1, r.2.1, r.2.2)

end Verif.SampleCa
