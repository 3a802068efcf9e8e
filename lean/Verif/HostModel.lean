/-!
# Model of the server name check of the client

Source: `/repo/src/est/est_client.c` lines 2282-2755.  C strings are lists of bytes without
the NUL.
-/
namespace Verif.Host

/-- `est_client_Curl_raw_toupper`, `est_client.c` lines 2282-2339. -/
def upper (c : Nat) : Nat := if 97 ≤ c ∧ c ≤ 122 then c - 32 else c

/-- The last comparison of the two functions below: the characters where the loops stopped,
the NUL at the end.  `est_client.c` lines 2366 and 2383. -/
def sameHead (a b : List Nat) : Bool := upper (a.headD 0) == upper (b.headD 0)

/-- `est_client_Curl_raw_equal`, `est_client.c` lines 2353-2367. -/
def rawEqual : List Nat → List Nat → Bool
  | a :: as, b :: bs => if upper a ≠ upper b then sameHead (a :: as) (b :: bs) else rawEqual as bs
  | as, bs => sameHead as bs

/-- `est_client_Curl_raw_nequal`, `est_client.c` lines 2369-2384. -/
def rawNequal : List Nat → List Nat → Nat → Bool
  | _, _, 0 => true
  | a :: as, b :: bs, k + 1 =>
    if upper a ≠ upper b then sameHead (a :: as) (b :: bs) else rawNequal as bs k
  | as, bs, _ + 1 => sameHead as bs

/-- `strchr(s, c)`: the rest of the string from the first `c` on, `[]` for `NULL`.
Called at `est_client.c` lines 2406, 2420, 2421 and 2429. -/
def chr (c : Nat) (s : List Nat) : List Nat := s.dropWhile (· ≠ c)

/-- The characters before that point.  The part of the text in front of the result of
strchr, `est_client.c` lines 2406-2444. -/
def before (c : Nat) (s : List Nat) : List Nat := s.takeWhile (· ≠ c)

/-- What `inet_pton` makes of a host text: the four or sixteen address bytes.  Called at
`est_client.c` lines 2412-2414, 2525 and 2533. -/
structure Inet where
  v4 : List Nat → Option (List Nat)
  v6 : List Nat → Option (List Nat)

/-- Is the wildcard of the pattern honoured?  `est_client.c` lines 2416-2426. -/
def wildcardEnabled (pattern : List Nat) : Bool :=
  !(chr 46 pattern = [] || chr 46 (chr 46 pattern).tail = [] ||
    decide ((before 42 pattern).length > (before 46 pattern).length) ||
    rawNequal pattern [120, 110, 45, 45] 4)

/-- `est_client.c` lines 2429-2444. -/
def wildcardMatch (host pattern : List Nat) : Bool :=
  if chr 46 host = [] || !rawEqual (chr 46 pattern) (chr 46 host) then false
  else if (before 46 host).length < (before 46 pattern).length then false
  else
    let prefixlen := (before 42 pattern).length
    let suffixlen := (before 46 pattern).length - (prefixlen + 1)
    rawNequal pattern host prefixlen &&
      rawNequal (chr 42 pattern).tail (host.drop ((before 46 host).length - suffixlen)) suffixlen

/-- `est_client_hostmatch`, `est_client.c` lines 2398-2444. -/
def hostmatch (I : Inet) (host pattern : List Nat) : Bool :=
  if chr 42 pattern = [] then rawEqual pattern host
  else if (I.v4 host).isSome then false
  else if (I.v6 host).isSome then false
  else if !wildcardEnabled pattern then rawEqual pattern host
  else wildcardMatch host pattern

/-- `est_client_cert_hostcheck`, `est_client.c` lines 2450-2470. -/
def hostcheck (I : Inet) (pattern host : List Nat) : Bool :=
  if pattern = [] || host = [] then false
  else if rawEqual host pattern then true
  else hostmatch I host pattern

/-! ## `est_client_verifyhost` -/

/-- One subjectAltName.  The bytes are those of the ASN.1 string, which OpenSSL ends with a
NUL.  The GENERAL_NAME of `est_client.c` lines 2553-2628. -/
inductive San
  | dns (b : List Nat)
  | ip (b : List Nat)
  | other
deriving DecidableEq, Repr

/-- The result of the check; `ub` is a read behind the address.  The outcomes of
`est_client.c` lines 2498-2721. -/
inductive Check
  | ub
  | ok
  | mismatch
deriving DecidableEq, Repr

/-- `EST_MAX_SERVERNAME_LEN`.  `est.h` line 41. -/
def maxName : Nat := 255

/-- `strnlen_s(p, 255)` of a string that is ended by a NUL.  Called in `est_client.c`
lines 2569-2590 and 2737-2755. -/
def nlen (b : List Nat) : Nat := min (before 0 b).length maxName

/-- A DNS name, `est_client.c` lines 2569-2590: no NUL inside, and it matches. -/
def dnsMatch (I : Inet) (host b : List Nat) : Bool :=
  b.length == nlen b && hostcheck I (before 0 b) host

/-- The address of the host, `est_client.c` lines 2524-2539: only if it is no IPv4 text it is tried as
IPv6. -/
def hostAddr (I : Inet) (host : List Nat) : Option (List Nat) :=
  match I.v4 host with
  | some a => some a
  | none => I.v6 host

/-- An IP address, `est_client.c` lines 2592-2624.  `memcmp_s` compares as many bytes as the certificate's
entry has, whatever the size of the host's address is. -/
def ipMatch (addr : Option (List Nat)) (b : List Nat) : Check :=
  match addr with
  | none => .mismatch
  | some a => if b.length > a.length then .ub else if b = a then .ok else .mismatch

/-- The loop over the names, `est_client.c` lines 2553-2628.  `none` stands for `matched == -1`. -/
def sanLoop (I : Inet) (host : List Nat) : Option Bool → List San → Option (Option Bool)
  | m, [] => some m
  | _, .dns b :: l => if dnsMatch I host b then some (some true) else sanLoop I host (some false) l
  | _, .ip b :: l =>
    match ipMatch (hostAddr I host) b with
    | .ub => none
    | .ok => some (some true)
    | .mismatch => sanLoop I host (some false) l
  | m, .other :: l => sanLoop I host m l

/-- The common name, `est_client.c` lines 2640-2717.  `cns` are the common names of the subject in order,
each as the UTF-8 conversion gives it, `none` if that fails. -/
def cnCheck (I : Inet) (host : List Nat) (cns : List (Option (List Nat))) : Check :=
  match cns.getLast? with
  | none => .mismatch
  | some none => .mismatch
  | some (some b) =>
    if b.length ≠ nlen b then .mismatch
    else if hostcheck I (before 0 b) host then .ok else .mismatch

/-- `est_client_verifyhost`, `est_client.c` lines 2498-2721. -/
def verifyhost (I : Inet) (host : List Nat) (sans : List San)
    (cns : List (Option (List Nat))) : Check :=
  match sanLoop I host none sans with
  | none => .ub
  | some (some true) => .ok
  | some (some false) => .mismatch
  | some none => cnCheck I host cns

/-- `est_client_check_fqdn`, `est_client.c` lines 2737-2755: `cert` is the peer certificate's names. -/
def checkFqdn (I : Inet) (srp : Bool) (host : List Nat)
    (cert : Option (List San × List (Option (List Nat)))) : Check :=
  match cert with
  | some c => verifyhost I host c.1 c.2
  | none => if srp then .ok else .mismatch

end Verif.Host
