import Verif.CliTlsModel

/-!
# What cipher texts and handshakes mean

OpenSSL's rules, as far as they are needed: the names of suites tell the key exchange and how the server is authenticated; a text
of ciphers is a list of words between colons, each a name, the word `SRP`, or an exclusion; a handshake uses a suite of the text.
-/
namespace Verif.CliTls

/-- The words between colons. -/
def words : List Nat → List (List Nat)
  | [] => [[]]
  | c :: r =>
    match words r with
    | [] => [[c]]
    | w :: l => if c = 58 then [] :: w :: l else (c :: w) :: l

/-- How a server shows who it is. -/
inductive Auth where
  | ecdsa | rsa | dss | srp | anonymous
deriving DecidableEq, Repr

/-- It does so with a certificate. -/
def Auth.byCert : Auth → Bool
  | .ecdsa => true
  | .rsa => true
  | .dss => true
  | _ => false

/-- A text begins with another. -/
def Begins (s p : List Nat) : Bool := p.isPrefixOf s

/-- The keys are exchanged by SRP. -/
def bySrp (suite : List Nat) : Bool := Begins suite [83, 82, 80, 45]

/-- How the server is authenticated, told by the name of the suite. -/
def authOf (suite : List Nat) : Auth :=
  if Begins suite [69, 67, 68, 72, 69, 45, 69, 67, 68, 83, 65, 45] then .ecdsa
  else if Begins suite [69, 67, 68, 72, 69, 45, 82, 83, 65, 45] || Begins suite [68, 72, 69, 45, 82, 83, 65, 45] || Begins suite [83, 82, 80, 45, 82, 83, 65, 45] || Begins suite [65, 69, 83] then .rsa
  else if Begins suite [68, 72, 69, 45, 68, 83, 83, 45] || Begins suite [83, 82, 80, 45, 68, 83, 83, 45] then .dss
  else if Begins suite [83, 82, 80, 45] then .srp
  else .anonymous

/-- The word names the suite, or is `SRP` and the suite has this key exchange. -/
def Names (w suite : List Nat) : Prop := suite = w ∨ (w = [83, 82, 80] ∧ bySrp suite = true)

/-- The word excludes the suite. -/
def Excludes (w suite : List Nat) : Prop := (w = [33, 97, 82, 83, 65] ∧ authOf suite = .rsa) ∨ (w = [33, 97, 68, 83, 83] ∧ authOf suite = .dss)

/-- The suite belongs to the text.  No suite has the name of another word. -/
def Offered (text suite : List Nat) : Prop :=
  suite ∉ ([[83, 82, 80], [33, 97, 82, 83, 65], [33, 97, 68, 83, 83], []] : List (List Nat)) ∧
  (∃ w ∈ words text, Names w suite) ∧ ¬ ∃ w ∈ words text, Excludes w suite

/-- The versions of the protocol. -/
inductive Version where
  | ssl2 | ssl3 | tls10 | tls11 | tls12 | tls13
deriving DecidableEq, Repr

/-- A version may be used. -/
def Ssl.allows (s : Ssl) : Version → Bool
  | .ssl2 => !s.no2
  | .ssl3 => !s.no3
  | .tls10 => !s.no10
  | .tls11 => decide (0x302 ≤ s.max)
  | .tls12 => decide (0x303 ≤ s.max)
  | .tls13 => decide (0x304 ≤ s.max)

/-- OpenSSL's rules for a handshake that succeeds: the suite is one of those offered, one with SRP needs a user and a password, and
the server sends a certificate if the suite says so. -/
structure Rules (s : Ssl) (suite : List Nat) (cert : Bool) : Prop where
  offered : Offered s.ciphers suite
  creds : bySrp suite = true → s.user.isSome = true ∧ s.pwd.isSome = true
  cert : cert = (authOf suite).byCert

/-- The application has given this user and this password. -/
def Gave (l : List Op) (u p : List Nat) : Prop := ∃ o n, Op.srp o n (some u) (some p) ∈ l ∧ 1024 ≤ n

end Verif.CliTls
