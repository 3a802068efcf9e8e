import Verif.CoapStartModel

/-!
# What starting a CoAP server should mean
-/
namespace Verif.CoapStart

/-- An address of the internet that fits. -/
def Usable (a : Addr) : Prop := 0 < a.len ∧ a.len ≤ 28 ∧ (a.family = 2 ∨ a.family = 10)

/-- Clients must show certificates, and these are checked: signed by the trusted, in their time, up to seven deep, against
revocation lists. -/
def Mutual (p : Pki) : Prop :=
  p.verifyPeer = true ∧ p.requirePeer = true ∧ p.selfSigned = false ∧ p.expired = false ∧ p.chain = true ∧ p.depth = 7 ∧ p.revocation = true

/-- The sockets in the hands of a context. -/
def sockets (e : Est) : List Nat :=
  match e.coap with
  | none => []
  | some c => c.endpoints.map (·.fd)

/-- Nothing is lost: every context made is released or the one in use, every list of addresses is released, every socket opened is
closed or in the hands of the context, and none is closed twice. -/
structure Balanced (e : Est) (b : Book) : Prop where
  contexts : b.made = b.released + (if e.coap.isSome then 1 else 0)
  lists : b.lists = b.listsFreed
  sockets : b.opened.Perm (b.closed ++ sockets e)

/-- The application keeps order: it starts a server only when none runs, and gives the server's own socket for a request. -/
def Orderly : Est × Book → List Op → Prop
  | _, [] => True
  | s, a :: l =>
    (match a with
      | .start _ _ => s.1.coap = none
      | .stop => True
      | .handle fd _ => (sockets s.1).head? = some fd) ∧
    ∀ s', step s a = some s' → Orderly s' l

/-- The operations of EST over CoAP (RFC 9148, 5.1), below `est`: by their short names. -/
def wanted (uri : List Nat) (m : Method) : Option Handler :=
  if m = .get ∧ uri = [101, 115, 116, 47, 99, 114, 116, 115] then some .crts
  else if m = .get ∧ uri = [101, 115, 116, 47, 97, 116, 116] then some .att
  else if m = .post ∧ (uri = [101, 115, 116, 47, 115, 101, 110] ∨ uri = [101, 115, 116, 47, 115, 114, 101, 110]) then some .sen
  else if m = .post ∧ uri = [101, 115, 116, 47, 115, 107, 103] then some .skg
  else none

end Verif.CoapStart
