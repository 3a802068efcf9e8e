import Verif.CoapMemLemmas
import Verif.ServerMemProps

/-!
# C121: the CoAP handlers neither misuse nor lose memory
-/
namespace Verif.CoapMem
open Verif.ClientMem
open Verif.ServerMem (B64 Peer Ca Attrs EnrollIn KeygenIn exHeap exEnroll exKeygen exEca bindE pureE allocE
  freeE freeN useE)

/-! ## The specification -/

/-- What the request is about, once it is complete. -/
def complete {α : Type} : Stage α → Option α
  | .ready x => some x
  | _ => none

/-- Whether a callback hands out the CA certificates. -/
def fromCallback : Rq → Bool
  | .crts _ s =>
    match complete s with
    | some (.keeps _, _) => true
    | some (.fresh, _) => true
    | _ => false
  | _ => false

/-- The base64 texts that the server decodes itself in order to answer in DER. -/
def answerTexts : Rq → List B64
  | .sen _ s => ((complete s).map (fun q => q.dec)).toList
  | .skg _ s => ((complete s).map (fun q => [q.keyDec, q.certDec])).getD []
  | .crts _ s => ((complete s).map (fun q => q.2)).toList
  | .att _ s => ((complete s).map (fun q => q.2)).toList

/-- The same work in a request over HTTP. -/
def overHttp : Rq → ServerMem.Work
  | .sen _ s => match complete s with
    | some q => .enroll q.x q.before q.after
    | none => .refused
  | .skg _ s => match complete s with
    | some q => .keygen q.x q.before q.after
    | none => .refused
  | .crts _ _ => .cacerts
  | .att _ s => match complete s with
    | some q => .csrattrs q.1
    | none => .refused

/-- Requests whose handling is to lose nothing: every text of the answer decodes
(or is too long), and the same request would lose nothing over HTTP. -/
def Clean (q : Rq) : Prop := (∀ b ∈ answerTexts q, b ≠ .refused) ∧ ServerMem.Clean (overHttp q)

/-- Requests for the CA certificates or the attributes. -/
def isGet : Rq → Bool
  | .crts _ _ => true
  | .att _ _ => true
  | _ => false

/-- Requests that are not complete: refused, one of several blocks, or for a part
of an answer that was made before. -/
def incomplete : Rq → Bool
  | .sen _ s => (complete s).isNone
  | .skg _ s => (complete s).isNone
  | .crts _ s => (complete s).isNone
  | .att _ s => (complete s).isNone

/-! ## The theorems -/

theorem own_of {q : Rq} (h : fromCallback q = false) : Own q := by
  cases q with
  | crts p s =>
    cases s with
    | ready x =>
      obtain ⟨cb, d⟩ := x
      cases cb with
      | unset => trivial
      | nothing => trivial
      | keeps p => simp [fromCallback, complete] at h
      | fresh => simp [fromCallback, complete] at h
    | _ => trivial
  | _ => trivial

theorem light_of {q : Rq} (h : isGet q = true) : Light q := by
  cases q with
  | sen _ _ => cases h
  | skg _ _ => cases h
  | _ => trivial

theorem rqOk_of {q : Rq} (h : Clean q) : RqOk q := by
  obtain ⟨ha, hw⟩ := h
  have hw := ServerMem.workOk_of hw
  cases q with
  | sen p s =>
    cases s with
    | ready x => exact ⟨hw, ha _ (by simp [answerTexts, complete])⟩
    | _ => trivial
  | skg p s =>
    cases s with
    | ready x => exact ⟨hw, ha _ (by simp [answerTexts, complete]), ha _ (by simp [answerTexts, complete])⟩
    | _ => trivial
  | crts p s =>
    cases s with
    | ready x => exact ha _ (by simp [answerTexts, complete])
    | _ => trivial
  | att p s =>
    cases s with
    | ready x => exact ⟨hw, ha _ (by simp [answerTexts, complete])⟩
    | _ => trivial

/-- **C121 (partly).**  The life of a CoAP server with any requests, whatever
clients, application and OpenSSL decide: as long as memory is available and no
callback hands out the CA certificates, no block is used or released after its
release, no `NULL` pointer is used, and every block that was live before is live
afterwards.  Missing: when an allocation fails (`C121_hex_null_false`,
`C121_cbor_null_false`) and that callback (`C121_callback_released_false`). -/
theorem C121_safe_partial (given : Bool) (qs : List Rq) (hq : ∀ q ∈ qs, fromCallback q = false) (h : Heap) :
    ∃ h', life given qs (fun _ => true) h = some ((), h') ∧ ∀ p ∈ h.live, p ∈ h'.live := by
  obtain ⟨_, h', L, e, _, hp, _⟩ := life_spec (ok := fun _ => true) (G := True) given qs
    (fun q hm => own_of (hq q hm)) (fun _ _ => .inl (fun _ => rfl)) (fun _ _ => .inl trivial) h h.live
    (.refl _)
  exact ⟨h', e, fun p hm => hp.mem_iff.2 (by simp [hm])⟩

/-- **C121 (partly).**  Requests for the CA certificates or the attributes are
handled without undefined behaviour whichever allocations fail. -/
theorem C121_get_safe_partial (ok : Nat → Bool) (given : Bool) (qs : List Rq)
    (hq : ∀ q ∈ qs, fromCallback q = false ∧ isGet q = true) (h : Heap) :
    ∃ h', life given qs ok h = some ((), h') ∧ ∀ p ∈ h.live, p ∈ h'.live := by
  obtain ⟨_, h', L, e, _, hp, _⟩ := life_spec (ok := ok) (G := True) given qs
    (fun q hm => own_of (hq q hm).1) (fun q hm => .inr (light_of (hq q hm).2)) (fun _ _ => .inl trivial)
    h h.live (.refl _)
  exact ⟨h', e, fun p hm => hp.mem_iff.2 (by simp [hm])⟩

/-- **C121 (partly).**  After the life of a server with any number of clean
requests exactly the blocks that were live before are live.  Missing: the other
requests, see the theorems below. -/
theorem C121_no_leak_partial (given : Bool) (qs : List Rq)
    (hq : ∀ q ∈ qs, fromCallback q = false ∧ Clean q) (h : Heap) :
    ∃ h', life given qs (fun _ => true) h = some ((), h') ∧ h'.live.Perm h.live := by
  obtain ⟨_, h', L, e, _, hp, hl⟩ := life_spec (ok := fun _ => true) (G := False) given qs
    (fun q hm => own_of (hq q hm).1) (fun _ _ => .inl (fun _ => rfl))
    (fun q hm => .inr ⟨fun _ => rfl, rqOk_of (hq q hm).2⟩) h h.live (.refl _)
  rcases hl with hl | hl
  · subst hl
    exact ⟨h', e, hp⟩
  · exact hl.elim

/-- **C121.**  Requests that are not complete need no memory but the reference to
the client's certificate: whichever allocations fail, they are safe, lose nothing
and leave the configured CA certificates alone. -/
theorem C121_incomplete (ok : Nat → Bool) (certs : Option Nat) (qs : List Rq)
    (hq : ∀ q ∈ qs, incomplete q = true) (h : Heap) :
    ∃ h', serve certs qs ok h = some (certs, h') ∧ h'.live = h.live := by
  induction qs generalizing h with
  | nil => exact ⟨h, rfl, rfl⟩
  | cons q qs ih =>
    have hs : ∀ (α : Type) (x : α) (peer : Peer), ∃ h1,
        withPeer peer (pure x) ok h = some (x, h1) ∧ h1.live = h.live := by
      intro α x peer
      cases peer <;> simp [withPeer, ServerMem.peerRef, bindE, pureE, newRef, free]
    have h1 : ∃ h1, handle certs q ok h = some (certs, h1) ∧ h1.live = h.live := by
      have hi := hq q (by simp)
      have un : ∀ {m : Mem Unit}, (∃ h1, m ok h = some ((), h1) ∧ h1.live = h.live) →
          ∃ h1, (m >>= fun _ => pure certs) ok h = some (certs, h1) ∧ h1.live = h.live := by
        rintro m ⟨h1, e, l⟩
        exact ⟨h1, by rw [bind_some e]; rfl, l⟩
      cases q with
      | sen p s =>
        cases s with
        | ready x => cases hi
        | early => exact ⟨h, rfl, rfl⟩
        | _ => exact un (hs _ () p)
      | skg p s =>
        cases s with
        | ready x => cases hi
        | early => exact ⟨h, rfl, rfl⟩
        | _ => exact un (hs _ () p)
      | crts p s =>
        cases s with
        | ready x => cases hi
        | early => exact ⟨h, rfl, rfl⟩
        | _ => exact hs _ certs p
      | att p s =>
        cases s with
        | ready x => cases hi
        | early => exact ⟨h, rfl, rfl⟩
        | _ => exact un (hs _ () p)
    obtain ⟨h1, e1, l1⟩ := h1
    obtain ⟨h2, e2, l2⟩ := ih (fun q hm => hq q (by simp [hm])) h1
    refine ⟨h2, ?_, l2.trans l1⟩
    show (handle certs q >>= fun c => serve c qs) ok h = _
    rw [bind_some e1]
    exact e2

/-! ## Examples and the cases in which the property is false -/

/-- An enrolment over CoAP with the certificate of a manufacturer. -/
def exSen : SenIn := ⟨true, some true, exEca, some true, .good⟩

/-- The same without that check. -/
def exPlain : SenIn := ⟨true, none, { exEca with auth := .skip, csr := { exEca.csr with attrs := none } }, none, .good⟩

/-- A key generation over CoAP. -/
def exSkg : SkgIn :=
  ⟨true, none, { exKeygen with auth := .skip, csr := { exKeygen.csr with attrs := none } }, none, .good, .good, true⟩

/-- A sequence of requests. -/
def exRqs : List Rq :=
  [.crts .none (.ready (.unset, .good)), .crts .good .stored,
   .att .good (.ready (.cbText .good true true false true true, .good)),
   .sen .good .more, .sen .good (.ready exSen), .sen .good .stored, .skg .good (.ready exSkg),
   .skg .good .refused, .skg .none .early]

example : ∀ q ∈ exRqs, fromCallback q = false ∧ Clean q := by
  intro q hq
  simp only [exRqs, List.mem_cons, List.not_mem_nil, or_false] at hq
  rcases hq with h | h | h | h | h | h | h | h | h <;> subst h <;>
    refine ⟨?_, ?_, ?_, ?_, ?_, ?_⟩ <;> decide +kernel

example : (life true exRqs (fun _ => true) exHeap).map (fun r => r.2.live) = some [7, 3] := by
  decide +kernel

/-- The allocations really happen. -/
example : (life true exRqs (fun _ => true) exHeap).map (fun r => decide (r.2.next > 80)) = some true := by
  decide +kernel

example : ∀ q ∈ [Rq.crts .none (.ready (.unset, .refused)), .att .bad (.ready (.static, .good))],
    fromCallback q = false ∧ isGet q = true := by decide +kernel

example : ∀ q ∈ [Rq.sen .good .more, .sen .good .stored, .skg .none .early, .att .good .refused],
    incomplete q = true := by decide +kernel

/-- The live blocks after requests of which the allocation `n` fails: `none` is
undefined behaviour. -/
def failing (qs : List Rq) (n : Nat) : Option (List Nat) :=
  (serve none qs (fun i => i != exHeap.next + n) exHeap).map (fun r => r.2.live)

/-- The same when memory is available. -/
def after (qs : List Rq) : Option (List Nat) := (serve none qs (fun _ => true) exHeap).map (fun r => r.2.live)

/-- **C121 is false.**  The certificate is written as text for the log into a block
that is not checked: when that block cannot be allocated, an enrolment that has
succeeded ends with a write through a null pointer.  One allocation later or
earlier this does not happen. -/
theorem C121_hex_null_false :
    failing [.sen .good (.ready exPlain)] 19 = none ∧
    ∀ n ∈ [14, 16, 17, 20], failing [.sen .good (.ready exPlain)] n = some [7, 3] := by
  decide +kernel

/-- **C121 is false.**  The same for the block of the CBOR array of a key
generation. -/
theorem C121_cbor_null_false :
    failing [.skg .good (.ready exSkg)] 28 = none ∧
    ∀ n ∈ [22, 25, 29], failing [.skg .good (.ready exSkg)] n = some [7, 3] := by
  decide +kernel

/-- **C121 is false.**  When the copy of the certificate cannot be allocated the
certificate is lost; in a key generation the key, too, without having been
overwritten, and the key as well when only its own copy cannot be allocated. -/
theorem C121_result_lost_false :
    (failing [.sen .good (.ready exPlain)] 15).map List.length = some 3 ∧
    (failing [.skg .good (.ready exSkg)] 20).map List.length = some 4 ∧
    (failing [.skg .good (.ready exSkg)] 21).map List.length = some 3 := by
  decide +kernel

/-- A request that loses `k` blocks each time. -/
theorem repeated {q : Rq} {k : Nat} (I : Option Nat → Heap → Prop)
    (hq : ∀ (c : Option Nat) (h : Heap), I c h → ∃ c' h', handle c q (fun _ => true) h = some (c', h') ∧
      h'.live.length = h.live.length + k ∧ I c' h') (n : Nat) (c : Option Nat) (h : Heap) (hi : I c h) :
    ∃ c' h', serve c (List.replicate n q) (fun _ => true) h = some (c', h') ∧
      h'.live.length = h.live.length + k * n := by
  induction n generalizing c h with
  | zero => exact ⟨c, h, rfl, rfl⟩
  | succ n ih =>
    obtain ⟨c1, h1, e1, l1, i1⟩ := hq c h hi
    obtain ⟨c2, h2, e2, l2⟩ := ih c1 h1 i1
    refine ⟨c2, h2, ?_, ?_⟩
    · show (handle c q >>= fun c => serve c (List.replicate n q)) (fun _ => true) h = _
      rw [bind_some e1]
      exact e2
    · rw [l2, l1, Nat.mul_succ]
      omega

/-- **C121 is false.**  When the configured attributes are no base64, every request
for them loses two blocks; a client needs no certificate for it. -/
theorem C121_bad_attributes_false (n : Nat) (c : Option Nat) (h : Heap) :
    ∃ c' h', serve c (List.replicate n (.att .none (.ready (.static, .refused)))) (fun _ => true) h =
      some (c', h') ∧ h'.live.length = h.live.length + 2 * n := by
  refine repeated (fun _ _ => True) (fun c h _ => ?_) n c h trivial
  simp [handle, att, withPeer, attReady, handleAttrs, ServerMem.peerRef, ServerMem.decode, bindE, pureE, allocE,
    useE, freeE, freeN]
  refine ⟨_, _, ⟨rfl, rfl⟩, ?_⟩
  rw [List.length_erase_of_mem (by simp)]
  simp

/-- **C121 is false.**  The same when the CA certificates that the server has been
configured with are no base64. -/
theorem C121_bad_cacerts_false (n c : Nat) (h : Heap) (hc : c ∈ h.live) (hn : c < h.next) :
    ∃ c' h', serve (some c) (List.replicate n (.crts .none (.ready (.unset, .refused)))) (fun _ => true) h =
      some (c', h') ∧ h'.live.length = h.live.length + 2 * n := by
  refine repeated (fun x h => x = some c ∧ c ∈ h.live ∧ c < h.next) (fun x h hx => ?_) n (some c) h
    ⟨rfl, hc, hn⟩
  obtain ⟨rfl, hm, hlt⟩ := hx
  have hne : c ≠ h.next := by omega
  simp [handle, crts, withPeer, crtsReady, handleCacerts, ServerMem.peerRef, ServerMem.decode, bindE, pureE,
    allocE, useE, freeE, freeN, hm]
  refine ⟨_, _, ⟨rfl, rfl⟩, ?_⟩
  refine ⟨?_, rfl, ?_, ?_⟩
  · rw [List.length_erase_of_mem (by simp)]
    simp
  · rw [List.mem_erase_of_ne hne]
    simp [hm]
  · show c < h.next + 1 + 1 + 1
    omega

/-- **C121 is false.**  When the application's callback makes a new buffer for each
answer, every request loses one: the context keeps the last one only. -/
theorem C121_callback_fresh_false (n : Nat) (c : Option Nat) (h : Heap) :
    ∃ c' h', serve c (List.replicate n (.crts .none (.ready (.fresh, .good)))) (fun _ => true) h =
      some (c', h') ∧ h'.live.length = h.live.length + 1 * n := by
  refine repeated (fun _ _ => True) (fun c h _ => ?_) n c h trivial
  simp [handle, crts, withPeer, crtsReady, handleCacerts, ServerMem.peerRef, ServerMem.decode, bindE, pureE,
    allocE, useE, freeE, freeN, newRef]
  refine ⟨_, _, ⟨rfl, rfl⟩, ?_⟩
  simp

/-- **C121 is false.**  When the callback hands out a buffer that the application
keeps (block 7), the context takes it for its own: the CA certificates it was
configured with (block 10) are lost, and the end of the server releases the buffer
of the application.  Over HTTP the buffer is left alone. -/
theorem C121_callback_released_false :
    (life true [.crts .none (.ready (.keeps 7, .good))] (fun _ => true) exHeap).map (fun r => r.2.live) =
      some [10, 3] ∧
    (ServerMem.handler ⟨false, true, .none, .plain true, .cacerts⟩ (fun _ => true) exHeap).map
      (fun r => r.2.live) = some [7, 3] := by
  decide +kernel

/-- **C121 is false.**  A certificate from the CA that is no base64 loses two
blocks, a refused client of enhanced certificate authentication its CSR, a buffer
that the CA stores although it has no certificate is lost, and so is an empty one
from the attributes callback when proof of possession is on. -/
theorem C121_lost_false :
    (after [.sen .good (.ready { exPlain with dec := .refused })]).map List.length = some 4 ∧
    (after [.skg .good (.ready { exSkg with keyDec := .refused })]).map List.length = some 4 ∧
    (after [.sen .good (.ready { exSen with x := ServerMem.exEcaNo })]).map List.length = some 3 ∧
    (after [.sen .good (.ready { exPlain with x := { exPlain.x with ca := .retry true } })]).map List.length =
      some 3 ∧
    (after [.att .good (.ready (.cbEmpty true, .good))]).map List.length = some 3 := by
  decide +kernel

end Verif.CoapMem
