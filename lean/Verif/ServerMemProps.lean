import Verif.ServerMemLemmas

/-!
# C103: handling a request neither misuses nor loses the server's memory
-/
namespace Verif.ServerMem
open Verif.ClientMem

/-! ## The specification -/

/-- The header of a request, when the server looks at it. -/
def headerOf : Try → Option Hdr
  | .header h _ => some h
  | _ => none

/-- How the client of a request authenticates itself. -/
def authOf : Work → Option Try
  | .enroll x _ _ => some x.auth
  | .keygen x _ _ => some x.auth
  | .brski _ _ t _ => some t
  | _ => none

/-- The base64 texts of a header. -/
def credentialTexts : Option Hdr → List B64
  | some (.basic dec _) => [dec]
  | some (.token dec) => [dec]
  | _ => []

/-- The base64 texts of the attribute checks. -/
def attributeTexts (x : Option Enforce) : List B64 :=
  match x with
  | some x => [x.body, x.text]
  | none => []

/-- Every base64 text that comes with some work. -/
def textsOf (w : Work) : List B64 :=
  credentialTexts ((authOf w).bind headerOf) ++
  match w with
  | .enroll x _ _ => attributeTexts x.csr.attrs
  | .keygen x _ _ => attributeTexts x.csr.attrs
  | .csrattrs (.cbText dec _ _ _ _ _) => [dec]
  | _ => []

/-- The parameters of a Digest header. -/
def parametersOf (w : Work) : List Field :=
  match (authOf w).bind headerOf with
  | some (.digest fs) => fs
  | _ => []

/-- A client whose CSR was parsed during its authentication and that was
refused nevertheless, in an enrolment. -/
def refusedWithCsr : Work → Bool
  | .enroll x _ _ =>
    match x.auth with
    | .eca e agreed =>
      match e.csr with
      | some c => c.parses && !(c.result = .good && e.fieldOk && agreed)
      | none => false
    | _ => false
  | _ => false

/-- An application callback that stores a buffer although it has nothing to
deliver (or, for a voucher, although the response cannot be written). -/
def strayBuffer : Work → Bool
  | .enroll x _ _ => x.ca = .retry true || x.ca = .fail true || x.ca = .empty true
  | .csrattrs (.cbEmpty pop) => pop
  | .brski _ _ _ (some v) => v = .retry true false
  | _ => false

/-- Requests whose handling is to lose nothing: every base64 text decodes or is
too long, no Digest parameter is repeated, and none of the two cases above. -/
def Clean (w : Work) : Prop :=
  (∀ b ∈ textsOf w, b ≠ .refused) ∧ (parametersOf w).Nodup ∧ refusedWithCsr w = false ∧
    strayBuffer w = false

/-- A request without body for the CA certificates or the attributes, or one
that is refused; without uriparser. -/
def IsGet (q : Rq) : Prop :=
  q.body = false ∧ (∃ good, q.uri = .plain good) ∧
    (q.work = .refused ∨ q.work = .cacerts ∨ ∃ a, q.work = .csrattrs a)

theorem light_of_get {q : Rq} (h : IsGet q) : LightRq q := by
  refine ⟨h.1, h.2.1, ?_⟩
  rcases h.2.2 with h | h | ⟨a, h⟩ <;> rw [h] <;> trivial

theorem tryOk_of {t : Try} (ht : ∀ b ∈ credentialTexts (headerOf t), b ≠ .refused)
    (hp : ∀ fs, headerOf t = some (.digest fs) → fs.Nodup) : TryOk t := by
  cases t with
  | skip => trivial
  | eca e b => trivial
  | header h b =>
    cases h with
    | missing => trivial
    | otherMode => trivial
    | unknown => trivial
    | basic dec text => exact ht dec (by simp [headerOf, credentialTexts])
    | digest fs => exact hp fs rfl
    | token dec => exact ht dec (by simp [headerOf, credentialTexts])

theorem csrOk_of {c : CsrIn} (h : ∀ b ∈ attributeTexts c.attrs, b ≠ .refused) : CsrOk c := by
  intro x hx
  rw [hx] at h
  exact ⟨h _ (by simp [attributeTexts]), h _ (by simp [attributeTexts])⟩

theorem workOk_of {w : Work} (h : Clean w) : WorkOk w := by
  obtain ⟨ht, hp, hr, hs⟩ := h
  cases w with
  | refused => trivial
  | cacerts => trivial
  | csrattrs a =>
    cases a with
    | cbEmpty pop => exact hs
    | cbText dec _ _ _ _ _ => exact ht dec (by simp [textsOf])
    | _ => trivial
  | enroll x before after =>
    refine ⟨tryOk_of (fun b hb => ht b (List.mem_append_left _ hb)) ?_, ?_,
      csrOk_of (fun b hb => ht b (List.mem_append_right _ hb)), ?_⟩
    · intro fs hf
      simpa [parametersOf, authOf, hf] using hp
    · cases hx : x.auth with
      | skip => trivial
      | header _ _ => trivial
      | eca e b =>
        intro c hc hpa
        simpa [refusedWithCsr, hx, hc, hpa, and_assoc] using hr
    · cases hc : x.ca with
      | issued => trivial
      | retry b => simpa [strayBuffer, hc, CaOk] using hs
      | fail b => simpa [strayBuffer, hc, CaOk] using hs
      | empty b => simpa [strayBuffer, hc, CaOk] using hs
  | keygen x before after =>
    refine ⟨tryOk_of (fun b hb => ht b (List.mem_append_left _ hb)) ?_,
      csrOk_of (fun b hb => ht b (List.mem_append_right _ hb))⟩
    intro fs hf
    simpa [parametersOf, authOf, hf] using hp
  | brski ready srp t v =>
    refine ⟨tryOk_of (fun b hb => ht b (List.mem_append_left _ hb)) ?_, ?_⟩
    · intro fs hf
      simpa [parametersOf, authOf, hf] using hp
    · intro x hx
      subst hx
      cases x with
      | issued => trivial
      | fail b => trivial
      | retry buf sent =>
        cases buf
        · exact .inl rfl
        · cases sent
          · simp [strayBuffer] at hs
          · exact .inr rfl

/-! ## The theorems -/

/-- **C103 (partly).**  Any requests, one after another, whatever clients,
application and OpenSSL decide: as long as memory is available, no block is
used or released after its release, no `NULL` pointer is used, and every block
that was live before is live afterwards.  Missing: when an allocation fails
(`C103_body_null_false`, `C103_header_null_false`, `C103_oid_list_false`,
`C103_segment_null_false`). -/
theorem C103_safe_partial (qs : List Rq) (h : Heap) :
    ∃ h', serve qs (fun _ => true) h = some ((), h') ∧ ∀ p ∈ h.live, p ∈ h'.live := by
  obtain ⟨_, h', L, e, _, hp, _⟩ := serve_spec (ok := fun _ => true) (G := True) qs (.inl (fun _ => rfl))
    (.inl trivial) h h.live (.refl _)
  exact ⟨h', e, fun p hm => hp.mem_iff.2 (by simp [hm])⟩

/-- **C103 (partly).**  Requests for the CA certificates or the attributes are
handled without undefined behaviour whichever allocations fail. -/
theorem C103_get_safe_partial (ok : Nat → Bool) (qs : List Rq) (hq : ∀ q ∈ qs, IsGet q) (h : Heap) :
    ∃ h', serve qs ok h = some ((), h') ∧ ∀ p ∈ h.live, p ∈ h'.live := by
  obtain ⟨_, h', L, e, _, hp, _⟩ := serve_spec (ok := ok) (G := True) qs
    (.inr (fun q hm => light_of_get (hq q hm))) (.inl trivial) h h.live (.refl _)
  exact ⟨h', e, fun p hm => hp.mem_iff.2 (by simp [hm])⟩

/-- **C103 (partly).**  After any number of clean requests exactly the blocks
that were live before are live.  Missing: the other requests, see the theorems
below. -/
theorem C103_no_leak_partial (qs : List Rq) (hq : ∀ q ∈ qs, Clean q.work) (h : Heap) :
    ∃ h', serve qs (fun _ => true) h = some ((), h') ∧ h'.live.Perm h.live := by
  obtain ⟨_, h', L, e, _, hp, hl⟩ := serve_spec (ok := fun _ => true) (G := False) qs
    (.inl (fun _ => rfl)) (.inr ⟨fun _ => rfl, fun q hm => workOk_of (hq q hm)⟩) h h.live (.refl _)
  rcases hl with hl | hl
  · subst hl
    exact ⟨h', e, hp⟩
  · exact hl.elim

/-! ## Examples and the cases in which the property is false -/

/-- A CSR that passes all checks, with enforcement of attributes. -/
def exCsr : CsrIn :=
  ⟨true, true, true, true, false, .value true true,
    some ⟨.good, 3, true, .static, true, .good, true, 2, true⟩⟩

/-- An enrolment with user name and password. -/
def exEnroll : EnrollIn := ⟨true, false, false, .header (.basic .good .both) true, exCsr, .issued, true⟩

/-- A key generation with Digest authentication. -/
def exKeygen : KeygenIn :=
  ⟨true, false, .header (.digest [.user, .uri, .nonce, .nc, .cnonce, .qop, .response]) true, exCsr,
    true, true, true, true, .issued, true⟩

/-- An enrolment with the certificate of a manufacturer. -/
def exEca : EnrollIn :=
  ⟨true, false, false, .eca ⟨true, 3, true, some ⟨true, .good⟩, true⟩ true, exCsr, .issued, true⟩

/-- A sequence of requests. -/
def exRqs : List Rq :=
  [⟨false, true, .none, .plain true, .cacerts⟩,
   ⟨false, true, .none, .operation true, .csrattrs (.cbText .good true true false true true)⟩,
   ⟨true, true, .none, .segment true, .enroll exEnroll (some true) (some true)⟩,
   ⟨true, true, .good, .operation true, .enroll exEca none none⟩,
   ⟨true, true, .good, .operation true, .keygen exKeygen (some true) (some true)⟩,
   ⟨true, true, .good, .operation true, .brski true false .skip (some .issued)⟩,
   ⟨true, true, .bad, .refused, .refused⟩]

/-- A heap with two blocks of somebody else. -/
def exHeap : Heap := ⟨10, [7, 3]⟩

example : ∀ q ∈ exRqs, Clean q.work := by
  intro q hq
  simp only [exRqs, List.mem_cons, List.not_mem_nil, or_false] at hq
  rcases hq with h | h | h | h | h | h | h <;> subst h <;>
    refine ⟨?_, ?_, ?_, ?_⟩ <;> decide +kernel

example : (serve exRqs (fun _ => true) exHeap).map (fun r => r.2.live) = some [7, 3] := by
  decide +kernel

/-- The allocations really happen. -/
example : ((serve exRqs (fun _ => true) exHeap).map (fun r => decide (r.2.next > 100))) = some true := by
  decide +kernel

example : IsGet ⟨false, true, .good, .plain true, .csrattrs (.cbText .good true true false true true)⟩ :=
  ⟨rfl, ⟨_, rfl⟩, .inr (.inr ⟨_, rfl⟩)⟩

/-- An enrolment request from a client without certificate. -/
def enrollRq (t : Try) : Rq :=
  ⟨true, true, .none, .plain true, .enroll { exEnroll with auth := t } none none⟩

/-- A request that loses `k` blocks each time. -/
theorem repeated {q : Rq} {k : Nat} (hq : ∀ h : Heap, ∃ h', handler q (fun _ => true) h = some ((), h') ∧
    h'.live.length = h.live.length + k) (n : Nat) (h : Heap) :
    ∃ h', serve (List.replicate n q) (fun _ => true) h = some ((), h') ∧
      h'.live.length = h.live.length + k * n := by
  induction n generalizing h with
  | zero => exact ⟨h, rfl, rfl⟩
  | succ n ih =>
    obtain ⟨h1, e1, l1⟩ := hq h
    obtain ⟨h2, e2, l2⟩ := ih h1
    refine ⟨h2, ?_, ?_⟩
    · show (handler q >>= fun _ => serve (List.replicate n q)) (fun _ => true) h = _
      rw [bind_some e1]
      exact e2
    · rw [l2, l1, Nat.mul_succ]
      omega

theorem bindE {α β : Type} (m : Mem α) (f : α → Mem β) (ok : Nat → Bool) (h : Heap) :
    (m >>= f) ok h = (m ok h).bind (fun x => f x.1 ok x.2) := by
  show (match m ok h with | none => none | some (a, h') => f a ok h') = _
  cases m ok h <;> rfl

theorem pureE {α : Type} (a : α) (ok : Nat → Bool) (h : Heap) :
    (pure a : Mem α) ok h = some (a, h) := rfl

theorem allocE (h : Heap) :
    alloc (fun _ => true) h = some (some h.next, ⟨h.next + 1, h.next :: h.live⟩) := rfl

theorem freeE (ok : Nat → Bool) (p : Nat) (h : Heap) :
    free (some p) ok h = if p ∈ h.live then some ((), { h with live := h.live.erase p }) else none := rfl

theorem freeN (ok : Nat → Bool) (h : Heap) : free none ok h = some ((), h) := rfl

theorem useE (ok : Nat → Bool) (p : Nat) (h : Heap) :
    use (some p) ok h = if p ∈ h.live then some ((), h) else none := rfl

/-- **C103 is false (before authentication).**  Every request with a Basic
credential that is not base64 loses two blocks (the `BIO`s of
`est_base64_decode`), so the server's memory grows without bound. -/
theorem C103_bad_basic_false (text : Basic) (agreed : Bool) (n : Nat) (h : Heap) :
    ∃ h', serve (List.replicate n (enrollRq (.header (.basic .refused text) agreed))) (fun _ => true) h =
      some ((), h') ∧ h'.live.length = h.live.length + 2 * n := by
  refine repeated (fun h => ?_) n h
  simp [handler, httpRequest, enrollRq, parseUri, perform, event, simpleEnroll, exEnroll, enrollAuth,
    peerRef, createAh, tryHttp, parseHeader, parseScheme, Hdr.usesAh, parseBasic, decode, destroyAh,
    freeAll, stateOf, State.passes, bindE, pureE, allocE, useE, freeE, freeN, Try.cbOk]

/-- **C103 is false (before authentication).**  The same for a bearer token. -/
theorem C103_bad_token_false (agreed : Bool) (n : Nat) (h : Heap) :
    ∃ h', serve (List.replicate n (enrollRq (.header (.token .refused) agreed))) (fun _ => true) h =
      some ((), h') ∧ h'.live.length = h.live.length + 2 * n := by
  refine repeated (fun h => ?_) n h
  simp [handler, httpRequest, enrollRq, parseUri, perform, event, simpleEnroll, exEnroll, enrollAuth,
    peerRef, createAh, tryHttp, parseHeader, parseScheme, Hdr.usesAh, parseToken, decode, destroyAh,
    freeAll, stateOf, State.passes, bindE, pureE, allocE, useE, freeE, freeN, Try.cbOk]

/-- **C103 is false (before authentication).**  Every request with a Digest
header that names a parameter twice loses the first value. -/
theorem C103_digest_twice_false (f : Field) (agreed : Bool) (n : Nat) (h : Heap) :
    ∃ h', serve (List.replicate n (enrollRq (.header (.digest [f, f]) agreed))) (fun _ => true) h =
      some ((), h') ∧ h'.live.length = h.live.length + 1 * n := by
  refine repeated (fun h => ?_) n h
  cases f <;>
  simp [handler, httpRequest, enrollRq, parseUri, perform, event, simpleEnroll, exEnroll, enrollAuth,
    peerRef, createAh, tryHttp, parseHeader, parseScheme, Hdr.usesAh, parseDigest, setFields, setField,
    Ah.put, Ah.has, destroyAh, freeAll, stateOf, State.passes, bindE, pureE, allocE, useE, freeE, freeN, Try.cbOk]

/-- The blocks that are live after a request, when memory is available. -/
def after (q : Rq) : Option (List Nat) := (handler q (fun _ => true) exHeap).map (fun r => r.2.live)

/-- `exEca`, but the application refuses the client. -/
def exEcaNo : EnrollIn := { exEca with auth := .eca ⟨true, 3, true, some ⟨true, .good⟩, true⟩ false }

/-- **C103 is false.**  An enrolment whose CSR passes the check of enhanced
certificate authentication but whose client the application refuses loses the
parsed CSR; a key generation releases it. -/
theorem C103_eca_csr_false :
    (after ⟨true, true, .good, .plain true, .enroll exEcaNo none none⟩).map List.length = some 3 ∧
    after ⟨true, true, .good, .plain true, .keygen { exKeygen with auth := exEcaNo.auth } none none⟩ = some [7, 3] := by
  decide +kernel

/-- **C103 is false.**  A buffer that the CA callback stores although it asks
for a retry (or fails, or reports an empty certificate) is lost in an
enrolment and released in a key generation. -/
theorem C103_ca_buffer_false :
    (∀ ca ∈ [Ca.retry true, .fail true, .empty true],
      (after ⟨true, true, .good, .plain true, .enroll { exEnroll with ca := ca } none none⟩).map
        List.length = some 3 ∧
      after ⟨true, true, .good, .plain true, .keygen { exKeygen with ca := ca } none none⟩ =
        some [7, 3]) := by
  decide +kernel

/-- **C103 is false.**  An empty buffer from the attributes callback is lost
when proof of possession is on, and a voucher buffer when the retry response
cannot be written. -/
theorem C103_callback_buffer_false :
    (after ⟨false, true, .good, .plain true, .csrattrs (.cbEmpty true)⟩).map List.length = some 3 ∧
    (after ⟨true, true, .good, .plain true, .brski true false .skip (some (.retry true false))⟩).map
      List.length = some 3 := by
  decide +kernel

/-- A CSR that OpenSSL decodes and `est_base64_decode` does not. -/
def exOdd : CsrIn :=
  { exCsr with attrs := some ⟨.refused, 3, true, .static, true, .good, true, 2, true⟩ }

/-- **C103 is false.**  Attributes from the application that are not base64
lose two blocks for each request for them, and so does the enforcement of
attributes for a CSR that the base64 decoder of libest refuses although OpenSSL
parsed it. -/
theorem C103_attributes_false :
    (after ⟨false, true, .none, .plain true, .csrattrs (.cbText .refused true true false true true)⟩).map
      List.length = some 4 ∧
    (after ⟨true, true, .good, .plain true, .enroll { exEnroll with csr := exOdd } none none⟩).map
      List.length = some 4 := by
  decide +kernel

/-- The result of a request when the allocation `n` of it fails: `none` is
undefined behaviour. -/
def failing (q : Rq) (n : Nat) : Option Unit :=
  (handler q (fun i => i != exHeap.next + n) exHeap).map (fun _ => ())

/-- **C103 is false.**  The buffer for the body is written to although it could
not be allocated (any request with a Content-Length, before authentication). -/
theorem C103_body_null_false (q : Rq) (hb : q.body = true) : failing q 0 = none := by
  have e : handler q (fun i => i != exHeap.next + 0) exHeap = none := by
    simp [handler, hb, bindE, alloc, use, exHeap]
  rw [failing, e]
  rfl

/-- **C103 is false.**  The structure for the credentials is used although it
could not be allocated (before authentication). -/
theorem C103_header_null_false :
    failing (enrollRq (.header (.basic .good .both) true)) 1 = none ∧
    failing (enrollRq (.header .unknown true)) 1 = none := by
  decide +kernel

/-- **C103 is false.**  When an entry of the list of object identifiers cannot
be allocated, the list is released twice (after the proof of possession). -/
theorem C103_oid_list_false :
    failing ⟨true, true, .good, .plain true, .enroll { exEnroll with auth := .skip } none none⟩ 17 =
      none ∧
    failing ⟨true, true, .good, .plain true, .enroll { exEnroll with auth := .skip } none none⟩ 18 =
      some () := by
  decide +kernel

/-- **C103 is false.**  With uriparser, the segment of the path is used although
it could not be copied (before authentication, any request). -/
theorem C103_segment_null_false :
    failing ⟨false, true, .none, .operation true, .cacerts⟩ 1 = none ∧
    failing ⟨false, true, .none, .segment true, .cacerts⟩ 1 = none := by
  decide +kernel

/-- **C103.**  Even when memory is short, the application is asked about a user name and password,
or a digest, only if the name could be stored; for a digest also the values it is made of. -/
theorem C103_name_present (a a' : Ah) (hdr : Hdr) (ok : Nat → Bool) (h h' : Heap)
    (hs : parseScheme a hdr ok h = some ((.good, a'), h')) (ht : ∀ d, hdr ≠ .token d) :
    a'.has .user = true ∧
    ((∃ fs, hdr = .digest fs) → ∀ f ∈ [Field.uri, .nonce, .nc, .cnonce], a'.has f = true) := by
  cases hdr with
  | missing => cases hs
  | otherMode => cases hs
  | unknown => cases hs
  | token d => exact absurd rfl (ht d)
  | basic dec text =>
    refine ⟨?_, by rintro ⟨_, h⟩; cases h⟩
    simp only [parseScheme, parseBasic, bindE] at hs
    cases hd : decode dec ok h with
    | none => rw [hd] at hs; cases hs
    | some x =>
      obtain ⟨g, h1⟩ := x
      rw [hd] at hs
      cases g with
      | false => cases hs
      | true =>
        cases text with
        | noColon => cases hs
        | nothing => cases hs
        | password =>
          simp only [Option.bind, Bool.not_true, Bool.false_eq_true, if_false, bindE] at hs
          cases hx : setField a .pwd ok h1 with
          | none => rw [hx] at hs; cases hs
          | some y => rw [hx] at hs; cases hs
        | both =>
          simp only [Option.bind, Bool.not_true, Bool.false_eq_true, if_false, bindE] at hs
          cases hx : setField a .user ok h1 with
          | none => rw [hx] at hs; cases hs
          | some y =>
            rw [hx] at hs
            dsimp only at hs
            cases hz : setField y.1 .pwd ok y.2 with
            | none => rw [hz] at hs; cases hs
            | some z =>
              rw [hz] at hs
              simp only [pureE, Option.some.injEq, Prod.mk.injEq] at hs
              obtain ⟨⟨h1, rfl⟩, _⟩ := hs
              by_cases hu : z.1.has .user = true
              · exact hu
              · rw [if_neg hu] at h1; cases h1
  | digest fs =>
    simp only [parseScheme, parseDigest, bindE] at hs
    cases hx : setFields a fs ok h with
    | none => rw [hx] at hs; cases hs
    | some y =>
      rw [hx] at hs
      simp only [Option.bind, pureE, Option.some.injEq, Prod.mk.injEq] at hs
      obtain ⟨⟨h1, rfl⟩, _⟩ := hs
      split at h1
      · rename_i hb
        simp only [Bool.and_eq_true] at hb
        refine ⟨hb.2, fun _ f hf => ?_⟩
        simp only [List.mem_cons, List.not_mem_nil, or_false] at hf
        rcases hf with rfl | rfl | rfl | rfl
        · exact hb.1.1.1.1
        · exact hb.1.1.1.2
        · exact hb.1.1.2
        · exact hb.1.2
      · cases h1

/-- With memory the header of `exEnroll` is good; without memory for the name it is not. -/
example : (parseScheme ⟨0, []⟩ (.basic .good .both) (fun _ => true) ⟨1, [0]⟩).map (·.1.1) = some .good ∧
    (parseScheme ⟨0, []⟩ (.basic .good .both) (fun n => n ≠ 4) ⟨1, [0]⟩).map (·.1.1) = some .good ∧
    (parseScheme ⟨0, []⟩ (.basic .good .both) (fun n => n ≠ 3) ⟨1, [0]⟩).map (·.1.1) = some .bad := by
  decide +kernel

end Verif.ServerMem
