import Verif.ClientMemLemmas

/-!
# C102: the client neither misuses nor loses memory

The life of a client context, from `est_client_init` to `est_destroy`, with any
calls between, any answers of the network, the server and OpenSSL, and any
allocations failing (the function `ok`).

`life i app ops ok h = none` is undefined behaviour: a block released twice, a
block used after its release, the null pointer used.
-/
namespace Verif.ClientMem

/-- The requests for a certificate that a call may send. -/
def asks : Op → List Ask
  | .enroll x => [x.first.ask, x.second.ask]
  | .reenroll x _ => [x.first.ask, x.second.ask]
  | .provision p => [p.enrol.first.ask, p.enrol.second.ask]
  | _ => []

/-- The sessions that a call may find at the end of a connection. -/
def sessions : Op → List Ses
  | .getCacerts w _ _ ses => [w.ses, ses]
  | .getCsrattrs w _ _ ses => [w.ses, ses]
  | .enroll x => [x.first.conn.ses, x.first.ses, x.second.conn.ses, x.second.ses]
  | .reenroll x _ => [x.first.conn.ses, x.first.ses, x.second.conn.ses, x.second.ses]
  | .provision p => [p.caConn.ses, p.caSes, p.attrConn.ses, p.attrSes, p.enrol.first.conn.ses,
      p.enrol.first.ses, p.enrol.second.conn.ses, p.enrol.second.ses]
  | _ => []

/-- For every `PKCS7` that a call looks into: does it have its content?  (The content is
optional in the ASN.1 of a `PKCS7`.) -/
def contents (op : Op) : List Bool :=
  (match op with
    | .getCacerts _ _ v _ => [v.content]
    | .provision p => [p.caVerify.content]
    | _ => []) ++
  (asks op).map fun
    | .enroll _ => true
    | .keygen _ p7 _ _ => p7 != .empty

/-- No server sends a `PKCS7` without its content. -/
def Complete (ops : List Op) : Prop := ∀ op ∈ ops, ∀ b ∈ contents op, b = true

/-- No call asks for a key made by the server. -/
def NoKeygen (ops : List Op) : Prop := ∀ op ∈ ops, ∀ a ∈ asks op, ∃ r, a = .enroll r

/-- The server always resumes the session that the client offers. -/
def Resumed (ops : List Op) : Prop := ∀ op ∈ ops, ∀ s ∈ sessions op, s = .same

theorem opOk_of {ok : Nat → Bool} {G : Prop} {ops : List Op}
    (ha : NoKeygen ops ∨ AllOk ok ∧ G) (hs : Resumed ops ∨ G) (hb : Complete ops) :
    ∀ op ∈ ops, OpOk ok G op := by
  intro op hop
  have hb' := hb op hop
  have ha' : ∀ a ∈ asks op, AskOk ok G a := by
    intro a hm
    rcases ha with ha | ha
    · obtain ⟨r, rfl⟩ := ha op hop a hm
      trivial
    · cases a with
      | enroll r => trivial
      | keygen r x y z =>
        refine ⟨ha.1, ha.2, ?_⟩
        have := hb' (x != .empty) (List.mem_append_right _ (List.mem_map.2 ⟨_, hm, rfl⟩))
        simpa using this
  have hs' : ∀ s ∈ sessions op, SesOk G s := by
    intro s hm
    rcases hs with hs | hs
    · exact .inl (hs op hop s hm)
    · exact .inr hs
  cases op <;> simp_all [OpOk, asks, sessions, contents, TryOk]

/-- **C102** (part).  Without key generation: whatever is answered and whichever
allocations fail, no block is released twice or used after its release, and the
null pointer is not used, provided that no server sends a `PKCS7` without its content
(`C102_no_content_false`).  (Part: with key generation it is false, see
`C102_double_release_false` and `C102_null_parser_false`, and true when memory
is available, see `C102_safe_with_memory_partial`.) -/
theorem C102_safe_partial (ok : Nat → Bool) (i : InitIn) (app : Nat) (ops : List Op) (h : Heap)
    (happ : app ∈ h.live) (hk : NoKeygen ops) (hb : Complete ops) : life i app ops ok h ≠ none := by
  obtain ⟨a, h', L, e, _⟩ := life_spec (ok := ok) (G := True) (.inl trivial) i (.inr trivial) app ops
    (opOk_of (.inl hk) (.inr trivial) hb) h (h.live.erase app) (List.perm_cons_erase happ)
  rw [e]
  exact nofun

/-- **C102** (part).  When memory is available, that also holds with key
generation. -/
theorem C102_safe_with_memory_partial (i : InitIn) (app : Nat) (ops : List Op) (h : Heap)
    (happ : app ∈ h.live) (hb : Complete ops) : life i app ops (fun _ => true) h ≠ none := by
  obtain ⟨a, h', L, e, _⟩ := life_spec (ok := fun _ => true) (G := True) (.inl trivial) i
    (.inr trivial) app ops (opOk_of (.inr ⟨fun _ => rfl, trivial⟩) (.inr trivial) hb) h
    (h.live.erase app) (List.perm_cons_erase happ)
  rw [e]
  exact nofun

/-- **C102** (part).  Nothing is released that was not allocated during the
life of the context: what was live before is live afterwards. -/
theorem C102_foreign_blocks_kept_partial (ok : Nat → Bool) (i : InitIn) (app : Nat)
    (ops : List Op) (h h' : Heap) (u : Unit) (happ : app ∈ h.live)
    (hk : NoKeygen ops ∨ ok = fun _ => true) (hb : Complete ops) (hr : life i app ops ok h = some (u, h')) :
    ∀ p, h.live.count p ≤ h'.live.count p := by
  have ho : ∀ op ∈ ops, OpOk ok True op := by
    rcases hk with hk | hk
    · exact opOk_of (.inl hk) (.inr trivial) hb
    · exact opOk_of (.inr ⟨fun _ => by rw [hk], trivial⟩) (.inr trivial) hb
  obtain ⟨a, h1, L, e, _, hp, _⟩ := life_spec (ok := ok) (G := True) (.inl trivial) i
    (.inr trivial) app ops ho h (h.live.erase app) (List.perm_cons_erase happ)
  rw [hr] at e
  cases e
  intro p
  rw [hp.count_eq, (List.perm_cons_erase happ).count_eq p]
  simp only [List.cons_append, List.nil_append, List.count_cons, List.count_append]
  omega

/-- **C102** (part).  When memory is available, OpenSSL accepts the library's
cipher list, no key generation is asked for and the server resumes sessions,
exactly the blocks that were live before the context was created are live after
it was destroyed: nothing is lost, whatever else goes wrong. -/
theorem C102_no_leak_partial (i : InitIn) (app : Nat) (ops : List Op) (h : Heap)
    (happ : app ∈ h.live) (hi : i.ciphersOk = true) (hk : NoKeygen ops) (hs : Resumed ops)
    (hb : Complete ops) :
    ∃ h', life i app ops (fun _ => true) h = some ((), h') ∧ h'.live.Perm h.live := by
  obtain ⟨a, h', L, e, _, hp, hl⟩ := life_spec (ok := fun _ => true) (G := False)
    (.inr fun _ => rfl) i (.inl hi) app ops (opOk_of (.inl hk) (.inl hs) hb) h (h.live.erase app)
    (List.perm_cons_erase happ)
  rcases hl with hl | hl
  · subst hl
    exact ⟨h', e, hp.trans (List.perm_cons_erase happ).symm⟩
  · exact hl.elim

/-! ## Examples and counterexamples -/

/-- A connection that succeeds. -/
def exConn : Conn := ⟨none, true, true, .same⟩

/-- A request that is built and written, answered with `len` bytes. -/
def exSend (len : Nat) : Send := ⟨false, true, true, .body len⟩

/-- CA certificates that verify, with a revocation list. -/
def exVerify : Verify := ⟨true, true, true, true, true, true, true⟩

/-- An enrolment that is refused once for lack of authentication. -/
def exEnrol : Exchange :=
  ⟨⟨exConn, .cn true true, exSend 0, .enroll (.error .authFail), .same⟩, true,
   ⟨exConn, .cn true true, { exSend 0 with digest := true }, .enroll (.body 800), .same⟩⟩

/-- A key generation with two headers for each part, which fits. -/
def exKeygen : Exchange :=
  ⟨⟨exConn, .csr true true true true true, exSend 0,
     .keygen (.parts 8 true .fits) .good true true, .same⟩, false,
   ⟨exConn, .cn true true, exSend 0, .enroll (.body 0), .same⟩⟩

/-- A typical life without key generation. -/
def exOps : List Op :=
  [.setSegment, .getCacerts exConn (exSend 1500) exVerify .same,
   .getCsrattrs exConn (exSend 60) true .same, .enroll exEnrol, .copyCert,
   .provision ⟨exConn, exSend 1500, exVerify, .same, true, true, exConn,
     ⟨false, true, true, .error .httpNoContent⟩, true, .same, exEnrol⟩,
   .reenroll exEnrol true, .setSegment, .copyKey, .copyCacerts]

/-- The heap in which the application has one block, its signing request. -/
def exHeap : Heap := ⟨1, [0]⟩

theorem exOps_noKeygen : NoKeygen exOps := by
  intro op hop a ha
  simp only [exOps, List.mem_cons, List.not_mem_nil, or_false] at hop
  rcases hop with rfl | rfl | rfl | rfl | rfl | rfl | rfl | rfl | rfl | rfl <;>
    simp only [asks, exEnrol, List.mem_cons, List.not_mem_nil, or_false] at ha <;>
    rcases ha with rfl | rfl <;> exact ⟨_, rfl⟩

theorem exOps_resumed : Resumed exOps := by
  intro op hop s hs
  simp only [exOps, List.mem_cons, List.not_mem_nil, or_false] at hop
  rcases hop with rfl | rfl | rfl | rfl | rfl | rfl | rfl | rfl | rfl | rfl <;>
    simp_all [sessions, exEnrol, exConn]

theorem exOps_complete : Complete exOps := by
  unfold Complete
  decide

example : (0 ∈ exHeap.live) ∧ NoKeygen exOps ∧ Resumed exOps ∧ Complete exOps :=
  ⟨by decide, exOps_noKeygen, exOps_resumed, exOps_complete⟩

/-- A key generation with a complete `PKCS7`, for `C102_safe_with_memory_partial`. -/
example : Complete [.enroll exKeygen, .copyKey] := by
  unfold Complete
  decide

/-- **C102** is false, even with memory available, when the server sends a `PKCS7` of the
signed type without its content: `PKCS7_to_stack` (for the CA certificates, also on the way
of `est_client_provision_cert`) and `est_client_verify_key_and_cert` (for a certificate with
a key made by the server) read `d.sign->cert` while `d.sign` is `NULL`. -/
theorem C102_no_content_false :
    life ⟨true, true⟩ 0 [.getCacerts exConn (exSend 1500) { exVerify with content := false } .same]
      (fun _ => true) exHeap = none ∧
    life ⟨true, true⟩ 0 [.provision ⟨exConn, exSend 1500, { exVerify with content := false }, .same,
      true, true, exConn, ⟨false, true, true, .error .httpNoContent⟩, true, .same, exEnrol⟩]
      (fun _ => true) exHeap = none ∧
    life ⟨true, true⟩ 0 [.enroll { exKeygen with first := { exKeygen.first with
      ask := .keygen (.parts 8 true .fits) .empty true true } }] (fun _ => true) exHeap = none := by
  decide +kernel

/-- The typical life takes 136 blocks and returns all of them. -/
example : (life ⟨true, true⟩ 0 exOps (fun _ => true) exHeap).map (fun r => r.2) =
    some ⟨137, [0]⟩ := by decide +kernel

/-- One allocation in three failing. -/
example : life ⟨true, true⟩ 0 exOps (fun n => n % 3 ≠ 2 || n < 9) exHeap ≠ none :=
  C102_safe_partial _ _ _ _ _ (by decide) exOps_noKeygen exOps_complete

/-- **C102** is false with key generation when memory is short: the key buffer
is released by `est_io_get_response_internal`, because the certificate buffer
could not be allocated, and again by its caller. -/
theorem C102_double_release_false :
    ¬ ∀ (ok : Nat → Bool) (i : InitIn) (app : Nat) (ops : List Op) (h : Heap), app ∈ h.live →
      Complete ops → life i app ops ok h ≠ none := by
  intro h
  exact h (fun n => n ≠ 27) ⟨true, true⟩ 0 [.enroll exKeygen] exHeap (by decide) (by unfold Complete; decide)
    (by decide +kernel)

/-- **C102** is false with key generation when memory is short: the multipart
parser is written to although it could not be allocated. -/
theorem C102_null_parser_false :
    ¬ ∀ (ok : Nat → Bool) (i : InitIn) (app : Nat) (ops : List Op) (h : Heap), app ∈ h.live →
      Complete ops → life i app ops ok h ≠ none := by
  intro h
  exact h (fun n => n ≠ 17) ⟨true, true⟩ 0 [.enroll exKeygen] exHeap (by decide) (by unfold Complete; decide)
    (by decide +kernel)

/-- The blocks left after two key generations if the allocation `n` fails; `none` is undefined
behaviour. -/
def twoKeys (n : Nat) : Option Nat :=
  (life ⟨true, true⟩ 0 [.enroll exKeygen, .enroll exKeygen] (fun i => i ≠ n) exHeap).map
    (fun r => r.2.live.length)

/-- **C102, key generation with one failed allocation.**  Of two key generations one after the
other, which take the blocks 1 to 65, undefined behaviour follows exactly if the multipart parser, a string
for the header of a part, the key or the certificate cannot be allocated (in either); otherwise the
second one is done on what the first one left, and the number of blocks lost is as given. -/
theorem C102_key_generation_failures_partial :
    (List.range 66).map twoKeys =
      [some 24, some 1, some 1, some 1, some 3, some 13, some 13, some 13, some 14, some 13, some 13,
       some 14, some 15, some 15, some 13, some 13, some 13, none, none, none, none, none, none, none,
       none, none, none, none, some 21, some 21, some 21, some 22, some 23, some 23, some 24, some 24,
       some 13, some 13, some 13, some 14, some 13, some 13, some 14, some 15, some 15, some 13, some 13,
       some 13, none, none, none, none, none, none, none, none, none, none, none, some 21, some 20,
       some 21, some 22, some 23, some 23, some 24] := by
  decide +kernel

/-- The same two key generations, after which the application fetches the key: is the behaviour
defined? -/
def thenCopy (n : Nat) : Bool :=
  (life ⟨true, true⟩ 0 [.enroll exKeygen, .enroll exKeygen, .copyKey] (fun i => i ≠ n) exHeap).isSome

/-- **C102, fetching the key after a failed allocation.**  Whichever allocation failed, fetching the
key adds no use of released memory: the context keeps no pointer to the key of the first key
generation once that was released.  Missing: other sequences of calls. -/
theorem C102_key_after_failure_partial :
    ∀ n < 66, thenCopy n = (twoKeys n).isSome := by
  decide +kernel

/-- **C102** is false for key generation even when memory is available: the
private key that the application did not fetch (the blocks of the key, of the
key in DER form, of the decoded certificate, of the `PKCS7` and of the part
headers) is still in memory after `est_destroy`. -/
theorem C102_private_key_lost_false :
    ¬ ∀ (i : InitIn) (app : Nat) (ops : List Op) (h : Heap), app ∈ h.live →
      i.ciphersOk = true → Resumed ops →
      ∃ h', life i app ops (fun _ => true) h = some ((), h') ∧ h'.live.Perm h.live := by
  intro h
  obtain ⟨h', e, hp⟩ := h ⟨true, true⟩ 0 [.enroll exKeygen] exHeap (by decide) rfl (by
    intro op hop s hs
    simp only [List.mem_cons, List.not_mem_nil, or_false] at hop
    subst hop
    simp_all [sessions, exKeygen, exConn])
  have hl : ((life ⟨true, true⟩ 0 [.enroll exKeygen] (fun _ => true) exHeap).map
      (fun r => r.2.live.length)) = some 13 := by decide +kernel
  rw [e] at hl
  have : h'.live.length = 1 := hp.length_eq
  simp only [Option.map] at hl
  rw [this] at hl
  exact absurd hl (by decide)

/-- The key itself is among the lost blocks when it is not fetched, and not
when it is. -/
example :
    (life ⟨true, true⟩ 0 [.enroll exKeygen] (fun _ => true) exHeap).map (fun r => r.2.live.length)
      = some 13 ∧
    (life ⟨true, true⟩ 0 [.enroll exKeygen, .copyKey, .copyCert] (fun _ => true) exHeap).map
      (fun r => r.2.live.length) = some 12 := by decide +kernel

/-- Two fetches of the CA certificates from a server that does not resume
sessions. -/
def exFresh : List Op :=
  [.getCacerts exConn (exSend 1500) exVerify .fresh,
   .getCacerts exConn (exSend 1500) exVerify .fresh,
   .getCacerts exConn (exSend 1500) exVerify .fresh]

/-- **C102** is false when the server does not resume sessions: every
connection after the first loses the reference to a session. -/
theorem C102_session_lost_false :
    ¬ ∀ (i : InitIn) (app : Nat) (ops : List Op) (h : Heap), app ∈ h.live →
      i.ciphersOk = true → NoKeygen ops →
      ∃ h', life i app ops (fun _ => true) h = some ((), h') ∧ h'.live.Perm h.live := by
  intro h
  obtain ⟨h', e, hp⟩ := h ⟨true, true⟩ 0 exFresh exHeap (by decide) rfl (by
    intro op hop a ha
    simp only [exFresh, List.mem_cons, List.not_mem_nil, or_false] at hop
    rcases hop with rfl | rfl | rfl <;> simp [asks] at ha)
  have hl : ((life ⟨true, true⟩ 0 exFresh (fun _ => true) exHeap).map
      (fun r => r.2.live.length)) = some 3 := by decide +kernel
  rw [e] at hl
  have : h'.live.length = 1 := hp.length_eq
  simp only [Option.map] at hl
  rw [this] at hl
  exact absurd hl (by decide)

/-- **C102** is false when memory is short: `est_client_enroll_req` returns
without releasing its two `BIO`s when the receive buffer cannot be
allocated. -/
theorem C102_enroll_buffers_lost_false :
    ¬ ∀ (ok : Nat → Bool) (i : InitIn) (app : Nat) (ops : List Op) (h : Heap), app ∈ h.live →
      i.ciphersOk = true → NoKeygen ops → Resumed ops →
      ∃ h', life i app ops ok h = some ((), h') ∧ h'.live.Perm h.live := by
  intro h
  obtain ⟨h', e, hp⟩ := h (fun n => n ≠ 13) ⟨true, true⟩ 0 [.enroll exEnrol] exHeap (by decide) rfl
    (fun op hop => exOps_noKeygen op (by simp_all [exOps]))
    (fun op hop => exOps_resumed op (by simp_all [exOps]))
  have hl : ((life ⟨true, true⟩ 0 [.enroll exEnrol] (fun n => n ≠ 13) exHeap).map
      (fun r => r.2.live.length)) = some 3 := by decide +kernel
  rw [e] at hl
  have : h'.live.length = 1 := hp.length_eq
  simp only [Option.map] at hl
  rw [this] at hl
  exact absurd hl (by decide)

/-- **C102** is false when OpenSSL refuses the library's cipher list: the new
`SSL_CTX` is lost. -/
theorem C102_refused_ciphers_false :
    ¬ ∀ (i : InitIn) (app : Nat) (h : Heap), app ∈ h.live →
      ∃ h', life i app [] (fun _ => true) h = some ((), h') ∧ h'.live.Perm h.live := by
  intro h
  obtain ⟨h', e, hp⟩ := h ⟨true, false⟩ 0 exHeap (by decide)
  have hl : ((life ⟨true, false⟩ 0 [] (fun _ => true) exHeap).map
      (fun r => r.2.live.length)) = some 2 := by decide +kernel
  rw [e] at hl
  have : h'.live.length = 1 := hp.length_eq
  simp only [Option.map] at hl
  rw [this] at hl
  exact absurd hl (by decide)

/-- **C102** and the result of a call: `est_client_reenroll` reports success
although nothing was sent when the extensions of the certificate cannot be
copied into the request. -/
theorem C102_reenroll_false_success (c : Ctx) (hc : c.ready = true) (x : Exchange) (h : Heap) :
    ∃ h', reenroll c x false (fun _ => true) h = some ((.none, c), h') := by
  refine ⟨⟨h.next + 1, h.live⟩, ?_⟩
  unfold reenroll
  simp only [hc, Bool.not_true, Bool.false_eq_true, if_false, Bool.not_false, if_true]
  rw [bind_some (a := some h.next) (h' := ⟨h.next + 1, h.next :: h.live⟩) (by simp [alloc])]
  dsimp only
  rw [bind_some (a := ()) (h' := ⟨h.next + 1, h.live⟩) (by simp [free])]
  rfl

end Verif.ClientMem
